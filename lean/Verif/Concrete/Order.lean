import Verif.Concrete.P384
import Mathlib.GroupTheory.Perm.Cycle.Type
import Mathlib.GroupTheory.SpecificGroups.Cyclic

/-!
# The number of points of P-256 and P-384

Both curves have as many points as the order `n` of their base point, so every point is a multiple of the base point.  A curve has at
most `2p + 1 < 3n` points, a multiple of `n`; `2n` points would include one of order two, a root of `x³ - 3x + b`.  There is none: a
root would be equal to its `p`-th power, and `x ^ p - x` has an inverse modulo the cubic.
-/

namespace Ssh.Concrete

/-! ### Polynomials modulo the cubic -/

/-- The value of `a0 + a1 x + a2 x²`. -/
def cubicEval {p : Nat} (x : ZMod p) (a : Nat × Nat × Nat) : ZMod p := a.1 + a.2.1 * x + a.2.2 * x * x

/-- The product, with `x³ = 3x - b`. -/
def cubicMul (p b : Nat) (u v : Nat × Nat × Nat) : Nat × Nat × Nat :=
  force ((u.2.1 * v.2.2 + u.2.2 * v.2.1) % p) fun c3 =>
  force (u.2.2 * v.2.2 % p) fun c4 =>
  force ((u.1 * v.1 + (p - b) * c3) % p) fun a0 =>
  force ((u.1 * v.2.1 + u.2.1 * v.1 + 3 * c3 + (p - b) * c4) % p) fun a1 =>
  force ((u.1 * v.2.2 + u.2.1 * v.2.1 + u.2.2 * v.1 + 3 * c4) % p) fun a2 => (a0, a1, a2)

/-- `x ^ e`, for exponents of at most `n` bits. -/
def cubicPow (p b e : Nat) : Nat → Nat × Nat × Nat → Nat × Nat × Nat
  | 0, acc => acc
  | n + 1, acc => cubicPow p b e n (if e.testBit n then cubicMul p b (cubicMul p b acc acc) (0, 1, 0) else cubicMul p b acc acc)

/-- `inv` is the inverse of `x ^ p - x`. -/
def cubicCheck (p b : Nat) (inv : Nat × Nat × Nat) : Bool :=
  let t := cubicPow p b p (p.log2 + 1) (1, 0, 0)
  cubicMul p b (t.1, t.2.1 + (p - 1), t.2.2) inv == (1, 0, 0)

section
variable {p b : Nat}

theorem cubicMul_eval (hb : b ≤ p) {x : ZMod p} (hx : x * x * x = 3 * x - b) (u v : Nat × Nat × Nat) :
    cubicEval x (cubicMul p b u v) = cubicEval x u * cubicEval x v := by
  unfold cubicEval cubicMul
  simp only [force_eq, ZMod.natCast_mod, Nat.cast_add, Nat.cast_mul, cast_neg hb, Nat.cast_ofNat]
  linear_combination (-((u.2.1 : ZMod p) * v.2.2 + u.2.2 * v.2.1) - u.2.2 * v.2.2 * x) * hx

theorem cubicPow_eval (hb : b ≤ p) {x : ZMod p} (hx : x * x * x = 3 * x - b) (e : Nat) : ∀ n acc,
    cubicEval x (cubicPow p b e n acc) = cubicEval x acc ^ 2 ^ n * x ^ (e % 2 ^ n)
  | 0, acc => by simp [cubicPow, Nat.mod_one]
  | n + 1, acc => by
    have hone : cubicEval x (0, 1, 0) = x := by simp [cubicEval]
    unfold cubicPow
    rw [cubicPow_eval hb hx e n, mod_two_pow_succ]
    cases e.testBit n
    · simp only [Bool.false_eq_true, if_false, Bool.toNat_false, Nat.mul_zero, Nat.add_zero, cubicMul_eval hb hx]
      rw [← pow_two, ← pow_mul, ← Nat.pow_succ']
    · simp only [if_true, Bool.toNat_true, Nat.mul_one, cubicMul_eval hb hx, hone]
      rw [← pow_two, mul_pow, ← pow_mul, ← Nat.pow_succ', mul_assoc, ← pow_add, Nat.add_comm (2 ^ n)]

/-- The cubic has no root. -/
theorem no_root [hp : Fact p.Prime] (hb : b ≤ p) {inv : Nat × Nat × Nat} (h : cubicCheck p b inv = true) (x : ZMod p) :
    x * x * x ≠ 3 * x - b := by
  intro hx
  unfold cubicCheck at h
  dsimp only at h
  rw [beq_iff_eq] at h
  have ht : cubicEval x (cubicPow p b p (p.log2 + 1) (1, 0, 0)) = x := by
    rw [cubicPow_eval hb hx, Nat.mod_eq_of_lt Nat.lt_log2_self, ZMod.pow_card]
    simp [cubicEval]
  generalize cubicPow p b p (p.log2 + 1) (1, 0, 0) = t at ht h
  have h1 := congrArg (cubicEval x) h
  rw [cubicMul_eval hb hx] at h1
  have h0 : cubicEval x (t.1, t.2.1 + (p - 1), t.2.2) = 0 := by
    unfold cubicEval at ht ⊢
    simp only [Nat.cast_add, cast_neg hp.out.one_lt.le, Nat.cast_one]
    linear_combination ht
  rw [h0, zero_mul] at h1
  simp [cubicEval] at h1

end

/-! ### Counting points -/

section
variable {c : EcCurve} [hp : Fact c.p.Prime]

/-- The first coordinate, and which half the second coordinate is in. -/
def half : (curve c.p c.b).Point → Option (ZMod c.p × Bool)
  | .zero => none
  | .some x y _ => some (x, decide (y.val ≤ c.p / 2))

theorem half_injective (hodd : c.p % 2 = 1) : Function.Injective (half (c := c)) := by
  intro P Q h
  cases P with
  | zero =>
    cases Q with
    | zero => rfl
    | some x y hn => cases h
  | some x y hn =>
    cases Q with
    | zero => cases h
    | some x' y' hn' =>
      simp only [half, Option.some.injEq, Prod.mk.injEq] at h
      obtain ⟨rfl, h⟩ := h
      have e := (WeierstrassCurve.Affine.equation_iff ..).mp hn.1
      have e' := (WeierstrassCurve.Affine.equation_iff ..).mp hn'.1
      simp only [curve] at e e'
      have hy : (y - y') * (y + y') = 0 := by linear_combination e - e'
      have : y = y' := by
        rcases mul_eq_zero.mp hy with h0 | h0
        · exact sub_eq_zero.mp h0
        · have hy' : y' = -y := (neg_eq_of_add_eq_zero_right h0).symm
          by_cases hz : y = 0
          · rw [hy', hz, neg_zero]
          · have hv : y'.val = c.p - y.val := by
              rw [hy', ZMod.neg_val, if_neg hz]
            have h1 := ZMod.val_lt y
            have h2 : y.val ≠ 0 := fun h => hz ((ZMod.val_eq_zero y).mp h)
            have h3 := decide_eq_decide.mp h
            omega
      subst this
      rfl

theorem points_finite (hodd : c.p % 2 = 1) : Finite (curve c.p c.b).Point := by
  have := hp.out.pos
  have : NeZero c.p := ⟨hp.out.ne_zero⟩
  exact Finite.of_injective _ (half_injective hodd)

theorem points_le (hodd : c.p % 2 = 1) : Nat.card (curve c.p c.b).Point ≤ 2 * c.p + 1 := by
  have : NeZero c.p := ⟨hp.out.ne_zero⟩
  have h := Nat.card_le_card_of_injective _ (half_injective (c := c) hodd)
  have e : Nat.card (Option (ZMod c.p × Bool)) = 2 * c.p + 1 := by
    rw [Nat.card_eq_fintype_card, Fintype.card_option, Fintype.card_prod, ZMod.card, Fintype.card_bool, Nat.mul_comm]
  rw [e] at h
  exact h

/-- The curve has as many points as the base point has multiples. -/
theorem EcGood.card (g : EcGood c) (hb : c.b ≤ c.p) (h3 : 2 * c.p + 1 < 3 * c.n) {inv : Nat × Nat × Nat}
    (h : cubicCheck c.p c.b inv = true) : Nat.card (curve c.p c.b).Point = c.n := by
  have := points_finite (c := c) g.odd
  have hd : c.n ∣ Nat.card (curve c.p c.b).Point := by
    have ho : addOrderOf g.base = c.n := by
      have := Fact.mk g.order
      exact addOrderOf_eq_prime g.cycle' g.domain.nontrivial
    rw [← ho]
    exact addOrderOf_dvd_natCard _
  obtain ⟨k, hk⟩ := hd
  have hle := points_le (c := c) g.odd
  have hpos : 0 < Nat.card (curve c.p c.b).Point := Nat.card_pos
  have hlt : c.n * k < c.n * 3 := by omega
  have hk3 : k < 3 := Nat.lt_of_mul_lt_mul_left hlt
  have hk0 : k ≠ 0 := by
    rintro rfl
    omega
  have hk2 : k ≠ 2 := by
    rintro rfl
    have : Fact (Nat.Prime 2) := ⟨Nat.prime_two⟩
    obtain ⟨P, hP⟩ := exists_prime_addOrderOf_dvd_card' (G := (curve c.p c.b).Point) 2 (by rw [hk]; exact Nat.dvd_mul_left _ _)
    have h2 : 2 • P = 0 := by rw [← hP]; exact addOrderOf_nsmul_eq_zero P
    cases P with
    | zero =>
      have : addOrderOf (0 : (curve c.p c.b).Point) = 2 := hP
      rw [addOrderOf_zero] at this
      cases this
    | some x y hn =>
      rw [two_nsmul] at h2
      have h4 := eq_neg_of_add_eq_zero_left h2
      rw [WeierstrassCurve.Affine.Point.neg_some] at h4
      injection h4 with _ hy
      simp only [WeierstrassCurve.Affine.negY, curve] at hy
      have hy0 : y = 0 := by
        have : 2 * y = 0 := by linear_combination hy
        exact (mul_eq_zero.mp this).resolve_left g.two_ne
      have e := (WeierstrassCurve.Affine.equation_iff ..).mp hn.1
      simp only [curve] at e
      rw [hy0] at e
      exact no_root hb h x (by linear_combination -e)
  have : k = 1 := by omega
  rw [hk, this, Nat.mul_one]

/-- Every point is a multiple of the base point. -/
theorem EcGood.cyclic (g : EcGood c) (hc : Nat.card (curve c.p c.b).Point = c.n) (Q : (curve c.p c.b).Point) :
    ∃ d, d < c.n ∧ Q = d • g.domain.base := by
  have : Fact c.n.Prime := ⟨g.order⟩
  have : Finite (curve c.p c.b).Point := points_finite g.odd
  have h := mem_multiples_of_prime_card (p := c.n) hc (g := g.base) (g' := Q) g.domain.nontrivial
  obtain ⟨d, hd⟩ := (AddSubmonoid.mem_multiples_iff _ _).mp h
  refine ⟨d % c.n, Nat.mod_lt _ g.order.pos, ?_⟩
  rw [← hd]
  exact (nsmul_mod g.cycle' d).symm

end

theorem p256_card : Nat.card (curve p256.p p256.b).Point = p256.n :=
  p256_good.card (by decide +kernel) (by decide +kernel)
    (inv := (76626890310466861426869089647039036757962535851890885406097439786770458211455,
      74462945259064871768191128030512052509059297803194871526163573358218695456204,
      34768139465301476436978405170953382516735956999154666452188405812258086013549)) (by decide +kernel)

theorem p384_card : Nat.card (curve p384.p p384.b).Point = p384.n :=
  p384_good.card (by decide +kernel) (by decide +kernel)
    (inv := (23037766613497683937702734290281044719364893268180251583910224888989381657771069200037813904257325918671976092329602,
      8235438212423615602427778915669574859600037698862346933589434399495169446996583974901273360826717582835190849638831,
      12157362177932134139146813183752135342286725243554133716818896354380897714709611791313184492360272402950851405460538))
    (by decide +kernel)

/-- Every point of P-256 has a secret. -/
theorem p256_secret (Q : (curve p256.p p256.b).Point) : ∃ d, d < p256.n ∧ Q = d • p256_good.domain.base := p256_good.cyclic p256_card Q

/-- Every point of P-384 has a secret. -/
theorem p384_secret (Q : (curve p384.p p384.b).Point) : ∃ d, d < p384.n ∧ Q = d • p384_good.domain.base := p384_good.cyclic p384_card Q

end Ssh.Concrete
