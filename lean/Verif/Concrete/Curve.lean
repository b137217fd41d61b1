import Verif.Concrete.Primes
import Mathlib.AlgebraicGeometry.EllipticCurve.Affine.Point
import Mathlib.FieldTheory.Finite.Basic
import Mathlib.Tactic.FieldSimp
import Mathlib.Tactic.LinearCombination

/-!
# The curve arithmetic of Ec.lean is addition on the curve

Jacobian coordinates represent points of the curve `y² = x³ - 3x + b` as defined in Mathlib, and `ecDouble`, `ecAdd` and `ecMul` compute
sums and multiples of these points.
-/

namespace Ssh.Concrete

variable {p : Nat}

/-- `y² = x³ - 3x + b` over the integers modulo `p`. -/
def curve (p b : Nat) : WeierstrassCurve.Affine (ZMod p) := (⟨0, 0, 0, -3, (b : ZMod p)⟩ : WeierstrassCurve (ZMod p))

/-- The Jacobian coordinates `P` stand for the point `Q`. -/
def Rep [Fact p.Prime] {b : Nat} (P : EcPoint) (Q : (curve p b).Point) : Prop :=
  P.z < p ∧ ((P.z : ZMod p) = 0 ∧ Q = 0 ∨
    (P.z : ZMod p) ≠ 0 ∧ ∃ h, Q = .some ((P.x : ZMod p) / (P.z : ZMod p) ^ 2) ((P.y : ZMod p) / (P.z : ZMod p) ^ 3) h)

theorem cast_sub_mod {a b : Nat} (h : b ≤ a + p) : ((a + p - b : Nat) : ZMod p) = (a : ZMod p) - b := by
  rw [Nat.cast_sub h, Nat.cast_add, ZMod.natCast_self, add_zero]

theorem cast_neg {b : Nat} (h : b ≤ p) : ((p - b : Nat) : ZMod p) = - (b : ZMod p) := by
  rw [Nat.cast_sub h, ZMod.natCast_self, zero_sub]

section
variable [hp : Fact p.Prime]

theorem mod_lt' (a : Nat) : a % p < p := Nat.mod_lt _ hp.out.pos

theorem ecDouble_cast (x y z : Nat) :
    ∃ x3 y3 z3, ecDouble p ⟨x, y, z⟩ = ⟨x3, y3, z3⟩ ∧ z3 < p ∧ (z3 : ZMod p) = 2 * y * z ∧
      (x3 : ZMod p) = (3 * ((x - z * z) * (x + z * z))) ^ 2 - 8 * (x * (y * y)) ∧
      (y3 : ZMod p) = 3 * ((x - z * z) * (x + z * z)) * (4 * (x * (y * y)) - x3) - 8 * (y * y * (y * y)) := by
  unfold ecDouble
  simp only [force_eq]
  refine ⟨_, _, _, rfl, mod_lt' _, ?_, ?_, ?_⟩
  · simp only [ZMod.natCast_mod, Nat.cast_mul, Nat.cast_ofNat]
  · simp only [ZMod.natCast_mod, Nat.cast_mul, Nat.cast_ofNat, Nat.cast_add, cast_sub_mod (Nat.le_trans (Nat.le_of_lt (mod_lt' _)) (Nat.le_add_left p _)),
      cast_neg (Nat.le_of_lt (mod_lt' _))]
    ring
  · simp only [ZMod.natCast_mod, Nat.cast_mul, Nat.cast_ofNat, Nat.cast_add, cast_sub_mod (Nat.le_trans (Nat.le_of_lt (mod_lt' _)) (Nat.le_add_left p _)),
      cast_neg (Nat.le_of_lt (mod_lt' _))]
    ring

theorem ecAdd_cast {x1 y1 z1 x2 y2 z2 : Nat} (h1 : z1 ≠ 0) (h2 : z2 ≠ 0)
    (hu : (x1 * (z2 * z2) : ZMod p) ≠ x2 * (z1 * z1)) :
    ∃ x3 y3 z3, ecAdd p ⟨x1, y1, z1⟩ ⟨x2, y2, z2⟩ = ⟨x3, y3, z3⟩ ∧ z3 < p ∧
      (z3 : ZMod p) = z1 * z2 * (x2 * (z1 * z1) - x1 * (z2 * z2)) ∧
      (x3 : ZMod p) = (y2 * z1 * (z1 * z1) - y1 * z2 * (z2 * z2)) ^ 2 - (x2 * (z1 * z1) - x1 * (z2 * z2)) ^ 3 -
        2 * (x1 * (z2 * z2) * (x2 * (z1 * z1) - x1 * (z2 * z2)) ^ 2) ∧
      (y3 : ZMod p) = (y2 * z1 * (z1 * z1) - y1 * z2 * (z2 * z2)) * (x1 * (z2 * z2) * (x2 * (z1 * z1) - x1 * (z2 * z2)) ^ 2 - x3) -
        y1 * z2 * (z2 * z2) * (x2 * (z1 * z1) - x1 * (z2 * z2)) ^ 3 := by
  have hne : x1 * (z2 * z2 % p) % p ≠ x2 * (z1 * z1 % p) % p := by
    intro h
    apply hu
    have := congrArg (Nat.cast : Nat → ZMod p) h
    simpa only [ZMod.natCast_mod, Nat.cast_mul] using this
  unfold ecAdd
  simp only [force_eq]
  rw [if_neg h1, if_neg h2, if_neg hne]
  refine ⟨_, _, _, rfl, mod_lt' _, ?_, ?_, ?_⟩
  all_goals
    simp only [ZMod.natCast_mod, Nat.cast_mul, Nat.cast_ofNat, Nat.cast_add, cast_sub_mod (Nat.le_trans (Nat.le_of_lt (mod_lt' _)) (Nat.le_add_left p _)),
      cast_neg (Nat.le_of_lt (mod_lt' _))]
    try ring

omit hp in
theorem point_ext {b : Nat} {x y x' y' : ZMod p} {h : (curve p b).Nonsingular x y} (hx : x = x') (hy : y = y') :
    ∃ h', (WeierstrassCurve.Affine.Point.some x y h : (curve p b).Point) = .some x' y' h' := by
  subst hx hy
  exact ⟨h, rfl⟩

theorem negY_eq (b : Nat) (x y : ZMod p) : (curve p b).negY x y = -y := by
  simp [WeierstrassCurve.Affine.negY, curve]

theorem ecDouble_rep {b : Nat} (h2 : (2 : ZMod p) ≠ 0) {P : EcPoint} {Q : (curve p b).Point} (h : Rep P Q) : Rep (ecDouble p P) (Q + Q) := by
  obtain ⟨x, y, z⟩ := P
  obtain ⟨x3, y3, z3, he, hz3, ez, ex, ey⟩ := ecDouble_cast (p := p) x y z
  rw [he]
  refine ⟨hz3, ?_⟩
  dsimp only
  rcases h with ⟨hz, ⟨h0, rfl⟩ | ⟨h0, hn, rfl⟩⟩
  · left
    dsimp only at h0
    refine ⟨by rw [ez, h0, mul_zero], add_zero _⟩
  · dsimp only at h0 hn
    by_cases hy : (y : ZMod p) = 0
    · left
      refine ⟨by rw [ez, hy]; ring, ?_⟩
      apply WeierstrassCurve.Affine.Point.add_self_of_Y_eq
      rw [negY_eq, hy]
      simp
    · right
      have hz3' : (z3 : ZMod p) ≠ 0 := by
        rw [ez]
        exact mul_ne_zero (mul_ne_zero h2 hy) h0
      refine ⟨hz3', ?_⟩
      have hY : ((y : ZMod p) / (z : ZMod p) ^ 3) ≠ (curve p b).negY ((x : ZMod p) / (z : ZMod p) ^ 2) ((y : ZMod p) / (z : ZMod p) ^ 3) := by
        rw [negY_eq]
        intro h
        have : 2 * ((y : ZMod p) / (z : ZMod p) ^ 3) = 0 := by linear_combination h
        rcases mul_eq_zero.mp this with h | h
        · exact h2 h
        · exact hy ((div_eq_zero_iff.mp h).resolve_right (pow_ne_zero _ h0))
      have hsl : (curve p b).slope ((x : ZMod p) / (z : ZMod p) ^ 2) ((x : ZMod p) / (z : ZMod p) ^ 2) ((y : ZMod p) / (z : ZMod p) ^ 3)
          ((y : ZMod p) / (z : ZMod p) ^ 3) = 3 * ((x - z * z) * (x + z * z)) / (2 * y * z) := by
        rw [WeierstrassCurve.Affine.slope_of_Y_ne rfl hY, negY_eq, sub_neg_eq_add, ← two_mul]
        simp only [curve]
        field_simp
        ring
      rw [WeierstrassCurve.Affine.Point.add_self_of_Y_ne hY]
      apply point_ext
      · rw [hsl, ex, ez]
        simp only [WeierstrassCurve.Affine.addX, curve]
        field_simp
        ring
      · rw [hsl, ey, ex, ez]
        simp only [WeierstrassCurve.Affine.addY, WeierstrassCurve.Affine.negAddY, negY_eq]
        simp only [WeierstrassCurve.Affine.addX, curve]
        field_simp
        ring

/-- Two points with the same first coordinate are equal or opposite. -/
theorem same_x {b : Nat} {x y y' : ZMod p} (h : (curve p b).Nonsingular x y) (h' : (curve p b).Nonsingular x y') (hne : y ≠ y') : y = -y' := by
  have e := ((WeierstrassCurve.Affine.equation_iff ..).mp h.1).trans ((WeierstrassCurve.Affine.equation_iff ..).mp h'.1).symm
  simp only [curve] at e
  have : (y - y') * (y + y') = 0 := by linear_combination e
  rcases mul_eq_zero.mp this with h | h
  · exact absurd (sub_eq_zero.mp h) hne
  · exact eq_neg_of_add_eq_zero_left h

theorem ecAdd_rep {b : Nat} (h2 : (2 : ZMod p) ≠ 0) {P P' : EcPoint} {Q Q' : (curve p b).Point} (h : Rep P Q) (h' : Rep P' Q') :
    Rep (ecAdd p P P') (Q + Q') := by
  have hd := ecDouble_rep h2 h
  obtain ⟨x1, y1, z1⟩ := P
  obtain ⟨x2, y2, z2⟩ := P'
  have zero_iff : ∀ {z : Nat}, z < p → ((z : ZMod p) = 0 ↔ z = 0) := by
    intro z hz
    rw [ZMod.natCast_eq_zero_iff]
    exact ⟨fun h => Nat.eq_zero_of_dvd_of_lt h hz, fun h => h ▸ Nat.dvd_zero p⟩
  rcases h with ⟨hz, ⟨h0, rfl⟩ | ⟨h0, hn, rfl⟩⟩
  · have e : ecAdd p ⟨x1, y1, z1⟩ ⟨x2, y2, z2⟩ = ⟨x2, y2, z2⟩ := by
      unfold ecAdd
      dsimp only
      rw [if_pos ((zero_iff hz).mp h0)]
    rw [e, zero_add]
    exact h'
  · have n1 : z1 ≠ 0 := fun h => h0 ((zero_iff hz).mpr h)
    rcases h' with ⟨hz', ⟨h0', rfl⟩ | ⟨h0', hn', rfl⟩⟩
    · have e : ecAdd p ⟨x1, y1, z1⟩ ⟨x2, y2, z2⟩ = ⟨x1, y1, z1⟩ := by
        unfold ecAdd
        dsimp only
        rw [if_neg n1, if_pos ((zero_iff hz').mp h0')]
      rw [e, add_zero]
      exact ⟨hz, .inr ⟨h0, hn, rfl⟩⟩
    · have n2 : z2 ≠ 0 := fun h => h0' ((zero_iff hz').mpr h)
      dsimp only at h0 hn h0' hn' hz hz' hd ⊢
      by_cases hu : (x1 * (z2 * z2) : ZMod p) = x2 * (z1 * z1)
      · have hu' : x1 * (z2 * z2 % p) % p = x2 * (z1 * z1 % p) % p := by
          have : ((x1 * (z2 * z2 % p) : Nat) : ZMod p) = ((x2 * (z1 * z1 % p) : Nat) : ZMod p) := by
            simpa only [ZMod.natCast_mod, Nat.cast_mul] using hu
          exact (ZMod.natCast_eq_natCast_iff _ _ _).mp this
        have hx : (x1 : ZMod p) / (z1 : ZMod p) ^ 2 = (x2 : ZMod p) / (z2 : ZMod p) ^ 2 := by
          rw [div_eq_div_iff (pow_ne_zero _ h0) (pow_ne_zero _ h0')]
          linear_combination hu
        by_cases hs : (y1 * z2 * (z2 * z2) : ZMod p) = y2 * z1 * (z1 * z1)
        · have hs' : y1 * z2 % p * (z2 * z2 % p) % p = y2 * z1 % p * (z1 * z1 % p) % p := by
            have : ((y1 * z2 % p * (z2 * z2 % p) : Nat) : ZMod p) = ((y2 * z1 % p * (z1 * z1 % p) : Nat) : ZMod p) := by
              simpa only [ZMod.natCast_mod, Nat.cast_mul] using hs
            exact (ZMod.natCast_eq_natCast_iff _ _ _).mp this
          have hy : (y1 : ZMod p) / (z1 : ZMod p) ^ 3 = (y2 : ZMod p) / (z2 : ZMod p) ^ 3 := by
            rw [div_eq_div_iff (pow_ne_zero _ h0) (pow_ne_zero _ h0')]
            linear_combination hs
          have e : ecAdd p ⟨x1, y1, z1⟩ ⟨x2, y2, z2⟩ = ecDouble p ⟨x1, y1, z1⟩ := by
            unfold ecAdd
            simp only [force_eq]
            rw [if_neg n1, if_neg n2, if_pos hu', if_pos hs']
          rw [e]
          obtain ⟨h3, e3⟩ := point_ext (h := hn) hx hy
          rw [← e3]
          exact hd
        · have hs' : y1 * z2 % p * (z2 * z2 % p) % p ≠ y2 * z1 % p * (z1 * z1 % p) % p := by
            intro h
            apply hs
            have := congrArg (Nat.cast : Nat → ZMod p) h
            simpa only [ZMod.natCast_mod, Nat.cast_mul] using this
          have e : ecAdd p ⟨x1, y1, z1⟩ ⟨x2, y2, z2⟩ = ⟨1, 1, 0⟩ := by
            unfold ecAdd
            simp only [force_eq]
            rw [if_neg n1, if_neg n2, if_pos hu', if_neg hs']
          rw [e]
          refine ⟨hp.out.pos, .inl ⟨Nat.cast_zero, ?_⟩⟩
          apply WeierstrassCurve.Affine.Point.add_of_Y_eq hx
          rw [negY_eq]
          have hn2 := hn'
          rw [← hx] at hn2
          refine same_x hn hn2 ?_
          intro h
          rw [div_eq_div_iff (pow_ne_zero _ h0) (pow_ne_zero _ h0')] at h
          apply hs
          linear_combination h
      · obtain ⟨x3, y3, z3, he, hz3, ez, ex, ey⟩ := ecAdd_cast (p := p) (y1 := y1) (y2 := y2) n1 n2 hu
        rw [he]
        have hX : (x1 : ZMod p) / (z1 : ZMod p) ^ 2 ≠ (x2 : ZMod p) / (z2 : ZMod p) ^ 2 := by
          intro h
          rw [div_eq_div_iff (pow_ne_zero _ h0) (pow_ne_zero _ h0')] at h
          apply hu
          linear_combination h
        have hdiff : (x2 * (z1 * z1) - x1 * (z2 * z2) : ZMod p) ≠ 0 := fun h => hu (sub_eq_zero.mp h).symm
        have hz3' : (z3 : ZMod p) ≠ 0 := by
          rw [ez]
          exact mul_ne_zero (mul_ne_zero h0 h0') hdiff
        refine ⟨hz3, .inr ⟨hz3', ?_⟩⟩
        dsimp only
        have hsl : (curve p b).slope ((x1 : ZMod p) / (z1 : ZMod p) ^ 2) ((x2 : ZMod p) / (z2 : ZMod p) ^ 2) ((y1 : ZMod p) / (z1 : ZMod p) ^ 3)
            ((y2 : ZMod p) / (z2 : ZMod p) ^ 3) = (y2 * z1 * (z1 * z1) - y1 * z2 * (z2 * z2)) / (z1 * z2 * (x2 * (z1 * z1) - x1 * (z2 * z2))) := by
          rw [WeierstrassCurve.Affine.slope_of_X_ne hX, div_eq_div_iff (sub_ne_zero.mpr hX) (mul_ne_zero (mul_ne_zero h0 h0') hdiff)]
          field_simp
          ring
        rw [WeierstrassCurve.Affine.Point.add_of_X_ne hX]
        apply point_ext
        · rw [hsl, ex, ez]
          simp only [WeierstrassCurve.Affine.addX, curve]
          generalize hD : (x2 * (z1 * z1) - x1 * (z2 * z2) : ZMod p) = d at *
          have hx2 : (x2 : ZMod p) = (d + x1 * (z2 * z2)) / (z1 * z1) := by
            rw [eq_div_iff (mul_ne_zero h0 h0)]
            linear_combination hD
          rw [hx2]
          field_simp
          ring
        · rw [hsl, ey, ex, ez]
          simp only [WeierstrassCurve.Affine.addY, WeierstrassCurve.Affine.negAddY, negY_eq]
          simp only [WeierstrassCurve.Affine.addX, curve]
          generalize hD : (x2 * (z1 * z1) - x1 * (z2 * z2) : ZMod p) = d at *
          have hx2 : (x2 : ZMod p) = (d + x1 * (z2 * z2)) / (z1 * z1) := by
            rw [eq_div_iff (mul_ne_zero h0 h0)]
            linear_combination hD
          rw [hx2]
          field_simp
          ring

theorem seq_eq {α : Type} (P : EcPoint) (f : EcPoint → α) : P.seq f = f P := by
  obtain ⟨x, y, z⟩ := P
  unfold EcPoint.seq
  simp only [force_eq]

theorem ecMul_rep {b : Nat} (h2 : (2 : ZMod p) ≠ 0) {s h : Nat} {P P' P'' : EcPoint} {Q Q' : (curve p b).Point} (hP : Rep P Q)
    (hP' : Rep P' Q') (hP'' : Rep P'' (Q + Q')) : ∀ n acc A, Rep acc A →
    Rep (ecMul p s h P P' P'' n acc) (2 ^ n • A + ((s % 2 ^ n) • Q + (h % 2 ^ n) • Q'))
  | 0, acc, A, hA => by
    simpa only [ecMul, pow_zero, Nat.mod_one, zero_nsmul, one_nsmul, add_zero] using hA
  | n + 1, acc, A, hA => by
    have step : Rep (match s.testBit n, h.testBit n with
        | true, true => ecAdd p (ecDouble p acc) P''
        | true, false => ecAdd p (ecDouble p acc) P
        | false, true => ecAdd p (ecDouble p acc) P'
        | false, false => ecDouble p acc) (A + A + ((s.testBit n).toNat • Q + (h.testBit n).toNat • Q')) := by
      have hd := ecDouble_rep h2 hA
      cases s.testBit n <;> cases h.testBit n <;>
        simp only [Bool.toNat_true, Bool.toNat_false, zero_nsmul, one_nsmul, add_zero, zero_add]
      · exact hd
      · exact ecAdd_rep h2 hd hP'
      · exact ecAdd_rep h2 hd hP
      · exact ecAdd_rep h2 hd hP''
    have := ecMul_rep (s := s) (h := h) h2 hP hP' hP'' n _ _ step
    unfold ecMul
    rw [seq_eq]
    refine cast (congrArg (Rep _) ?_) this
    rw [mod_two_pow_succ s, mod_two_pow_succ h]
    simp only [add_nsmul, nsmul_add, mul_nsmul', pow_succ, Nat.mul_two]
    abel

/-- The affine coordinates. -/
theorem ecX_rep {b : Nat} {P : EcPoint} {x y : ZMod p} {h : (curve p b).Nonsingular x y} (hR : Rep P (.some x y h)) : ecX p P = x.val ∧ ecY p P = y.val := by
  obtain ⟨_, ⟨_, h0⟩ | ⟨h0, hn, e⟩⟩ := hR
  · cases h0
  · injection e with ex ey
    have inv : ∀ a : ZMod p, a ≠ 0 → a ^ (p - 2) = a⁻¹ := by
      intro a ha
      rw [eq_comm, inv_eq_of_mul_eq_one_right]
      rw [← pow_succ', show p - 2 + 1 = p - 1 by have := hp.out.two_le; omega]
      exact ZMod.pow_card_sub_one_eq_one ha
    constructor
    · have : ((ecX p P : Nat) : ZMod p) = x := by
        unfold ecX
        rw [powMod_eq hp.out.one_lt]
        simp only [ZMod.natCast_mod, Nat.cast_mul, Nat.cast_pow]
        rw [inv _ (mul_ne_zero h0 h0), ex, div_eq_mul_inv, pow_two]
      rw [← this, ZMod.val_natCast]
      exact (Nat.mod_eq_of_lt (mod_lt' _)).symm
    · have : ((ecY p P : Nat) : ZMod p) = y := by
        unfold ecY
        rw [powMod_eq hp.out.one_lt]
        simp only [ZMod.natCast_mod, Nat.cast_mul, Nat.cast_pow]
        rw [inv _ (mul_ne_zero h0 (mul_ne_zero h0 h0)), ey, div_eq_mul_inv]
        congr 2
        ring
      rw [← this, ZMod.val_natCast]
      exact (Nat.mod_eq_of_lt (mod_lt' _)).symm

theorem rep_zero {b : Nat} {P : EcPoint} {Q : (curve p b).Point} (hR : Rep P Q) : P.z = 0 ↔ Q = 0 := by
  obtain ⟨hz, ⟨h0, e⟩ | ⟨h0, hn, e⟩⟩ := hR
  · rw [ZMod.natCast_eq_zero_iff] at h0
    exact ⟨fun _ => e, fun _ => Nat.eq_zero_of_dvd_of_lt h0 hz⟩
  · constructor
    · intro h
      rw [h, Nat.cast_zero] at h0
      exact absurd rfl h0
    · intro h
      rw [h] at e
      cases e

theorem rep_affine {b x y : Nat} (h : (curve p b).Nonsingular (x : ZMod p) (y : ZMod p)) : Rep ⟨x, y, 1⟩ (.some _ _ h : (curve p b).Point) := by
  refine ⟨hp.out.one_lt, .inr ⟨?_, ?_⟩⟩
  · rw [Nat.cast_one]
    exact one_ne_zero
  · apply point_ext <;> simp

theorem rep_infinity {b : Nat} : Rep ⟨1, 1, 0⟩ (0 : (curve p b).Point) := ⟨hp.out.pos, .inl ⟨Nat.cast_zero, rfl⟩⟩

theorem nonsingular_of {b x y : Nat} (hd : 432 * b * b % p ≠ 1728 % p) (hx : x ≤ p)
    (h : y * y % p = (x * x % p * x + 3 * (p - x) + b) % p) : (curve p b).Nonsingular (x : ZMod p) (y : ZMod p) := by
  have e := congrArg (Nat.cast : Nat → ZMod p) h
  simp only [ZMod.natCast_mod, Nat.cast_mul, Nat.cast_add, cast_neg hx, Nat.cast_ofNat] at e
  rw [← WeierstrassCurve.Affine.equation_iff_nonsingular_of_Δ_ne_zero]
  · rw [WeierstrassCurve.Affine.equation_iff]
    simp only [curve]
    linear_combination e
  · intro h0
    apply hd
    have : ((432 * b * b : Nat) : ZMod p) = ((1728 : Nat) : ZMod p) := by
      simp only [WeierstrassCurve.Δ, WeierstrassCurve.b₂, WeierstrassCurve.b₄, WeierstrassCurve.b₆, WeierstrassCurve.b₈, curve] at h0
      push_cast
      linear_combination -h0
    exact (ZMod.natCast_eq_natCast_iff _ _ _).mp this

theorem on_curve {b : Nat} {x y : ZMod p} (h : (curve p b).Nonsingular x y) :
    y.val * y.val % p = (x.val * x.val % p * x.val + 3 * (p - x.val) + b) % p := by
  have e := (WeierstrassCurve.Affine.equation_iff ..).mp h.1
  simp only [curve] at e
  have : ((y.val * y.val : Nat) : ZMod p) = ((x.val * x.val % p * x.val + 3 * (p - x.val) + b : Nat) : ZMod p) := by
    simp only [Nat.cast_mul, Nat.cast_add, cast_neg (ZMod.val_le x), Nat.cast_ofNat, ZMod.natCast_val, ZMod.cast_id', id, ZMod.natCast_mod]
    linear_combination e
  exact (ZMod.natCast_eq_natCast_iff _ _ _).mp this

end

end Ssh.Concrete
