import Verif.Concrete.Edwards
import Verif.Concrete.Domain

/-!
# The Ed25519 of Ec.lean is the Ed25519 of RFC 8032

Extended coordinates represent points of the curve `-x² + y² = 1 + dx²y²` over the integers modulo `2 ^ 255 - 19`; `edAdd`, `edMul`,
`edEncode` and `edDecodeNeg` compute with these points, and `ed25519Sign`, `ed25519Verify` and `ed25519Pub` are what Spec/Curves.lean asks.
-/

namespace Ssh.Concrete

open Ssh.Spec

/-- Certificates for the prime of Ed25519. -/
def edPrimes : List (Nat × Nat × List Nat) := [
  (2, 1, []),
  (3, 2, [2]),
  (17, 3, [2, 2, 2, 2]),
  (7, 3, [2, 3]),
  (239, 7, [2, 7, 17]),
  (479, 13, [2, 239]),
  (32573, 2, [2, 2, 17, 479]),
  (65147, 2, [2, 32573]),
  (5, 2, [2, 2]),
  (11, 2, [2, 5]),
  (353, 3, [2, 2, 2, 2, 2, 11]),
  (29, 2, [2, 2, 7]),
  (59, 2, [2, 29]),
  (487, 3, [2, 3, 3, 3, 3, 3]),
  (57467, 2, [2, 59, 487]),
  (13, 2, [2, 2, 3]),
  (131, 2, [2, 5, 13]),
  (132049, 26, [2, 2, 2, 2, 3, 3, 7, 131]),
  (43, 3, [2, 3, 7]),
  (23, 5, [2, 11]),
  (3727, 3, [2, 3, 3, 3, 3, 23]),
  (1923133, 2, [2, 2, 3, 43, 3727]),
  (31, 3, [2, 3, 5]),
  (53, 2, [2, 2, 13]),
  (107, 2, [2, 53]),
  (37, 2, [2, 2, 3, 3]),
  (223, 3, [2, 3, 37]),
  (173, 2, [2, 2, 43]),
  (4153, 5, [2, 2, 2, 3, 173]),
  (41, 6, [2, 2, 2, 5]),
  (1723, 3, [2, 3, 7, 41]),
  (430751, 17, [2, 5, 5, 5, 1723]),
  (31757755568855353, 10, [2, 2, 2, 3, 31, 107, 223, 4153, 430751]),
  (19, 2, [2, 3, 3]),
  (83, 2, [2, 41]),
  (9463, 3, [2, 3, 19, 83]),
  (37853, 2, [2, 2, 9463]),
  (75707, 2, [2, 37853]),
  (2437, 2, [2, 2, 3, 7, 29]),
  (97, 5, [2, 2, 2, 2, 2, 3]),
  (419, 2, [2, 11, 19]),
  (569003, 2, [2, 7, 97, 419]),
  (2773320623, 5, [2, 2437, 569003]),
  (72106336199, 7, [2, 13, 2773320623]),
  (47, 5, [2, 23]),
  (127, 3, [2, 3, 3, 7]),
  (103, 5, [2, 3, 17]),
  (991, 6, [2, 3, 3, 5, 11]),
  (8574133, 2, [2, 2, 3, 7, 103, 991]),
  (1919519569386763, 2, [2, 3, 7, 19, 47, 47, 127, 8574133]),
  (75445702479781427272750846543864801, 7, [2, 2, 2, 2, 2, 3, 3, 5, 5, 75707, 72106336199, 1919519569386763]),
  (74058212732561358302231226437062788676166966415465897661863160754340907, 2, [2, 3, 353, 57467, 132049, 1923133, 31757755568855353, 75445702479781427272750846543864801]),
  (57896044618658097711785492504343953926634992332820282019728792003956564819949, 2, [2, 2, 3, 65147, 74058212732561358302231226437062788676166966415465897661863160754340907])]

theorem edPrimes_ok : prattAll [] edPrimes = true := by decide +kernel

theorem ed_field : Nat.Prime edP :=
  have ⟨c, hc, e⟩ : ∃ c ∈ edPrimes, c.1 = edP := by decide +kernel
  e ▸ prattAll_prime edPrimes (fun _ h => absurd h List.not_mem_nil) edPrimes_ok c hc

instance : Fact edP.Prime := ⟨ed_field⟩

theorem cast_powMod (a e : Nat) : ((powMod a e edP : Nat) : ZMod edP) = (a : ZMod edP) ^ e := by
  rw [powMod_eq ed_field.one_lt, ZMod.natCast_mod, Nat.cast_pow]

theorem cast_eq {a b : Nat} (h : a % edP = b % edP) : (a : ZMod edP) = b := (ZMod.natCast_eq_natCast_iff _ _ _).mpr h

/-- The square root of -1. -/
def edI : Nat := powMod 2 ((edP - 1) / 4) edP

theorem edI_sq : (edI : ZMod edP) ^ 2 = -1 := by
  have h : ((edI * edI + 1 : Nat) : ZMod edP) = ((0 : Nat) : ZMod edP) := cast_eq (by decide +kernel)
  simp only [Nat.cast_add, Nat.cast_mul, Nat.cast_one, Nat.cast_zero] at h
  linear_combination h

theorem ed_two : (2 : ZMod edP) ≠ 0 := by
  intro h
  have : ((2 : Nat) : ZMod edP) = 0 := h
  rw [ZMod.natCast_eq_zero_iff] at this
  exact absurd this (by decide +kernel)

theorem edD_half : (edD : ZMod edP) ^ ((edP - 1) / 2) = -1 := by
  rw [← cast_powMod]
  have h : ((powMod edD ((edP - 1) / 2) edP + 1 : Nat) : ZMod edP) = ((0 : Nat) : ZMod edP) := cast_eq (by decide +kernel)
  rw [Nat.cast_add, Nat.cast_one, Nat.cast_zero] at h
  exact eq_neg_of_add_eq_zero_left h

theorem ed_even : 2 * ((edP - 1) / 2) = edP - 1 := by decide +kernel

instance : EdwardsGood (ZMod edP) (edD : ZMod edP) where
  sqrt := ⟨edI, edI_sq⟩
  two := ed_two
  nonsquare r h := by
    have e := edD_half
    rw [← h, ← pow_mul, ed_even] at e
    by_cases hr : r = 0
    · rw [hr, zero_pow (by decide +kernel)] at e
      exact one_ne_zero (neg_eq_zero.mp e.symm)
    · rw [ZMod.pow_card_sub_one_eq_one hr] at e
      exact ed_two (by linear_combination e)

/-- The points of the curve of Ed25519. -/
abbrev EdCurve := Edwards (ZMod edP) (edD : ZMod edP)

/-- The extended coordinates `P` stand for the point `Q`. -/
structure EdRep (P : EdPoint) (Q : EdCurve) : Prop where
  lt : P.x < edP
  ne : (P.z : ZMod edP) ≠ 0
  x : (P.x : ZMod edP) = Q.x * P.z
  y : (P.y : ZMod edP) = Q.y * P.z
  t : (P.t : ZMod edP) = Q.x * Q.y * P.z

theorem EdRep.unique {P : EdPoint} {Q Q' : EdCurve} (h : EdRep P Q) (h' : EdRep P Q') : Q = Q' :=
  Edwards.ext (mul_right_cancel₀ h.ne (h.x.symm.trans h'.x)) (mul_right_cancel₀ h.ne (h.y.symm.trans h'.y))

theorem edAdd_cast {x1 y1 z1 t1 x2 y2 z2 t2 : Nat} (h1 : x1 < edP) (h2 : x2 < edP) :
    ∃ x3 y3 z3 t3, edAdd ⟨x1, y1, z1, t1⟩ ⟨x2, y2, z2, t2⟩ = ⟨x3, y3, z3, t3⟩ ∧ x3 < edP ∧
      (x3 : ZMod edP) = ((y1 + x1) * (y2 + x2) - (y1 - x1) * (y2 - x2)) * (2 * z1 * z2 - 2 * edD * t1 * t2) ∧
      (y3 : ZMod edP) = (2 * z1 * z2 + 2 * edD * t1 * t2) * ((y1 + x1) * (y2 + x2) + (y1 - x1) * (y2 - x2)) ∧
      (z3 : ZMod edP) = (2 * z1 * z2 - 2 * edD * t1 * t2) * (2 * z1 * z2 + 2 * edD * t1 * t2) ∧
      (t3 : ZMod edP) = ((y1 + x1) * (y2 + x2) - (y1 - x1) * (y2 - x2)) * ((y1 + x1) * (y2 + x2) + (y1 - x1) * (y2 - x2)) := by
  have e1 := cast_sub_mod (p := edP) (Nat.le_trans (Nat.le_of_lt h1) (Nat.le_add_left edP y1))
  have e2 := cast_sub_mod (p := edP) (Nat.le_trans (Nat.le_of_lt h2) (Nat.le_add_left edP y2))
  unfold edAdd EdPoint.mk'
  simp only [force_eq]
  refine ⟨_, _, _, _, rfl, mod_lt' _, ?_, ?_, ?_, ?_⟩
  all_goals
    simp only [ZMod.natCast_mod, Nat.cast_mul, Nat.cast_ofNat, Nat.cast_add,
      cast_sub_mod (Nat.le_trans (Nat.le_of_lt (mod_lt' _)) (Nat.le_add_left edP _)), e1, e2]

theorem edAdd_rep {P P' : EdPoint} {Q Q' : EdCurve} (h : EdRep P Q) (h' : EdRep P' Q') : EdRep (edAdd P P') (Q + Q') := by
  obtain ⟨x1, y1, z1, t1⟩ := P
  obtain ⟨x2, y2, z2, t2⟩ := P'
  obtain ⟨l1, n1, a1, b1, c1⟩ := h
  obtain ⟨l2, n2, a2, b2, c2⟩ := h'
  dsimp only at l1 n1 a1 b1 c1 l2 n2 a2 b2 c2
  obtain ⟨x3, y3, z3, t3, he, l3, a3, b3, n3, c3⟩ := edAdd_cast (y1 := y1) (z1 := z1) (t1 := t1) (y2 := y2) (z2 := z2) (t2 := t2) l1 l2
  rw [a1, b1, a2, b2, c1, c2] at a3
  rw [a1, b1, a2, b2, c1, c2] at b3
  rw [c1, c2] at n3
  rw [a1, b1, a2, b2] at c3
  have hu := Edwards.plus_ne Q Q'
  have hv := Edwards.minus_ne Q Q'
  have ex : (Q + Q').x * (1 + edD * Q.x * Q'.x * Q.y * Q'.y) = Q.x * Q'.y + Q'.x * Q.y := by
    rw [Edwards.add_x, div_mul_cancel₀ _ hu]
  have ey : (Q + Q').y * (1 - edD * Q.x * Q'.x * Q.y * Q'.y) = Q.y * Q'.y + Q.x * Q'.x := by
    rw [Edwards.add_y, div_mul_cancel₀ _ hv]
  have n3' : (z3 : ZMod edP) = (2 * z1 * z2) ^ 2 * ((1 + edD * Q.x * Q'.x * Q.y * Q'.y) * (1 - edD * Q.x * Q'.x * Q.y * Q'.y)) := by
    rw [n3]
    ring
  rw [he]
  constructor
  · exact l3
  · show (z3 : ZMod edP) ≠ 0
    rw [n3']
    exact mul_ne_zero (pow_ne_zero 2 (mul_ne_zero (mul_ne_zero ed_two n1) n2)) (mul_ne_zero hu hv)
  · show (x3 : ZMod edP) = (Q + Q').x * z3
    rw [n3', a3]
    linear_combination -((2 * z1 * z2) ^ 2 * (1 - edD * Q.x * Q'.x * Q.y * Q'.y)) * ex
  · show (y3 : ZMod edP) = (Q + Q').y * z3
    rw [n3', b3]
    linear_combination -((2 * z1 * z2) ^ 2 * (1 + edD * Q.x * Q'.x * Q.y * Q'.y)) * ey
  · show (t3 : ZMod edP) = (Q + Q').x * (Q + Q').y * z3
    rw [n3', c3]
    have : (Q + Q').x * (Q + Q').y * ((2 * z1 * z2) ^ 2 * ((1 + edD * Q.x * Q'.x * Q.y * Q'.y) * (1 - edD * Q.x * Q'.x * Q.y * Q'.y))) =
        (2 * z1 * z2) ^ 2 * (((Q + Q').x * (1 + edD * Q.x * Q'.x * Q.y * Q'.y)) * ((Q + Q').y * (1 - edD * Q.x * Q'.x * Q.y * Q'.y))) := by ring
    rw [this, ex, ey]
    ring

theorem edSeq_eq {α : Type} (P : EdPoint) (f : EdPoint → α) : P.seq f = f P := by
  obtain ⟨x, y, z, t⟩ := P
  unfold EdPoint.seq
  simp only [force_eq]

theorem edMul_rep {s h : Nat} {P P' P'' : EdPoint} {Q Q' : EdCurve} (hP : EdRep P Q) (hP' : EdRep P' Q') (hP'' : EdRep P'' (Q + Q')) :
    ∀ n acc A, EdRep acc A → EdRep (edMul s h P P' P'' n acc) (2 ^ n • A + ((s % 2 ^ n) • Q + (h % 2 ^ n) • Q'))
  | 0, acc, A, hA => by
    simpa only [edMul, pow_zero, Nat.mod_one, zero_nsmul, one_nsmul, add_zero] using hA
  | n + 1, acc, A, hA => by
    have step : EdRep (match s.testBit n, h.testBit n with
        | true, true => edAdd (edAdd acc acc) P''
        | true, false => edAdd (edAdd acc acc) P
        | false, true => edAdd (edAdd acc acc) P'
        | false, false => edAdd acc acc) (A + A + ((s.testBit n).toNat • Q + (h.testBit n).toNat • Q')) := by
      have hd := edAdd_rep hA hA
      cases s.testBit n <;> cases h.testBit n <;>
        simp only [Bool.toNat_true, Bool.toNat_false, zero_nsmul, one_nsmul, add_zero, zero_add]
      · exact hd
      · exact edAdd_rep hd hP'
      · exact edAdd_rep hd hP
      · exact edAdd_rep hd hP''
    have := edMul_rep (s := s) (h := h) hP hP' hP'' n _ _ step
    unfold edMul
    rw [edSeq_eq]
    refine cast (congrArg (EdRep _) ?_) this
    rw [mod_two_pow_succ s, mod_two_pow_succ h]
    simp only [add_nsmul, nsmul_add, mul_nsmul', pow_succ, Nat.mul_two]
    abel

theorem edZero_rep : EdRep edZero 0 where
  lt := by decide +kernel
  ne := by simp [edZero]
  x := by simp [edZero, Edwards.zero_x]
  y := by simp [edZero, Edwards.zero_y]
  t := by simp [edZero, Edwards.zero_x]

/-- The base point. -/
def edBasePoint : EdCurve where
  x := (edBase.x : ZMod edP)
  y := (edBase.y : ZMod edP)
  on := by
    have h : ((edBase.y ^ 2 : Nat) : ZMod edP) = ((1 + edD * edBase.x ^ 2 * edBase.y ^ 2 + edBase.x ^ 2 : Nat) : ZMod edP) :=
      cast_eq (by decide +kernel)
    simp only [Nat.cast_add, Nat.cast_mul, Nat.cast_one, Nat.cast_pow] at h
    linear_combination h

theorem edBase_rep : EdRep edBase edBasePoint := by
  have hz : ((edBase.z : Nat) : ZMod edP) = 1 := (cast_eq (b := 1) (by decide +kernel)).trans Nat.cast_one
  have ht : ((edBase.t : Nat) : ZMod edP) = ((edBase.x * edBase.y : Nat) : ZMod edP) := cast_eq (by decide +kernel)
  constructor
  · decide +kernel
  · rw [hz]
    exact one_ne_zero
  · rw [hz, mul_one]
    rfl
  · rw [hz, mul_one]
    rfl
  · rw [hz, mul_one, ht, Nat.cast_mul]
    rfl

theorem edMulBase_rep {k : Nat} (hk : k < 2 ^ 256) : EdRep (edMulBase k) (k • edBasePoint) := by
  have hz : EdRep edBase (edBasePoint + 0) := by
    rw [add_zero]
    exact edBase_rep
  have := edMul_rep (s := k) (h := 0) edBase_rep edZero_rep hz 256 _ _ edZero_rep
  simp only [nsmul_zero, add_zero, zero_add, Nat.mod_eq_of_lt hk] at this
  exact this

theorem ed_cycle : edL • edBasePoint = 0 := by
  have h := edMulBase_rep (k := edL) (by decide +kernel)
  have hx : (((edMulBase edL).x : Nat) : ZMod edP) = ((0 : Nat) : ZMod edP) := cast_eq (by decide +kernel)
  have hy : (((edMulBase edL).y : Nat) : ZMod edP) = (((edMulBase edL).z : Nat) : ZMod edP) := cast_eq (by decide +kernel)
  rw [h.x, Nat.cast_zero] at hx
  rw [h.y] at hy
  apply Edwards.ext
  · exact (mul_eq_zero.mp hx).resolve_right h.ne
  · exact mul_right_cancel₀ h.ne (hy.trans (one_mul _).symm)

/-! ### Encodings -/

/-- A point as RFC 8032 5.1.2 writes it: the second coordinate, little-endian, with the lowest bit of the first as the highest bit. -/
def edWritten (Q : EdCurve) : Bytes := leBytes 32 (Q.y.val + Q.x.val % 2 * 2 ^ 255)

theorem inv_pow {a : ZMod edP} (ha : a ≠ 0) : a ^ (edP - 2) = a⁻¹ := by
  rw [eq_comm, inv_eq_of_mul_eq_one_right]
  rw [← pow_succ', show edP - 2 + 1 = edP - 1 by decide +kernel]
  exact ZMod.pow_card_sub_one_eq_one ha

theorem val_of_cast {n : Nat} {a : ZMod edP} (h : (n : ZMod edP) = a) : n % edP = a.val := by rw [← h, ZMod.val_natCast]

theorem edEncode_rep {P : EdPoint} {Q : EdCurve} (h : EdRep P Q) : edEncode P = edWritten Q := by
  unfold edEncode edWritten
  simp only [force_eq]
  have hx : P.x * powMod P.z (edP - 2) edP % edP = Q.x.val := val_of_cast (by
    rw [Nat.cast_mul, cast_powMod, inv_pow h.ne, h.x, mul_assoc, mul_inv_cancel₀ h.ne, mul_one])
  have hy : P.y * powMod P.z (edP - 2) edP % edP = Q.y.val := val_of_cast (by
    rw [Nat.cast_mul, cast_powMod, inv_pow h.ne, h.y, mul_assoc, mul_inv_cancel₀ h.ne, mul_one])
  rw [hx, hy]

theorem leNat_eq (b : Bytes) : leNat b = littleEndian b := toNat_eq b.reverse

theorem leNat_leBytes (n x : Nat) : leNat (leBytes n x) = x % 256 ^ n := by
  unfold leNat leBytes
  rw [List.reverse_reverse, toNat_eq, natOf_natBytes]

theorem leBytes_length (n x : Nat) : (leBytes n x).length = n := by
  unfold leBytes
  rw [List.length_reverse, natBytes_length]

/-- What is computed as the square root of `u / v` (RFC 8032 5.1.3). -/
def edRoot (u v : Nat) : Nat :=
  let x := u * powMod v 3 edP % edP * powMod (u * powMod v 7 edP % edP) ((edP - 5) / 8) edP % edP
  if v * x % edP * x % edP = u then x else x * edI % edP

/-- Decoding, from the second coordinate and the highest bit. -/
def edLift (y sign : Nat) : Option EdPoint :=
  let u := (y * y + edP - 1) % edP
  let v := (edD * y % edP * y + 1) % edP
  let x := edRoot u v
  if v * x % edP * x % edP ≠ u then none
  else if x = 0 ∧ sign = 1 then none
  else some ⟨if x % 2 = sign then (edP - x) % edP else x, y, 1, (if x % 2 = sign then (edP - x) % edP else x) * y % edP⟩

theorem edDecodeNeg_eq (b : Bytes) : edDecodeNeg b = edLift (leNat b % 2 ^ 255) (leNat b / 2 ^ 255 % 2) := by
  unfold edDecodeNeg edLift edRoot edI
  simp only [force_eq]

theorem cast_u (y : Nat) : (((y * y + edP - 1) % edP : Nat) : ZMod edP) = (y : ZMod edP) ^ 2 - 1 := by
  rw [ZMod.natCast_mod, cast_sub_mod (by have := ed_field.one_lt; omega), Nat.cast_mul, Nat.cast_one, pow_two]

theorem cast_v (y : Nat) : (((edD * y % edP * y + 1) % edP : Nat) : ZMod edP) = edD * (y : ZMod edP) ^ 2 + 1 := by
  simp only [ZMod.natCast_mod, Nat.cast_add, Nat.cast_mul, Nat.cast_one]
  ring

theorem edRoot_lt (u v : Nat) : edRoot u v < edP := by
  unfold edRoot
  dsimp only
  split <;> exact mod_lt' _

theorem cast_square (v x : Nat) : ((v * x % edP * x % edP : Nat) : ZMod edP) = v * (x : ZMod edP) ^ 2 := by
  simp only [ZMod.natCast_mod, Nat.cast_mul]
  ring

/-- Casts of small numbers are equal if the numbers are. -/
theorem eq_of_cast {a b : Nat} (ha : a < edP) (hb : b < edP) (h : (a : ZMod edP) = b) : a = b := by
  have := (ZMod.natCast_eq_natCast_iff _ _ _).mp h
  rwa [Nat.ModEq, Nat.mod_eq_of_lt ha, Nat.mod_eq_of_lt hb] at this

/-- It is a root if there is one. -/
theorem edRoot_sq {u v : Nat} {X : ZMod edP} (hu : u < edP) (hv : (v : ZMod edP) ≠ 0) (h : (u : ZMod edP) = v * X ^ 2) :
    (edRoot u v : ZMod edP) ^ 2 = X ^ 2 := by
  have hc : ((u * powMod v 3 edP % edP * powMod (u * powMod v 7 edP % edP) ((edP - 5) / 8) edP % edP : Nat) : ZMod edP) =
      u * v ^ 3 * (u * v ^ 7) ^ ((edP - 5) / 8) := by
    simp only [ZMod.natCast_mod, Nat.cast_mul, cast_powMod]
  have hsq : (v : ZMod edP) * (u * v ^ 3 * (u * v ^ 7) ^ ((edP - 5) / 8)) ^ 2 = u * X ^ ((edP - 1) / 2) := by
    have e1 : (v : ZMod edP) * (u * v ^ 3 * (u * v ^ 7) ^ ((edP - 5) / 8)) ^ 2 = u * ((u * v ^ 7) ^ (2 * ((edP - 5) / 8) + 1)) := by
      generalize (edP - 5) / 8 = k
      ring
    have e2 : (u : ZMod edP) * v ^ 7 = X ^ 2 * v ^ 8 := by
      rw [h]
      ring
    rw [e1, e2, mul_pow, ← pow_mul, ← pow_mul, show 2 * (2 * ((edP - 5) / 8) + 1) = (edP - 1) / 2 by decide +kernel,
      show 8 * (2 * ((edP - 5) / 8) + 1) = (edP - 1) * 2 by decide +kernel, pow_mul _ (edP - 1) 2, ZMod.pow_card_sub_one_eq_one hv, one_pow,
      mul_one]
  unfold edRoot
  dsimp only
  generalize u * powMod v 3 edP % edP * powMod (u * powMod v 7 edP % edP) ((edP - 5) / 8) edP % edP = c at hc ⊢
  rw [← hc] at hsq
  by_cases hX : X = 0
  · have hu0 : (u : ZMod edP) = 0 := by rw [h, hX]; ring
    have hc0 : (c : ZMod edP) = 0 := by rw [hc, hu0]; ring
    split
    · rw [hc0, hX]
    · rw [ZMod.natCast_mod, Nat.cast_mul, hc0, hX, zero_mul]
  · have hone : (X ^ ((edP - 1) / 2) - 1) * (X ^ ((edP - 1) / 2) + 1) = 0 := by
      have : (X ^ ((edP - 1) / 2)) ^ 2 = 1 := by
        rw [← pow_mul, Nat.mul_comm, ed_even, ZMod.pow_card_sub_one_eq_one hX]
      linear_combination this
    split
    · rename_i heq
      have := congrArg (Nat.cast : Nat → ZMod edP) heq
      rw [cast_square, h] at this
      exact mul_left_cancel₀ hv this
    · rename_i hne
      rcases mul_eq_zero.mp hone with e | e
      · exfalso
        apply hne
        refine eq_of_cast (mod_lt' _) hu ?_
        rw [cast_square, hsq, sub_eq_zero.mp e, mul_one]
      · rw [ZMod.natCast_mod, Nat.cast_mul, mul_pow, edI_sq]
        apply mul_left_cancel₀ hv
        rw [eq_neg_of_add_eq_zero_left e] at hsq
        rw [← h]
        linear_combination -hsq

/-- What is decoded is on the curve. -/
theorem edLift_on {y sign : Nat} {a : EdPoint} (h : edLift y sign = some a) :
    a.x < edP ∧ a.y = y ∧ a.z = 1 ∧ (a.t : ZMod edP) = a.x * a.y ∧
      (a.y : ZMod edP) ^ 2 - (a.x : ZMod edP) ^ 2 = 1 + edD * (a.x : ZMod edP) ^ 2 * (a.y : ZMod edP) ^ 2 := by
  unfold edLift at h
  dsimp only at h
  have hu := cast_u y
  have hv := cast_v y
  generalize (y * y + edP - 1) % edP = u at h hu
  generalize (edD * y % edP * y + 1) % edP = v at h hv
  have hlt := edRoot_lt u v
  generalize edRoot u v = x at h hlt
  split at h
  · cases h
  · rename_i hsq
    have hsq := congrArg (Nat.cast : Nat → ZMod edP) (Decidable.not_not.mp hsq)
    rw [cast_square, hu, hv] at hsq
    split at h
    · cases h
    · cases h
      refine ⟨?_, rfl, rfl, by rw [ZMod.natCast_mod, Nat.cast_mul], ?_⟩
      · dsimp only
        split
        · exact mod_lt' _
        · exact hlt
      · have : (((if x % 2 = sign then (edP - x) % edP else x : Nat)) : ZMod edP) ^ 2 = (x : ZMod edP) ^ 2 := by
          split
          · rw [ZMod.natCast_mod, cast_neg (Nat.le_of_lt hlt), neg_sq]
          · rfl
        dsimp only
        rw [this]
        linear_combination -hsq

/-- A point of the curve is found from what is written of it, negated. -/
theorem edLift_point (Q : EdCurve) : ∃ a, edLift Q.y.val (Q.x.val % 2) = some a ∧ (a.x : ZMod edP) = -Q.x ∧ a.y = Q.y.val := by
  have hy : ((Q.y.val : Nat) : ZMod edP) = Q.y := by rw [ZMod.natCast_val, ZMod.cast_id', id]
  have hxc : ((Q.x.val : Nat) : ZMod edP) = Q.x := by rw [ZMod.natCast_val, ZMod.cast_id', id]
  have hu := cast_u Q.y.val
  have hv := cast_v Q.y.val
  have hult : (Q.y.val * Q.y.val + edP - 1) % edP < edP := mod_lt' _
  unfold edLift
  dsimp only
  generalize (Q.y.val * Q.y.val + edP - 1) % edP = u at hu hult ⊢
  generalize (edD * Q.y.val % edP * Q.y.val + 1) % edP = v at hv ⊢
  rw [hy] at hu hv
  have hv0 : (v : ZMod edP) ≠ 0 := by
    rw [hv]
    intro h0
    have hne : Q.y ≠ 0 := by
      intro h
      rw [h] at h0
      simp at h0
    refine EdwardsGood.nonsquare (d := (edD : ZMod edP)) (edI / Q.y) ?_
    rw [div_pow, edI_sq, div_eq_iff (pow_ne_zero 2 hne)]
    linear_combination -h0
  have huv : (u : ZMod edP) = v * Q.x ^ 2 := by
    rw [hu, hv]
    linear_combination Q.on
  have hsq := edRoot_sq hult hv0 huv
  have hlt := edRoot_lt u v
  generalize edRoot u v = x at hsq hlt ⊢
  have hroot : v * x % edP * x % edP = u := eq_of_cast (mod_lt' _) hult (by rw [cast_square, hsq, huv])
  rw [if_neg (not_not.mpr hroot)]
  have hcases : (x : ZMod edP) = Q.x ∨ (x : ZMod edP) = -Q.x := sq_eq_sq_iff_eq_or_eq_neg.mp hsq
  have hxlt : Q.x.val < edP := ZMod.val_lt _
  have hodd : edP % 2 = 1 := by decide +kernel
  rw [if_neg]
  · refine ⟨_, rfl, ?_, rfl⟩
    dsimp only
    rcases hcases with e | e
    · have : x = Q.x.val := eq_of_cast hlt hxlt (by rw [e, hxc])
      rw [← this, if_pos rfl, ZMod.natCast_mod, cast_neg (Nat.le_of_lt hlt), e]
    · by_cases h0 : Q.x = 0
      · have hx0 : x = 0 := eq_of_cast hlt (by omega) (by rw [e, h0, neg_zero, Nat.cast_zero])
        rw [hx0, h0, ZMod.val_zero, if_pos rfl, Nat.sub_zero, Nat.mod_self, Nat.cast_zero, neg_zero]
      · have hpos : Q.x.val ≠ 0 := fun h => h0 ((ZMod.val_eq_zero _).mp h)
        have : x = edP - Q.x.val := eq_of_cast hlt (by omega) (by rw [e, cast_neg (Nat.le_of_lt hxlt), hxc])
        rw [if_neg (by omega), e]
  · rintro ⟨h0, h1⟩
    rw [h0, Nat.cast_zero] at hsq
    have : Q.x = 0 := by
      have := hsq.symm
      rw [zero_pow (by decide)] at this
      exact pow_eq_zero_iff (by decide) |>.mp this
    rw [this, ZMod.val_zero] at h1
    cases h1

open Classical in
/-- The point with an encoding of 32 bytes. -/
noncomputable def edDecode (b : Bytes) : Option EdCurve :=
  if b.length = 32 then
    match edDecodeNeg b with
    | none => none
    | some a =>
      if h : (a.y : ZMod edP) ^ 2 - (a.x : ZMod edP) ^ 2 = 1 + edD * (a.x : ZMod edP) ^ 2 * (a.y : ZMod edP) ^ 2 then some (-⟨a.x, a.y, h⟩)
      else none
  else none

theorem edDecode_iff {b : Bytes} {A : EdCurve} : edDecode b = some A ↔ b.length = 32 ∧ ∃ a, edDecodeNeg b = some a ∧ EdRep a (-A) := by
  unfold edDecode
  by_cases hl : b.length = 32
  · rw [if_pos hl]
    simp only [hl, true_and]
    cases ha : edDecodeNeg b with
    | none => simp
    | some a =>
      rw [edDecodeNeg_eq] at ha
      obtain ⟨h1, h2, h3, h4, h5⟩ := edLift_on ha
      have hz : (a.z : ZMod edP) = 1 := by rw [h3, Nat.cast_one]
      have hR : EdRep a ⟨a.x, a.y, h5⟩ := ⟨h1, by rw [hz]; exact one_ne_zero, by rw [hz, mul_one], by rw [hz, mul_one], by rw [hz, mul_one]; exact h4⟩
      simp only [h5, dif_pos, Option.some.injEq]
      constructor
      · rintro rfl
        exact ⟨a, rfl, by rw [neg_neg]; exact hR⟩
      · rintro ⟨_, rfl, h⟩
        rw [hR.unique h, neg_neg]
  · simp [hl]

theorem edWritten_value (Q : EdCurve) : leNat (edWritten Q) = Q.y.val + Q.x.val % 2 * 2 ^ 255 := by
  unfold edWritten
  rw [leNat_leBytes]
  apply Nat.mod_eq_of_lt
  have h1 : Q.y.val < edP := ZMod.val_lt _
  have h2 : edP < 2 ^ 255 := by decide +kernel
  have h3 : Q.x.val % 2 < 2 := Nat.mod_lt _ (by decide)
  have h4 : (256 : Nat) ^ 32 = 2 ^ 255 + 2 ^ 255 := by decide +kernel
  rw [h4]
  generalize (2 : Nat) ^ 255 = w at *
  rcases (show Q.x.val % 2 = 0 ∨ Q.x.val % 2 = 1 by omega) with h | h <;> rw [h] <;> omega

theorem edDecode_written (Q : EdCurve) : edDecode (edWritten Q) = some Q := by
  rw [edDecode_iff]
  refine ⟨leBytes_length _ _, ?_⟩
  have h1 : Q.y.val < edP := ZMod.val_lt _
  have h2 : edP < 2 ^ 255 := by decide +kernel
  have h3 : Q.x.val % 2 < 2 := Nat.mod_lt _ (by decide)
  obtain ⟨a, ha, hx, hy⟩ := edLift_point Q
  rw [edDecodeNeg_eq, edWritten_value, Nat.add_mul_mod_self_right, Nat.mod_eq_of_lt (Nat.lt_trans h1 h2),
    Nat.add_mul_div_right _ _ (by decide), Nat.div_eq_of_lt (Nat.lt_trans h1 h2), Nat.zero_add, Nat.mod_mod]
  refine ⟨a, ha, ?_⟩
  obtain ⟨l1, _, l3, l4, _⟩ := edLift_on ha
  have hz : (a.z : ZMod edP) = 1 := by rw [l3, Nat.cast_one]
  have hyc : (a.y : ZMod edP) = Q.y := by rw [hy, ZMod.natCast_val, ZMod.cast_id', id]
  exact ⟨l1, by rw [hz]; exact one_ne_zero, by rw [hz, mul_one, hx, Edwards.neg_x], by rw [hz, mul_one, hyc, Edwards.neg_y],
    by rw [hz, mul_one, l4, hx, hyc, Edwards.neg_x, Edwards.neg_y]⟩

/-- The group of Ed25519. -/
noncomputable def edDomain : EdDomain EdCurve where
  base := edBasePoint
  order := edL
  positive := by decide +kernel
  small := by decide +kernel
  cycle := ed_cycle
  written := edWritten
  written_length _ := leBytes_length _ _
  decode := edDecode
  decode_written := edDecode_written

/-! ### Signing and verifying -/

section
variable (table : List ((String × Bytes × UInt32) × (Bytes × Bytes)))

theorem edL_bits : edL < 2 ^ 253 := by decide +kernel

theorem edSecret_eq (seed : Bytes) : edSecret seed = (edScalar (realCrypto table) seed, ((realCrypto table).sha512 seed).drop 32) := by
  unfold edSecret edScalar
  dsimp only
  rw [leNat_eq, Nat.add_comm]
  rfl

theorem edScalar_lt (C : Crypto) (seed : Bytes) : edScalar C seed < 2 ^ 256 := by
  unfold edScalar
  generalize littleEndian _ = n
  have := Nat.mod_lt n (show 0 < 2 ^ 254 by decide)
  omega

theorem edPublic_eq (seed : Bytes) : edEncode (edMulBase (edSecret seed).1) = edPublic (realCrypto table) edDomain seed := by
  rw [edSecret_eq table]
  exact edEncode_rep (edMulBase_rep (edScalar_lt _ _))

theorem ed_public : PublicEd25519 (realCrypto table) edDomain := by
  intro seed pub
  show ed25519Pub seed = some pub ↔ _
  unfold ed25519Pub
  by_cases h : seed.length = 32
  · rw [if_neg (not_not.mpr h), Option.some.injEq, edPublic_eq table]
    exact ⟨fun e => ⟨h, e.symm⟩, fun e => e.2.symm⟩
  · rw [if_pos h]
    exact ⟨fun e => absurd e (by simp), fun e => absurd e.1 h⟩

theorem ed_signs : SignsEd25519 (realCrypto table) edDomain := by
  intro seed pub m sig
  show ed25519Sign seed pub m = some sig ↔ _
  have hp := ed_public table seed pub
  change ed25519Pub seed = some pub ↔ _ at hp
  unfold ed25519Sign
  by_cases h : ed25519Pub seed = some pub
  · rw [if_neg (not_not.mpr h)]
    obtain ⟨h1, h2⟩ := hp.mp h
    simp only [force_eq, edSecret_eq table, leNat_eq]
    have hr : littleEndian (sha512 (((realCrypto table).sha512 seed).drop 32 ++ m)) % edL < 2 ^ 256 :=
      Nat.lt_trans (Nat.mod_lt _ (by decide +kernel)) edDomain.small
    rw [edEncode_rep (edMulBase_rep hr), Option.some.injEq]
    have hval : ∀ x, littleEndian (leBytes 32 (x % edL)) = x % edL := fun x => by
      rw [← leNat_eq, leNat_leBytes]
      exact Nat.mod_eq_of_lt (Nat.lt_trans (Nat.mod_lt _ (by decide +kernel)) edDomain.small)
    have hsig : EdSignature (realCrypto table) edDomain seed m
        (edWritten ((littleEndian (sha512 (((realCrypto table).sha512 seed).drop 32 ++ m)) % edL) • edBasePoint) ++
          leBytes 32 ((littleEndian (sha512 (((realCrypto table).sha512 seed).drop 32 ++ m)) % edL +
            littleEndian (sha512 (edWritten ((littleEndian (sha512 (((realCrypto table).sha512 seed).drop 32 ++ m)) % edL) • edBasePoint) ++
              pub ++ m)) % edL * edScalar (realCrypto table) seed) % edL)) := by
      refine ⟨_, leBytes_length _ _, ?_, rfl⟩
      rw [hval, List.append_assoc, h2]
      rfl
    constructor
    · intro e
      rw [← e]
      exact ⟨h1, h2, hsig⟩
    · rintro ⟨_, _, S', hS', hv', h3⟩
      obtain ⟨S, hS, hv, h4⟩ := hsig
      have e : S = S' := List.reverse_injective (natOf_inj (by simp [hS, hS']) (hv.trans hv'.symm))
      rw [h4, h3, e]
  · rw [if_pos h]
    exact ⟨fun e => absurd e (by simp), fun e => absurd (hp.mpr ⟨e.1, e.2.1⟩) h⟩

theorem ed_verifies : VerifiesEd25519 (realCrypto table) edDomain := by
  intro key m sig
  show ed25519Verify key m sig = true ↔ _
  unfold ed25519Verify
  have main : ∀ a A R S, EdRep a (-A) → littleEndian S < edL →
      edEncode (edMul (littleEndian S) (littleEndian (sha512 (R ++ key ++ m)) % edL) edBase a (edAdd edBase a) 253 edZero) =
        edWritten (littleEndian S • edBasePoint - (littleEndian (sha512 (R ++ (key ++ m))) % edL) • A) := by
    intro a A R S hR hS
    have := edMul_rep (s := littleEndian S) (h := littleEndian (sha512 (R ++ key ++ m)) % edL) edBase_rep hR (edAdd_rep edBase_rep hR)
      253 _ _ edZero_rep
    rw [Nat.mod_eq_of_lt (Nat.lt_trans hS edL_bits), Nat.mod_eq_of_lt (Nat.lt_trans (Nat.mod_lt _ (by decide +kernel)) edL_bits), nsmul_zero,
      zero_add, neg_nsmul, ← sub_eq_add_neg, List.append_assoc] at this
    rw [List.append_assoc]
    exact edEncode_rep this
  constructor
  · intro h
    split at h
    · cases h
    · rename_i hl
      rw [not_or, not_not, not_not] at hl
      simp only [force_eq, leNat_eq] at h
      split at h
      · cases h
      · rename_i hs
        cases ha : edDecodeNeg key with
        | none =>
          rw [ha] at h
          cases h
        | some a =>
          rw [ha] at h
          have ha' := ha
          rw [edDecodeNeg_eq] at ha'
          obtain ⟨h1, h2, h3, h4, h5⟩ := edLift_on ha'
          have hz : (a.z : ZMod edP) = 1 := by rw [h3, Nat.cast_one]
          have hR : EdRep a (- -⟨a.x, a.y, h5⟩) := by
            rw [neg_neg]
            exact ⟨h1, by rw [hz]; exact one_ne_zero, by rw [hz, mul_one], by rw [hz, mul_one], by rw [hz, mul_one]; exact h4⟩
          refine ⟨_, sig.take 32, sig.drop 32, edDecode_iff.mpr ⟨hl.1, a, ha, hR⟩, by rw [List.length_take]; omega,
            by rw [List.length_drop]; omega, (List.take_append_drop _ _).symm, Nat.lt_of_not_le hs, ?_⟩
          dsimp only at h
          rw [beq_iff_eq, main a _ _ _ hR (Nat.lt_of_not_le hs)] at h
          exact h.symm
  · rintro ⟨A, R, S, hA, lR, lS, rfl, hS, hv⟩
    obtain ⟨hl, a, ha, hR⟩ := edDecode_iff.mp hA
    change littleEndian S < edL at hS
    rw [if_neg (by rw [List.length_append]; omega), ← lR, List.take_left, List.drop_left, ha]
    simp only [force_eq, leNat_eq]
    rw [if_neg (Nat.not_le.mpr hS), beq_iff_eq, main a A R S hR hS]
    exact hv.symm

end

end Ssh.Concrete
