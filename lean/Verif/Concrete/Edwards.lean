import Mathlib.Algebra.Field.Basic
import Mathlib.Algebra.Group.Basic
import Mathlib.Tactic.FieldSimp
import Mathlib.Tactic.LinearCombination
import Mathlib.Tactic.Ring

/-!
# Twisted Edwards curves

The points of `-x² + y² = 1 + dx²y²` over a field in which -1 is a square and `d` is not: addition by one formula is defined
everywhere (Bernstein, Birkner, Joye, Lange, Peters: Twisted Edwards curves) and makes them a commutative group.
-/

namespace Ssh.Concrete

/-- A point of the curve. -/
@[ext]
structure Edwards (F : Type) [Field F] (d : F) where
  x : F
  y : F
  on : y ^ 2 - x ^ 2 = 1 + d * x ^ 2 * y ^ 2

/-- What makes addition complete. -/
class EdwardsGood (F : Type) [Field F] (d : F) : Prop where
  sqrt : ∃ i : F, i ^ 2 = -1
  nonsquare : ∀ r : F, r ^ 2 ≠ d
  two : (2 : F) ≠ 0

namespace Edwards

variable {F : Type} [Field F] {d : F}

theorem product_ne [g : EdwardsGood F d] {x1 y1 x2 y2 : F} (h1 : y1 ^ 2 - x1 ^ 2 = 1 + d * x1 ^ 2 * y1 ^ 2)
    (h2 : y2 ^ 2 - x2 ^ 2 = 1 + d * x2 ^ 2 * y2 ^ 2) : (d * x1 * x2 * y1 * y2) ^ 2 ≠ 1 := by
  intro h
  obtain ⟨i, hi⟩ := g.sqrt
  have hne : x1 * y1 ≠ 0 := by
    intro h0
    rw [show (d * x1 * x2 * y1 * y2) ^ 2 = (x1 * y1) ^ 2 * (d * x2 * y2) ^ 2 by ring, h0] at h
    simp at h
  have key : ∀ s : F, s ^ 2 = -1 → s * x2 + y2 ≠ 0 → False := by
    intro s hs hn
    refine g.nonsquare ((s * x1 + (d * x1 * x2 * y1 * y2) * y1) / (x1 * y1 * (s * x2 + y2))) ?_
    rw [div_pow, div_eq_iff (pow_ne_zero 2 (mul_ne_zero hne hn))]
    linear_combination (x1 ^ 2 - d * x1 ^ 2 * y1 ^ 2 * x2 ^ 2) * hs + (y1 ^ 2 - 1) * h + h1 - d * x1 ^ 2 * y1 ^ 2 * h2
  have e1 : i * x2 + y2 = 0 := by
    by_contra hn
    exact key i hi hn
  have e2 : -i * x2 + y2 = 0 := by
    by_contra hn
    exact key (-i) (by rw [neg_sq, hi]) hn
  have e3 : y2 = 0 := by
    have : 2 * y2 = 0 := by linear_combination e1 + e2
    exact (mul_eq_zero.mp this).resolve_left g.two
  rw [e3] at h
  simp at h

theorem plus_ne [EdwardsGood F d] (P Q : Edwards F d) : 1 + d * P.x * Q.x * P.y * Q.y ≠ 0 := by
  intro h
  exact product_ne P.on Q.on (by linear_combination (d * P.x * Q.x * P.y * Q.y - 1) * h)

theorem minus_ne [EdwardsGood F d] (P Q : Edwards F d) : 1 - d * P.x * Q.x * P.y * Q.y ≠ 0 := by
  intro h
  exact product_ne P.on Q.on (by linear_combination (-(d * P.x * Q.x * P.y * Q.y) - 1) * h)

theorem frac_on {a b u v : F} (hu : u ≠ 0) (hv : v ≠ 0) (h : b ^ 2 * u ^ 2 - a ^ 2 * v ^ 2 = u ^ 2 * v ^ 2 + d * a ^ 2 * b ^ 2) :
    (b / v) ^ 2 - (a / u) ^ 2 = 1 + d * (a / u) ^ 2 * (b / v) ^ 2 := by
  field_simp
  linear_combination h

/-- The addition of the curve. -/
def add [EdwardsGood F d] (P Q : Edwards F d) : Edwards F d where
  x := (P.x * Q.y + Q.x * P.y) / (1 + d * P.x * Q.x * P.y * Q.y)
  y := (P.y * Q.y + P.x * Q.x) / (1 - d * P.x * Q.x * P.y * Q.y)
  on := by
    have h1 := plus_ne P Q
    have h2 := minus_ne P Q
    obtain ⟨x1, y1, e1⟩ := P
    obtain ⟨x2, y2, e2⟩ := Q
    simp only at h1 h2 ⊢
    refine frac_on h1 h2 ?_
    linear_combination
      (y2 ^ 2 - x2 ^ 2 - d * x2 ^ 2 * y2 ^ 2 - d * y1 ^ 2 * x2 ^ 2 * y2 ^ 2 + d * x1 ^ 2 * x2 ^ 2 * y2 ^ 2 + d ^ 3 * x1 ^ 2 * y1 ^
      2 * x2 ^ 4 * y2 ^ 4) * e1 + (1 - d * x1 ^ 2 * y1 ^ 2 * y2 ^ 2 + d * x1 ^ 2 * y1 ^ 2 * x2 ^ 2 - d ^ 2 * x1 ^ 2 * y1 ^ 2 * x2
      ^ 2 * y2 ^ 2 + d ^ 2 * x1 ^ 2 * y1 ^ 4 * x2 ^ 2 * y2 ^ 2 - d ^ 2 * x1 ^ 4 * y1 ^ 2 * x2 ^ 2 * y2 ^ 2) * e2

instance [EdwardsGood F d] : Add (Edwards F d) := ⟨add⟩

instance : Zero (Edwards F d) := ⟨⟨0, 1, by ring⟩⟩

instance : Neg (Edwards F d) := ⟨fun P => ⟨-P.x, P.y, by rw [neg_sq]; exact P.on⟩⟩

theorem add_x [EdwardsGood F d] (P Q : Edwards F d) : (P + Q).x = (P.x * Q.y + Q.x * P.y) / (1 + d * P.x * Q.x * P.y * Q.y) := rfl

theorem add_y [EdwardsGood F d] (P Q : Edwards F d) : (P + Q).y = (P.y * Q.y + P.x * Q.x) / (1 - d * P.x * Q.x * P.y * Q.y) := rfl

theorem zero_x : (0 : Edwards F d).x = 0 := rfl

theorem zero_y : (0 : Edwards F d).y = 1 := rfl

theorem neg_x (P : Edwards F d) : (-P).x = -P.x := rfl

theorem neg_y (P : Edwards F d) : (-P).y = P.y := rfl

theorem add_comm' [EdwardsGood F d] (P Q : Edwards F d) : P + Q = Q + P := by
  ext
  · rw [add_x, add_x]; congr 1 <;> ring
  · rw [add_y, add_y]; congr 1 <;> ring

theorem zero_add' [EdwardsGood F d] (P : Edwards F d) : 0 + P = P := by
  ext
  · rw [add_x, zero_x, zero_y]; simp
  · rw [add_y, zero_x, zero_y]; simp

theorem neg_add' [EdwardsGood F d] (P : Edwards F d) : -P + P = 0 := by
  ext
  · rw [add_x, neg_x, neg_y, zero_x, div_eq_zero_iff]
    left
    ring
  · have h := minus_ne (-P) P
    rw [add_y, zero_y, div_eq_one_iff_eq h, neg_x, neg_y]
    linear_combination P.on

/-- The formula for sums of which one part is a fraction. -/
theorem frac {a b u v x y : F} (hu : u ≠ 0) (hv : v ≠ 0) (s : F) : (a / u * y + x * (b / v)) / (1 + s * (d * (a / u) * x * (b / v) * y)) =
    (a * y * v + x * b * u) / (u * v + s * (d * a * b * x * y)) := by
  have e1 : a / u * y + x * (b / v) = (a * y * v + x * b * u) / (u * v) := by field_simp
  have e2 : 1 + s * (d * (a / u) * x * (b / v) * y) = (u * v + s * (d * a * b * x * y)) / (u * v) := by field_simp
  rw [e1, e2, div_div_div_cancel_right₀ (mul_ne_zero hu hv)]

theorem frac_den {a b u v x y : F} (hu : u ≠ 0) (hv : v ≠ 0) (s : F) :
    u * v + s * (d * a * b * x * y) = u * v * (1 + s * (d * (a / u) * x * (b / v) * y)) := by
  field_simp

theorem assoc_x {x1 y1 x2 y2 x3 y3 : F} (h1 : y1 ^ 2 - x1 ^ 2 = 1 + d * x1 ^ 2 * y1 ^ 2)
    (h2 : y2 ^ 2 - x2 ^ 2 = 1 + d * x2 ^ 2 * y2 ^ 2) (h3 : y3 ^ 2 - x3 ^ 2 = 1 + d * x3 ^ 2 * y3 ^ 2) :
    ((x1 * y2 + x2 * y1) * y3 * (1 - d * x1 * x2 * y1 * y2) + x3 * (y1 * y2 + x1 * x2) * (1 + d * x1 * x2 * y1 * y2)) *
      ((1 + d * x2 * x3 * y2 * y3) * (1 - d * x2 * x3 * y2 * y3) + 1 * (d * (x2 * y3 + x3 * y2) * (y2 * y3 + x2 * x3) * x1 * y1)) =
    ((x2 * y3 + x3 * y2) * y1 * (1 - d * x2 * x3 * y2 * y3) + x1 * (y2 * y3 + x2 * x3) * (1 + d * x2 * x3 * y2 * y3)) *
      ((1 + d * x1 * x2 * y1 * y2) * (1 - d * x1 * x2 * y1 * y2) + 1 * (d * (x1 * y2 + x2 * y1) * (y1 * y2 + x1 * x2) * x3 * y3)) := by
  linear_combination
    (-d * y1 * x2 * y2 ^ 4 * x3 ^ 2 * y3 - d * y1 * x2 ^ 2 * y2 ^ 3 * x3 - d * y1 * x2 ^ 2 * y2 ^ 3 * x3 ^ 3 - d * y1 * x2 ^ 3 *
    y2 ^ 2 * y3 + d * y1 * x2 ^ 3 * y2 ^ 2 * y3 ^ 3 + d * y1 * x2 ^ 4 * y2 * x3 * y3 ^ 2 + d * x1 * x2 * y2 ^ 4 * x3 * y3 ^ 2 - d
    * x1 * x2 ^ 2 * y2 ^ 3 * y3 + d * x1 * x2 ^ 2 * y2 ^ 3 * y3 ^ 3 - d * x1 * x2 ^ 3 * y2 ^ 2 * x3 - d * x1 * x2 ^ 3 * y2 ^ 2 *
    x3 ^ 3 - d * x1 * x2 ^ 4 * y2 * x3 ^ 2 * y3 + d ^ 2 * y1 * x2 ^ 3 * y2 ^ 4 * x3 ^ 2 * y3 + d ^ 2 * y1 * x2 ^ 4 * y2 ^ 3 * x3 *
    y3 ^ 2 - d ^ 2 * x1 * x2 ^ 3 * y2 ^ 4 * x3 * y3 ^ 2 - d ^ 2 * x1 * x2 ^ 4 * y2 ^ 3 * x3 ^ 2 * y3) * h1 + (-d * y1 * x2 * y2 ^
    2 * x3 ^ 2 * y3 - d * y1 * x2 ^ 2 * y2 * x3 * y3 ^ 2 + d * y1 ^ 3 * x2 * y2 ^ 2 * x3 ^ 2 * y3 + d * y1 ^ 3 * x2 ^ 2 * y2 * x3
    * y3 ^ 2 + d * x1 * x2 * y2 ^ 2 * x3 * y3 ^ 2 + d * x1 * x2 ^ 2 * y2 * x3 ^ 2 * y3 - d * x1 * y1 ^ 2 * x2 * y2 ^ 2 * x3 - d *
    x1 * y1 ^ 2 * x2 * y2 ^ 2 * x3 ^ 3 + d * x1 * y1 ^ 2 * x2 ^ 2 * y2 * y3 - d * x1 * y1 ^ 2 * x2 ^ 2 * y2 * y3 ^ 3 + d * x1 ^ 2
    * y1 * x2 * y2 ^ 2 * y3 - d * x1 ^ 2 * y1 * x2 * y2 ^ 2 * y3 ^ 3 - d * x1 ^ 2 * y1 * x2 ^ 2 * y2 * x3 - d * x1 ^ 2 * y1 * x2 ^
    2 * y2 * x3 ^ 3 + d * x1 ^ 3 * x2 * y2 ^ 2 * x3 * y3 ^ 2 + d * x1 ^ 3 * x2 ^ 2 * y2 * x3 ^ 2 * y3) * h2 + (d * y1 * x2 ^ 2 *
    y2 ^ 3 * x3 + d * y1 * x2 ^ 3 * y2 ^ 2 * y3 - d * y1 ^ 3 * x2 ^ 2 * y2 ^ 3 * x3 - d * y1 ^ 3 * x2 ^ 3 * y2 ^ 2 * y3 + d * x1 *
    x2 ^ 2 * y2 ^ 3 * y3 + d * x1 * x2 ^ 3 * y2 ^ 2 * x3 - d * x1 * y1 ^ 2 * x2 * y2 ^ 4 * x3 - d * x1 * y1 ^ 2 * x2 ^ 4 * y2 * y3
    + d * x1 ^ 2 * y1 * x2 * y2 ^ 4 * y3 + d * x1 ^ 2 * y1 * x2 ^ 4 * y2 * x3 + d * x1 ^ 3 * x2 ^ 2 * y2 ^ 3 * y3 + d * x1 ^ 3 *
    x2 ^ 3 * y2 ^ 2 * x3 + d ^ 2 * x1 * y1 ^ 2 * x2 ^ 3 * y2 ^ 4 * x3 - d ^ 2 * x1 * y1 ^ 2 * x2 ^ 4 * y2 ^ 3 * y3 - d ^ 2 * x1 ^
    2 * y1 * x2 ^ 3 * y2 ^ 4 * y3 + d ^ 2 * x1 ^ 2 * y1 * x2 ^ 4 * y2 ^ 3 * x3) * h3

theorem assoc_y {x1 y1 x2 y2 x3 y3 : F} (h1 : y1 ^ 2 - x1 ^ 2 = 1 + d * x1 ^ 2 * y1 ^ 2)
    (h2 : y2 ^ 2 - x2 ^ 2 = 1 + d * x2 ^ 2 * y2 ^ 2) (h3 : y3 ^ 2 - x3 ^ 2 = 1 + d * x3 ^ 2 * y3 ^ 2) :
    ((x1 * y2 + x2 * y1) * x3 * (1 - d * x1 * x2 * y1 * y2) + y3 * (y1 * y2 + x1 * x2) * (1 + d * x1 * x2 * y1 * y2)) *
      ((1 + d * x2 * x3 * y2 * y3) * (1 - d * x2 * x3 * y2 * y3) + -1 * (d * (x2 * y3 + x3 * y2) * (y2 * y3 + x2 * x3) * y1 * x1)) =
    ((x2 * y3 + x3 * y2) * x1 * (1 - d * x2 * x3 * y2 * y3) + y1 * (y2 * y3 + x2 * x3) * (1 + d * x2 * x3 * y2 * y3)) *
      ((1 + d * x1 * x2 * y1 * y2) * (1 - d * x1 * x2 * y1 * y2) + -1 * (d * (x1 * y2 + x2 * y1) * (y1 * y2 + x1 * x2) * y3 * x3)) := by
  linear_combination
    (d * y1 * x2 * y2 ^ 4 * x3 * y3 ^ 2 - d * y1 * x2 ^ 2 * y2 ^ 3 * y3 + d * y1 * x2 ^ 2 * y2 ^ 3 * y3 ^ 3 - d * y1 * x2 ^ 3 * y2
    ^ 2 * x3 - d * y1 * x2 ^ 3 * y2 ^ 2 * x3 ^ 3 - d * y1 * x2 ^ 4 * y2 * x3 ^ 2 * y3 - d * x1 * x2 * y2 ^ 4 * x3 ^ 2 * y3 - d *
    x1 * x2 ^ 2 * y2 ^ 3 * x3 - d * x1 * x2 ^ 2 * y2 ^ 3 * x3 ^ 3 - d * x1 * x2 ^ 3 * y2 ^ 2 * y3 + d * x1 * x2 ^ 3 * y2 ^ 2 * y3
    ^ 3 + d * x1 * x2 ^ 4 * y2 * x3 * y3 ^ 2 - d ^ 2 * y1 * x2 ^ 3 * y2 ^ 4 * x3 * y3 ^ 2 - d ^ 2 * y1 * x2 ^ 4 * y2 ^ 3 * x3 ^ 2
    * y3 + d ^ 2 * x1 * x2 ^ 3 * y2 ^ 4 * x3 ^ 2 * y3 + d ^ 2 * x1 * x2 ^ 4 * y2 ^ 3 * x3 * y3 ^ 2) * h1 + (d * y1 * x2 * y2 ^ 2 *
    x3 * y3 ^ 2 + d * y1 * x2 ^ 2 * y2 * x3 ^ 2 * y3 - d * y1 ^ 3 * x2 * y2 ^ 2 * x3 * y3 ^ 2 - d * y1 ^ 3 * x2 ^ 2 * y2 * x3 ^ 2
    * y3 - d * x1 * x2 * y2 ^ 2 * x3 ^ 2 * y3 - d * x1 * x2 ^ 2 * y2 * x3 * y3 ^ 2 - d * x1 * y1 ^ 2 * x2 * y2 ^ 2 * y3 + d * x1 *
    y1 ^ 2 * x2 * y2 ^ 2 * y3 ^ 3 + d * x1 * y1 ^ 2 * x2 ^ 2 * y2 * x3 + d * x1 * y1 ^ 2 * x2 ^ 2 * y2 * x3 ^ 3 + d * x1 ^ 2 * y1
    * x2 * y2 ^ 2 * x3 + d * x1 ^ 2 * y1 * x2 * y2 ^ 2 * x3 ^ 3 - d * x1 ^ 2 * y1 * x2 ^ 2 * y2 * y3 + d * x1 ^ 2 * y1 * x2 ^ 2 *
    y2 * y3 ^ 3 - d * x1 ^ 3 * x2 * y2 ^ 2 * x3 ^ 2 * y3 - d * x1 ^ 3 * x2 ^ 2 * y2 * x3 * y3 ^ 2) * h2 + (d * y1 * x2 ^ 2 * y2 ^
    3 * y3 + d * y1 * x2 ^ 3 * y2 ^ 2 * x3 - d * y1 ^ 3 * x2 ^ 2 * y2 ^ 3 * y3 - d * y1 ^ 3 * x2 ^ 3 * y2 ^ 2 * x3 + d * x1 * x2 ^
    2 * y2 ^ 3 * x3 + d * x1 * x2 ^ 3 * y2 ^ 2 * y3 - d * x1 * y1 ^ 2 * x2 * y2 ^ 4 * y3 - d * x1 * y1 ^ 2 * x2 ^ 4 * y2 * x3 + d
    * x1 ^ 2 * y1 * x2 * y2 ^ 4 * x3 + d * x1 ^ 2 * y1 * x2 ^ 4 * y2 * y3 + d * x1 ^ 3 * x2 ^ 2 * y2 ^ 3 * x3 + d * x1 ^ 3 * x2 ^
    3 * y2 ^ 2 * y3 + d ^ 2 * x1 * y1 ^ 2 * x2 ^ 3 * y2 ^ 4 * y3 - d ^ 2 * x1 * y1 ^ 2 * x2 ^ 4 * y2 ^ 3 * x3 - d ^ 2 * x1 ^ 2 *
    y1 * x2 ^ 3 * y2 ^ 4 * x3 + d ^ 2 * x1 ^ 2 * y1 * x2 ^ 4 * y2 ^ 3 * y3) * h3

theorem sum_x [EdwardsGood F d] (P Q R : Edwards F d) : (P + Q + R).x =
    ((P.x * Q.y + Q.x * P.y) * R.y * (1 - d * P.x * Q.x * P.y * Q.y) + R.x * (P.y * Q.y + P.x * Q.x) * (1 + d * P.x * Q.x * P.y * Q.y)) /
      ((1 + d * P.x * Q.x * P.y * Q.y) * (1 - d * P.x * Q.x * P.y * Q.y) + 1 * (d * (P.x * Q.y + Q.x * P.y) * (P.y * Q.y + P.x * Q.x) * R.x * R.y)) ∧
    (1 + d * P.x * Q.x * P.y * Q.y) * (1 - d * P.x * Q.x * P.y * Q.y) + 1 * (d * (P.x * Q.y + Q.x * P.y) * (P.y * Q.y + P.x * Q.x) * R.x * R.y) ≠ 0 := by
  have hu := plus_ne P Q
  have hv := minus_ne P Q
  constructor
  · rw [← frac hu hv 1, one_mul]
    rfl
  · intro h
    apply plus_ne (P + Q) R
    rw [add_x, add_y]
    refine (mul_eq_zero.mp ((frac_den hu hv 1).symm.trans h)).elim (fun h => absurd h (mul_ne_zero hu hv)) fun h => ?_
    linear_combination h

theorem sum_y [EdwardsGood F d] (P Q R : Edwards F d) : (P + Q + R).y =
    ((P.x * Q.y + Q.x * P.y) * R.x * (1 - d * P.x * Q.x * P.y * Q.y) + R.y * (P.y * Q.y + P.x * Q.x) * (1 + d * P.x * Q.x * P.y * Q.y)) /
      ((1 + d * P.x * Q.x * P.y * Q.y) * (1 - d * P.x * Q.x * P.y * Q.y) + -1 * (d * (P.x * Q.y + Q.x * P.y) * (P.y * Q.y + P.x * Q.x) * R.y * R.x)) ∧
    (1 + d * P.x * Q.x * P.y * Q.y) * (1 - d * P.x * Q.x * P.y * Q.y) + -1 * (d * (P.x * Q.y + Q.x * P.y) * (P.y * Q.y + P.x * Q.x) * R.y * R.x) ≠ 0 := by
  have hu := plus_ne P Q
  have hv := minus_ne P Q
  constructor
  · rw [← frac hu hv (-1), add_y (P + Q), add_x, add_y]
    congr 1 <;> ring
  · intro h
    apply minus_ne (P + Q) R
    rw [add_x, add_y]
    refine (mul_eq_zero.mp ((frac_den hu hv (-1)).symm.trans h)).elim (fun h => absurd h (mul_ne_zero hu hv)) fun h => ?_
    linear_combination h

theorem add_assoc' [EdwardsGood F d] (P Q R : Edwards F d) : P + Q + R = P + (Q + R) := by
  rw [add_comm' P (Q + R)]
  ext
  · obtain ⟨h1, h2⟩ := sum_x P Q R
    obtain ⟨h3, h4⟩ := sum_x Q R P
    rw [h1, h3, div_eq_div_iff h2 h4]
    exact assoc_x P.on Q.on R.on
  · obtain ⟨h1, h2⟩ := sum_y P Q R
    obtain ⟨h3, h4⟩ := sum_y Q R P
    rw [h1, h3, div_eq_div_iff h2 h4]
    exact assoc_y P.on Q.on R.on

instance [EdwardsGood F d] : AddCommGroup (Edwards F d) where
  add_assoc := add_assoc'
  zero_add := zero_add'
  add_zero P := by rw [add_comm', zero_add']
  neg_add_cancel := neg_add'
  add_comm := add_comm'
  nsmul := nsmulRec
  zsmul := zsmulRec

end Edwards

end Ssh.Concrete
