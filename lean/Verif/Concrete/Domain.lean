import Verif.Concrete.Curve
import Verif.Lemmas.Curves
import Verif.Lemmas.Writer

/-!
# The ECDSA of Ec.lean is the ECDSA of FIPS 186-5

`domain` is the group of a curve as in Mathlib, with its base point and encodings; `ecdsaVerify` and `ecdsaSign` compute what
Spec/Curves.lean asks of verifying and signing.  For P-256 the facts about the numbers are computed by the kernel.
-/

namespace Ssh.Concrete

open Ssh.Spec

/-- What is computed about the numbers of a curve. -/
structure EcGood (c : EcCurve) : Prop where
  order : c.n.Prime
  odd : c.p % 2 = 1
  disc : 432 * c.b * c.b % c.p ≠ 1728 % c.p
  gx : c.gx ≤ c.p
  on : c.gy * c.gy % c.p = (c.gx * c.gx % c.p * c.gx + 3 * (c.p - c.gx) + c.b) % c.p
  cycle : (ecMulBase c c.n).z = 0
  width : c.p ≤ 256 ^ c.len
  bits : c.n < 2 ^ (8 * c.len)
  three : 2 < c.n
  short : c.len ≤ 60
  first : ecX c.p (ecMulBase c 1) % c.n ≠ 0
  second : ecX c.p (ecMulBase c 2) % c.n ≠ 0
  differ : ecX c.p (ecMulBase c 1) % c.n ≠ ecX c.p (ecMulBase c 2) % c.n

theorem toNat_eq (b : Bytes) : toNat b = natOf b := beNat_eq_natOf b

theorem natOf_natBytes (x : Nat) : ∀ n, natOf (natBytes n x) = x % 256 ^ n
  | 0 => by simp [natBytes, natOf, Nat.mod_one]
  | n + 1 => by
    unfold natBytes
    rw [natOf, natBytes_length, natOf_natBytes x n, u8_ofNat_toNat, Nat.mod_mod, Nat.mod_pow_succ, Nat.mul_comm, Nat.add_comm]

theorem inverse_mod {n k : Nat} (hn : n.Prime) (h0 : 0 < k) (hk : k < n) : k * powMod k (n - 2) n % n = 1 := by
  have : Fact n.Prime := ⟨hn⟩
  have hk0 : (k : ZMod n) ≠ 0 := by
    rw [Ne, ZMod.natCast_eq_zero_iff]
    exact fun h => absurd (Nat.le_of_dvd h0 h) (Nat.not_le.mpr hk)
  have e : ((k * powMod k (n - 2) n : Nat) : ZMod n) = ((1 : Nat) : ZMod n) := by
    rw [powMod_eq hn.one_lt, Nat.cast_mul, ZMod.natCast_mod, Nat.cast_pow, ← pow_succ', show n - 2 + 1 = n - 1 by have := hn.two_le; omega,
      ZMod.pow_card_sub_one_eq_one hk0, Nat.cast_one]
  have := (ZMod.natCast_eq_natCast_iff _ _ _).mp e
  rw [Nat.ModEq, Nat.mod_eq_of_lt hn.one_lt] at this
  exact this

/-- Inverses are unique. -/
theorem mul_inverse {n s w w' : Nat} (h1 : s * w % n = 1) (h2 : s * w' % n = 1) (a : Nat) : a * w % n = a * w' % n := by
  have e : s * w ≡ s * w' [MOD n] := h1.trans h2.symm
  have : w ≡ w' [MOD n] := by
    have one : 1 ≡ s * w [MOD n] := by
      rw [Nat.ModEq, h1, ← h1, Nat.mod_mod]
    have one' : s * w' ≡ 1 [MOD n] := e.symm.trans one.symm
    calc w = w * 1 := (Nat.mul_one w).symm
      _ ≡ w * (s * w') [MOD n] := one'.symm.mul_left w
      _ = (s * w) * w' := by ring
      _ ≡ 1 * w' [MOD n] := one.symm.mul_right w'
      _ = w' := Nat.one_mul w'
  exact this.mul_left a

section
variable {c : EcCurve} [hp : Fact c.p.Prime]

theorem EcGood.two_ne (g : EcGood c) : (2 : ZMod c.p) ≠ 0 := by
  have : ((2 : Nat) : ZMod c.p) ≠ 0 := by
    rw [Ne, ZMod.natCast_eq_zero_iff, Nat.prime_dvd_prime_iff_eq hp.out Nat.prime_two]
    intro h
    have := g.odd
    rw [h] at this
    cases this
  exact this

/-- The base point. -/
def EcGood.base (g : EcGood c) : (curve c.p c.b).Point := .some _ _ (nonsingular_of g.disc g.gx g.on)

theorem EcGood.base_rep (g : EcGood c) : Rep ⟨c.gx, c.gy, 1⟩ g.base := rep_affine _

theorem EcGood.mulBase_rep (g : EcGood c) {k : Nat} (hk : k < 2 ^ (8 * c.len)) : Rep (ecMulBase c k) (k • g.base) := by
  have hz : Rep ⟨c.gx, c.gy, 1⟩ (g.base + 0) := by
    rw [add_zero]
    exact g.base_rep
  have := ecMul_rep (s := k) (h := 0) g.two_ne g.base_rep rep_infinity hz (8 * c.len) _ _ rep_infinity
  simp only [nsmul_zero, add_zero, zero_add, Nat.mod_eq_of_lt hk] at this
  exact this

theorem EcGood.cycle' (g : EcGood c) : c.n • g.base = 0 := (rep_zero (g.mulBase_rep g.bits)).mp g.cycle

theorem EcGood.multiple_ne (g : EcGood c) {k : Nat} (h0 : 0 < k) (hk : k < c.n) : k • g.base ≠ 0 := by
  intro h
  obtain ⟨w, hw⟩ := inverse_exists (isPrime_iff.mpr g.order) h0 hk
  have e : (k * w) • g.base = 1 • g.base := nsmul_modEq g.cycle' (by rw [Nat.ModEq, hw, Nat.mod_eq_of_lt g.order.one_lt])
  rw [mul_nsmul, h, nsmul_zero, one_nsmul] at e
  cases e

def coordX : (curve c.p c.b).Point → Nat
  | .zero => 0
  | .some x _ _ => x.val

def written : (curve c.p c.b).Point → Bytes
  | .zero => []
  | .some x y _ => 4 :: (natBytes c.len x.val ++ natBytes c.len y.val)

open Classical in
/-- The point with an uncompressed encoding. -/
noncomputable def decode (b : Bytes) : Option (curve c.p c.b).Point :=
  match ecDecode c b with
  | none => none
  | some P => if h : (curve c.p c.b).Nonsingular (P.x : ZMod c.p) (P.y : ZMod c.p) then some (.some _ _ h) else none

omit hp in
theorem ecDecode_some {b : Bytes} {P : EcPoint} (h : ecDecode c b = some P) :
    P.z = 1 ∧ P.x < c.p ∧ P.y < c.p ∧ P.y * P.y % c.p = (P.x * P.x % c.p * P.x + 3 * (c.p - P.x) + c.b) % c.p := by
  unfold ecDecode at h
  split at h
  · split at h
    · cases h
    · simp only [force_eq] at h
      split at h
      · rename_i hc
        cases h
        exact ⟨rfl, hc⟩
      · cases h
  · cases h

theorem EcGood.decode_iff (g : EcGood c) {b : Bytes} {Q : (curve c.p c.b).Point} :
    decode b = some Q ↔ ∃ P, ecDecode c b = some P ∧ ∃ h, Q = .some (P.x : ZMod c.p) (P.y : ZMod c.p) h := by
  unfold decode
  cases e : ecDecode c b with
  | none => simp
  | some P =>
    obtain ⟨_, hx, _, ho⟩ := ecDecode_some e
    have hn := nonsingular_of g.disc (Nat.le_of_lt hx) ho
    simp only [hn, dif_pos, Option.some.injEq]
    constructor
    · intro h
      exact ⟨P, rfl, hn, h.symm⟩
    · rintro ⟨_, rfl, _, h⟩
      exact h.symm

theorem EcGood.decode_written (g : EcGood c) (P : (curve c.p c.b).Point) (hP : P ≠ 0) : decode (written P) = some P := by
  rw [g.decode_iff]
  cases P with
  | zero => exact absurd rfl hP
  | some x y h =>
    have hx : natOf (natBytes c.len x.val) = x.val := by
      rw [natOf_natBytes, Nat.mod_eq_of_lt (Nat.lt_of_lt_of_le (ZMod.val_lt x) g.width)]
    have hy : natOf (natBytes c.len y.val) = y.val := by
      rw [natOf_natBytes, Nat.mod_eq_of_lt (Nat.lt_of_lt_of_le (ZMod.val_lt y) g.width)]
    refine ⟨⟨x.val, y.val, 1⟩, ?_, ?_⟩
    · unfold written ecDecode
      simp only [force_eq]
      rw [if_neg (by simp only [List.length_append, natBytes_length]; omega),
        List.take_append_of_le_length (by rw [natBytes_length]), List.take_of_length_le (by rw [natBytes_length]),
        List.drop_left' (natBytes_length _ _), toNat_eq, toNat_eq, hx, hy, if_pos ⟨ZMod.val_lt x, ZMod.val_lt y, on_curve h⟩]
    · apply point_ext <;> simp

/-- The curve as a group with encodings. -/
noncomputable def EcGood.domain (g : EcGood c) : EcDomain (curve c.p c.b).Point where
  base := g.base
  order := c.n
  prime := isPrime_iff.mpr g.order
  cycle := g.cycle'
  nontrivial := by rw [← one_nsmul g.base]; exact g.multiple_ne Nat.zero_lt_one g.order.one_lt
  coordX := coordX
  written := written
  decode := decode
  decode_written := g.decode_written

theorem coordX_rep {P : EcPoint} {Q : (curve c.p c.b).Point} (h : Rep P Q) (h0 : Q ≠ 0) : ecX c.p P = coordX Q := by
  cases Q with
  | zero => exact absurd rfl h0
  | some x y hn => exact (ecX_rep h).1

theorem EcGood.verifiesPoint (g : EcGood c) {key : Bytes} (m : Bytes) : ∀ (P : EcPoint) (Q : (curve c.p c.b).Point) (r s : Nat),
    ecDecode c key = some P → (∃ h, Q = .some (P.x : ZMod c.p) (P.y : ZMod c.p) h) →
    (ecVerify c key m r s = true ↔ EcdsaValid g.domain Q (natOf (c.digest m)) r s) := by
  rintro ⟨x, y, z⟩ Q r s hd ⟨hn, rfl⟩
  obtain ⟨h1, _, _, _⟩ := ecDecode_some hd
  dsimp only at h1 hn
  subst h1
  unfold ecVerify
  rw [hd]
  dsimp only
  by_cases hr : r = 0 ∨ r ≥ c.n ∨ s = 0 ∨ s ≥ c.n
  · rw [if_pos hr]
    refine ⟨fun h => Bool.noConfusion h, ?_⟩
    rintro ⟨a1, a2, a3, a4, _⟩
    change r < c.n at a2
    change s < c.n at a4
    omega
  · rw [if_neg hr]
    simp only [force_eq, seq_eq]
    have hs0 : 0 < s := by omega
    have hsn : s < c.n := by omega
    have hinv := inverse_mod g.order hs0 hsn
    have hq := rep_affine hn
    have hpos : 0 < c.n := g.order.pos
    have hu : ∀ a, a % c.n % 2 ^ (8 * c.len) = a % c.n := fun a =>
      Nat.mod_eq_of_lt (Nat.lt_trans (Nat.mod_lt _ hpos) g.bits)
    have he : ecDigest c m * powMod s (c.n - 2) c.n % c.n = natOf (c.digest m) * powMod s (c.n - 2) c.n % c.n := by
      unfold ecDigest
      rw [toNat_eq]
      exact (Nat.mod_modEq _ _).mul_right _
    rw [he]
    have hR := ecMul_rep (s := natOf (c.digest m) * powMod s (c.n - 2) c.n % c.n) (h := r * powMod s (c.n - 2) c.n % c.n) g.two_ne
      g.base_rep hq (ecAdd_rep g.two_ne g.base_rep hq) (8 * c.len) _ _ rep_infinity
    rw [hu, hu, nsmul_zero, zero_add] at hR
    rw [decide_eq_true_iff, Ne, rep_zero hR]
    constructor
    · rintro ⟨b1, b2⟩
      rw [coordX_rep hR b1] at b2
      exact ⟨by omega, by change r < c.n; omega, hs0, hsn, _, hinv, b1, b2⟩
    · rintro ⟨_, _, _, _, w, hw, b1, b2⟩
      change s * w % c.n = 1 at hw
      rw [show g.domain.order = c.n from rfl, mul_inverse hw hinv, mul_inverse hw hinv] at b1 b2
      refine ⟨b1, ?_⟩
      rw [coordX_rep hR b1]
      exact b2

/-- Verifying two numbers. -/
theorem EcGood.verifiesNumbers (g : EcGood c) (key m : Bytes) (r s : Nat) : ecVerify c key m r s = true ↔
    ∃ Q, g.domain.decode key = some Q ∧ EcdsaValid g.domain Q (natOf (c.digest m)) r s := by
  constructor
  · intro h
    cases hd : ecDecode c key with
    | none =>
      unfold ecVerify at h
      rw [hd] at h
      cases h
    | some P =>
      obtain ⟨_, hx, _, ho⟩ := ecDecode_some hd
      have hn := nonsingular_of g.disc (Nat.le_of_lt hx) ho
      exact ⟨_, g.decode_iff.mpr ⟨P, hd, hn, rfl⟩, (g.verifiesPoint m P _ _ _ hd ⟨hn, rfl⟩).mp h⟩
  · rintro ⟨Q, hQ, hv⟩
    obtain ⟨P, hd, hn⟩ := g.decode_iff.mp hQ
    exact (g.verifiesPoint m P Q _ _ hd hn).mpr hv

/-- Verifying accepts exactly the valid signatures. -/
theorem EcGood.verifies (g : EcGood c) (key m sig : Bytes) : ecdsaVerify c key m sig = true ↔
    ∃ Q r s fr fs, g.domain.decode key = some Q ∧ sig = fr ++ fs ∧ NatWidth c.len r fr ∧ NatWidth c.len s fs ∧
      EcdsaValid g.domain Q (natOf (c.digest m)) r s := by
  unfold ecdsaVerify
  constructor
  · intro h
    split at h
    · cases h
    · rename_i hl
      have hl : sig.length = 2 * c.len := Decidable.not_not.mp hl
      cases hd : ecDecode c key with
      | none =>
        unfold ecVerify at h
        rw [hd] at h
        cases h
      | some P =>
        obtain ⟨_, hx, _, ho⟩ := ecDecode_some hd
        have hn := nonsingular_of g.disc (Nat.le_of_lt hx) ho
        exact ⟨_, _, _, sig.take c.len, sig.drop c.len, g.decode_iff.mpr ⟨P, hd, hn, rfl⟩, (List.take_append_drop _ _).symm,
          ⟨by rw [List.length_take]; omega, (toNat_eq _).symm⟩, ⟨by rw [List.length_drop]; omega, (toNat_eq _).symm⟩,
          (g.verifiesPoint m P _ _ _ hd ⟨hn, rfl⟩).mp h⟩
  · rintro ⟨Q, r, s, fr, fs, hQ, rfl, ⟨l1, rfl⟩, ⟨l2, rfl⟩, hv⟩
    obtain ⟨P, hd, hn⟩ := g.decode_iff.mp hQ
    rw [if_neg (by rw [List.length_append]; omega), ← l1, List.take_left, List.drop_left, toNat_eq, toNat_eq]
    exact (g.verifiesPoint m P Q _ _ hd hn).mpr hv

theorem EcGood.signWith (g : EcGood c) {d e k r s : Nat} (h0 : 0 < k) (hk : k < c.n) (h : ecSignWith c d (e % c.n) k = some (r, s)) :
    EcdsaSignature g.domain d e r s := by
  unfold ecSignWith at h
  simp only [seq_eq, force_eq] at h
  split at h
  · cases h
  · rename_i hne
    injection h with h
    injection h with hr hs
    rw [hr] at hs hne
    rw [hs] at hne
    have hR := g.mulBase_rep (Nat.lt_trans hk g.bits)
    rw [coordX_rep hR (g.multiple_ne h0 hk)] at hr
    refine ⟨k, powMod k (c.n - 2) c.n, h0, hk, inverse_mod g.order h0 hk, hr.symm, fun h => hne (.inl h), ?_, fun h => hne (.inr h)⟩
    rw [← hs]
    have e1 : (e % c.n + r * d) % c.n ≡ e + r * d [MOD c.n] := (Nat.mod_modEq _ _).trans ((Nat.mod_modEq _ _).add_right _)
    exact e1.mul_left _

omit hp in
theorem EcGood.signWith_none (g : EcGood c) {d e k : Nat} (h0 : 0 < k) (hk : k < c.n) (hr : ecX c.p (ecMulBase c k) % c.n ≠ 0)
    (h : ecSignWith c d e k = none) : c.n ∣ e + ecX c.p (ecMulBase c k) % c.n * d := by
  unfold ecSignWith at h
  simp only [seq_eq, force_eq] at h
  split at h
  · rename_i hne
    rcases hne with hne | hne
    · exact absurd hne hr
    · have hd := Nat.dvd_of_mod_eq_zero hne
      rcases (Nat.Prime.dvd_mul g.order).mp hd with h1 | h1
      · have hi := inverse_mod g.order h0 hk
        rw [Nat.mod_eq_zero_of_dvd (Dvd.dvd.mul_left h1 k)] at hi
        cases hi
      · exact (Nat.dvd_mod_iff (dvd_refl _)).mp h1
  · cases h

omit hp in
/-- One of the numbers 1 and 2 always gives a signature. -/
theorem EcGood.signWith_some (g : EcGood c) {d e : Nat} (h0 : 0 < d) (hd : d < c.n) : (ecSignWith c d e 1).or (ecSignWith c d e 2) ≠ none := by
  intro h
  rw [Option.or_eq_none_iff] at h
  have h1 := g.signWith_none Nat.zero_lt_one g.order.one_lt g.first h.1
  have h2 := g.signWith_none Nat.zero_lt_two g.three g.second h.2
  have : Fact c.n.Prime := ⟨g.order⟩
  have n1 := (ZMod.natCast_eq_zero_iff _ _).mpr h1
  have n2 := (ZMod.natCast_eq_zero_iff _ _).mpr h2
  have nd : (d : ZMod c.n) ≠ 0 := by
    rw [Ne, ZMod.natCast_eq_zero_iff]
    exact fun h => absurd (Nat.le_of_dvd h0 h) (Nat.not_le.mpr hd)
  apply g.differ
  generalize ecX c.p (ecMulBase c 1) = r1 at *
  generalize ecX c.p (ecMulBase c 2) = r2 at *
  simp only [Nat.cast_add, Nat.cast_mul, ZMod.natCast_mod] at n1 n2
  have : ((r1 : ZMod c.n) - r2) * d = 0 := by linear_combination n1 - n2
  rcases mul_eq_zero.mp this with h | h
  · exact (ZMod.natCast_eq_natCast_iff _ _ _).mp (sub_eq_zero.mp h)
  · exact absurd h nd

theorem derInt_eq (n len : Nat) : derInt n len = [2, UInt8.ofNat (mpintPayload (natBytes len n)).length] ++ mpintPayload (natBytes len n) := by
  have : (let b := (natBytes len n).dropWhile (· == 0); if b.headD 0 ≥ 0x80 then 0 :: b else b) = mpintPayload (natBytes len n) := by
    unfold mpintPayload stripZeros
    have e : (natBytes len n).dropWhile (· == 0) = (natBytes len n).dropWhile (fun x => decide (x = 0)) := rfl
    rw [e]
    cases (natBytes len n).dropWhile (fun x => decide (x = 0)) with
    | nil => rfl
    | cons b t => rfl
  rw [← this]
  rfl

omit hp in
theorem derSig_pair (g : EcGood c) {r s : Nat} (hr : r < c.n) (hr0 : r ≠ 0) (hs : s < c.n) (hs0 : s ≠ 0) : ∃ cr cs, DerPositive r cr ∧
    DerPositive s cs ∧
    DerPair cr cs (0x30 :: UInt8.ofNat (derInt r c.len ++ derInt s c.len).length :: (derInt r c.len ++ derInt s c.len)) := by
  have lt : ∀ x, x < c.n → x < 256 ^ c.len := fun x h => by
    have := g.bits
    rw [pow_mul] at this
    exact Nat.lt_trans h this
  have pos : ∀ x, x < c.n → x ≠ 0 → DerPositive x (mpintPayload (natBytes c.len x)) := fun x h h0 => by
    obtain ⟨p1, p2⟩ := mpintPayload_spec (natBytes c.len x)
    exact ⟨p1, by rw [p2, natOf_natBytes, Nat.mod_eq_of_lt (lt x h)], h0⟩
  have len : ∀ x, (mpintPayload (natBytes c.len x)).length ≤ c.len + 1 := fun x =>
    Nat.le_trans (mpintPayload_length_le _) (Nat.succ_le_succ (Nat.le_trans (stripZeros_length_le _) (Nat.le_of_eq (natBytes_length _ _))))
  refine ⟨_, _, pos r hr hr0, pos s hs hs0, ?_, ?_⟩
  · have := len r
    have := len s
    have := g.short
    omega
  · rw [derInt_eq, derInt_eq]
    simp only [List.length_append, List.length_cons, List.cons_append, List.nil_append]
    congr 3

/-- Signing takes exactly the secrets that belong to the public point, and gives signatures. -/
theorem EcGood.signs (g : EcGood c) (secret pub m : Bytes) :
    ((∃ d, NatWidth c.len d secret ∧ 0 < d ∧ d < c.n ∧ g.domain.decode pub = some (d • g.domain.base)) ↔
      ∃ sig, ecdsaSign c secret pub m = some sig) ∧
    ∀ sig, ecdsaSign c secret pub m = some sig →
      ∃ r s cr cs, EcdsaSignature g.domain (natOf secret) (natOf (c.digest m)) r s ∧ DerPositive r cr ∧ DerPositive s cs ∧ DerPair cr cs sig := by
  have key : ∀ d, natOf secret = d → 0 < d → d < c.n → ∀ P, ecDecode c pub = some P →
      (g.domain.decode pub = some (d • g.domain.base) ↔ ¬ (ecX c.p (ecMulBase c d) ≠ P.x ∨ ecY c.p (ecMulBase c d) ≠ P.y)) := by
    intro d _ h0 hd P hP
    obtain ⟨_, hx, hy, ho⟩ := ecDecode_some hP
    have hR := g.mulBase_rep (Nat.lt_trans hd g.bits)
    have hne := g.multiple_ne h0 hd
    have vx : ((P.x : ZMod c.p)).val = P.x := ZMod.val_cast_of_lt hx
    have vy : ((P.y : ZMod c.p)).val = P.y := ZMod.val_cast_of_lt hy
    rw [show g.domain.decode pub = decode pub from rfl, g.decode_iff, not_or, not_not, not_not, show g.domain.base = g.base from rfl]
    cases hQ : d • g.base with
    | zero => exact absurd hQ hne
    | some x y hn =>
      rw [hQ] at hR
      obtain ⟨ex, ey⟩ := ecX_rep hR
      rw [ex, ey]
      constructor
      · rintro ⟨_, e, _, e'⟩
        rw [hP] at e
        cases e
        injection e' with e1 e2
        rw [e1, e2]
        exact ⟨vx, vy⟩
      · rintro ⟨e1, e2⟩
        refine ⟨P, hP, ?_⟩
        apply point_ext
        · rw [← e1, ZMod.natCast_val, ZMod.cast_id', id]
        · rw [← e2, ZMod.natCast_val, ZMod.cast_id', id]
  have hmod : ecDigest c m = natOf (c.digest m) % c.n := by unfold ecDigest; rw [toNat_eq]
  have three := g.three
  unfold ecdsaSign
  simp only [force_eq, seq_eq, toNat_eq secret]
  by_cases hbad : secret.length ≠ c.len ∨ natOf secret = 0 ∨ natOf secret ≥ c.n
  · rw [if_pos hbad]
    refine ⟨⟨?_, fun ⟨_, h⟩ => nomatch h⟩, fun _ h => nomatch h⟩
    rintro ⟨d, ⟨l, rfl⟩, h0, hd, _⟩
    omega
  · rw [if_neg hbad]
    have hl : secret.length = c.len := by omega
    have h0 : 0 < natOf secret := by omega
    have hd : natOf secret < c.n := by omega
    cases hP : ecDecode c pub with
    | none =>
      refine ⟨⟨?_, fun ⟨_, h⟩ => nomatch h⟩, fun _ h => nomatch h⟩
      rintro ⟨d, _, _, _, hdec⟩
      obtain ⟨P, e, _⟩ := g.decode_iff.mp hdec
      rw [hP] at e
      cases e
    | some P =>
      have hk := key _ rfl h0 hd P hP
      dsimp only
      by_cases hb : ecX c.p (ecMulBase c (natOf secret)) ≠ P.x ∨ ecY c.p (ecMulBase c (natOf secret)) ≠ P.y
      · rw [if_pos hb]
        refine ⟨⟨?_, fun ⟨_, h⟩ => nomatch h⟩, fun _ h => nomatch h⟩
        rintro ⟨d, ⟨_, rfl⟩, _, _, hdec⟩
        exact absurd hb (hk.mp hdec)
      · rw [if_neg hb, hmod]
        generalize hk0 : toNat (c.digest (secret ++ c.digest m)) % (c.n - 1) + 1 = k
        have k0 : 0 < k := by omega
        have kn : k < c.n := by
          have := Nat.mod_lt (toNat (c.digest (secret ++ c.digest m))) (show 0 < c.n - 1 by omega)
          omega
        cases hs : (ecSignWith c (natOf secret) (natOf (c.digest m) % c.n) k).or
            ((ecSignWith c (natOf secret) (natOf (c.digest m) % c.n) 1).or (ecSignWith c (natOf secret) (natOf (c.digest m) % c.n) 2)) with
        | none =>
          rw [Option.or_eq_none_iff] at hs
          exact absurd hs.2 (g.signWith_some h0 hd)
        | some rs =>
          obtain ⟨r, s⟩ := rs
          have hsig : EcdsaSignature g.domain (natOf secret) (natOf (c.digest m)) r s := by
            rw [Option.or_eq_some_iff] at hs
            rcases hs with hs | ⟨_, hs⟩
            · exact g.signWith k0 kn hs
            · rw [Option.or_eq_some_iff] at hs
              rcases hs with hs | ⟨_, hs⟩
              · exact g.signWith Nat.zero_lt_one g.order.one_lt hs
              · exact g.signWith Nat.zero_lt_two g.three hs
          obtain ⟨v1, v2, v3, v4, _⟩ := ecdsa_valid _ hsig
          obtain ⟨cr, cs, d1, d2, d3⟩ := derSig_pair g v2 (Nat.pos_iff_ne_zero.mp v1) v4 (Nat.pos_iff_ne_zero.mp v3)
          refine ⟨⟨fun _ => ⟨_, rfl⟩, fun _ => ⟨natOf secret, ⟨hl, rfl⟩, h0, hd, hk.mpr hb⟩⟩, ?_⟩
          intro sig h
          cases h
          exact ⟨r, s, cr, cs, hsig, d1, d2, d3⟩

end

instance : Fact p256.p.Prime := ⟨p256_field⟩

theorem p256_good : EcGood p256 where
  order := p256_order
  odd := by decide +kernel
  disc := by decide +kernel
  gx := by decide +kernel
  on := by decide +kernel
  cycle := by decide +kernel
  width := by decide +kernel
  bits := by decide +kernel
  three := by decide +kernel
  short := by decide +kernel
  first := by decide +kernel
  second := by decide +kernel
  differ := by decide +kernel

theorem p256_sign (table : List ((String × Bytes × UInt32) × (Bytes × Bytes))) (secret pub m : Bytes) :
    (realCrypto table).ecdsaSign .p256 secret pub m = ecdsaSign p256 secret pub m := rfl

theorem p256_verifies (table : List ((String × Bytes × UInt32) × (Bytes × Bytes))) :
    VerifiesEcdsa (realCrypto table) .p256 p256_good.domain := p256_good.verifies

theorem p256_signs (table : List ((String × Bytes × UInt32) × (Bytes × Bytes))) : SignsEcdsa (realCrypto table) .p256 p256_good.domain :=
  p256_good.signs

end Ssh.Concrete
