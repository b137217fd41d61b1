import Verif.Model.Basic
import Verif.Spec.Wire

/-! # Facts about big-endian numbers, UTF-8 and checked slices -/

namespace Ssh

open Spec (natOf)

theorem u8_ofNat_toNat (n : Nat) : (UInt8.ofNat n).toNat = n % 256 := by
  simp [UInt8.toNat_ofNat']

@[simp] theorem beBytes_length (k n : Nat) : (beBytes k n).length = k := by
  induction k generalizing n with
  | zero => rfl
  | succ k ih => simp [beBytes, ih]

theorem foldl_be (bs : Bytes) (acc : Nat) :
    bs.foldl (fun acc b => acc * 256 + b.toNat) acc = acc * 256 ^ bs.length + natOf bs := by
  induction bs generalizing acc with
  | nil => simp [natOf]
  | cons b bs ih =>
    simp only [List.foldl_cons, ih, natOf, List.length_cons, Nat.pow_succ]
    grind

theorem beNat_eq_natOf (bs : Bytes) : beNat bs = natOf bs := by
  simp [beNat, foldl_be]

theorem natOf_append (a b : Bytes) : natOf (a ++ b) = natOf a * 256 ^ b.length + natOf b := by
  induction a with
  | nil => simp [natOf]
  | cons x a ih =>
    simp only [List.cons_append, natOf, ih, List.length_append, Nat.pow_add]
    grind

theorem natOf_lt (bs : Bytes) : natOf bs < 256 ^ bs.length := by
  induction bs with
  | nil => simp [natOf]
  | cons b bs ih =>
    have hb := b.toNat_lt
    simp only [natOf, List.length_cons, Nat.pow_succ]
    have : b.toNat * 256 ^ bs.length ≤ 255 * 256 ^ bs.length := Nat.mul_le_mul_right _ (by omega)
    omega

theorem natOf_beBytes (k n : Nat) : natOf (beBytes k n) = n % 256 ^ k := by
  induction k generalizing n with
  | zero => simp [beBytes, natOf, Nat.mod_one]
  | succ k ih =>
    rw [beBytes, natOf_append, ih]
    simp only [natOf, List.length_cons, List.length_nil]
    have h := Nat.mod_mul (x := n) (a := 256) (b := 256 ^ k)
    have e : 256 ^ (k + 1) = 256 * 256 ^ k := by rw [Nat.pow_succ, Nat.mul_comm]
    rw [e, h, u8_ofNat_toNat]
    omega

theorem natOf_inj {a b : Bytes} (hl : a.length = b.length) (h : natOf a = natOf b) : a = b := by
  induction a generalizing b with
  | nil => cases b with
    | nil => rfl
    | cons => simp at hl
  | cons x a ih =>
    cases b with
    | nil => simp at hl
    | cons y b =>
      simp only [List.length_cons, Nat.add_right_cancel_iff] at hl
      simp only [natOf, hl] at h
      have ha := natOf_lt a
      have hb := natOf_lt b
      rw [hl] at ha
      have hxy : x.toNat = y.toNat := by
        rcases Nat.lt_trichotomy x.toNat y.toNat with hlt | heq | hlt
        · exfalso
          have := Nat.mul_le_mul_right (256 ^ b.length) (Nat.succ_le_of_lt hlt)
          rw [Nat.succ_mul] at this; omega
        · exact heq
        · exfalso
          have := Nat.mul_le_mul_right (256 ^ b.length) (Nat.succ_le_of_lt hlt)
          rw [Nat.succ_mul] at this; omega
      have : natOf a = natOf b := by rw [hxy] at h; omega
      rw [ih hl this, UInt8.toNat_inj.mp hxy]

theorem beBytes_natOf (bs : Bytes) : beBytes bs.length (natOf bs) = bs := by
  apply natOf_inj (by simp)
  rw [natOf_beBytes, Nat.mod_eq_of_lt (natOf_lt bs)]

theorem beBytes_beNat (bs : Bytes) : beBytes bs.length (beNat bs) = bs := by
  rw [beNat_eq_natOf, beBytes_natOf]

theorem beNat_beBytes (k n : Nat) : beNat (beBytes k n) = n % 256 ^ k := by
  rw [beNat_eq_natOf, natOf_beBytes]

theorem u32_eq (n : Nat) : Spec.u32 n = beBytes 4 n := by
  simp [Spec.u32, beBytes, Nat.div_div_eq_div_mul]

theorem u64_eq (n : Nat) : Spec.u64 n = beBytes 8 n := by
  simp [Spec.u64, Spec.u32, beBytes, Nat.div_div_eq_div_mul]

@[simp] theorem u32_length (n : Nat) : (Spec.u32 n).length = 4 := rfl
@[simp] theorem u64_length (n : Nat) : (Spec.u64 n).length = 8 := rfl

theorem u32_inj {a b : Nat} (ha : a < 4294967296) (hb : b < 4294967296)
    (h : Spec.u32 a = Spec.u32 b) : a = b := by
  have := congrArg natOf h
  rw [u32_eq, u32_eq, natOf_beBytes, natOf_beBytes] at this
  omega

theorem u64_inj {a b : Nat} (ha : a < 2 ^ 64) (hb : b < 2 ^ 64)
    (h : Spec.u64 a = Spec.u64 b) : a = b := by
  have := congrArg natOf h
  rw [u64_eq, u64_eq, natOf_beBytes, natOf_beBytes] at this
  omega

theorem u32_natOf {bs : Bytes} (h : bs.length = 4) : Spec.u32 (natOf bs) = bs := by
  rw [u32_eq, ← h, beBytes_natOf]

theorem u64_natOf {bs : Bytes} (h : bs.length = 8) : Spec.u64 (natOf bs) = bs := by
  rw [u64_eq, ← h, beBytes_natOf]

/-! ## UTF-8 -/

theorem strBytes_inj {s t : String} (h : strBytes s = strBytes t) : s = t := by
  unfold strBytes at h
  apply String.toByteArray_inj.mp
  apply ByteArray.ext
  exact Array.toList_inj.mp h

theorem fromUtf8_eq_some {b : Bytes} {s : String} : fromUtf8 b = some s ↔ strBytes s = b := by
  unfold fromUtf8
  constructor
  · intro h
    split at h
    · simp only [Option.some.injEq] at h
      subst h
      simp [strBytes]
    · cases h
  · intro h
    subst h
    have hb : ByteArray.mk (strBytes s).toArray = s.toByteArray := by
      apply ByteArray.ext; simp [strBytes]
    have hv : (ByteArray.mk (strBytes s).toArray).IsValidUTF8 := by
      rw [hb]; exact s.isValidUTF8
    rw [dif_pos hv]
    simp only [Option.some.injEq]
    apply String.toByteArray_inj.mp
    exact hb

@[simp] theorem fromUtf8_strBytes (s : String) : fromUtf8 (strBytes s) = some s :=
  fromUtf8_eq_some.mpr rfl

theorem strBytes_eq_flatMap (s : String) : strBytes s = s.toList.flatMap String.utf8EncodeChar := by
  unfold strBytes
  rw [← String.utf8Encode_toList]
  simp [List.utf8Encode]

theorem strBytes_append (s t : String) : strBytes (s ++ t) = strBytes s ++ strBytes t := by
  simp [strBytes]

/-- ASCII characters are encoded as themselves. -/
theorem utf8EncodeChar_ascii {c : Char} (h : c.toNat < 128) :
    String.utf8EncodeChar c = [UInt8.ofNat c.toNat] := by
  have h1 : c.utf8Size = 1 := by
    simp only [Char.utf8Size, Char.toNat] at *
    rw [if_pos]
    rw [UInt32.le_iff_toNat_le]
    simpa using (by omega : c.val.toNat ≤ 127)
  rw [String.utf8EncodeChar_eq_singleton h1]
  rfl

/-- The bytes of an ASCII string are its code points. -/
theorem strBytes_ascii {s : String} (h : ∀ c ∈ s.toList, c.toNat < 128) :
    strBytes s = s.toList.map fun c => UInt8.ofNat c.toNat := by
  rw [strBytes_eq_flatMap]
  generalize s.toList = l at *
  induction l with
  | nil => rfl
  | cons c l ih =>
    rw [List.flatMap_cons, utf8EncodeChar_ascii (h c (by simp)), ih fun x hx => h x (by simp [hx])]
    rfl

/-! ## Checked slices -/

theorem slice_ok {α : Type} {l : List α} {a b : Nat} (h1 : a ≤ b) (h2 : b ≤ l.length) :
    slice l a b = .ok ((l.drop a).take (b - a)) := by simp [slice, h1, h2]

theorem sliceFrom_ok {α : Type} {l : List α} {a : Nat} (h : a ≤ l.length) :
    sliceFrom l a = .ok (l.drop a) := by simp [sliceFrom, h]

theorem subNat_ok {a b : Nat} (h : b ≤ a) : subNat a b = .ok (a - b) := by simp [subNat, h]

theorem index_ok {α : Type} {l : List α} {i : Nat} (h : i < l.length) :
    index l i = .ok l[i] := by simp [index, Res.unwrap, h]

end Ssh
