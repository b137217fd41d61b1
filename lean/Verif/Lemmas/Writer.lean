import Verif.Model.Writer
import Verif.Spec.Lists
import Verif.Lemmas.Reader

/-! # What the writer appends -/

namespace Ssh

open Spec

/-- Length prefix (modulo `2^32`) and payload. -/
def frame (b : Bytes) : Bytes := u32 b.length ++ b

/-- `frame` of the UTF-8 bytes. -/
def frameStr (s : String) : Bytes := frame (strBytes s)

@[simp] theorem frame_len (b : Bytes) : (frame b).length = 4 + b.length := by simp [frame]
@[simp] theorem frameStr_len (s : String) : (frameStr s).length = 4 + (strBytes s).length := by
  simp [frameStr]

theorem Spec.Frame.of {b : Bytes} (h : b.length < 4294967296) : Frame b (frame b) := ⟨h, rfl⟩
theorem Spec.Text.of {s : String} (h : (strBytes s).length < 4294967296) : Text s (frameStr s) :=
  Frame.of h
theorem Spec.Frame.eq {b w : Bytes} (h : Frame b w) : w = frame b := h.2
theorem Spec.Text.eq {s : String} {w : Bytes} (h : Text s w) : w = frameStr s := h.2
theorem Spec.Text.lt {s : String} {w : Bytes} (h : Text s w) : (strBytes s).length < 4294967296 := h.1

namespace Writer

@[simp] theorem new_inner : Writer.new.inner = [] := rfl

@[simp] theorem writeBytes_inner (w : Writer) (b : Bytes) :
    (w.writeBytes b).inner = w.inner ++ frame b := by
  simp [writeBytes, frame, u32_eq]

@[simp] theorem writeString_inner (w : Writer) (s : String) :
    (w.writeString s).inner = w.inner ++ frameStr s := by
  simp [writeString, frameStr]

@[simp] theorem writeRawBytes_inner (w : Writer) (b : Bytes) :
    (w.writeRawBytes b).inner = w.inner ++ b := rfl

@[simp] theorem writeU32_inner (w : Writer) (n : UInt32) :
    (w.writeU32 n).inner = w.inner ++ u32 n.toNat := by
  simp [writeU32, u32_eq]

@[simp] theorem writeU64_inner (w : Writer) (n : UInt64) :
    (w.writeU64 n).inner = w.inner ++ u64 n.toNat := by
  simp [writeU64, u64_eq]

end Writer

theorem u32_mod (n : Nat) : u32 (n % 4294967296) = u32 n := by
  rw [u32_eq, u32_eq]
  apply natOf_inj (by simp)
  rw [natOf_beBytes, natOf_beBytes]
  omega

theorem u32_ofNat (n : Nat) : u32 (UInt32.ofNat n).toNat = u32 n := by
  rw [← u32_mod n]; simp

/-! ## mpint -/

/-- The magnitude without leading zero bytes. -/
def stripZeros (v : Bytes) : Bytes := v.dropWhile (· = 0)

theorem drop_leadingZeros (v : Bytes) : v.drop (Writer.leadingZeros v) = stripZeros v := by
  induction v with
  | nil => rfl
  | cons b bs ih =>
    simp only [Writer.leadingZeros, stripZeros, List.dropWhile_cons]
    by_cases h : b = 0
    · simpa [h, stripZeros] using ih
    · simp [h]

theorem stripZeros_shortest (v : Bytes) : Shortest (stripZeros v) := by
  unfold Shortest stripZeros
  induction v with
  | nil => simp
  | cons b bs ih =>
    simp only [List.dropWhile_cons]
    by_cases h : b = 0
    · simpa [h] using ih
    · simp [h]

theorem natOf_stripZeros (v : Bytes) : natOf (stripZeros v) = natOf v := by
  unfold stripZeros
  induction v with
  | nil => rfl
  | cons b bs ih =>
    simp only [List.dropWhile_cons]
    by_cases h : b = 0
    · simpa [h, natOf] using ih
    · simp [h]

theorem stripZeros_of_shortest {v : Bytes} (h : Shortest v) : stripZeros v = v := by
  unfold stripZeros
  cases v with
  | nil => rfl
  | cons b bs =>
    have : b ≠ 0 := by simpa [Shortest] using h
    simp [this]

theorem stripZeros_length_le (v : Bytes) : (stripZeros v).length ≤ v.length :=
  (List.dropWhile_sublist _).length_le

/-- The payload written for an integer. -/
def mpintPayload (v : Bytes) : Bytes :=
  match stripZeros v with
  | [] => []
  | b :: bs => if 0x80 ≤ b then 0 :: b :: bs else b :: bs

theorem mpintPayload_length_le (v : Bytes) : (mpintPayload v).length ≤ (stripZeros v).length + 1 := by
  unfold mpintPayload
  split
  · simp
  · rename_i h; rw [h]; split <;> simp

theorem u8_and_80 : ∀ b : UInt8, (b &&& 0x80 ≠ 0) ↔ 0x80 ≤ b := by
  intro b
  have h : ∀ n, n < 256 → ((UInt8.ofNat n &&& 0x80 ≠ 0) ↔ 0x80 ≤ UInt8.ofNat n) := by decide +kernel
  simpa using h b.toNat b.toNat_lt

theorem Writer.writeMpint_inner (w : Writer) (v : Bytes) :
    (w.writeMpint v).inner = w.inner ++ frame (mpintPayload v) := by
  unfold Writer.writeMpint mpintPayload
  rw [drop_leadingZeros]
  cases h : stripZeros v with
  | nil => simp
  | cons b bs => simp only [List.head?_cons, Option.getD_some, u8_and_80, Writer.writeBytes_inner]

theorem mpintPayload_spec (v : Bytes) :
    MpintPayload (mpintPayload v) ∧ natOf (mpintPayload v) = natOf v := by
  unfold mpintPayload
  have hs := stripZeros_shortest v
  have hn := natOf_stripZeros v
  cases h : stripZeros v with
  | nil => rw [h] at hn; exact ⟨.zero, hn⟩
  | cons b bs =>
    rw [h] at hs hn
    have hb : b ≠ 0 := by simpa [Shortest] using hs
    simp only
    split
    · rename_i h8
      exact ⟨.padded b bs h8, by rw [← hn]; simp [natOf]⟩
    · rename_i h8
      exact ⟨.plain b bs hb (UInt8.not_le.mp h8), hn⟩

/-- Bytes written by `write_mpint`. -/
def frameMpint (v : Bytes) : Bytes := frame (mpintPayload v)

theorem mpint_of {v : Bytes} (h : (mpintPayload v).length < 4294967296) :
    Mpint (stripZeros v) (frameMpint v) :=
  ⟨stripZeros_shortest v, mpintPayload v, Frame.of h, (mpintPayload_spec v).1, by
    rw [(mpintPayload_spec v).2, natOf_stripZeros]⟩

@[simp] theorem Writer.writeMpint_inner' (w : Writer) (v : Bytes) :
    (w.writeMpint v).inner = w.inner ++ frameMpint v := Writer.writeMpint_inner w v

/-- The encoding is determined by the value. -/
theorem mpint_eq {v w : Bytes} (h : Mpint v w) :
    w = frameMpint v ∧ Shortest v ∧ (mpintPayload v).length < 4294967296 := by
  obtain ⟨hs, p, hf, hp, hn⟩ := h
  have hv : Reader.mpintValue p = .ok v := Reader.mpintValue_ok.mpr ⟨hs, hp, hn⟩
  have hpv : p = mpintPayload v := by
    unfold mpintPayload
    rw [stripZeros_of_shortest hs]
    cases hp with
    | zero =>
      simp only [Reader.mpintValue, Res.ok.injEq] at hv
      subst hv; rfl
    | plain b bs h0 h1 =>
      have h2 : b ≤ 0x7f := by
        rw [UInt8.lt_iff_toNat_lt] at h1; rw [UInt8.le_iff_toNat_le]
        simp at h1 ⊢; omega
      have hv' : v = b :: bs := by
        cases bs <;> simp [Reader.mpintValue, h0, h2] at hv <;> exact hv.symm
      rw [hv']
      simp [UInt8.not_le.mpr h1]
    | padded b bs h =>
      simp only [Reader.mpintValue, UInt8.not_lt.mpr h, if_true, if_false, Res.ok.injEq] at hv
      subst hv
      simp [h]
  subst hpv
  exact ⟨hf.2, hs, hf.1⟩

theorem mpint_iff {v w : Bytes} :
    Mpint v w ↔ Shortest v ∧ (mpintPayload v).length < 4294967296 ∧ w = frameMpint v := by
  constructor
  · intro h; obtain ⟨a, b, c⟩ := mpint_eq h; exact ⟨b, c, a⟩
  · rintro ⟨a, b, rfl⟩
    have := mpint_of b
    rwa [stripZeros_of_shortest a] at this

/-! ## String lists -/

theorem le_sum_of_mem {x : Nat} {l : List Nat} (h : x ∈ l) : x ≤ l.sum := by
  induction l with
  | nil => simp at h
  | cons a l ih =>
    rw [List.sum_cons]
    rcases List.mem_cons.mp h with rfl | h
    · omega
    · have := ih h; omega

theorem strBytes_length (s : String) : (strBytes s).length = s.utf8ByteSize := by
  simp [strBytes]

theorem foldl_add (l : List Nat) (a : Nat) : l.foldl (· + ·) a = a + l.sum := by
  induction l generalizing a with
  | nil => simp
  | cons x l ih => simp [ih, Nat.add_assoc]

theorem foldl_writeString (vec : List String) (w : Writer) :
    (vec.foldl (fun w item => w.writeString item) w).inner = w.inner ++ vec.flatMap frameStr := by
  induction vec generalizing w with
  | nil => simp
  | cons s vec ih => simp [ih]

@[simp] theorem Writer.writeStringVec_inner (w : Writer) (vec : List String) :
    (w.writeStringVec vec).inner = w.inner ++ frame (vec.flatMap frameStr) := by
  unfold Writer.writeStringVec
  rw [foldl_writeString, Writer.writeU32_inner, u32_ofNat, foldl_add]
  have : vec.length * 4 + (vec.map fun x => (strBytes x).length).sum
      = (vec.flatMap frameStr).length := by
    induction vec with
    | nil => rfl
    | cons s vec ih =>
      simp only [List.length_cons, List.map_cons, List.sum_cons, List.flatMap_cons,
        List.length_append, frameStr_len, ← ih]
      omega
  rw [this, frame, List.append_assoc]

theorem texts_of {vec : List String} (h : ∀ s ∈ vec, (strBytes s).length < 4294967296) :
    Texts vec (vec.flatMap frameStr) := by
  induction vec with
  | nil => exact .nil
  | cons s vec ih =>
    exact .cons (Text.of (h s (by simp))) (ih fun x hx => h x (by simp [hx]))

theorem texts_eq {vec : List String} {w : Bytes} (h : Texts vec w) :
    w = vec.flatMap frameStr ∧ ∀ s ∈ vec, (strBytes s).length < 4294967296 := by
  induction h with
  | nil => simp
  | cons h _ ih =>
    obtain ⟨rfl, h2⟩ := ih
    refine ⟨by rw [h.eq]; rfl, ?_⟩
    intro s hs
    rcases List.mem_cons.mp hs with rfl | hs
    · exact h.lt
    · exact h2 s hs

/-! ## String maps -/

/-- The data part written for an option value. -/
def optionDataBytes (v : String) : Bytes := if (strBytes v).isEmpty then [] else frameStr v

/-- One written option. -/
def optionBytes (kv : String × String) : Bytes := frameStr kv.1 ++ frame (optionDataBytes kv.2)

theorem foldl_writeOption (map : StrMap) (w : Writer) :
    (map.foldl (fun w kv =>
      let w := w.writeString kv.1
      if (strBytes kv.2).isEmpty then w.writeU32 0
      else (w.writeU32 (UInt32.ofNat (strBytes kv.2).length + 4)).writeString kv.2) w).inner
      = w.inner ++ map.flatMap optionBytes := by
  induction map generalizing w with
  | nil => simp
  | cons kv map ih =>
    rw [List.foldl_cons, ih]
    by_cases h : (strBytes kv.2).isEmpty
    · simp [h, optionBytes, optionDataBytes, frame]
    · have e : u32 (UInt32.ofNat (strBytes kv.2).length + 4).toNat = u32 (frameStr kv.2).length := by
        rw [← u32_mod (frameStr kv.2).length, frameStr_len, UInt32.toNat_add]
        congr 1
        simp
        omega
      simp only [h, Bool.false_eq_true, if_false, Writer.writeString_inner, Writer.writeU32_inner, e,
        optionBytes, optionDataBytes, frame, List.flatMap_cons, List.append_assoc]

@[simp] theorem Writer.writeStringMap_inner (w : Writer) (map : StrMap) :
    (w.writeStringMap map).inner = w.inner ++ frame (map.flatMap optionBytes) := by
  unfold Writer.writeStringMap
  rw [foldl_writeOption, Writer.writeU32_inner, u32_ofNat, foldl_add]
  have : map.length * 8 + (map.map fun x => (strBytes x.1).length + (strBytes x.2).length +
      (if !(strBytes x.2).isEmpty then 4 else 0)).sum = (map.flatMap optionBytes).length := by
    induction map with
    | nil => rfl
    | cons kv map ih =>
      simp only [List.length_cons, List.map_cons, List.sum_cons, List.flatMap_cons,
        List.length_append, ← ih, optionBytes, frameStr_len, frame_len, optionDataBytes]
      by_cases h : (strBytes kv.2).isEmpty
      · have : (strBytes kv.2).length = 0 := by simpa [List.isEmpty_iff] using h
        simp [h, this]; omega
      · simp [h]; omega
  rw [this, frame, List.append_assoc]

theorem strBytes_eq_nil {s : String} : strBytes s = [] ↔ s = "" := by
  constructor
  · intro h; exact strBytes_inj (h.trans rfl)
  · rintro rfl; rfl

theorem optionData_of {v : String} (h : (strBytes v).length + 4 < 4294967296) :
    OptionData v (frame (optionDataBytes v)) := by
  by_cases hv : (strBytes v).isEmpty
  · have : v = "" := strBytes_eq_nil.mp (List.isEmpty_iff.mp hv)
    refine ⟨[], ?_, .inl ⟨rfl, this⟩⟩
    rw [optionDataBytes, if_pos hv]
    exact Frame.of (by simp)
  · refine ⟨frameStr v, ?_, .inr ⟨frameStr v, [], by simp, Text.of (by omega)⟩⟩
    rw [optionDataBytes, if_neg hv]
    exact Frame.of (by simp; omega)

theorem optionPairs_of {map : StrMap} (h : ∀ kv ∈ map, (strBytes kv.1).length < 4294967296 ∧
    (strBytes kv.2).length + 4 < 4294967296) : OptionPairs map (map.flatMap optionBytes) := by
  induction map with
  | nil => exact .nil
  | cons kv map ih =>
    obtain ⟨h1, h2⟩ := h kv (by simp)
    exact .cons (Text.of h1) (optionData_of h2) (ih fun x hx => h x (by simp [hx]))

end Ssh
