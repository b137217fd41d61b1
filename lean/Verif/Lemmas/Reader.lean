import Verif.Lemmas.Parse

/-! # The primitives of the reader -/

namespace Ssh
namespace Reader

open Spec (natOf Frame u32 u64)

/-- `read_bytes` without the checked operations: none of them fails. -/
theorem readBytes_eq (r : Reader) : readBytes r =
    if r.offset ≥ r.inner.length then (.err .unexpectedEof, r)
    else if (r.inner.drop r.offset).length < 4 then (.err .invalidFormat, r)
    else if (r.inner.drop r.offset).length - 4 < natOf ((r.inner.drop r.offset).take 4) then
      (.err .invalidFormat, r)
    else (.ok (((r.inner.drop r.offset).drop 4).take (natOf ((r.inner.drop r.offset).take 4))),
      { r with offset := r.offset + (natOf ((r.inner.drop r.offset).take 4) + 4) }) := by
  unfold readBytes
  by_cases h1 : r.offset ≥ r.inner.length
  · simp [h1, commit]
  rw [if_neg h1, if_neg h1, sliceFrom_ok (by omega)]
  simp only [Res.ok_bind]
  generalize hsl : r.inner.drop r.offset = sl
  by_cases h2 : sl.length < 4
  · simp [h2, commit]
  rw [if_neg h2, if_neg h2, slice_ok (by omega) (by omega), subNat_ok (by omega)]
  simp only [Res.ok_bind, List.drop_zero, Nat.sub_zero, beNat_eq_natOf]
  by_cases h3 : sl.length - 4 < natOf (sl.take 4)
  · simp [h3, commit]
  rw [if_neg h3, if_neg h3, slice_ok (by omega) (by omega)]
  simp [commit]

theorem frame_ne_nil {b w : Bytes} (h : Frame b w) : w ≠ [] := by
  rw [h.2]; simp [u32]

theorem frame_length {b w : Bytes} (h : Frame b w) : w.length = 4 + b.length := by
  rw [h.2]; simp

/-- `read_bytes` accepts exactly framed byte strings. -/
theorem readBytes_parses : Parses readBytes Frame := by
  intro r v r'
  rw [readBytes_eq]
  generalize hsl : r.inner.drop r.offset = sl
  have hlen : sl.length = r.inner.length - r.offset := by rw [← hsl]; simp
  constructor
  · intro h
    split at h
    · simp at h
    split at h
    · simp at h
    split at h
    · simp at h
    simp only [Prod.mk.injEq, Res.ok.injEq] at h
    obtain ⟨rfl, rfl⟩ := h
    have hl4 : (sl.take 4).length = 4 := by simp; omega
    have hn := natOf_lt (sl.take 4)
    rw [hl4] at hn
    have hlv : ((sl.drop 4).take (natOf (sl.take 4))).length = natOf (sl.take 4) := by
      simp; omega
    refine ⟨sl.take 4 ++ (sl.drop 4).take (natOf (sl.take 4)), ⟨by omega, ?_⟩, ?_, ?_⟩
    · rw [hlv, u32_natOf hl4]
    · refine ⟨(sl.drop 4).drop (natOf (sl.take 4)), ?_⟩
      rw [hsl, List.append_assoc, List.take_append_drop, List.take_append_drop]
    · simp only [adv, List.length_append, hl4, hlv]
      congr 1
      omega
  · rintro ⟨w, ⟨hv, rfl⟩, ⟨rest, hat⟩, rfl⟩
    rw [hsl] at hat
    subst hat
    have h4 : (u32 v.length ++ v ++ rest).take 4 = u32 v.length := by
      rw [List.append_assoc]; exact List.take_left' (by simp)
    have hn : natOf (u32 v.length) = v.length := by
      rw [u32_eq, natOf_beBytes]; omega
    have hd : (u32 v.length ++ v ++ rest).drop 4 = v ++ rest := by
      rw [List.append_assoc]; exact List.drop_left' (by simp)
    simp only [List.length_append, u32_length] at hlen
    rw [if_neg (by omega), if_neg (by simp), h4, hn, if_neg (by simp), hd]
    simp [adv, Nat.add_comm]

theorem readBytes_noPanic (r : Reader) : (readBytes r).1 ≠ .panic := by
  rw [readBytes_eq]; split <;> (try split) <;> (try split) <;> simp

/-- On failure the cursor does not move. -/
theorem readBytes_err {r r' : Reader} {e : Err} (h : readBytes r = (.err e, r')) : r' = r := by
  rw [readBytes_eq] at h
  split at h
  · simp at h; exact h.2.symm
  split at h
  · simp at h; exact h.2.symm
  split at h
  · simp at h; exact h.2.symm
  · simp at h

theorem readRawBytes_eq (n : Nat) (r : Reader) : readRawBytes n r =
    if r.offset ≥ r.inner.length ∨ n > r.inner.length - r.offset then (.err .unexpectedEof, r)
    else (.ok ((r.inner.drop r.offset).take n), { r with offset := r.offset + n }) := by
  unfold readRawBytes
  by_cases h1 : r.offset ≥ r.inner.length
  · simp [h1, commit]
  rw [if_neg h1, subNat_ok (by omega)]
  simp only [Res.ok_bind]
  by_cases h2 : n > r.inner.length - r.offset
  · simp [h2, commit]
  rw [if_neg h2, sliceFrom_ok (by omega), if_neg (by omega)]
  simp only [Res.ok_bind]
  rw [slice_ok (by omega) (by simp; omega)]
  simp [commit]

/-- `read_raw_bytes(n)` with `n > 0`. -/
theorem readRawBytes_parses {n : Nat} (hn : 0 < n) :
    Parses (readRawBytes n) (fun v w => v = w ∧ w.length = n) := by
  intro r v r'
  rw [readRawBytes_eq]
  constructor
  · intro h
    split at h
    · simp at h
    simp only [Prod.mk.injEq, Res.ok.injEq] at h
    obtain ⟨rfl, rfl⟩ := h
    have hl : ((r.inner.drop r.offset).take n).length = n := by simp; omega
    exact ⟨_, ⟨rfl, hl⟩, ⟨_, (List.take_append_drop n _).symm⟩, by simp only [adv, hl]⟩
  · rintro ⟨w, ⟨rfl, hl⟩, ⟨rest, hat⟩, rfl⟩
    have := congrArg List.length hat
    simp only [List.length_drop, List.length_append] at this
    rw [if_neg (by omega), hat, ← hl]
    simp [adv]

theorem readRawBytes_noPanic (n : Nat) (r : Reader) : (readRawBytes n r).1 ≠ .panic := by
  rw [readRawBytes_eq]; split <;> simp

theorem readU32_eq (r : Reader) : readU32 r =
    if r.offset ≥ r.inner.length then (.err .unexpectedEof, r)
    else if (r.inner.drop r.offset).length < 4 then (.err .invalidFormat, r)
    else (.ok (UInt32.ofNat (natOf ((r.inner.drop r.offset).take 4))),
      { r with offset := r.offset + 4 }) := by
  unfold readU32
  by_cases h1 : r.offset ≥ r.inner.length
  · simp [h1, commit]
  rw [if_neg h1, if_neg h1, sliceFrom_ok (by omega)]
  simp only [Res.ok_bind]
  by_cases h2 : (r.inner.drop r.offset).length < 4
  · rw [if_pos h2, if_pos h2]; rfl
  rw [if_neg h2, if_neg h2, slice_ok (by omega) (by omega)]
  simp [commit, beNat_eq_natOf]

theorem readU64_eq (r : Reader) : readU64 r =
    if r.offset ≥ r.inner.length then (.err .unexpectedEof, r)
    else if (r.inner.drop r.offset).length < 8 then (.err .invalidFormat, r)
    else (.ok (UInt64.ofNat (natOf ((r.inner.drop r.offset).take 8))),
      { r with offset := r.offset + 8 }) := by
  unfold readU64
  by_cases h1 : r.offset ≥ r.inner.length
  · simp [h1, commit]
  rw [if_neg h1, if_neg h1, sliceFrom_ok (by omega)]
  simp only [Res.ok_bind]
  by_cases h2 : (r.inner.drop r.offset).length < 8
  · rw [if_pos h2, if_pos h2]; rfl
  rw [if_neg h2, if_neg h2, slice_ok (by omega) (by omega)]
  simp [commit, beNat_eq_natOf]

theorem readU32_noPanic (r : Reader) : (readU32 r).1 ≠ .panic := by
  rw [readU32_eq]; split <;> (try split) <;> simp

theorem readU64_noPanic (r : Reader) : (readU64 r).1 ≠ .panic := by
  rw [readU64_eq]; split <;> (try split) <;> simp

theorem readU32_parses : Parses readU32 (fun v w => w = u32 v.toNat) := by
  intro r v r'
  rw [readU32_eq]
  generalize hsl : r.inner.drop r.offset = sl
  have hlen : sl.length = r.inner.length - r.offset := by rw [← hsl]; simp
  constructor
  · intro h
    split at h
    · simp at h
    split at h
    · simp at h
    simp only [Prod.mk.injEq, Res.ok.injEq] at h
    obtain ⟨rfl, rfl⟩ := h
    have hl4 : (sl.take 4).length = 4 := by simp; omega
    have hn := natOf_lt (sl.take 4)
    rw [hl4] at hn
    refine ⟨sl.take 4, ?_, ⟨sl.drop 4, by rw [hsl, List.take_append_drop]⟩, by simp only [adv, hl4]⟩
    show _ = u32 _
    rw [UInt32.toNat_ofNat_of_lt' (by simpa using hn), u32_natOf hl4]
  · rintro ⟨w, rfl, ⟨rest, hat⟩, rfl⟩
    rw [hsl] at hat
    subst hat
    simp only [List.length_append, u32_length] at hlen
    rw [if_neg (by omega), if_neg (by simp), List.take_left' (by simp), u32_eq, natOf_beBytes]
    have := v.toNat_lt
    simp only [adv, beBytes_length, Prod.mk.injEq, Res.ok.injEq, and_true]
    rw [Nat.mod_eq_of_lt (by omega), UInt32.ofNat_toNat]

theorem readU64_parses : Parses readU64 (fun v w => w = u64 v.toNat) := by
  intro r v r'
  rw [readU64_eq]
  generalize hsl : r.inner.drop r.offset = sl
  have hlen : sl.length = r.inner.length - r.offset := by rw [← hsl]; simp
  constructor
  · intro h
    split at h
    · simp at h
    split at h
    · simp at h
    simp only [Prod.mk.injEq, Res.ok.injEq] at h
    obtain ⟨rfl, rfl⟩ := h
    have hl4 : (sl.take 8).length = 8 := by simp; omega
    have hn := natOf_lt (sl.take 8)
    rw [hl4] at hn
    refine ⟨sl.take 8, ?_, ⟨sl.drop 8, by rw [hsl, List.take_append_drop]⟩, by simp only [adv, hl4]⟩
    show _ = u64 _
    rw [UInt64.toNat_ofNat_of_lt' (by simpa using hn), u64_natOf hl4]
  · rintro ⟨w, rfl, ⟨rest, hat⟩, rfl⟩
    rw [hsl] at hat
    subst hat
    simp only [List.length_append, u64_length] at hlen
    rw [if_neg (by omega), if_neg (by simp), List.take_left' (by simp), u64_eq, natOf_beBytes]
    have := v.toNat_lt
    simp only [adv, beBytes_length, Prod.mk.injEq, Res.ok.injEq, and_true]
    rw [Nat.mod_eq_of_lt (by omega), UInt64.ofNat_toNat]

/-! ## Strings -/

theorem readString_parses : Parses readString Spec.Text := by
  unfold readString
  refine (Parses.bind (H := fun b s w => strBytes s = b ∧ w = []) readBytes_parses ?_).congr ?_
  · intro b
    cases h : fromUtf8 b with
    | none =>
      refine (Parses.err _).congr ?_
      intro v w
      simp only [false_iff]
      rintro ⟨hs, _⟩
      rw [fromUtf8_eq_some.mpr hs] at h
      cases h
    | some s =>
      refine (Parses.pure s).congr ?_
      intro v w
      rw [fromUtf8_eq_some] at h
      constructor
      · rintro ⟨rfl, rfl⟩; exact ⟨h, rfl⟩
      · rintro ⟨h', rfl⟩; exact ⟨strBytes_inj (h'.trans h.symm), rfl⟩
  · intro s w
    simp only [Spec.Text]
    constructor
    · rintro ⟨b, w1, w2, rfl, hf, hs, rfl⟩
      simpa [strBytes, ← hs] using hf
    · intro hf
      exact ⟨_, w, [], by simp, hf, rfl, rfl⟩

theorem readString_noPanic (r : Reader) : (readString r).1 ≠ .panic := by
  unfold readString
  intro h
  rw [Rd.bind_panic] at h
  rcases h with h | ⟨b, r', _, h⟩
  · exact readBytes_noPanic r h
  · cases hb : fromUtf8 b <;> rw [hb] at h <;> simp [Rd.pure_eq] at h

theorem text_ne_nil {s : String} {w : Bytes} (h : Spec.Text s w) : w ≠ [] := frame_ne_nil h

/-! ## mpints -/

/-- The value returned for a payload, and which payloads are accepted. -/
def mpintValue : Bytes → Res Bytes
  | [] => .ok []
  | [b] => if b = 0 then .err .invalidFormat else if b ≤ 0x7f then .ok [b] else .err .invalidFormat
  | b :: c :: bs =>
    if b = 0 then (if c < 0x80 then .err .invalidFormat else .ok (c :: bs))
    else if b ≤ 0x7f then .ok (b :: c :: bs) else .err .invalidFormat

theorem readPositiveMpint_eq :
    readPositiveMpint = readBytes >>= fun p => Rd.lift (mpintValue p) := by
  unfold readPositiveMpint
  congr 1
  funext p
  match p with
  | [] => rfl
  | [b] =>
    simp only [List.isEmpty_cons, Bool.false_eq_true, if_false, index, List.length_cons,
      List.length_nil, mpintValue]
    funext r
    rw [Rd.bind_of_ok (a := b) (r' := r) (by simp [Res.unwrap])]
    by_cases h : b = 0
    · simp [h]
    · simp only [h, if_false]
      by_cases h2 : b ≤ 0x7f
      · simp [h2, Rd.pure_eq]
      · simp [h2]
  | b :: c :: bs =>
    simp only [List.isEmpty_cons, Bool.false_eq_true, if_false, index, List.length_cons, mpintValue]
    funext r
    rw [Rd.bind_of_ok (a := b) (r' := r) (by simp [Res.unwrap])]
    by_cases h : b = 0
    · simp only [h, if_true]
      rw [if_neg (by omega), Rd.bind_of_ok (a := c) (r' := r) (by simp [Res.unwrap])]
      by_cases h2 : c < 0x80
      · simp [h2]
      · simp [h2, sliceFrom]
    · simp only [h, if_false]
      by_cases h2 : b ≤ 0x7f
      · simp [h2, Rd.pure_eq]
      · simp [h2]

open Spec in
theorem mpintValue_ok {p v : Bytes} :
    mpintValue p = .ok v ↔ Shortest v ∧ MpintPayload p ∧ natOf p = natOf v := by
  have key : ∀ {a b : Bytes}, Shortest a → Shortest b → natOf a = natOf b → a = b := by
    intro a b ha hb h
    have pos : ∀ {x : UInt8} {l : Bytes}, Shortest (x :: l) → 256 ^ l.length ≤ natOf (x :: l) := by
      intro x l hx
      have : x ≠ 0 := by simpa [Shortest] using hx
      have h1 : 1 ≤ x.toNat := by
        rcases Nat.eq_zero_or_pos x.toNat with h0 | h0
        · exact absurd (UInt8.toNat_inj.mp (by simpa using h0)) this
        · exact h0
      simp only [natOf]
      have := Nat.mul_le_mul_right (256 ^ l.length) h1
      omega
    have mono : ∀ {a b : Bytes}, Shortest b → a.length < b.length → natOf a < natOf b := by
      intro a b hb hl
      cases b with
      | nil => simp at hl
      | cons y m =>
        have h1 := pos hb
        have h2 := natOf_lt a
        have h3 : 256 ^ a.length ≤ 256 ^ m.length :=
          Nat.pow_le_pow_right (by omega) (by simp at hl; omega)
        omega
    apply natOf_inj _ h
    rcases Nat.lt_trichotomy a.length b.length with hl | hl | hl
    · have := mono hb hl; omega
    · exact hl
    · have := mono ha hl; omega
  constructor
  · intro h
    match p, h with
    | [], h =>
      simp only [mpintValue, Res.ok.injEq] at h; subst h
      exact ⟨by simp [Shortest], .zero, rfl⟩
    | [b], h =>
      simp only [mpintValue] at h
      split at h
      · cases h
      split at h
      · simp only [Res.ok.injEq] at h; subst h
        rename_i h0 h1
        refine ⟨by simpa [Shortest] using h0, .plain _ _ h0 ?_, rfl⟩
        rw [UInt8.lt_iff_toNat_lt]; rw [UInt8.le_iff_toNat_le] at h1
        simp at h1 ⊢; omega
      · cases h
    | b :: c :: bs, h =>
      simp only [mpintValue] at h
      split at h
      · rename_i h0; subst h0
        split at h
        · cases h
        · rename_i h1
          simp only [Res.ok.injEq] at h; subst h
          have h1 : 0x80 ≤ c := UInt8.not_lt.mp h1
          refine ⟨?_, .padded _ _ h1, by simp [natOf]⟩
          rw [UInt8.le_iff_toNat_le] at h1
          simp only [Shortest, List.head?_cons, ne_eq, Option.some.injEq]
          rintro rfl; simp at h1
      · split at h
        · simp only [Res.ok.injEq] at h; subst h
          rename_i h0 h1
          refine ⟨by simpa [Shortest] using h0, .plain _ _ h0 ?_, rfl⟩
          rw [UInt8.lt_iff_toNat_lt]; rw [UInt8.le_iff_toNat_le] at h1
          simp at h1 ⊢; omega
        · cases h
  · rintro ⟨hs, hp, hn⟩
    cases hp with
    | zero =>
      have := key (a := []) (by simp [Shortest]) hs hn
      subst this; rfl
    | plain b bs h0 h1 =>
      have := key (a := b :: bs) (by simpa [Shortest] using h0) hs hn
      subst this
      have h2 : b ≤ 0x7f := by
        rw [UInt8.lt_iff_toNat_lt] at h1; rw [UInt8.le_iff_toNat_le]
        simp at h1 ⊢; omega
      cases bs <;> simp [mpintValue, h0, h2]
    | padded b bs h =>
      have hb : b ≠ 0 := by rintro rfl; simp at h
      have hn' : natOf (b :: bs) = natOf v := by rw [← hn]; simp [natOf]
      have := key (a := b :: bs) (by simpa [Shortest] using hb) hs hn'
      subst this
      simp [mpintValue, UInt8.not_lt.mpr h]

theorem mpintValue_noPanic (p : Bytes) : mpintValue p ≠ .panic := by
  unfold mpintValue; split <;> (try split) <;> (try split) <;> simp

theorem readPositiveMpint_parses : Parses readPositiveMpint Spec.Mpint := by
  rw [readPositiveMpint_eq]
  refine (Parses.bind readBytes_parses (fun a => Parses.lift _)).congr ?_
  intro v w
  simp only [Spec.Mpint, mpintValue_ok]
  constructor
  · rintro ⟨p, w1, w2, rfl, hf, ⟨h1, h2, h3⟩, rfl⟩
    exact ⟨h1, p, by simpa using hf, h2, h3⟩
  · rintro ⟨h1, p, hf, h2, h3⟩
    exact ⟨p, w, [], by simp, hf, ⟨h1, h2, h3⟩, rfl⟩

theorem readPositiveMpint_noPanic (r : Reader) : (readPositiveMpint r).1 ≠ .panic := by
  rw [readPositiveMpint_eq]
  intro h
  rw [Rd.bind_panic] at h
  rcases h with h | ⟨b, r', _, h⟩
  · exact readBytes_noPanic r h
  · exact mpintValue_noPanic _ h

/-! ## NUL-terminated strings -/

theorem cstringLoop_ok {inner : Bytes} {o : Nat} {s : List Char} {v : String} {o' : Nat} :
    cstringLoop inner o s = .ok (v, o') ↔
      ∃ w, (∀ b ∈ w, b ≠ 0) ∧ (∃ rest, inner.drop o = w ++ 0 :: rest) ∧
        v = String.ofList (s ++ w.map fun b => Char.ofNat b.toNat) ∧ o' = o + w.length + 1 := by
  fun_induction cstringLoop inner o s with
  | case1 o s h chr hc =>
    have hd : inner.drop o = chr :: inner.drop (o + 1) := List.drop_eq_getElem_cons h
    constructor
    · intro e
      simp only [Res.ok.injEq, Prod.mk.injEq] at e
      exact ⟨[], by simp, ⟨_, by rw [hd, hc]; rfl⟩, by simp [e.1], by simp [e.2]⟩
    · rintro ⟨w, hw, ⟨rest, hr⟩, rfl, rfl⟩
      cases w with
      | nil => simp
      | cons x w =>
        exfalso
        rw [hd, hc] at hr
        simp only [List.cons_append, List.cons.injEq] at hr
        exact hw x (by simp) hr.1.symm
  | case2 o s h chr hc ih =>
    have hd : inner.drop o = chr :: inner.drop (o + 1) := List.drop_eq_getElem_cons h
    rw [ih]
    constructor
    · rintro ⟨w, hw, ⟨rest, hr⟩, rfl, rfl⟩
      refine ⟨chr :: w, ?_, ⟨rest, by rw [hd, hr]; rfl⟩, by simp, by simp; omega⟩
      intro b hb
      rcases List.mem_cons.mp hb with rfl | hb
      · exact hc
      · exact hw b hb
    · rintro ⟨w, hw, ⟨rest, hr⟩, rfl, rfl⟩
      rw [hd] at hr
      cases w with
      | nil =>
        simp only [List.nil_append, List.cons.injEq] at hr
        exact absurd hr.1 hc
      | cons x w =>
        simp only [List.cons_append, List.cons.injEq] at hr
        refine ⟨w, fun b hb => hw b (by simp [hb]), ⟨rest, hr.2⟩, by simp [hr.1], by simp; omega⟩
  | case3 o s h =>
    simp only [reduceCtorEq, false_iff]
    rintro ⟨w, _, ⟨rest, hr⟩, _⟩
    rw [List.drop_eq_nil_of_le (by omega)] at hr
    simp at hr

theorem cstringLoop_cases (inner : Bytes) (o : Nat) (s : List Char) :
    (∃ x, cstringLoop inner o s = .ok x) ∨ cstringLoop inner o s = .err .unexpectedEof := by
  fun_induction cstringLoop inner o s with
  | case1 => left; exact ⟨_, rfl⟩
  | case2 _ _ _ _ _ ih => exact ih
  | case3 => right; rfl

/-- The grammar of `read_cstring`. -/
def CStr (v : String) (w : Bytes) : Prop :=
  ∃ b : Bytes, (∀ x ∈ b, x ≠ 0) ∧ w = b ++ [0] ∧ v = String.ofList (b.map fun x => Char.ofNat x.toNat)

theorem readCstring_parses : Parses readCstring CStr := by
  intro r v r'
  unfold readCstring
  constructor
  · intro h
    rcases hc : cstringLoop r.inner r.offset [] with ⟨x, o⟩ | e | _
    · rw [hc] at h
      simp only [commit, Prod.mk.injEq, Res.ok.injEq] at h
      obtain ⟨rfl, rfl⟩ := h
      obtain ⟨w, hw, ⟨rest, hr⟩, rfl, rfl⟩ := cstringLoop_ok.mp hc
      exact ⟨w ++ [0], ⟨w, hw, rfl, by simp⟩, ⟨rest, by simp [hr]⟩, by simp [adv]; omega⟩
    · rw [hc] at h; simp [commit] at h
    · rw [hc] at h; simp [commit] at h
  · rintro ⟨_, ⟨b, hb, rfl, rfl⟩, ⟨rest, hat⟩, rfl⟩
    have := (cstringLoop_ok (inner := r.inner) (o := r.offset) (s := [])).mpr
      ⟨b, hb, ⟨rest, by simpa using hat⟩, rfl, rfl⟩
    rw [this]
    simp [commit, adv, Nat.add_assoc]

theorem readCstring_noPanic (r : Reader) : (readCstring r).1 ≠ .panic := by
  unfold readCstring
  rcases cstringLoop_cases r.inner r.offset [] with ⟨x, h⟩ | h <;> rw [h] <;> simp [commit]

end Reader
end Ssh
