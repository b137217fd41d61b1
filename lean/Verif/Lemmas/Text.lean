import Verif.Model.Text
import Verif.Lemmas.Bytes

/-! # Base64 and whitespace splitting -/

namespace Ssh

theorem b64Val_char : ∀ n, n < 64 → b64Val (b64Char n) = some n := by decide +kernel

theorem b64Alphabet_length : b64Alphabet.length = 64 := by decide +kernel

theorem b64Val_some {c : Char} {n : Nat} (h : b64Val c = some n) : n < 64 ∧ b64Char n = c := by
  unfold b64Val at h
  have hlen := b64Alphabet_length
  unfold b64Char
  generalize b64Alphabet = l at *
  rw [List.findIdx?_eq_some_iff_getElem] at h
  obtain ⟨hl, he, _⟩ := h
  refine ⟨by omega, ?_⟩
  rw [List.getD_eq_getElem?_getD, List.getElem?_eq_getElem hl]
  simpa using he

theorem b64Char_props : ∀ n, n < 64 → isWs (b64Char n) = false ∧ b64Char n ≠ '=' ∧
    (b64Char n).toNat < 128 ∧ b64Char n ∈ b64Alphabet := by decide +kernel

theorem b64Char_ne_eq {n : Nat} (h : n < 64) : b64Char n ≠ '=' := (b64Char_props n h).2.1

theorem b64Val_eq_none : b64Val '=' = none := by decide +kernel

theorem u8_of_eq {a : UInt8} {n : Nat} (h : n % 256 = a.toNat) : UInt8.ofNat n = a := by
  rw [← UInt8.toNat_inj, u8_ofNat_toNat, h]

theorem b64Decode_encode (b : Bytes) : b64Decode (b64Encode b) = some b := by
  fun_induction b64Encode b with
  | case1 => rfl
  | case2 a n =>
    have ha := a.toNat_lt
    have h1 : n / 64 < 64 := by simp only [n]; omega
    have h2 : n % 64 < 64 := by omega
    simp only [b64Decode, if_true, b64Dec2, b64Val_char _ h1, b64Val_char _ h2, Option.bind_eq_bind,
      Option.bind_some]
    rw [if_pos (by simp only [n]; omega)]
    rw [u8_of_eq (a := a) (by simp only [n]; omega)]
  | case3 a b n =>
    have ha := a.toNat_lt
    have hb := b.toNat_lt
    have h1 : n / 4096 < 64 := by simp only [n]; omega
    have h2 : n / 64 % 64 < 64 := by omega
    have h3 : n % 64 < 64 := by omega
    simp only [b64Decode, if_true, b64Char_ne_eq h3, if_false, b64Dec3, b64Val_char _ h1,
      b64Val_char _ h2, b64Val_char _ h3, Option.bind_eq_bind, Option.bind_some]
    rw [if_pos (by simp only [n]; omega)]
    rw [u8_of_eq (a := a) (by simp only [n]; omega), u8_of_eq (a := b) (by simp only [n]; omega)]
  | case4 a b c rest n ih =>
    have ha := a.toNat_lt
    have hb := b.toNat_lt
    have hc := c.toNat_lt
    have h1 : n / 262144 < 64 := by simp only [n]; omega
    have h2 : n / 4096 % 64 < 64 := by omega
    have h3 : n / 64 % 64 < 64 := by omega
    have h4 : n % 64 < 64 := by omega
    have e1 : UInt8.ofNat ((((n / 262144 * 64 + n / 4096 % 64) * 64 + n / 64 % 64) * 64 + n % 64) / 65536) = a :=
      u8_of_eq (by simp only [n]; omega)
    have e2 : UInt8.ofNat ((((n / 262144 * 64 + n / 4096 % 64) * 64 + n / 64 % 64) * 64 + n % 64) / 256) = b :=
      u8_of_eq (by simp only [n]; omega)
    have e3 : UInt8.ofNat (((n / 262144 * 64 + n / 4096 % 64) * 64 + n / 64 % 64) * 64 + n % 64) = c :=
      u8_of_eq (by simp only [n]; omega)
    cases hr : b64Encode rest with
    | nil =>
      rw [hr] at ih
      simp only [b64Decode, Option.some.injEq] at ih
      subst ih
      simp only [b64Decode, b64Char_ne_eq h4, if_false, b64Val_char _ h1, b64Val_char _ h2,
        b64Val_char _ h3, b64Val_char _ h4, Option.bind_eq_bind, Option.bind_some, e1, e2, e3]
    | cons x xs =>
      rw [hr] at ih
      simp only [b64Decode, b64Val_char _ h1, b64Val_char _ h2, b64Val_char _ h3, b64Val_char _ h4,
        Option.bind_eq_bind, Option.bind_some, ih, e1, e2, e3]

theorem b64Encode_inj {a b : Bytes} (h : b64Encode a = b64Encode b) : a = b := by
  have := b64Decode_encode a
  rw [h, b64Decode_encode] at this
  exact (Option.some.inj this).symm

/-- Every character of an encoding. -/
theorem b64Encode_chars (b : Bytes) : ∀ c ∈ b64Encode b, c ∈ b64Alphabet ∨ c = '=' := by
  fun_induction b64Encode b with
  | case1 => simp
  | case2 a n =>
    have ha := a.toNat_lt
    have h1 : n / 64 < 64 := by simp only [n]; omega
    have h2 : n % 64 < 64 := by omega
    intro c hc
    simp only [List.mem_cons, List.not_mem_nil, or_false] at hc
    rcases hc with rfl | rfl | rfl | rfl
    · exact .inl (b64Char_props _ h1).2.2.2
    · exact .inl (b64Char_props _ h2).2.2.2
    · exact .inr rfl
    · exact .inr rfl
  | case3 a b n =>
    have ha := a.toNat_lt
    have hb := b.toNat_lt
    have h1 : n / 4096 < 64 := by simp only [n]; omega
    have h2 : n / 64 % 64 < 64 := by omega
    have h3 : n % 64 < 64 := by omega
    intro c hc
    simp only [List.mem_cons, List.not_mem_nil, or_false] at hc
    rcases hc with rfl | rfl | rfl | rfl
    · exact .inl (b64Char_props _ h1).2.2.2
    · exact .inl (b64Char_props _ h2).2.2.2
    · exact .inl (b64Char_props _ h3).2.2.2
    · exact .inr rfl
  | case4 a b c rest n ih =>
    have ha := a.toNat_lt
    have hb := b.toNat_lt
    have hc := c.toNat_lt
    have h1 : n / 262144 < 64 := by simp only [n]; omega
    have h2 : n / 4096 % 64 < 64 := by omega
    have h3 : n / 64 % 64 < 64 := by omega
    have h4 : n % 64 < 64 := by omega
    intro x hx
    simp only [List.mem_cons] at hx
    rcases hx with rfl | rfl | rfl | rfl | hx
    · exact .inl (b64Char_props _ h1).2.2.2
    · exact .inl (b64Char_props _ h2).2.2.2
    · exact .inl (b64Char_props _ h3).2.2.2
    · exact .inl (b64Char_props _ h4).2.2.2
    · exact ih x hx

theorem alphabet_props : ∀ c ∈ '=' :: b64Alphabet, isWs c = false ∧ c.toNat < 128 ∧ c ≠ '-' ∧ c ≠ '\n' ∧
    c ≠ '"' ∧ c ≠ '#' ∧ c ≠ ',' := by
  decide +kernel

theorem b64Encode_props (b : Bytes) : ∀ c ∈ b64Encode b, isWs c = false ∧ c.toNat < 128 ∧ c ≠ '-' ∧
    c ≠ '\n' ∧ c ≠ '"' ∧ c ≠ '#' ∧ c ≠ ',' := by
  intro c hc
  apply alphabet_props
  rcases b64Encode_chars b c hc with h | h
  · exact List.mem_cons_of_mem _ h
  · simp [h]

theorem b64Encode_length (b : Bytes) : (b64Encode b).length = (b.length + 2) / 3 * 4 := by
  fun_induction b64Encode b with
  | case1 => rfl
  | case2 => simp
  | case3 => simp
  | case4 a b c rest n ih => simp only [List.length_cons, ih]; omega

theorem b64Encode_ne_nil {b : Bytes} (h : b ≠ []) : b64Encode b ≠ [] := by
  intro h0
  have h1 := b64Encode_length b
  rw [h0, List.length_nil] at h1
  have : b.length ≠ 0 := fun e => h (List.length_eq_zero_iff.mp e)
  omega

theorem u8_toNat_ofNat_lt {n : Nat} (h : n < 256) : (UInt8.ofNat n).toNat = n := by
  rw [u8_ofNat_toNat]; omega

theorem b64Dec2_encode {a b : Char} {x : Bytes} (h : b64Dec2 a b = some x) :
    b64Encode x = [a, b, '=', '='] := by
  unfold b64Dec2 at h
  simp only [Option.bind_eq_bind, Option.bind_eq_some_iff] at h
  obtain ⟨i, hi, j, hj, h⟩ := h
  obtain ⟨hi1, rfl⟩ := b64Val_some hi
  obtain ⟨hj1, rfl⟩ := b64Val_some hj
  split at h
  · rename_i hm
    simp only [Option.some.injEq] at h
    subst h
    have e := u8_toNat_ofNat_lt (n := (i * 64 + j) / 16) (by omega)
    simp only [b64Encode, e]
    congr 2
    · omega
    · congr 1; omega
  · cases h

theorem b64Dec3_encode {a b c : Char} {x : Bytes} (h : b64Dec3 a b c = some x) :
    b64Encode x = [a, b, c, '='] := by
  unfold b64Dec3 at h
  simp only [Option.bind_eq_bind, Option.bind_eq_some_iff] at h
  obtain ⟨i, hi, j, hj, k, hk, h⟩ := h
  obtain ⟨hi1, rfl⟩ := b64Val_some hi
  obtain ⟨hj1, rfl⟩ := b64Val_some hj
  obtain ⟨hk1, rfl⟩ := b64Val_some hk
  split at h
  · rename_i hm
    simp only [Option.some.injEq] at h
    subst h
    have e1 := u8_toNat_ofNat_lt (n := ((i * 64 + j) * 64 + k) / 1024) (by omega)
    have e2 := u8_ofNat_toNat (((i * 64 + j) * 64 + k) / 4)
    simp only [b64Encode, e1, e2]
    congr 2
    · omega
    · congr 1; omega
    · congr 2; omega
  · cases h

theorem b64_group {i j k l : Nat} (hi : i < 64) (hj : j < 64) (hk : k < 64) (hl : l < 64)
    (rest : Bytes) :
    b64Encode (UInt8.ofNat ((((i * 64 + j) * 64 + k) * 64 + l) / 65536) ::
      UInt8.ofNat ((((i * 64 + j) * 64 + k) * 64 + l) / 256) ::
      UInt8.ofNat (((i * 64 + j) * 64 + k) * 64 + l) :: rest) =
    b64Char i :: b64Char j :: b64Char k :: b64Char l :: b64Encode rest := by
  generalize hn : ((i * 64 + j) * 64 + k) * 64 + l = n
  have e1 := u8_ofNat_toNat (n / 65536)
  have e2 := u8_ofNat_toNat (n / 256)
  have e3 := u8_ofNat_toNat n
  simp only [b64Encode, e1, e2, e3]
  congr 2
  · omega
  · congr 1; omega
  · congr 2
    · omega
    · congr 1; omega

/-- Decoding is injective on text whose length is a multiple of four. -/
theorem b64Encode_of_decode {s : List Char} {b : Bytes} (hl : s.length % 4 = 0)
    (h : b64Decode s = some b) : b64Encode b = s := by
  fun_induction b64Decode s generalizing b with
  | case1 => simp at h; subst h; rfl
  | case2 => cases h
  | case3 => simp at hl
  | case4 => simp at hl
  | case5 => simp at hl
  | case6 => rw [b64Dec2_encode h]
  | case7 => rw [b64Dec3_encode h]
  | case8 a b' c d hd =>
    simp only [Option.bind_eq_bind, Option.bind_eq_some_iff, Option.some.injEq] at h
    obtain ⟨i, hi, j, hj, k, hk, l, hl', h⟩ := h
    obtain ⟨hi1, rfl⟩ := b64Val_some hi
    obtain ⟨hj1, rfl⟩ := b64Val_some hj
    obtain ⟨hk1, rfl⟩ := b64Val_some hk
    obtain ⟨hl1, rfl⟩ := b64Val_some hl'
    subst h
    rw [b64_group hi1 hj1 hk1 hl1]; rfl
  | case9 a b' c d rest hne ih =>
    simp only [Option.bind_eq_bind, Option.bind_eq_some_iff, Option.some.injEq] at h
    obtain ⟨i, hi, j, hj, k, hk, l, hl', tl, htl, h⟩ := h
    obtain ⟨hi1, rfl⟩ := b64Val_some hi
    obtain ⟨hj1, rfl⟩ := b64Val_some hj
    obtain ⟨hk1, rfl⟩ := b64Val_some hk
    obtain ⟨hl1, rfl⟩ := b64Val_some hl'
    subst h
    rw [b64_group hi1 hj1 hk1 hl1, ih (by simp at *; omega) htl]

/-! ## Whitespace splitting -/

theorem splitOn_ne_nil (p : Char → Bool) (s : List Char) : splitOn p s ≠ [] := by
  cases s with
  | nil => simp [splitOn]
  | cons c cs =>
    simp only [splitOn]
    split
    · simp
    · split <;> simp

theorem splitOn_word (p : Char → Bool) {w : List Char} (hw : ∀ c ∈ w, p c = false) :
    splitOn p w = [w] := by
  induction w with
  | nil => rfl
  | cons c w ih =>
    simp only [splitOn, hw c (by simp), Bool.false_eq_true, if_false,
      ih fun x hx => hw x (by simp [hx])]

theorem splitOn_word_sep (p : Char → Bool) {w : List Char} (hw : ∀ c ∈ w, p c = false) {c : Char}
    (hc : p c = true) (s : List Char) : splitOn p (w ++ c :: s) = w :: splitOn p s := by
  induction w with
  | nil => simp [splitOn, hc]
  | cons x w ih =>
    simp only [List.cons_append, splitOn, hw x (by simp), Bool.false_eq_true, if_false,
      ih fun y hy => hw y (by simp [hy])]

theorem splitWhitespace_word {w : List Char} (hne : w ≠ []) (hw : ∀ c ∈ w, isWs c = false) :
    splitWhitespace w = [w] := by
  unfold splitWhitespace
  rw [splitOn_word isWs hw]
  simp [hne]

theorem splitWhitespace_cons {w : List Char} (hne : w ≠ []) (hw : ∀ c ∈ w, isWs c = false) {c : Char}
    (hc : isWs c = true) (s : List Char) :
    splitWhitespace (w ++ c :: s) = w :: splitWhitespace s := by
  unfold splitWhitespace
  rw [splitOn_word_sep isWs hw hc]
  simp [hne]

@[simp] theorem splitWhitespace_nil : splitWhitespace [] = [] := rfl

theorem splitWhitespace_ws {c : Char} (hc : isWs c = true) (s : List Char) :
    splitWhitespace (c :: s) = splitWhitespace s := by
  unfold splitWhitespace
  simp [splitOn, hc]

/-- The words are non-empty and free of whitespace. -/
theorem mem_splitOn {p : Char → Bool} {s w : List Char} (h : w ∈ splitOn p s) :
    ∀ c ∈ w, p c = false := by
  induction s generalizing w with
  | nil => simp [splitOn] at h; simp [h]
  | cons c cs ih =>
    simp only [splitOn] at h
    split at h
    · rcases List.mem_cons.mp h with rfl | h
      · simp
      · exact ih h
    · rename_i hc
      have hc : p c = false := by simpa using hc
      split at h
      · simp only [List.mem_singleton] at h
        subst h
        simpa using hc
      · rename_i x xs hx
        rcases List.mem_cons.mp h with rfl | h
        · intro y hy
          rcases List.mem_cons.mp hy with rfl | hy
          · exact hc
          · exact ih (by rw [hx]; simp) y hy
        · exact ih (by rw [hx]; simp [h])

theorem mem_splitWhitespace {s w : List Char} (h : w ∈ splitWhitespace s) :
    w ≠ [] ∧ ∀ c ∈ w, isWs c = false := by
  unfold splitWhitespace at h
  rw [List.mem_filter] at h
  refine ⟨?_, mem_splitOn h.1⟩
  rintro rfl
  simp at h

end Ssh
