import Verif.Lemmas.Text
import Verif.Lemmas.Armor
import Verif.Lemmas.Bytes
import Verif.Lemmas.AllowedFile
import Verif.Model.Files

/-! # Texts cut short -/

namespace Ssh

open Spec

/-! ### Bytes -/

theorem utf8_prefix : ∀ {p s : List Char} {r : Bytes}, p.flatMap String.utf8EncodeChar ++ r = s.flatMap String.utf8EncodeChar → p <+: s := by
  intro p
  induction p with
  | nil => intro s r _; exact List.nil_prefix
  | cons c p ih =>
    intro s r h
    cases s with
    | nil =>
      have hl := congrArg List.length h
      have hp := c.utf8Size_pos
      simp at hl
      omega
    | cons d s =>
      rw [List.flatMap_cons, List.flatMap_cons, List.append_assoc] at h
      have hcd : c = d := by
        have h' := congrArg (fun l : Bytes => ByteArray.utf8DecodeChar? l.toByteArray 0) h
        simpa [List.toByteArray_append, ByteArray.utf8DecodeChar?_utf8EncodeChar_append] using h'
      subst hcd
      exact List.cons_prefix_cons.mpr ⟨rfl, ih (List.append_cancel_left h)⟩

theorem strBytes_prefix {p s : String} (h : strBytes p <+: strBytes s) : p.toList <+: s.toList := by
  obtain ⟨r, h⟩ := h
  rw [strBytes_eq_flatMap, strBytes_eq_flatMap] at h
  exact utf8_prefix h

/-! ### Words -/

theorem ws_cases (s : List Char) : ∃ w r, s = w ++ r ∧ (∀ c ∈ w, isWs c = false) ∧ (r = [] ∨ ∃ c r', r = c :: r' ∧ isWs c = true) := by
  induction s with
  | nil => exact ⟨[], [], rfl, by simp, .inl rfl⟩
  | cons c s ih =>
    by_cases hc : isWs c = true
    · exact ⟨[], c :: s, rfl, by simp, .inr ⟨c, s, rfl, hc⟩⟩
    · obtain ⟨w, r, rfl, h1, h2⟩ := ih
      refine ⟨c :: w, r, rfl, ?_, h2⟩
      intro x hx
      rcases List.mem_cons.mp hx with rfl | hx
      · simpa using hc
      · exact h1 x hx

/-- The words of a text cut short are those of the text, the last one possibly cut short. -/
theorem splitWhitespace_prefix (x : List Char) : ∀ (n : Nat) (p : List Char), p.length ≤ n →
    splitWhitespace p = [] ∨ ∃ ini w w' tl, splitWhitespace p = ini ++ [w] ∧ splitWhitespace (p ++ x) = ini ++ w' :: tl ∧ w <+: w' := by
  intro n
  induction n with
  | zero =>
    intro p hp
    rw [List.length_eq_zero_iff.mp (Nat.le_zero.mp hp)]
    exact .inl rfl
  | succ n ih =>
    intro p hp
    obtain ⟨w, r, rfl, hw, hr⟩ := ws_cases p
    by_cases hne : w = []
    · subst hne
      rcases hr with rfl | ⟨c, r', rfl, hc⟩
      · exact .inl rfl
      · simp only [List.nil_append, List.cons_append, splitWhitespace_ws hc]
        exact ih r' (by simp at hp; omega)
    · rcases hr with rfl | ⟨c, r', rfl, hc⟩
      · right
        rw [List.append_nil, splitWhitespace_word hne hw]
        obtain ⟨w2, r2, rfl, hw2, hr2⟩ := ws_cases x
        have hw' : ∀ c ∈ w ++ w2, isWs c = false := by
          intro c hc
          rcases List.mem_append.mp hc with hc | hc
          · exact hw c hc
          · exact hw2 c hc
        have hne' : w ++ w2 ≠ [] := by simp [hne]
        rw [← List.append_assoc]
        rcases hr2 with rfl | ⟨c, r', rfl, hc⟩
        · rw [List.append_nil, splitWhitespace_word hne' hw']
          exact ⟨[], w, w ++ w2, [], rfl, rfl, List.prefix_append _ _⟩
        · rw [splitWhitespace_cons hne' hw' hc]
          exact ⟨[], w, w ++ w2, _, rfl, rfl, List.prefix_append _ _⟩
      · rw [List.append_assoc, List.cons_append, splitWhitespace_cons hne hw hc, splitWhitespace_cons hne hw hc]
        right
        rcases ih r' (by simp at hp; omega) with h | ⟨ini, a, a', tl, h1, h2, h3⟩
        · rw [h]
          exact ⟨[], w, w, splitWhitespace (r' ++ x), rfl, rfl, List.prefix_rfl⟩
        · rw [h1, h2]
          exact ⟨w :: ini, a, a', tl, rfl, rfl, h3⟩

/-- The first words of a text cut short. -/
theorem words_prefix {p x a b a' b' : List Char} {r r' : List (List Char)} (h : splitWhitespace p = a :: b :: r)
    (h' : splitWhitespace (p ++ x) = a' :: b' :: r') :
    a = a' ∧ b <+: b' ∧ ∀ c, r.head? = some c → b = b' ∧ ∃ c', r'.head? = some c' ∧ c <+: c' := by
  rcases splitWhitespace_prefix x _ p (Nat.le_refl _) with h0 | ⟨ini, w, w', tl, h1, h2, h3⟩
  · rw [h0] at h; cases h
  rw [h] at h1
  rw [h'] at h2
  cases ini with
  | nil => simp at h1
  | cons i ini =>
    simp only [List.cons_append, List.cons.injEq] at h1 h2
    obtain ⟨rfl, h1⟩ := h1
    obtain ⟨rfl, h2⟩ := h2
    refine ⟨rfl, ?_⟩
    cases ini with
    | nil =>
      simp only [List.nil_append, List.cons.injEq] at h1 h2
      obtain ⟨rfl, rfl⟩ := h1
      obtain ⟨rfl, rfl⟩ := h2
      exact ⟨h3, by simp⟩
    | cons j ini =>
      simp only [List.cons_append, List.cons.injEq] at h1 h2
      obtain ⟨rfl, rfl⟩ := h1
      obtain ⟨rfl, rfl⟩ := h2
      refine ⟨List.prefix_rfl, fun c hc => ⟨rfl, ?_⟩⟩
      cases ini with
      | nil =>
        simp only [List.nil_append, List.head?_cons, Option.some.injEq] at hc ⊢
        subst hc
        exact ⟨w', rfl, h3⟩
      | cons k ini =>
        simp only [List.cons_append, List.head?_cons, Option.some.injEq] at hc ⊢
        subst hc
        exact ⟨k, rfl, List.prefix_rfl⟩

/-! ### Base64 -/

theorem dec2_first {a b : Char} {x : Bytes} (h : b64Dec2 a b = some x) :
    ∃ i j, b64Val a = some i ∧ b64Val b = some j ∧ x = [UInt8.ofNat ((i * 64 + j) / 16)] := by
  unfold b64Dec2 at h
  cases ha : b64Val a with
  | none => rw [ha] at h; cases h
  | some i =>
    cases hb : b64Val b with
    | none => rw [ha, hb] at h; cases h
    | some j =>
      rw [ha, hb] at h
      simp only [Option.bind_eq_bind, Option.bind_some] at h
      split at h
      · cases h; exact ⟨i, j, rfl, rfl, rfl⟩
      · cases h

theorem dec3_first {a b c : Char} {x : Bytes} (h : b64Dec3 a b c = some x) :
    ∃ i j k, b64Val a = some i ∧ b64Val b = some j ∧ b64Val c = some k ∧
      x = [UInt8.ofNat ((i * 64 + j) / 16), UInt8.ofNat (((i * 64 + j) * 64 + k) / 4)] := by
  unfold b64Dec3 at h
  cases ha : b64Val a with
  | none => rw [ha] at h; cases h
  | some i =>
    cases hb : b64Val b with
    | none => rw [ha, hb] at h; cases h
    | some j =>
      cases hc : b64Val c with
      | none => rw [ha, hb, hc] at h; cases h
      | some k =>
        rw [ha, hb, hc] at h
        simp only [Option.bind_eq_bind, Option.bind_some] at h
        split at h
        · cases h
          have hk := (b64Val_some hc).1
          refine ⟨i, j, k, rfl, rfl, rfl, ?_⟩
          congr 2
          omega
        · cases h

theorem dec4_first {a b c d : Char} {r : List Char} {y : Bytes} (hr : r ≠ [] ∨ d ≠ '=') (h : b64Decode (a :: b :: c :: d :: r) = some y) :
    ∃ i j k l tl, b64Val a = some i ∧ b64Val b = some j ∧ b64Val c = some k ∧ b64Val d = some l ∧ b64Decode r = some tl ∧
      y = UInt8.ofNat ((i * 64 + j) / 16) :: UInt8.ofNat (((i * 64 + j) * 64 + k) / 4) :: UInt8.ofNat (((i * 64 + j) * 64 + k) * 64 + l) :: tl := by
  have key : (do
      let x ← b64Val a
      let y ← b64Val b
      let z ← b64Val c
      let t ← b64Val d
      let n := ((x * 64 + y) * 64 + z) * 64 + t
      let tl ← b64Decode r
      some (UInt8.ofNat (n / 65536) :: UInt8.ofNat (n / 256) :: UInt8.ofNat n :: tl)) = some y := by
    cases r with
    | nil =>
      have hd : d ≠ '=' := by simpa using hr
      rw [b64Decode, if_neg hd] at h
      exact h
    | cons e r => rw [b64Decode] at h; exact h; simp
  cases ha : b64Val a with
  | none => rw [ha] at key; cases key
  | some i =>
  cases hb : b64Val b with
  | none => rw [ha, hb] at key; cases key
  | some j =>
  cases hc : b64Val c with
  | none => rw [ha, hb, hc] at key; cases key
  | some k =>
  cases hd : b64Val d with
  | none => rw [ha, hb, hc, hd] at key; cases key
  | some l =>
  cases ht : b64Decode r with
  | none => rw [ha, hb, hc, hd, ht] at key; cases key
  | some tl =>
    rw [ha, hb, hc, hd, ht] at key
    simp only [Option.bind_eq_bind, Option.bind_some, Option.some.injEq] at key
    have hk := (b64Val_some hc).1
    have hl := (b64Val_some hd).1
    refine ⟨i, j, k, l, tl, rfl, rfl, rfl, rfl, rfl, ?_⟩
    rw [← key, show (((i * 64 + j) * 64 + k) * 64 + l) / 65536 = (i * 64 + j) / 16 by omega,
      show (((i * 64 + j) * 64 + k) * 64 + l) / 256 = ((i * 64 + j) * 64 + k) / 4 by omega]

theorem dec_first2 {a b : Char} {r : List Char} {y : Bytes} (h : b64Decode (a :: b :: r) = some y) :
    ∃ i j tl, b64Val a = some i ∧ b64Val b = some j ∧ y = UInt8.ofNat ((i * 64 + j) / 16) :: tl := by
  have of2 : b64Dec2 a b = some y → ∃ i j tl, b64Val a = some i ∧ b64Val b = some j ∧ y = UInt8.ofNat ((i * 64 + j) / 16) :: tl := by
    intro h
    obtain ⟨i, j, h1, h2, rfl⟩ := dec2_first h
    exact ⟨i, j, [], h1, h2, rfl⟩
  have of3 : ∀ {c}, b64Dec3 a b c = some y → ∃ i j tl, b64Val a = some i ∧ b64Val b = some j ∧ y = UInt8.ofNat ((i * 64 + j) / 16) :: tl := by
    intro c h
    obtain ⟨i, j, k, h1, h2, _, rfl⟩ := dec3_first h
    exact ⟨i, j, _, h1, h2, rfl⟩
  match r, h with
  | [], h => exact of2 h
  | [c], h =>
    rw [b64Decode] at h
    split at h
    · exact of2 h
    · exact of3 h
  | c :: d :: r, h =>
    by_cases hr : r ≠ [] ∨ d ≠ '='
    · obtain ⟨i, j, k, l, tl, h1, h2, _, _, _, rfl⟩ := dec4_first hr h
      exact ⟨i, j, _, h1, h2, rfl⟩
    · have h1 : r = [] := Classical.byContradiction fun hh => hr (.inl hh)
      have h2 : d = '=' := Classical.byContradiction fun hh => hr (.inr hh)
      subst h1 h2
      rw [b64Decode, if_pos rfl] at h
      split at h
      · exact of2 h
      · exact of3 h

theorem dec_first3 {a b c : Char} {r : List Char} {y : Bytes} (hc : c ≠ '=') (h : b64Decode (a :: b :: c :: r) = some y) :
    ∃ i j k tl, b64Val a = some i ∧ b64Val b = some j ∧ b64Val c = some k ∧
      y = UInt8.ofNat ((i * 64 + j) / 16) :: UInt8.ofNat (((i * 64 + j) * 64 + k) / 4) :: tl := by
  have of3 : b64Dec3 a b c = some y → ∃ i j k tl, b64Val a = some i ∧ b64Val b = some j ∧ b64Val c = some k ∧
      y = UInt8.ofNat ((i * 64 + j) / 16) :: UInt8.ofNat (((i * 64 + j) * 64 + k) / 4) :: tl := by
    intro h
    obtain ⟨i, j, k, h1, h2, h3, rfl⟩ := dec3_first h
    exact ⟨i, j, k, [], h1, h2, h3, rfl⟩
  match r, h with
  | [], h =>
    rw [b64Decode, if_neg hc] at h
    exact of3 h
  | d :: r, h =>
    by_cases hr : r ≠ [] ∨ d ≠ '='
    · obtain ⟨i, j, k, l, tl, h1, h2, h3, _, _, rfl⟩ := dec4_first hr h
      exact ⟨i, j, k, _, h1, h2, h3, rfl⟩
    · have h1 : r = [] := Classical.byContradiction fun hh => hr (.inl hh)
      have h2 : d = '=' := Classical.byContradiction fun hh => hr (.inr hh)
      subst h1 h2
      rw [b64Decode, if_pos rfl, if_neg hc] at h
      exact of3 h

/-- The bytes of base64 text cut short are the first bytes of the text. -/
theorem b64Decode_prefix : ∀ (n : Nat) {a b : List Char} {x y : Bytes}, a.length ≤ n → b64Decode a = some x →
    b64Decode (a ++ b) = some y → x <+: y := by
  intro n
  induction n with
  | zero =>
    intro a b x y hn h h'
    rw [List.length_eq_zero_iff.mp (Nat.le_zero.mp hn)] at h
    cases h
    exact List.nil_prefix
  | succ n ih =>
    intro a b x y hn h h'
    have of2 : ∀ {a b : Char} {x y : Bytes} {r}, b64Dec2 a b = some x → b64Decode (a :: b :: r) = some y → x <+: y := by
      intro a b x y r h h'
      obtain ⟨i, j, h1, h2, rfl⟩ := dec2_first h
      obtain ⟨i', j', tl, h1', h2', rfl⟩ := dec_first2 h'
      cases h1.symm.trans h1'
      cases h2.symm.trans h2'
      exact List.cons_prefix_cons.mpr ⟨rfl, List.nil_prefix⟩
    have of3 : ∀ {a b c : Char} {x y : Bytes} {r}, c ≠ '=' → b64Dec3 a b c = some x → b64Decode (a :: b :: c :: r) = some y → x <+: y := by
      intro a b c x y r hc h h'
      obtain ⟨i, j, k, h1, h2, h3, rfl⟩ := dec3_first h
      obtain ⟨i', j', k', tl, h1', h2', h3', rfl⟩ := dec_first3 hc h'
      cases h1.symm.trans h1'
      cases h2.symm.trans h2'
      cases h3.symm.trans h3'
      exact List.cons_prefix_cons.mpr ⟨rfl, List.cons_prefix_cons.mpr ⟨rfl, List.nil_prefix⟩⟩
    match a, h, h', hn with
    | [], h, _, _ => cases h; exact List.nil_prefix
    | [c], h, _, _ => cases h
    | [c, d], h, h', _ => exact of2 h h'
    | [c, d, e], h, h', _ =>
      rw [b64Decode] at h
      split at h
      · exact of2 h h'
      · exact of3 ‹_› h h'
    | c :: d :: e :: f :: r, h, h', hn =>
      by_cases hr : r ≠ [] ∨ f ≠ '='
      · obtain ⟨i, j, k, l, tl, h1, h2, h3, h4, h5, rfl⟩ := dec4_first hr h
        have hr' : r ++ b ≠ [] ∨ f ≠ '=' := by
          rcases hr with hr | hr
          · exact .inl (by simp [hr])
          · exact .inr hr
        obtain ⟨i', j', k', l', tl', h1', h2', h3', h4', h5', rfl⟩ := dec4_first hr' h'
        cases h1.symm.trans h1'
        cases h2.symm.trans h2'
        cases h3.symm.trans h3'
        cases h4.symm.trans h4'
        have := ih (by simp at hn; omega) h5 h5'
        exact List.cons_prefix_cons.mpr ⟨rfl, List.cons_prefix_cons.mpr ⟨rfl, List.cons_prefix_cons.mpr ⟨rfl, this⟩⟩⟩
      · have h1 : r = [] := Classical.byContradiction fun hh => hr (.inl hh)
        have h2 : f = '=' := Classical.byContradiction fun hh => hr (.inr hh)
        subst h1 h2
        rw [b64Decode, if_pos rfl] at h
        split at h
        · exact of2 h h'
        · exact of3 ‹_› h h'

/-- Only base64 symbols decode. -/
theorem b64Decode_chars : ∀ (n : Nat) {s : List Char} {x : Bytes}, s.length ≤ n → b64Decode s = some x → '-' ∉ s := by
  have hv : b64Val '-' = none := by decide +kernel
  have he : ('-' : Char) ≠ '=' := by decide
  intro n
  induction n with
  | zero =>
    intro s x hn _
    rw [List.length_eq_zero_iff.mp (Nat.le_zero.mp hn)]
    simp
  | succ n ih =>
    intro s x hn h
    match s, h, hn with
    | [], _, _ => simp
    | [c], h, _ => cases h
    | [c, d], h, _ =>
      obtain ⟨i, j, h1, h2, _⟩ := dec2_first h
      rintro hm
      simp only [List.mem_cons, List.not_mem_nil, or_false] at hm
      rcases hm with rfl | rfl <;> simp_all
    | [c, d, e], h, _ =>
      intro hm
      simp only [List.mem_cons, List.not_mem_nil, or_false] at hm
      by_cases hee : e = '='
      · obtain ⟨i, j, _, h1, h2, _⟩ := dec_first2 h
        rcases hm with rfl | rfl | rfl <;> simp_all
      · obtain ⟨i, j, k, _, h1, h2, h3, _⟩ := dec_first3 hee h
        rcases hm with rfl | rfl | rfl <;> simp_all
    | c :: d :: e :: f :: r, h, hn =>
      intro hm
      by_cases hr : r ≠ [] ∨ f ≠ '='
      · obtain ⟨i, j, k, l, tl, h1, h2, h3, h4, h5, _⟩ := dec4_first hr h
        have := ih (by simp at hn; omega) h5
        simp only [List.mem_cons] at hm
        rcases hm with rfl | rfl | rfl | rfl | hm <;> simp_all
      · have h1 : r = [] := Classical.byContradiction fun hh => hr (.inl hh)
        have h2 : f = '=' := Classical.byContradiction fun hh => hr (.inr hh)
        subst h1 h2
        simp only [List.mem_cons, List.not_mem_nil, or_false] at hm
        by_cases hee : e = '='
        · obtain ⟨i, j, _, h1, h2, _⟩ := dec_first2 h
          rcases hm with rfl | rfl | rfl | hm <;> simp_all
        · obtain ⟨i, j, k, _, h1, h2, h3, _⟩ := dec_first3 hee h
          rcases hm with rfl | rfl | rfl | hm <;> simp_all

/-! ### Lines -/

/-- The lines of a text cut short are those of the text, the last one possibly cut short (or with the CR of its end). -/
theorem lines_prefix (x : List Char) : ∀ (n : Nat) (p : List Char), p.length ≤ n →
    lines p = [] ∨ ∃ ini l l' tl, lines p = ini ++ [l] ∧ lines (p ++ x) = ini ++ l' :: tl ∧ (l <+: l' ∨ l = l' ++ ['\r']) := by
  intro n
  induction n with
  | zero =>
    intro p hp
    rw [List.length_eq_zero_iff.mp (Nat.le_zero.mp hp)]
    exact .inl rfl
  | succ n ih =>
    intro p hp
    rcases nl_cases p with hnl | ⟨l, r, rfl, hl⟩
    · by_cases hne : p = []
      · subst hne; exact .inl rfl
      right
      rw [lines_last hnl hne]
      rcases nl_cases x with hx | ⟨l2, r2, rfl, hl2⟩
      · rw [lines_last (by simp [hnl, hx]) (by simp [hne])]
        exact ⟨[], p, p ++ x, [], rfl, rfl, .inl (List.prefix_append _ _)⟩
      · rw [← List.append_assoc]
        have hm : '\n' ∉ p ++ l2 := by simp [hnl, hl2]
        by_cases hr : (p ++ l2).getLast? = some '\r'
        · obtain ⟨q, hq⟩ := List.getLast?_eq_some_iff.mp hr
          have hq' : '\n' ∉ q := by rw [hq] at hm; simp at hm; exact hm
          rw [hq, List.append_assoc, List.singleton_append, lines_crlf hq']
          refine ⟨[], p, q, lines r2, rfl, rfl, ?_⟩
          have hp : p <+: q ++ ['\r'] := ⟨l2, hq⟩
          rcases List.prefix_concat_iff.mp hp with h | h
          · exact .inr h
          · exact .inl h
        · rw [lines_cons hm hr]
          exact ⟨[], p, p ++ l2, _, rfl, rfl, .inl (List.prefix_append _ _)⟩
    · right
      have hlen : r.length ≤ n := by simp at hp; omega
      rw [List.append_assoc, List.cons_append]
      have go : ∀ l0, lines (l ++ '\n' :: r) = l0 :: lines r → lines (l ++ '\n' :: (r ++ x)) = l0 :: lines (r ++ x) →
          ∃ ini l' l'' tl, lines (l ++ '\n' :: r) = ini ++ [l'] ∧ lines (l ++ '\n' :: (r ++ x)) = ini ++ l'' :: tl ∧ (l' <+: l'' ∨ l' = l'' ++ ['\r']) := by
        intro l0 h1 h2
        rw [h1, h2]
        rcases ih r hlen with h | ⟨ini, a, a', tl, h3, h4, h5⟩
        · rw [h]
          exact ⟨[], l0, l0, _, rfl, rfl, .inl List.prefix_rfl⟩
        · rw [h3, h4]
          exact ⟨l0 :: ini, a, a', tl, rfl, rfl, h5⟩
      by_cases hr : l.getLast? = some '\r'
      · obtain ⟨q, rfl⟩ := List.getLast?_eq_some_iff.mp hr
        have hq' : '\n' ∉ q := by simp at hl; exact hl
        refine go q ?_ ?_ <;> rw [List.append_assoc, List.singleton_append, lines_crlf hq']
      · exact go l (lines_cons hl hr _) (lines_cons hl hr _)

/-- Armored text cut short holds the same bytes, if it is still complete. -/
theorem armor_prefix {header footer : String} {p x : List Char} {b b' : Bytes} (hf : '-' ∈ footer.toList) (hr : footer.toList.getLast? ≠ some '\r')
    (h : Armor header footer p b) (h' : Armor header footer (p ++ x) b') : b = b' := by
  obtain ⟨body, rest, h1, h2, h3⟩ := armor_lines.mp h
  obtain ⟨body', rest', h1', h2', h3'⟩ := armor_lines.mp h'
  have uniq : ∀ {u v u' v' : List (List Char)}, footer.toList ∉ u → footer.toList ∉ u' → u ++ footer.toList :: v = u' ++ footer.toList :: v' → u = u' := by
    intro u
    induction u with
    | nil =>
      intro v u' v' _ hu' he
      cases u' with
      | nil => rfl
      | cons a u' => simp only [List.nil_append, List.cons_append, List.cons.injEq] at he; exact absurd (he.1 ▸ List.mem_cons_self) hu'
    | cons a u ih =>
      intro v u' v' hu hu' he
      cases u' with
      | nil => simp only [List.nil_append, List.cons_append, List.cons.injEq] at he; exact absurd (he.1 ▸ List.mem_cons_self) hu
      | cons a' u' =>
        simp only [List.cons_append, List.cons.injEq] at he
        rw [he.1, ih (fun hh => hu (List.mem_cons_of_mem _ hh)) (fun hh => hu' (List.mem_cons_of_mem _ hh)) he.2]
  rcases lines_prefix x _ p (Nat.le_refl _) with h0 | ⟨ini, l, l', tl, e1, e2, e3⟩
  · rw [h0] at h1; cases h1
  rw [h1] at e1
  rw [h1'] at e2
  cases ini with
  | nil => simp at e1
  | cons i ini =>
    simp only [List.cons_append, List.cons.injEq] at e1 e2
    obtain ⟨rfl, e1⟩ := e1
    obtain ⟨_, e2⟩ := e2
    rcases List.eq_nil_or_concat rest with rfl | ⟨rest0, z, rfl⟩
    · -- the footer is the last line
      have hx := List.append_inj' e1 rfl
      obtain ⟨rfl, hx⟩ := hx
      cases hx
      rcases e3 with ⟨g, rfl⟩ | e3
      rotate_left
      · exact absurd (by rw [e3]; simp) hr
      by_cases hg : g = []
      · subst hg
        rw [List.append_nil] at e2
        have := uniq h2' h2 e2
        subst this
        exact Option.some.inj (h3.symm.trans h3')
      · exfalso
        have hne : footer.toList ≠ footer.toList ++ g := by
          intro hh
          exact hg (by simpa using hh)
        have hmem : footer.toList ++ g ∈ body' := by
          rw [← List.singleton_append (l := tl), ← List.append_assoc] at e2
          rcases List.append_eq_append_iff.mp e2 with ⟨as, ha, hb⟩ | ⟨as, ha, _⟩
          · cases as with
            | nil => rw [List.append_nil] at ha; rw [← ha]; simp
            | cons a as =>
              simp only [List.cons_append, List.cons.injEq] at hb
              have : footer.toList ∈ body ++ [footer.toList ++ g] := by rw [ha, ← hb.1]; simp
              rcases List.mem_append.mp this with hm | hm
              · exact absurd hm h2
              · exact absurd (List.mem_singleton.mp hm) hne
          · rw [ha]; simp
        refine b64Decode_chars _ (Nat.le_refl _) h3' (List.mem_flatten.mpr ⟨_, hmem, ?_⟩)
        simp [hf]
    · rw [List.concat_eq_append, ← List.cons_append, ← List.append_assoc] at e1
      obtain ⟨rfl, _⟩ := List.append_inj' e1 rfl
      rw [List.append_assoc, List.cons_append] at e2
      have := uniq h2' h2 e2
      subst this
      exact Option.some.inj (h3.symm.trans h3')

end Ssh
