import Verif.Model.Debug
import Verif.Spec.Debug
import Verif.Props.ErrorText

/-! # C142: the derived `Debug` discloses everything -/

namespace Ssh
open Spec

namespace Debug

/-- The characters that may follow a value. -/
def stops : List Char := [',', ']', ')', '}', ' ', ':']

/-- A text that begins with a character that may follow a value. -/
def Stop (s : List Char) : Prop := ∃ c r, s = c :: r ∧ c ∈ stops

/-- The first character of a text may follow a value. -/
def stopB : List Char → Bool
  | [] => false
  | c :: _ => stops.contains c

theorem stop_app {m : List Char} (h : stopB m = true) (s : List Char) : Stop (m ++ s) := by
  cases m with
  | nil => cases h
  | cons c r => exact ⟨c, r ++ s, rfl, List.contains_iff_mem.mp h⟩

/-- A value can be read off a text that goes on behind it. -/
def Det (f : α → List Char) : Prop := ∀ a b s t, Stop s → Stop t → f a ++ s = f b ++ t → a = b ∧ s = t

theorem Det.step {f : α → List Char} (hf : Det f) {lit m : List Char} (hm : stopB m = true) {a b : α} {s t : List Char}
    (h : lit ++ (f a ++ (m ++ s)) = lit ++ (f b ++ (m ++ t))) : a = b ∧ m ++ s = m ++ t :=
  hf _ _ _ _ (stop_app hm s) (stop_app hm t) (List.append_cancel_left h)

theorem mismatch (i : Nat) {l m s t : List Char} (h : l ++ s = m ++ t) (hl : i < l.length) (hm : i < m.length)
    (hne : l[i]? ≠ m[i]?) : False := by
  apply hne
  rw [← List.getElem?_append_left (l₂ := s) hl, h, List.getElem?_append_left hm]

theorem word_split : ∀ {v w s t : List Char}, (∀ c ∈ v, c ∉ stops) → (∀ c ∈ w, c ∉ stops) → Stop s → Stop t →
    v ++ s = w ++ t → v = w ∧ s = t := by
  intro v
  induction v with
  | nil =>
    intro w s t hv hw hs ht h
    cases w with
    | nil => exact ⟨rfl, h⟩
    | cons y w =>
      obtain ⟨c, r, rfl, hc⟩ := hs
      simp only [List.nil_append, List.cons_append, List.cons.injEq] at h
      exact absurd (h.1 ▸ hc) (hw y List.mem_cons_self)
  | cons x v ih =>
    intro w s t hv hw hs ht h
    cases w with
    | nil =>
      obtain ⟨c, r, rfl, hc⟩ := ht
      simp only [List.nil_append, List.cons_append, List.cons.injEq] at h
      exact absurd (h.1 ▸ hc) (hv x List.mem_cons_self)
    | cons y w =>
      simp only [List.cons_append, List.cons.injEq] at h
      obtain ⟨e, e'⟩ := ih (fun c hc => hv c (List.mem_cons_of_mem _ hc)) (fun c hc => hw c (List.mem_cons_of_mem _ hc)) hs ht h.2
      exact ⟨by rw [h.1, e], e'⟩

theorem Det.word {f : α → List Char} (hw : ∀ a, ∀ c ∈ f a, c ∉ stops) (inj : ∀ a b, f a = f b → a = b) : Det f := by
  intro a b s t hs ht h
  obtain ⟨e, e'⟩ := word_split (hw a) (hw b) hs ht h
  exact ⟨inj a b e, e'⟩

theorem digit_no_stop {c : Char} (h : c.isDigit = true) : c ∉ stops := by
  intro hc
  have : ∀ c ∈ stops, c.isDigit = false := by decide
  rw [this c hc] at h
  cases h

theorem nat_det : Det nat :=
  Det.word (fun a c hc => digit_no_stop (nat_text_digit a c hc)) (fun _ _ h => nat_text_inj h)

theorem byte_det : Det byte :=
  Det.word (fun a c hc => digit_no_stop (nat_text_digit a.toNat c hc)) (fun _ _ h => UInt8.toNat_inj.mp (nat_text_inj h))

theorem u32_det : Det fun x : UInt32 => nat x.toNat :=
  Det.word (fun a c hc => digit_no_stop (nat_text_digit a.toNat c hc)) (fun _ _ h => UInt32.toNat_inj.mp (nat_text_inj h))

theorem u64_det : Det fun x : UInt64 => nat x.toNat :=
  Det.word (fun a c hc => digit_no_stop (nat_text_digit a.toNat c hc)) (fun _ _ h => UInt64.toNat_inj.mp (nat_text_inj h))

theorem int_det : Det int := by
  refine Det.word (fun a c hc => ?_) (fun _ _ h => int_text_inj h)
  rcases int_chars a c hc with rfl | h
  · decide
  · exact digit_no_stop h

theorem bool_det : Det bool := Det.word (by decide) (by decide)

theorem keyTypeKind_det : Det keyTypeKind :=
  Det.word (fun a => by cases a <;> decide) (fun a b => by cases a <;> cases b <;> decide)

theorem curveKind_det : Det curveKind :=
  Det.word (fun a => by cases a <;> decide) (fun a b => by cases a <;> cases b <;> decide)

theorem certType_det : Det certType :=
  Det.word (fun a => by cases a <;> decide) (fun a b => by cases a <;> cases b <;> decide)

/-! ## Strings -/

/-- The value of a hexadecimal digit. -/
def hexOf (c : Char) : Nat := if c.toNat < 97 then c.toNat - 48 else c.toNat - 87

/-- The number written in hexadecimal. -/
def ofHex (l : List Char) : Nat := l.foldl (fun n c => n * 16 + hexOf c) 0

theorem ofHex_toDigits (n : Nat) : ofHex (Nat.toDigits 16 n) = n ∧ '}' ∉ Nat.toDigits 16 n := by
  induction n using Nat.strongRecOn with
  | ind n ih =>
    have hd : ∀ d : Fin 16, hexOf (Nat.digitChar d) = d ∧ Nat.digitChar d ≠ '}' := by decide
    by_cases h : n < 16
    · rw [Nat.toDigits_of_lt_base h]
      have := hd ⟨n, h⟩
      refine ⟨by simpa [ofHex] using this.1, fun hm => this.2 ?_⟩
      exact (List.mem_singleton.mp hm).symm
    · rw [Nat.toDigits_of_base_le (by decide) (by omega)]
      have h1 := ih (n / 16) (by omega)
      have h2 := hd ⟨n % 16, by omega⟩
      constructor
      · unfold ofHex at h1 ⊢
        rw [List.foldl_append, h1.1]
        simp only [List.foldl_cons, List.foldl_nil]
        rw [show hexOf (Nat.digitChar (n % 16)) = n % 16 from h2.1]
        omega
      · intro hm
        rcases List.mem_append.mp hm with hm | hm
        · exact h1.2 hm
        · exact h2.2 (List.mem_singleton.mp hm).symm

/-- Reads one character of a quoted text. -/
def unchar : List Char → Option (Char × List Char)
  | '\\' :: '0' :: r => some ('\x00', r)
  | '\\' :: 't' :: r => some ('\t', r)
  | '\\' :: 'r' :: r => some ('\r', r)
  | '\\' :: 'n' :: r => some ('\n', r)
  | '\\' :: '"' :: r => some ('"', r)
  | '\\' :: '\\' :: r => some ('\\', r)
  | '\\' :: 'u' :: '{' :: r => some (Char.ofNat (ofHex (r.takeWhile (· != '}'))), (r.dropWhile (· != '}')).tail)
  | '"' :: _ => none
  | c :: r => some (c, r)
  | [] => none

theorem takeWhile_brace {l s : List Char} (h : '}' ∉ l) :
    (l ++ '}' :: s).takeWhile (· != '}') = l ∧ (l ++ '}' :: s).dropWhile (· != '}') = '}' :: s := by
  induction l with
  | nil => simp
  | cons c l ih =>
    have hc : c ≠ '}' := fun e => h (e ▸ List.mem_cons_self)
    have := ih (fun hm => h (List.mem_cons_of_mem _ hm))
    simp [hc, this]

theorem unchar_char (hexed : Char → Bool) (c : Char) (s : List Char) : unchar (char hexed c ++ s) = some (c, s) := by
  unfold char
  split
  · subst c; rfl
  split
  · subst c; rfl
  split
  · subst c; rfl
  split
  · subst c; rfl
  split
  · subst c; rfl
  split
  · subst c; rfl
  split
  · obtain ⟨h1, h2⟩ := ofHex_toDigits c.toNat
    have h3 := takeWhile_brace (s := s) h2
    have e : ("\\u{".toList ++ Nat.toDigits 16 c.toNat ++ "}".toList) ++ s =
        '\\' :: 'u' :: '{' :: (Nat.toDigits 16 c.toNat ++ '}' :: s) := by
      rw [List.append_assoc, List.append_assoc]; rfl
    rw [e]
    show some (Char.ofNat (ofHex ((Nat.toDigits 16 c.toNat ++ '}' :: s).takeWhile (· != '}'))),
      ((Nat.toDigits 16 c.toNat ++ '}' :: s).dropWhile (· != '}')).tail) = _
    rw [h3.1, h3.2, h1, Char.ofNat_toNat]
    rfl
  · rename_i h1 h2 _
    show unchar (c :: s) = _
    unfold unchar
    split
    all_goals simp_all

theorem chars_det (hexed : Char → Bool) : ∀ (a b : List Char) (s t : List Char),
    a.flatMap (char hexed) ++ '"' :: s = b.flatMap (char hexed) ++ '"' :: t → a = b ∧ s = t := by
  intro a
  induction a with
  | nil =>
    intro b s t h
    cases b with
    | nil => simpa using h
    | cons y b =>
      rw [List.flatMap_cons, List.append_assoc] at h
      have := congrArg unchar h
      rw [unchar_char] at this
      cases this
  | cons x a ih =>
    intro b s t h
    cases b with
    | nil =>
      rw [List.flatMap_cons, List.append_assoc] at h
      have := congrArg unchar h
      rw [unchar_char] at this
      cases this
    | cons y b =>
      rw [List.flatMap_cons, List.append_assoc, List.flatMap_cons, List.append_assoc] at h
      have := congrArg unchar h
      rw [unchar_char, unchar_char] at this
      simp only [Option.some.injEq, Prod.mk.injEq] at this
      obtain ⟨e, e'⟩ := ih b s t this.2
      exact ⟨by rw [this.1, e], e'⟩

theorem str_det (hexed : Char → Bool) : Det (str hexed) := by
  intro a b s t _ _ h
  unfold str at h
  simp only [List.cons_append, List.append_assoc, List.cons.injEq, true_and, List.nil_append] at h
  obtain ⟨e, e'⟩ := chars_det hexed _ _ s t h
  exact ⟨String.toList_inj.mp e, e'⟩

/-! ## Lists, maps and options -/

/-- A value begins with a character that cannot follow a value. -/
def Starts (f : α → List Char) : Prop := ∀ a, ∃ c r, f a = c :: r ∧ c ∉ stops

theorem more_stop (f : α → List Char) (l : List α) {s : List Char} (hs : Stop s) : Stop (more f l ++ s) := by
  cases l with
  | nil => exact hs
  | cons x l => exact ⟨',', ' ' :: (f x ++ more f l ++ s), by simp [more], by decide⟩

theorem more_det {f : α → List Char} (hf : Det f) {e : Char} (he : e ∈ stops) (hc : e ≠ ',') : ∀ (a b : List α) (s t : List Char),
    more f a ++ e :: s = more f b ++ e :: t → a = b ∧ s = t := by
  intro a
  induction a with
  | nil =>
    intro b s t h
    cases b with
    | nil => simpa [more] using h
    | cons y b =>
      simp only [more, List.nil_append] at h
      have := congrArg List.head? h
      simp at this
      exact absurd this hc
  | cons x a ih =>
    intro b s t h
    cases b with
    | nil =>
      simp only [more, List.nil_append] at h
      have := congrArg List.head? h
      simp at this
      exact absurd this.symm hc
    | cons y b =>
      unfold more at h
      rw [List.append_assoc, List.append_assoc, List.append_assoc, List.append_assoc] at h
      obtain ⟨e1, h⟩ := hf _ _ _ _ (more_stop f a ⟨e, s, rfl, he⟩) (more_stop f b ⟨e, t, rfl, he⟩) (List.append_cancel_left h)
      obtain ⟨e2, e3⟩ := ih b s t h
      exact ⟨by rw [e1, e2], e3⟩

theorem entries_det {f : α → List Char} (hf : Det f) (h0 : Starts f) {e : Char} (he : e ∈ stops) (hc : e ≠ ',') (a b : List α)
    (s t : List Char) (h : entries f a ++ e :: s = entries f b ++ e :: t) : a = b ∧ s = t := by
  cases a with
  | nil =>
    cases b with
    | nil => simpa [entries] using h
    | cons y b =>
      obtain ⟨c, r, e1, hn⟩ := h0 y
      simp only [entries, e1, List.nil_append, List.cons_append, List.cons.injEq] at h
      exact absurd (h.1 ▸ he) hn
  | cons x a =>
    cases b with
    | nil =>
      obtain ⟨c, r, e1, hn⟩ := h0 x
      simp only [entries, e1, List.nil_append, List.cons_append, List.cons.injEq] at h
      exact absurd (h.1 ▸ he) hn
    | cons y b =>
      unfold entries at h
      rw [List.append_assoc, List.append_assoc] at h
      obtain ⟨e1, h⟩ := hf _ _ _ _ (more_stop f a ⟨e, s, rfl, he⟩) (more_stop f b ⟨e, t, rfl, he⟩) h
      obtain ⟨e2, e3⟩ := more_det hf he hc a b s t h
      exact ⟨by rw [e1, e2], e3⟩

theorem vec_det {f : α → List Char} (hf : Det f) (h0 : Starts f) : Det (vec f) := by
  intro a b s t _ _ h
  unfold vec at h
  rw [List.append_assoc, List.append_assoc, List.append_assoc, List.append_assoc] at h
  exact entries_det hf h0 (e := ']') (by decide) (by decide) a b s t (List.append_cancel_left h)

theorem byte_starts : Starts byte := by
  intro a
  cases h : byte a with
  | nil =>
    have : (Nat.toDigits 10 a.toNat) = [] := by rw [← Nat.toList_repr, ← Nat.toString_eq_repr]; exact h
    exact absurd this Nat.toDigits_ne_nil
  | cons c r => exact ⟨c, r, rfl, digit_no_stop (nat_text_digit a.toNat c (by unfold byte nat at h; rw [h]; exact List.mem_cons_self))⟩

theorem str_starts (hexed : Char → Bool) : Starts (str hexed) := fun _ => ⟨'"', _, rfl, by decide⟩

theorem bytes_det : Det bytes := vec_det byte_det byte_starts

theorem map_det (hexed : Char → Bool) : Det (map hexed) := by
  have hf : Det fun kv : String × String => str hexed kv.1 ++ ": ".toList ++ str hexed kv.2 := by
    intro a b s t hs ht h
    dsimp only at h
    simp only [List.append_assoc] at h
    obtain ⟨e1, h⟩ := (str_det hexed).step (lit := []) (m := ": ".toList) (by decide) h
    obtain ⟨e2, h⟩ := str_det hexed _ _ _ _ hs ht (List.append_cancel_left h)
    exact ⟨Prod.ext e1 e2, h⟩
  intro a b s t _ _ h
  unfold map at h
  rw [List.append_assoc, List.append_assoc, List.append_assoc, List.append_assoc] at h
  exact entries_det hf (fun _ => ⟨'"', _, rfl, by decide⟩) (e := '}') (by decide) (by decide) a b s t (List.append_cancel_left h)

theorem option_det {f : α → List Char} (hf : Det f) : Det (option f) := by
  intro a b s t _ _ h
  cases a with
  | none =>
    cases b with
    | none => exact ⟨rfl, List.append_cancel_left h⟩
    | some y =>
      simp only [option, List.append_assoc] at h
      exact (mismatch 0 h (by decide) (by decide) (by decide)).elim
  | some x =>
    cases b with
    | none =>
      simp only [option, List.append_assoc] at h
      exact (mismatch 0 h (by decide) (by decide) (by decide)).elim
    | some y =>
      simp only [option, List.append_assoc] at h
      obtain ⟨e, h⟩ := hf.step (m := ")".toList) (by decide) h
      exact ⟨by rw [e], List.append_cancel_left h⟩

/-! ## Keys and certificates -/

theorem keyType_det (hexed : Char → Bool) : Det (keyType hexed) := by
  rintro ⟨n1, p1, s1, c1, k1, d1⟩ ⟨n2, p2, s2, c2, k2, d2⟩ s t _ _ h
  unfold keyType at h; simp only [List.append_assoc] at h
  obtain ⟨e1, h1_⟩ := (str_det hexed).step (by decide) h
  obtain ⟨e2, h2_⟩ := (str_det hexed).step (by decide) h1_
  obtain ⟨e3, h3_⟩ := bool_det.step (by decide) h2_
  obtain ⟨e4, h4_⟩ := bool_det.step (by decide) h3_
  obtain ⟨e5, h5_⟩ := keyTypeKind_det.step (by decide) h4_
  obtain ⟨e6, h6_⟩ := (str_det hexed).step (by decide) h5_
  replace h := List.append_cancel_left h6_
  subst e1 e2 e3 e4 e5 e6
  exact ⟨rfl, h⟩

theorem curve_det (hexed : Char → Bool) : Det (curve hexed) := by
  rintro ⟨k1, i1⟩ ⟨k2, i2⟩ s t _ _ h
  unfold curve at h; simp only [List.append_assoc] at h
  obtain ⟨e1, h1_⟩ := curveKind_det.step (by decide) h
  obtain ⟨e2, h2_⟩ := (str_det hexed).step (by decide) h1_
  replace h := List.append_cancel_left h2_
  subst e1 e2
  exact ⟨rfl, h⟩

theorem publicKeyKind_det (hexed : Char → Bool) : Det (publicKeyKind hexed) := by
  intro a b s t _ _ h
  cases a with
  | rsa e n =>
    cases b with
    | rsa e' n' =>
      unfold publicKeyKind at h; simp only [List.append_assoc] at h
      obtain ⟨e1, h1_⟩ := bytes_det.step (by decide) h
      obtain ⟨e2, h2_⟩ := bytes_det.step (by decide) h1_
      replace h := List.append_cancel_left h2_
      subst e1 e2
      exact ⟨rfl, h⟩
    | ecdsa => unfold publicKeyKind at h; simp only [List.append_assoc] at h; exact (mismatch 1 h (by decide) (by decide) (by decide)).elim
    | ed25519 => unfold publicKeyKind at h; simp only [List.append_assoc] at h; exact (mismatch 1 h (by decide) (by decide) (by decide)).elim
  | ecdsa c key app =>
    cases b with
    | rsa => unfold publicKeyKind at h; simp only [List.append_assoc] at h; exact (mismatch 1 h (by decide) (by decide) (by decide)).elim
    | ecdsa c' key' app' =>
      unfold publicKeyKind at h; simp only [List.append_assoc] at h
      obtain ⟨e1, h1_⟩ := (curve_det hexed).step (by decide) h
      obtain ⟨e2, h2_⟩ := bytes_det.step (by decide) h1_
      obtain ⟨e3, h3_⟩ := (option_det (str_det hexed)).step (by decide) h2_
      replace h := List.append_cancel_left h3_
      subst e1 e2 e3
      exact ⟨rfl, h⟩
    | ed25519 => unfold publicKeyKind at h; simp only [List.append_assoc] at h; exact (mismatch 1 h (by decide) (by decide) (by decide)).elim
  | ed25519 key app =>
    cases b with
    | rsa => unfold publicKeyKind at h; simp only [List.append_assoc] at h; exact (mismatch 1 h (by decide) (by decide) (by decide)).elim
    | ecdsa => unfold publicKeyKind at h; simp only [List.append_assoc] at h; exact (mismatch 1 h (by decide) (by decide) (by decide)).elim
    | ed25519 key' app' =>
      unfold publicKeyKind at h; simp only [List.append_assoc] at h
      obtain ⟨e1, h1_⟩ := bytes_det.step (by decide) h
      obtain ⟨e2, h2_⟩ := (option_det (str_det hexed)).step (by decide) h1_
      replace h := List.append_cancel_left h2_
      subst e1 e2
      exact ⟨rfl, h⟩

theorem publicKey_det (hexed : Char → Bool) : Det (publicKey hexed) := by
  rintro ⟨t1, k1, c1⟩ ⟨t2, k2, c2⟩ s t _ _ h
  unfold publicKey at h; simp only [List.append_assoc] at h
  obtain ⟨e1, h1_⟩ := (keyType_det hexed).step (by decide) h
  obtain ⟨e2, h2_⟩ := (publicKeyKind_det hexed).step (by decide) h1_
  obtain ⟨e3, h3_⟩ := (option_det (str_det hexed)).step (by decide) h2_
  replace h := List.append_cancel_left h3_
  subst e1 e2 e3
  exact ⟨rfl, h⟩

theorem rsaPrivateKey_det : Det rsaPrivateKey := by
  rintro ⟨n, e, d, c, p, q, x, y⟩ ⟨n', e', d', c', p', q', x', y'⟩ s t _ _ h
  unfold rsaPrivateKey at h; simp only [List.append_assoc] at h
  obtain ⟨e1, h1_⟩ := bytes_det.step (by decide) h
  obtain ⟨e2, h2_⟩ := bytes_det.step (by decide) h1_
  obtain ⟨e3, h3_⟩ := bytes_det.step (by decide) h2_
  obtain ⟨e4, h4_⟩ := bytes_det.step (by decide) h3_
  obtain ⟨e5, h5_⟩ := bytes_det.step (by decide) h4_
  obtain ⟨e6, h6_⟩ := bytes_det.step (by decide) h5_
  obtain ⟨e7, h7_⟩ := (option_det bytes_det).step (by decide) h6_
  obtain ⟨e8, h8_⟩ := (option_det bytes_det).step (by decide) h7_
  replace h := List.append_cancel_left h8_
  subst e1 e2 e3 e4 e5 e6 e7 e8
  exact ⟨rfl, h⟩

theorem skPrivateKey_det (hexed : Char → Bool) : Det (skPrivateKey hexed) := by
  rintro ⟨f, h1, r, p, d⟩ ⟨f', h1', r', p', d'⟩ s t _ _ h
  unfold skPrivateKey at h; simp only [List.append_assoc] at h
  obtain ⟨e1, h1_⟩ := byte_det.step (by decide) h
  obtain ⟨e2, h2_⟩ := bytes_det.step (by decide) h1_
  obtain ⟨e3, h3_⟩ := bytes_det.step (by decide) h2_
  obtain ⟨e4, h4_⟩ := (option_det (str_det hexed)).step (by decide) h3_
  obtain ⟨e5, h5_⟩ := (option_det (str_det hexed)).step (by decide) h4_
  replace h := List.append_cancel_left h5_
  subst e1 e2 e3 e4 e5
  exact ⟨rfl, h⟩

theorem privateKeyKind_det (hexed : Char → Bool) : Det (privateKeyKind hexed) := by
  intro a b s t _ _ h
  cases a <;> cases b <;> unfold privateKeyKind at h <;> dsimp only at h <;> simp only [List.append_assoc] at h
  case rsa.rsa =>
    obtain ⟨e1, h1_⟩ := rsaPrivateKey_det.step (by decide) h
    replace h := List.append_cancel_left h1_
    subst e1
    exact ⟨rfl, h⟩
  case ecdsa.ecdsa =>
    obtain ⟨e1, h1_⟩ := (curve_det hexed).step (by decide) h
    obtain ⟨e2, h2_⟩ := bytes_det.step (by decide) h1_
    replace h := List.append_cancel_left h2_
    subst e1 e2
    exact ⟨rfl, h⟩
  case ecdsaSk.ecdsaSk =>
    obtain ⟨e1, h1_⟩ := (skPrivateKey_det hexed).step (by decide) h
    replace h := List.append_cancel_left h1_
    subst e1
    exact ⟨rfl, h⟩
  case ed25519.ed25519 =>
    obtain ⟨e1, h1_⟩ := bytes_det.step (by decide) h
    replace h := List.append_cancel_left h1_
    subst e1
    exact ⟨rfl, h⟩
  case ed25519Sk.ed25519Sk =>
    obtain ⟨e1, h1_⟩ := (skPrivateKey_det hexed).step (by decide) h
    replace h := List.append_cancel_left h1_
    subst e1
    exact ⟨rfl, h⟩
  all_goals first
    | exact (mismatch 1 h (by decide) (by decide) (by decide)).elim
    | exact (mismatch 5 h (by decide) (by decide) (by decide)).elim
    | exact (mismatch 7 h (by decide) (by decide) (by decide)).elim

theorem privateKey_det (hexed : Char → Bool) : Det (privateKey hexed) := by
  rintro ⟨t1, k1, p1, m1, c1⟩ ⟨t2, k2, p2, m2, c2⟩ s t _ _ h
  unfold privateKey at h; simp only [List.append_assoc] at h
  obtain ⟨e1, h1_⟩ := (keyType_det hexed).step (by decide) h
  obtain ⟨e2, h2_⟩ := (privateKeyKind_det hexed).step (by decide) h1_
  obtain ⟨e3, h3_⟩ := (publicKey_det hexed).step (by decide) h2_
  obtain ⟨e4, h4_⟩ := u32_det.step (by decide) h3_
  obtain ⟨e5, h5_⟩ := (str_det hexed).step (by decide) h4_
  replace h := List.append_cancel_left h5_
  subst e1 e2 e3 e4 e5
  exact ⟨rfl, h⟩

theorem certificate_det (hexed : Char → Bool) : Det (certificate hexed) := by
  rintro ⟨a1, a2, a3, a4, a5, a6, a7, a8, a9, a10, a11, a12, a13, a14, a15, a16⟩
    ⟨b1, b2, b3, b4, b5, b6, b7, b8, b9, b10, b11, b12, b13, b14, b15, b16⟩ s t _ _ h
  unfold certificate at h; simp only [List.append_assoc] at h
  obtain ⟨e1, h1_⟩ := (keyType_det hexed).step (by decide) h
  obtain ⟨e2, h2_⟩ := bytes_det.step (by decide) h1_
  obtain ⟨e3, h3_⟩ := (publicKey_det hexed).step (by decide) h2_
  obtain ⟨e4, h4_⟩ := u64_det.step (by decide) h3_
  obtain ⟨e5, h5_⟩ := certType_det.step (by decide) h4_
  obtain ⟨e6, h6_⟩ := (str_det hexed).step (by decide) h5_
  obtain ⟨e7, h7_⟩ := (vec_det (str_det hexed) (str_starts hexed)).step (by decide) h6_
  obtain ⟨e8, h8_⟩ := u64_det.step (by decide) h7_
  obtain ⟨e9, h9_⟩ := u64_det.step (by decide) h8_
  obtain ⟨e10, h10_⟩ := (map_det hexed).step (by decide) h9_
  obtain ⟨e11, h11_⟩ := (map_det hexed).step (by decide) h10_
  obtain ⟨e12, h12_⟩ := bytes_det.step (by decide) h11_
  obtain ⟨e13, h13_⟩ := (publicKey_det hexed).step (by decide) h12_
  obtain ⟨e14, h14_⟩ := bytes_det.step (by decide) h13_
  obtain ⟨e15, h15_⟩ := (option_det (str_det hexed)).step (by decide) h14_
  obtain ⟨e16, h16_⟩ := bytes_det.step (by decide) h15_
  replace h := List.append_cancel_left h16_
  subst e1 e2 e3 e4 e5 e6 e7 e8 e9 e10 e11 e12 e13 e14 e15 e16
  exact ⟨rfl, h⟩

theorem Det.inj {f : α → List Char} (hf : Det f) {a b : α} (h : f a = f b) : a = b :=
  (hf a b [','] [','] ⟨_, _, rfl, by decide⟩ ⟨_, _, rfl, by decide⟩ (by rw [h])).1

theorem attestation_det : Det attestation := by
  rintro ⟨a1, a2, a3, a4, a5⟩ ⟨b1, b2, b3, b4, b5⟩ s t _ _ h
  unfold attestation at h; simp only [List.append_assoc] at h
  obtain ⟨e1, h1_⟩ := bytes_det.step (by decide) h
  obtain ⟨e2, h2_⟩ := bytes_det.step (by decide) h1_
  obtain ⟨e3, h3_⟩ := bytes_det.step (by decide) h2_
  obtain ⟨e4, h4_⟩ := bytes_det.step (by decide) h3_
  obtain ⟨e5, h5_⟩ := int_det.step (by decide) h4_
  replace h := List.append_cancel_left h5_
  subst e1 e2 e3 e4 e5
  exact ⟨rfl, h⟩

theorem bytes_eq (b : Bytes) : bytes b = byteText b := by
  have : ∀ (x : UInt8) (l : Bytes), byte x ++ more byte l =
      [',', ' '].intercalate ((x :: l).map fun x => (toString x.toNat).toList) := by
    intro x l
    induction l generalizing x with
    | nil => simp [more, List.intercalate, byte, nat]
    | cons y l ih =>
      have := ih y
      simp only [List.map_cons, List.intercalate_cons_cons] at this ⊢
      rw [← this]
      simp [more, byte, nat]
  unfold bytes vec byteText
  cases b with
  | nil => rfl
  | cons x l => rw [show entries byte (x :: l) = byte x ++ more byte l from rfl, this]; rfl

theorem _root_.Ssh.Spec.Within.mid (a b : List Char) (x : List Char) : Within x (a ++ (x ++ b)) := ⟨a, b, by simp⟩

theorem _root_.Ssh.Spec.Within.right {x l : List Char} (a : List Char) (h : Within x l) : Within x (a ++ l) := by
  obtain ⟨b, c, rfl⟩ := h
  exact ⟨a ++ b, c, by simp⟩

theorem _root_.Ssh.Spec.Within.left {x l : List Char} (a : List Char) (h : Within x l) : Within x (l ++ a) := by
  obtain ⟨b, c, rfl⟩ := h
  exact ⟨b, c ++ a, by simp⟩

end Debug

open Debug

theorem within_kind (hexed : Char → Bool) (k : PrivateKey) {x : List Char} (h : Within x (Debug.privateKeyKind hexed k.kind)) :
    Within x (Debug.privateKey hexed k) := by
  unfold Debug.privateKey
  simp only [List.append_assoc]
  exact .right _ (.right _ (.right _ (.left _ h)))

/-- C142: everything is shown: two private keys with the same debugging text are the same, secrets included. -/
theorem C142_private (hexed : Char → Bool) (a b : PrivateKey) (h : Debug.privateKey hexed a = Debug.privateKey hexed b) : a = b :=
  (privateKey_det hexed).inj h

/-- C142: each secret stands in the text, in decimal numbers. -/
theorem C142_secret (hexed : Char → Bool) (k : PrivateKey) (x : Bytes) (h : Secret k.kind x) :
    Within (byteText x) (Debug.privateKey hexed k) := by
  apply within_kind
  rw [← bytes_eq]
  generalize k.kind = kind at h
  have hsk : ∀ sk : SkPrivateKey, Within (Debug.bytes sk.handle) (Debug.skPrivateKey hexed sk) := by
    intro sk
    unfold Debug.skPrivateKey
    simp only [List.append_assoc]
    exact .right _ (.right _ (Within.mid _ _ _))
  have ho : ∀ y : Bytes, Within (Debug.bytes y) (Debug.option Debug.bytes (some y)) := by
    intro y
    unfold Debug.option
    simp only [List.append_assoc]
    exact Within.mid _ _ _
  cases h with
  | exponent k =>
    refine .left _ (.right _ ?_)
    unfold Debug.rsaPrivateKey
    simp only [List.append_assoc]
    exact .right _ (.right _ (.right _ (.right _ (Within.mid _ _ _))))
  | coefficient k =>
    refine .left _ (.right _ ?_)
    unfold Debug.rsaPrivateKey
    simp only [List.append_assoc]
    exact .right _ (.right _ (.right _ (.right _ (.right _ (.right _ (Within.mid _ _ _))))))
  | p k =>
    refine .left _ (.right _ ?_)
    unfold Debug.rsaPrivateKey
    simp only [List.append_assoc]
    exact .right _ (.right _ (.right _ (.right _ (.right _ (.right _ (.right _ (.right _ (Within.mid _ _ _))))))))
  | q k =>
    refine .left _ (.right _ ?_)
    unfold Debug.rsaPrivateKey
    simp only [List.append_assoc]
    exact .right _ (.right _ (.right _ (.right _ (.right _ (.right _ (.right _ (.right _ (.right _ (.right _ (Within.mid _ _ _))))))))))
  | exp k y hy =>
    refine .left _ (.right _ ?_)
    unfold Debug.rsaPrivateKey
    rw [hy]
    simp only [List.append_assoc]
    exact .right _ (.right _ (.right _ (.right _ (.right _ (.right _ (.right _ (.right _ (.right _ (.right _ (.right _ (.right _
      (.right _ (.left _ (ho _))))))))))))))
  | exq k y hy =>
    refine .left _ (.right _ ?_)
    unfold Debug.rsaPrivateKey
    rw [hy]
    exact .left _ (.right _ (ho _))
  | ecdsa c key => exact .left _ (.right _ ⟨[], [], by simp⟩)
  | ed25519 key => exact .left _ (.right _ ⟨[], [], by simp⟩)
  | ecdsaHandle sk => exact .left _ (.right _ (hsk sk))
  | ed25519Handle sk => exact .left _ (.right _ (hsk sk))

/-- C142: the PIN kept in a key stands in the text, between quotes. -/
theorem C142_pin (hexed : Char → Bool) (k : PrivateKey) (p : String) (h : Pin k.kind p)
    (hp : ∀ c ∈ p.toList, hexed c = false ∧ c ∉ ['\x00', '\t', '\r', '\n', '"', '\\']) :
    Within (['"'] ++ p.toList ++ ['"']) (Debug.privateKey hexed k) := by
  apply within_kind
  have e : ∀ l : List Char, (∀ c ∈ l, hexed c = false ∧ c ∉ ['\x00', '\t', '\r', '\n', '"', '\\']) →
      l.flatMap (Debug.char hexed) = l := by
    intro l
    induction l with
    | nil => intro _; rfl
    | cons c l ih =>
      intro hl
      have h1 := hl c List.mem_cons_self
      rw [List.flatMap_cons, ih (fun c hc => hl c (List.mem_cons_of_mem _ hc))]
      simp only [List.mem_cons, List.not_mem_nil, or_false, not_or] at h1
      unfold Debug.char
      simp [h1]
  have hsk : ∀ sk : SkPrivateKey, sk.pin = some p → Within (['"'] ++ p.toList ++ ['"']) (Debug.skPrivateKey hexed sk) := by
    intro sk hs
    unfold Debug.skPrivateKey
    rw [hs]
    have ho : Within (['"'] ++ p.toList ++ ['"']) (Debug.option (Debug.str hexed) (some p)) := by
      show Within _ ("Some(".toList ++ Debug.str hexed p ++ ")".toList)
      unfold Debug.str
      rw [e _ hp]
      exact ⟨"Some(".toList, ")".toList, by simp only [List.cons_append, List.nil_append]⟩
    simp only [List.append_assoc] at ho ⊢
    exact .right _ (.right _ (.right _ (.right _ (.right _ (.right _ (.right _ (.left _ ho)))))))
  generalize k.kind = kind at h
  cases h with
  | ecdsa sk _ hs => exact .left _ (.right _ (hsk sk hs))
  | ed25519 sk _ hs => exact .left _ (.right _ (hsk sk hs))

/-- C142: the same for the result of generating a hardware key, with the PIN given for it. -/
theorem C142_fido (hexed : Char → Bool) (a b : FidoSshKey) :
    (Debug.fidoSshKey hexed a = Debug.fidoSshKey hexed b → a = b) ∧
    Within (Debug.privateKey hexed a.privateKey) (Debug.fidoSshKey hexed a) := by
  constructor
  · intro h
    have h : Debug.fidoSshKey hexed a ++ [','] = Debug.fidoSshKey hexed b ++ [','] := by rw [h]
    unfold Debug.fidoSshKey at h
    simp only [List.append_assoc] at h
    obtain ⟨e1, h1⟩ := (privateKey_det hexed).step (by decide) h
    obtain ⟨e2, _⟩ := attestation_det.step (by decide) h1
    cases a
    cases b
    simp only at e1 e2
    rw [e1, e2]
  · unfold Debug.fidoSshKey
    simp only [List.append_assoc]
    exact Within.mid _ _ _

/-- C142: public keys and certificates are shown completely, too. -/
theorem C142_public (hexed : Char → Bool) :
    (∀ a b : PublicKey, Debug.publicKey hexed a = Debug.publicKey hexed b → a = b) ∧
    (∀ a b : Certificate, Debug.certificate hexed a = Debug.certificate hexed b → a = b) :=
  ⟨fun _ _ h => (publicKey_det hexed).inj h, fun _ _ h => (certificate_det hexed).inj h⟩

/-- C142: of a token only the serial number is shown, and all of it. -/
theorem C142_yubikey {σ τ : Type} (D : YkDev σ) (D' : YkDev τ) (conn conn' : Nat) :
    Debug.yubikey D conn = Debug.yubikey D' conn' ↔ D.serial conn = D'.serial conn' := by
  unfold Debug.yubikey
  constructor
  · intro h
    rw [List.append_assoc, List.append_assoc, List.append_cancel_left_eq, List.append_cancel_right_eq] at h
    exact UInt32.toNat_inj.mp (nat_text_inj h)
  · intro h
    rw [h]

/-- A key whose secret is 7, 200. -/
def debugKey : PrivateKey where
  keyType := ⟨"ssh-ed25519", "ssh-ed25519", "ED25519", false, false, .ed25519⟩
  kind := .ed25519 [7, 200]
  pubkey := ⟨⟨"ssh-ed25519", "ssh-ed25519", "ED25519", false, false, .ed25519⟩, .ed25519 [9] none, some "x\ny"⟩
  magic := 5
  comment := "me"

example : Debug.privateKey (fun _ => false) debugKey = ("PrivateKey { key_type: KeyType { name: \"ssh-ed25519\", " ++
    "short_name: \"ED25519\", is_cert: false, is_sk: false, kind: Ed25519, plain: \"ssh-ed25519\" }, " ++
    "kind: Ed25519(Ed25519PrivateKey { key: [7, 200] }), pubkey: PublicKey { key_type: KeyType { name: \"ssh-ed25519\", " ++
    "short_name: \"ED25519\", is_cert: false, is_sk: false, kind: Ed25519, plain: \"ssh-ed25519\" }, " ++
    "kind: Ed25519(Ed25519PublicKey { key: [9], sk_application: None }), comment: Some(\"x\\ny\") }, magic: 5, " ++
    "comment: \"me\" }").toList := by decide +kernel

example : Within "[7, 200]".toList (Debug.privateKey (fun _ => false) debugKey) :=
  C142_secret _ debugKey [7, 200] (.ed25519 _)

example : Within "\"1234\"".toList (Debug.privateKey (fun _ => false) { debugKey with
    kind := .ed25519Sk ⟨1, [3], [], some "1234", none⟩ }) :=
  C142_pin _ _ "1234" (.ed25519 _ _ rfl) (by decide)

example : Debug.privateKey (fun _ => true) debugKey ≠ Debug.privateKey (fun _ => true) { debugKey with kind := .ed25519 [7, 20, 0] } :=
  fun h => absurd (C142_private _ _ _ h) (by decide)

example : Debug.str (fun c => c == 'ü') "a\"ü" = "\"a\\\"\\u{fc}\"".toList := by decide

end Ssh
