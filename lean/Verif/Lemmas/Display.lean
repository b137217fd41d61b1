import Verif.Spec.Display
import Verif.Model.Display
import Verif.Lemmas.Cert
import Verif.Lemmas.Text

/-! # Lemmas about texts made of lines -/

namespace Ssh

open Spec

/-- The text made of lines. -/
def unlines (ls : List (List Char)) : List Char := ls.flatMap (· ++ ['\n'])

theorem line_inj {a b x y : List Char} (ha : '\n' ∉ a) (hb : '\n' ∉ b) (h : a ++ '\n' :: x = b ++ '\n' :: y) :
    a = b ∧ x = y := by
  induction a generalizing b with
  | nil =>
    cases b with
    | nil => simpa using h
    | cons c b => simp only [List.nil_append, List.cons_append, List.cons.injEq] at h; exact absurd h.1 (by rintro rfl; simp at hb)
  | cons c a ih =>
    cases b with
    | nil => simp only [List.nil_append, List.cons_append, List.cons.injEq] at h; exact absurd h.1 (by rintro rfl; simp at ha)
    | cons d b =>
      simp only [List.cons_append, List.cons.injEq] at h
      obtain ⟨h1, h2⟩ := ih (fun hm => ha (by simp [hm])) (fun hm => hb (by simp [hm])) h.2
      exact ⟨by rw [h.1, h1], h2⟩

/-- Lines are determined by the text they make. -/
theorem unlines_inj {l l' : List (List Char)} (h : ∀ x ∈ l, '\n' ∉ x) (h' : ∀ x ∈ l', '\n' ∉ x)
    (e : unlines l = unlines l') : l = l' := by
  induction l generalizing l' with
  | nil =>
    cases l' with
    | nil => rfl
    | cons b l' => simp [unlines] at e
  | cons a l ih =>
    cases l' with
    | nil => simp [unlines] at e
    | cons b l' =>
      simp only [unlines, List.flatMap_cons, List.append_assoc, List.singleton_append] at e
      obtain ⟨h1, h2⟩ := line_inj (h a (by simp)) (h' b (by simp)) e
      rw [h1, ih (fun x hx => h x (by simp [hx])) (fun x hx => h' x (by simp [hx])) h2]

/-- A word up to the first separator. -/
theorem word_inj {p : Char → Prop} {a b x y : List Char} {s t : Char} (ha : ∀ c ∈ a, ¬ p c) (hb : ∀ c ∈ b, ¬ p c)
    (hs : p s) (ht : p t) (h : a ++ s :: x = b ++ t :: y) : a = b ∧ s = t ∧ x = y := by
  induction a generalizing b with
  | nil =>
    cases b with
    | nil => simpa using h
    | cons c b =>
      simp only [List.nil_append, List.cons_append, List.cons.injEq] at h
      exact absurd hs (h.1 ▸ hb c (by simp))
  | cons c a ih =>
    cases b with
    | nil =>
      simp only [List.nil_append, List.cons_append, List.cons.injEq] at h
      exact absurd ht (h.1 ▸ ha c (by simp))
    | cons d b =>
      simp only [List.cons_append, List.cons.injEq] at h
      obtain ⟨h1, h2⟩ := ih (fun x hx => ha x (by simp [hx])) (fun x hx => hb x (by simp [hx])) h.2
      exact ⟨by rw [h.1, h1], h2⟩

/-- The indented lines of a section end at the next line that is not indented. -/
theorem section_inj {a b : List (List Char)} {s t : List Char} {x y : List (List Char)}
    (hs : s.head? ≠ some '\t') (ht : t.head? ≠ some '\t')
    (h : a.map ('\t' :: ·) ++ s :: x = b.map ('\t' :: ·) ++ t :: y) : a = b ∧ s = t ∧ x = y := by
  induction a generalizing b with
  | nil =>
    cases b with
    | nil => simpa using h
    | cons c b =>
      simp only [List.map_nil, List.nil_append, List.map_cons, List.cons_append, List.cons.injEq] at h
      exact absurd (by rw [h.1]; rfl) hs
  | cons c a ih =>
    cases b with
    | nil =>
      simp only [List.map_nil, List.nil_append, List.map_cons, List.cons_append, List.cons.injEq] at h
      exact absurd (by rw [← h.1]; rfl) ht
    | cons d b =>
      simp only [List.map_cons, List.cons_append, List.cons.injEq, true_and] at h
      obtain ⟨h1, h2⟩ := ih h.2
      exact ⟨by rw [h.1, h1], h2⟩

theorem map_tab_inj {a b : List (List Char)} (h : a.map ('\t' :: ·) = b.map ('\t' :: ·)) : a = b :=
  List.map_inj_right (fun x y e => by simpa using e) |>.mp h

theorem u64Display_inj {a b : UInt64} (h : u64Display a = u64Display b) : a = b := by
  unfold u64Display at h
  rw [Nat.toList_repr, Nat.toList_repr] at h
  have h' := congrArg (Nat.ofDigitChars 10 · 0) h
  simp only [Nat.ofDigitChars_ten_toDigits] at h'
  exact UInt64.toNat_inj.mp h'

theorem u64Display_digit {a : UInt64} {c : Char} (h : c ∈ u64Display a) : c.isDigit = true := by
  unfold u64Display at h
  rw [Nat.toList_repr] at h
  exact Nat.isDigit_of_mem_toDigits (by decide) (by decide) h

theorem u64Display_ne {a : UInt64} {c d : Char} (h : c ∈ u64Display a) (hd : d.isDigit = false) : c ≠ d := by
  rintro rfl
  rw [u64Display_digit h] at hd
  cases hd

namespace Certificate

/-- The validity line without its line break. -/
def validityLine (c : Certificate) : List Char :=
  if c.validBefore = 0xFFFFFFFFFFFFFFFF ∧ c.validAfter = 0 then "Valid: forever".toList
  else "Valid between: ".toList ++ u64Display c.validAfter ++ " and ".toList ++ u64Display c.validBefore

/-- The lines of a section. -/
def sectionLines (none some : List Char) (items : List (List Char)) : List (List Char) :=
  if items.isEmpty then [none] else some :: items.map ('\t' :: ·)

/-- What is shown of the critical options. -/
def criticalItems (c : Certificate) : List (List Char) := c.criticalOptions.map fun kv => kv.1.toList ++ ' ' :: kv.2.toList

/-- All lines of the alternate form. -/
def prettyLines (c : Certificate) (fk fc : Fingerprint) : List (List Char) :=
  ["Type: ".toList ++ c.keyType.display ++ ' ' :: c.certType.display,
   "Public Key: ".toList ++ c.keyType.shortName.toList ++ ' ' :: fk.kind.display.toList ++ ':' :: fk.hash,
   "Signing CA: ".toList ++ c.signatureKey.keyType.shortName.toList ++ ' ' :: fc.kind.display.toList ++ ':' :: fc.hash ++
      " (using ".toList ++ c.signatureKey.keyType.display ++ [')'],
   "Key ID: \"".toList ++ c.keyId.toList ++ ['"'],
   "Serial: ".toList ++ u64Display c.serial,
   c.validityLine] ++
  (sectionLines "Principals: (none)".toList "Principals".toList (c.principals.map (·.toList)) ++
   (sectionLines "Critical Options: (none)".toList "Critical Options:".toList c.criticalItems ++
    sectionLines "Extensions: (none)".toList "Extensions:".toList (c.extensions.map (·.1.toList))))

theorem unlines_section (n s : List Char) (items : List (List Char)) : unlines (sectionLines n s items) =
    if items.isEmpty then n ++ ['\n'] else s ++ '\n' :: items.flatMap fun x => '\t' :: x ++ ['\n'] := by
  unfold sectionLines
  cases items with
  | nil => simp [unlines]
  | cons a l => simp [unlines, List.flatMap_map]

theorem unlines_append (a b : List (List Char)) : unlines (a ++ b) = unlines a ++ unlines b := by
  simp only [unlines, List.flatMap_append]

theorem unlines_cons (a : List Char) (b : List (List Char)) : unlines (a :: b) = a ++ '\n' :: unlines b := by
  simp only [unlines, List.flatMap_cons, List.append_assoc, List.singleton_append]

theorem unlines_nil : unlines [] = [] := rfl

theorem prettyValidity_eq (c : Certificate) : c.prettyValidity = c.validityLine ++ ['\n'] := by
  have h : "Valid: forever\n".toList = "Valid: forever".toList ++ ['\n'] := by decide +kernel
  unfold prettyValidity validityLine
  split
  · exact h
  · rfl

theorem prettyPrincipals_eq (c : Certificate) : c.prettyPrincipals =
    unlines (sectionLines "Principals: (none)".toList "Principals".toList (c.principals.map (·.toList))) := by
  have h : "Principals: (none)\n".toList = "Principals: (none)".toList ++ ['\n'] := by decide +kernel
  have h' : "Principals\n".toList = "Principals".toList ++ ['\n'] := by decide +kernel
  rw [unlines_section, prettyPrincipals, h, h', List.flatMap_map]
  cases c.principals <;> simp only [List.map_nil, List.map_cons, List.isEmpty, if_true, Bool.false_eq_true, if_false,
    List.append_assoc, List.singleton_append]

theorem prettyCritical_eq (c : Certificate) : c.prettyCritical =
    unlines (sectionLines "Critical Options: (none)".toList "Critical Options:".toList c.criticalItems) := by
  have h : "Critical Options: (none)\n".toList = "Critical Options: (none)".toList ++ ['\n'] := by decide +kernel
  have h' : "Critical Options:\n".toList = "Critical Options:".toList ++ ['\n'] := by decide +kernel
  rw [unlines_section, prettyCritical, criticalItems, h, h', List.flatMap_map]
  cases c.criticalOptions <;> simp only [List.map_nil, List.map_cons, List.isEmpty, if_true, Bool.false_eq_true,
    if_false, List.append_assoc, List.cons_append, List.nil_append]

theorem prettyExtensions_eq (c : Certificate) : c.prettyExtensions =
    unlines (sectionLines "Extensions: (none)".toList "Extensions:".toList (c.extensions.map (·.1.toList))) := by
  have h : "Extensions: (none)\n".toList = "Extensions: (none)".toList ++ ['\n'] := by decide +kernel
  have h' : "Extensions:\n".toList = "Extensions:".toList ++ ['\n'] := by decide +kernel
  rw [unlines_section, prettyExtensions, h, h', List.flatMap_map]
  cases c.extensions <;> simp only [List.map_nil, List.map_cons, List.isEmpty, if_true, Bool.false_eq_true, if_false,
    List.append_assoc, List.singleton_append]

theorem displayAlternate_lines (C : Crypto) (c : Certificate) : c.displayAlternate C =
    (c.key.fingerprintWith C .sha256 >>= fun fk => c.signatureKey.fingerprintWith C .sha256 >>= fun fc =>
      .ok (unlines (c.prettyLines fk fc))) := by
  have h1 : ")\n".toList = [')', '\n'] := by decide +kernel
  have h2 : "\"\n".toList = ['"', '\n'] := by decide +kernel
  unfold displayAlternate
  cases c.key.fingerprintWith C .sha256 with
  | err e => simp only [Res.err_bind]
  | panic => simp only [Res.panic_bind]
  | ok fk =>
    cases c.signatureKey.fingerprintWith C .sha256 with
    | err e => simp only [Res.ok_bind, Res.err_bind]
    | panic => simp only [Res.ok_bind, Res.panic_bind]
    | ok fc =>
      simp only [Res.ok_bind, Res.pure_eq, Res.ok.injEq, prettyLines]
      rw [unlines_append, unlines_append, unlines_append, prettyValidity_eq, prettyPrincipals_eq, prettyCritical_eq,
        prettyExtensions_eq, h1, h2]
      simp only [unlines_cons, unlines_nil, List.append_assoc, List.cons_append, List.nil_append]

theorem displayAlternate_ok {C : Crypto} {c : Certificate} {t : List Char} (h : c.displayAlternate C = .ok t) :
    ∃ fk fc, c.key.fingerprintWith C .sha256 = .ok fk ∧ c.signatureKey.fingerprintWith C .sha256 = .ok fc ∧
      t = unlines (c.prettyLines fk fc) := by
  rw [displayAlternate_lines] at h
  cases hk : c.key.fingerprintWith C .sha256 with
  | err e => rw [hk, Res.err_bind] at h; cases h
  | panic => rw [hk, Res.panic_bind] at h; cases h
  | ok fk =>
    cases hc : c.signatureKey.fingerprintWith C .sha256 with
    | err e => rw [hk, hc, Res.ok_bind, Res.err_bind] at h; cases h
    | panic => rw [hk, hc, Res.ok_bind, Res.panic_bind] at h; cases h
    | ok fc =>
      rw [hk, hc, Res.ok_bind, Res.ok_bind, Res.ok.injEq] at h
      exact ⟨fk, fc, rfl, rfl, h.symm⟩

theorem fingerprint_chars {C : Crypto} {k : PublicKey} {f : Fingerprint} (h : k.fingerprintWith C .sha256 = .ok f) :
    f.kind = .sha256 ∧ ∀ x ∈ f.hash, x ≠ '\n' ∧ x ≠ ' ' := by
  unfold PublicKey.fingerprintWith at h
  cases he : k.encode with
  | err e => rw [he, Res.err_bind] at h; cases h
  | panic => rw [he, Res.panic_bind] at h; cases h
  | ok b =>
    rw [he, Res.ok_bind, Res.pure_eq, Res.ok.injEq] at h
    subst h
    refine ⟨rfl, fun x hx => ?_⟩
    have := b64Encode_props _ x (List.takeWhile_subset _ hx)
    refine ⟨this.2.2.2.1, ?_⟩
    rintro rfl
    exact absurd this.1 (by decide)

theorem table_texts : ∀ kt ∈ keyTypes, (∀ x ∈ kt.name.toList, x ≠ '\n' ∧ x ≠ ' ') ∧
    ∀ x ∈ kt.shortName.toList, x ≠ '\n' ∧ x ≠ ' ' := by decide +kernel

theorem section_oneLine {n s : List Char} {items : List (List Char)} (hn : '\n' ∉ n) (hs : '\n' ∉ s)
    (h : ∀ x ∈ items, '\n' ∉ x) : ∀ x ∈ sectionLines n s items, '\n' ∉ x := by
  intro x hx
  unfold sectionLines at hx
  split at hx
  · rw [List.mem_singleton.mp hx]; exact hn
  · rcases List.mem_cons.mp hx with rfl | hx
    · exact hs
    · obtain ⟨y, hy, rfl⟩ := List.mem_map.mp hx
      simp only [List.mem_cons, not_or]
      exact ⟨by decide, h y hy⟩

theorem prettyLines_oneLine {C : Crypto} {c : Certificate} {fk fc : Fingerprint}
    (h1 : c.key.fingerprintWith C .sha256 = .ok fk) (h2 : c.signatureKey.fingerprintWith C .sha256 = .ok fc)
    (hk : c.keyType ∈ keyTypes) (ha : c.signatureKey.keyType ∈ keyTypes) (ho : OneLiners c) :
    ∀ x ∈ c.prettyLines fk fc, '\n' ∉ x := by
  obtain ⟨o1, o2, o3, o4⟩ := ho
  obtain ⟨f1, f2⟩ := fingerprint_chars h1
  obtain ⟨g1, g2⟩ := fingerprint_chars h2
  obtain ⟨t1, t2⟩ := table_texts _ hk
  obtain ⟨u1, u2⟩ := table_texts _ ha
  have n1 : '\n' ∉ c.keyType.name.toList := fun h => (t1 _ h).1 rfl
  have n2 : '\n' ∉ c.keyType.shortName.toList := fun h => (t2 _ h).1 rfl
  have n3 : '\n' ∉ c.signatureKey.keyType.name.toList := fun h => (u1 _ h).1 rfl
  have n4 : '\n' ∉ c.signatureKey.keyType.shortName.toList := fun h => (u2 _ h).1 rfl
  have n5 : '\n' ∉ fk.hash := fun h => (f2 _ h).1 rfl
  have n6 : '\n' ∉ fc.hash := fun h => (g2 _ h).1 rfl
  have n7 : '\n' ∉ c.certType.display := by cases c.certType <;> decide +kernel
  have n8 : '\n' ∉ FingerprintKind.sha256.display.toList := by decide +kernel
  have n9 : ∀ n : UInt64, '\n' ∉ u64Display n := fun n h => u64Display_ne h (by decide) rfl
  have l1 : '\n' ∉ "Type: ".toList := by decide +kernel
  have l2 : '\n' ∉ "Public Key: ".toList := by decide +kernel
  have l3 : '\n' ∉ "Signing CA: ".toList := by decide +kernel
  have l4 : '\n' ∉ " (using ".toList := by decide +kernel
  have l5 : '\n' ∉ "Key ID: \"".toList := by decide +kernel
  have l6 : '\n' ∉ "Serial: ".toList := by decide +kernel
  have l7 : '\n' ∉ "Valid: forever".toList := by decide +kernel
  have l8 : '\n' ∉ "Valid between: ".toList := by decide +kernel
  have l9 : '\n' ∉ " and ".toList := by decide +kernel
  have d1 : '\n' ≠ ' ' := by decide
  have d2 : '\n' ≠ ':' := by decide
  have d3 : '\n' ≠ ')' := by decide
  have d4 : '\n' ≠ '"' := by decide
  intro x hx
  unfold prettyLines at hx
  rw [List.mem_append, List.mem_append, List.mem_append] at hx
  rcases hx with hx | hx | hx | hx
  · simp only [List.mem_cons, List.not_mem_nil, or_false] at hx
    rcases hx with rfl | rfl | rfl | rfl | rfl | rfl
    · simp only [KeyType.display, List.mem_append, List.mem_cons, not_or]
      exact ⟨⟨l1, n1⟩, d1, n7⟩
    · simp only [f1, List.mem_append, List.mem_cons, not_or]
      exact ⟨⟨⟨l2, n2⟩, d1, n8⟩, d2, n5⟩
    · simp only [g1, KeyType.display, List.mem_append, List.mem_cons, List.not_mem_nil, not_or]
      exact ⟨⟨⟨⟨⟨⟨l3, n4⟩, d1, n8⟩, d2, n6⟩, l4⟩, n3⟩, d3, not_false⟩
    · simp only [List.mem_append, List.mem_cons, List.not_mem_nil, not_or]
      exact ⟨⟨l5, o1⟩, d4, not_false⟩
    · simp only [List.mem_append, not_or]
      exact ⟨l6, n9 _⟩
    · unfold validityLine
      split
      · exact l7
      · simp only [List.mem_append, not_or]
        exact ⟨⟨⟨l8, n9 _⟩, l9⟩, n9 _⟩
  · refine section_oneLine (by decide +kernel) (by decide +kernel) (fun y hy => ?_) x hx
    obtain ⟨p, hp, rfl⟩ := List.mem_map.mp hy
    exact o2 p hp
  · refine section_oneLine (by decide +kernel) (by decide +kernel) (fun y hy => ?_) x hx
    obtain ⟨kv, hp, rfl⟩ := List.mem_map.mp hy
    simp only [List.mem_append, List.mem_cons, not_or]
    exact ⟨(o3 kv hp).1, d1, (o3 kv hp).2⟩
  · refine section_oneLine (by decide +kernel) (by decide +kernel) (fun y hy => ?_) x hx
    obtain ⟨kv, hp, rfl⟩ := List.mem_map.mp hy
    exact o4 kv hp

/-- A section ends where the next line is not indented. -/
theorem sectionLines_inj {n s : List Char} {a b : List (List Char)} {x y : List Char} {xs ys : List (List Char)}
    (hns : n ≠ s) (hx : x.head? ≠ some '\t') (hy : y.head? ≠ some '\t')
    (h : sectionLines n s a ++ x :: xs = sectionLines n s b ++ y :: ys) : a = b ∧ x :: xs = y :: ys := by
  unfold sectionLines at h
  cases a with
  | nil =>
    cases b with
    | nil => simpa using h
    | cons _ _ =>
      simp only [List.isEmpty_nil, List.isEmpty_cons, if_true, Bool.false_eq_true, if_false, List.cons_append,
        List.cons.injEq] at h
      exact absurd h.1 hns
  | cons a0 a =>
    cases b with
    | nil =>
      simp only [List.isEmpty_nil, List.isEmpty_cons, if_true, Bool.false_eq_true, if_false, List.cons_append,
        List.cons.injEq] at h
      exact absurd h.1.symm hns
    | cons b0 b =>
      simp only [List.isEmpty_cons, Bool.false_eq_true, if_false, List.cons_append, List.cons.injEq, true_and] at h
      obtain ⟨e1, e2, e3⟩ := section_inj hx hy h
      exact ⟨e1, by rw [e2, e3]⟩

theorem sectionLines_inj_last {n s : List Char} {a b : List (List Char)} (hns : n ≠ s)
    (h : sectionLines n s a = sectionLines n s b) : a = b := by
  have := congrArg (· ++ [[]]) h
  exact (sectionLines_inj hns (by simp) (by simp) this).1

/-- A section starts with one of two lines. -/
theorem sectionLines_head (n s : List Char) (a : List (List Char)) (rest : List (List Char)) :
    ∃ x xs, (x = n ∨ x = s) ∧ sectionLines n s a ++ rest = x :: xs := by
  unfold sectionLines
  split
  · exact ⟨n, rest, Or.inl rfl, rfl⟩
  · exact ⟨s, _, Or.inr rfl, rfl⟩

theorem validityLine_inj {c c' : Certificate} (h : c.validityLine = c'.validityLine) :
    c.validAfter = c'.validAfter ∧ c.validBefore = c'.validBefore := by
  have hne : ∀ x : List Char, "Valid: forever".toList ≠ "Valid between: ".toList ++ x := by
    intro x hx
    have h1 : "Valid: forever".toList = 'V' :: 'a' :: 'l' :: 'i' :: 'd' :: ':' :: " forever".toList := by decide +kernel
    have h2 : "Valid between: ".toList = 'V' :: 'a' :: 'l' :: 'i' :: 'd' :: ' ' :: "between: ".toList := by decide +kernel
    rw [h1, h2] at hx
    simp only [List.cons_append, List.cons.injEq, true_and] at hx
    exact absurd hx.1 (by decide)
  have hand : " and ".toList = ' ' :: "and ".toList := by decide +kernel
  unfold validityLine at h
  split at h <;> rename_i hc <;> split at h <;> rename_i hc'
  · exact ⟨hc.2.trans hc'.2.symm, hc.1.trans hc'.1.symm⟩
  · simp only [List.append_assoc] at h; exact absurd h (hne _)
  · simp only [List.append_assoc] at h; exact absurd h.symm (hne _)
  · simp only [List.append_assoc, List.append_cancel_left_eq, hand, List.cons_append] at h
    obtain ⟨e1, _, e2⟩ := word_inj (p := (· = ' ')) (fun x hx => u64Display_ne hx (by decide))
      (fun x hx => u64Display_ne hx (by decide)) rfl rfl h
    exact ⟨u64Display_inj e1, u64Display_inj ((List.append_cancel_left_eq _ _ _).mp e2)⟩

theorem prettyLines_inj {C : Crypto} {c c' : Certificate} {fk fc fk' fc' : Fingerprint}
    (h1 : c.key.fingerprintWith C .sha256 = .ok fk) (h1' : c'.key.fingerprintWith C .sha256 = .ok fk')
    (h2 : c.signatureKey.fingerprintWith C .sha256 = .ok fc) (h2' : c'.signatureKey.fingerprintWith C .sha256 = .ok fc')
    (hk : c.keyType ∈ keyTypes) (hk' : c'.keyType ∈ keyTypes)
    (ha : c.signatureKey.keyType ∈ keyTypes) (ha' : c'.signatureKey.keyType ∈ keyTypes)
    (h : c.prettyLines fk fc = c'.prettyLines fk' fc') :
    c.keyType = c'.keyType ∧ c.certType = c'.certType ∧ fk = fk' ∧ fc = fc' ∧
    c.signatureKey.keyType = c'.signatureKey.keyType ∧ c.keyId = c'.keyId ∧ c.serial = c'.serial ∧
    c.validAfter = c'.validAfter ∧ c.validBefore = c'.validBefore ∧ c.principals = c'.principals ∧
    c.criticalOptions.map (fun kv => kv.1 ++ " " ++ kv.2) = c'.criticalOptions.map (fun kv => kv.1 ++ " " ++ kv.2) ∧
    c.extensions.map (·.1) = c'.extensions.map (·.1) := by
  obtain ⟨f1, f2⟩ := fingerprint_chars h1
  obtain ⟨f1', f2'⟩ := fingerprint_chars h1'
  obtain ⟨g1, g2⟩ := fingerprint_chars h2
  obtain ⟨g1', g2'⟩ := fingerprint_chars h2'
  have husing : " (using ".toList = ' ' :: "(using ".toList := by decide +kernel
  unfold prettyLines at h
  simp only [List.cons_append, List.nil_append, List.cons.injEq] at h
  obtain ⟨l1, l2, l3, l4, l5, l6, l7⟩ := h
  -- type and role
  simp only [KeyType.display, List.append_assoc, List.append_cancel_left_eq] at l1
  obtain ⟨e1, _, e2⟩ := word_inj (p := (· = ' ')) (fun x hx => ((table_texts _ hk).1 x hx).2)
    (fun x hx => ((table_texts _ hk').1 x hx).2) rfl rfl l1
  have hkt : c.keyType = c'.keyType := table_name_inj _ hk _ hk' (String.toList_inj.mp e1)
  have hct : c.certType = c'.certType := by
    revert e2; cases c.certType <;> cases c'.certType <;> decide +kernel
  -- fingerprint of the key
  have hfk : fk.hash = fk'.hash := by
    rw [hkt, f1, f1'] at l2
    simpa only [List.append_assoc, List.cons_append, List.append_cancel_left_eq, List.cons.injEq, true_and] using l2
  -- the CA
  simp only [g1, g1', husing, KeyType.display, List.append_assoc, List.cons_append, List.append_cancel_left_eq] at l3
  obtain ⟨_, _, e4⟩ := word_inj (p := (· = ' ')) (fun x hx => ((table_texts _ ha).2 x hx).2)
    (fun x hx => ((table_texts _ ha').2 x hx).2) rfl rfl l3
  simp only [List.append_cancel_left_eq, List.cons.injEq, true_and] at e4
  obtain ⟨hfc, _, e5⟩ := word_inj (p := (· = ' ')) (fun x hx => (g2 x hx).2) (fun x hx => (g2' x hx).2) rfl rfl e4
  simp only [List.append_cancel_left_eq, List.append_cancel_right_eq] at e5
  have hca := table_name_inj _ ha _ ha' (String.toList_inj.mp e5)
  -- key id, serial, validity
  simp only [List.append_assoc, List.append_cancel_left_eq, List.append_cancel_right_eq] at l4
  simp only [List.append_cancel_left_eq] at l5
  obtain ⟨hva, hvb⟩ := validityLine_inj l6
  -- sections
  obtain ⟨x, xs, hx, ex⟩ := sectionLines_head "Critical Options: (none)".toList "Critical Options:".toList
    c.criticalItems (sectionLines "Extensions: (none)".toList "Extensions:".toList (c.extensions.map (·.1.toList)))
  obtain ⟨y, ys, hy, ey⟩ := sectionLines_head "Critical Options: (none)".toList "Critical Options:".toList
    c'.criticalItems (sectionLines "Extensions: (none)".toList "Extensions:".toList (c'.extensions.map (·.1.toList)))
  have t1 : "Critical Options: (none)".toList.head? ≠ some '\t' := by decide +kernel
  have t2 : "Critical Options:".toList.head? ≠ some '\t' := by decide +kernel
  have t3 : "Extensions: (none)".toList.head? ≠ some '\t' := by decide +kernel
  have t4 : "Extensions:".toList.head? ≠ some '\t' := by decide +kernel
  rw [ex, ey] at l7
  obtain ⟨hp, l8⟩ := sectionLines_inj (by decide +kernel) (by rcases hx with rfl | rfl <;> assumption)
    (by rcases hy with rfl | rfl <;> assumption) l7
  rw [← ex, ← ey] at l8
  obtain ⟨u, us, hu, eu⟩ := sectionLines_head "Extensions: (none)".toList "Extensions:".toList
    (c.extensions.map (·.1.toList)) []
  obtain ⟨v, vs, hv, ev⟩ := sectionLines_head "Extensions: (none)".toList "Extensions:".toList
    (c'.extensions.map (·.1.toList)) []
  rw [List.append_nil] at eu ev
  rw [eu, ev] at l8
  obtain ⟨hci, l9⟩ := sectionLines_inj (by decide +kernel) (by rcases hu with rfl | rfl <;> assumption)
    (by rcases hv with rfl | rfl <;> assumption) l8
  rw [← eu, ← ev] at l9
  have hex := sectionLines_inj_last (by decide +kernel) l9
  have tl : ∀ a b : String, a.toList = b.toList → a = b := fun a b e => String.toList_inj.mp e
  refine ⟨hkt, hct, ?_, ?_, hca, tl _ _ l4, u64Display_inj l5, hva, hvb, ?_, ?_, ?_⟩
  · cases fk; cases fk'; simp_all
  · cases fc; cases fc'; simp_all
  · exact (List.map_inj_right tl).mp hp
  · refine (List.map_inj_right tl).mp ?_
    have e : ∀ m : StrMap, (m.map (fun kv => kv.1 ++ " " ++ kv.2)).map String.toList =
        m.map (fun kv => kv.1.toList ++ ' ' :: kv.2.toList) := by
      intro m
      rw [List.map_map]
      refine List.map_congr_left fun kv _ => ?_
      have hs : " ".toList = [' '] := by decide +kernel
      simp only [Function.comp, String.toList_append, hs, List.append_assoc, List.singleton_append]
    rw [e, e]
    exact hci
  · refine (List.map_inj_right tl).mp ?_
    rw [List.map_map, List.map_map]
    exact hex

end Certificate
end Ssh
