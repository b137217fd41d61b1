import Verif.Lemmas.AllowedDisplay
import Verif.Props.PrivKey

/-! # C52–C60 (and C20 for allowed signers) -/

namespace Ssh

open Spec

/-! ## Samples -/

/-- The value of decimal digits. -/
def digits (s : List Char) : Option Int :=
  if s.all Char.isDigit then some (s.foldl (fun n c => n * 10 + (c.toNat - 48 : Nat)) 0) else none

/-- A calendar that reads decimal digits, with a local time three hours behind that cannot resolve the time 7. -/
def sampleChrono : Chrono where
  parseDate := digits
  parseMinute := digits
  parseSecond := digits
  localUnix t := if t = 7 then none else some (t + 10800)

/-- The text of `sampleEd`. -/
def sampleKeyText : List Char := "ssh-ed25519 AAAAC3NzaC1lZDI1NTE5AAAAAwECAw==".toList

/-- A line with every option. -/
def sampleLine : List Char :=
  "a@x,b@y  cert-authority Namespaces=\"git, file\" VALID-AFTER=20200101Z valid-before=\"20210101\" ".toList ++
    sampleKeyText ++ " # comment".toList

/-- Its entry. -/
def sampleEntry : AllowedSigner :=
  ⟨["a@x".toList, "b@y".toList], true, some ["git".toList, " file".toList], some 20200101, some 20220901, { sampleEd with comment := none }⟩

theorem sampleLine_parses : AllowedSigner.fromString sampleChrono sampleLine = .ok sampleEntry :=
  by decide +kernel

/-- A line with a local time that cannot be resolved. -/
def badLocalLine : List Char := "a@x valid-after=00000007 ".toList ++ sampleKeyText

/-! ## C55 -/

/-- C55: a line is accepted with the entry `a` exactly if it says `a`: principals, options in any order and letter case,
values with or without quotes, any spacing, key type and key data, and possibly a comment. -/
theorem C55_exact (T : Chrono) (s : List Char) (a : AllowedSigner) : AllowedSigner.fromString T s = .ok a ↔ AllowedLine T s a := allowed_ok

example : AllowedLine sampleChrono sampleLine sampleEntry := (C55_exact _ _ _).mp sampleLine_parses

/-- C55: a line that ends with a quote is rejected, even if the quote is in a comment. -/
theorem C55_final_quote (T : Chrono) (s : List Char) : ∃ e, AllowedSigner.fromString T (s ++ ['"']) = .err (.invalidAllowedSigner e) :=
  fromString_endsQ T (by simp)

/-! ## C52, C53, C54 -/

/-- C52: there is at least one principal, and no principal is empty or contains a comma. -/
theorem C52_principals (T : Chrono) (s : List Char) (a : AllowedSigner) (h : AllowedSigner.fromString T s = .ok a) :
    a.principals ≠ [] ∧ ∀ p ∈ a.principals, p ≠ [] ∧ ',' ∉ p := by
  obtain ⟨_, p, os, kt, kd, v, _, _, ⟨h1, _, h2⟩, h3, _⟩ := allowed_ok.mp h
  exact ⟨h1, fun p hp => ⟨h3 p hp, h2 p hp⟩⟩

example : sampleEntry.principals ≠ [] ∧ ∀ p ∈ sampleEntry.principals, p ≠ [] ∧ ',' ∉ p :=
  C52_principals _ _ _ sampleLine_parses

/-- C53: the validity window is not empty. -/
theorem C53_window (T : Chrono) (s : List Char) (a : AllowedSigner) (h : AllowedSigner.fromString T s = .ok a) :
    ∀ after before, a.validAfter = some after → a.validBefore = some before → after < before := by
  obtain ⟨_, p, os, kt, kd, v, _, _, _, _, _, _, _, _, _, _, h1, _⟩ := allowed_ok.mp h
  exact h1

example : ∃ s a x y, AllowedSigner.fromString sampleChrono s = .ok a ∧ a.validAfter = some x ∧ a.validBefore = some y ∧
    a.principals.length = 2 := ⟨_, _, _, _, sampleLine_parses, rfl, rfl, rfl⟩

/-- The name of an option. -/
def optName : Setting → List Char
  | .certAuthority => "cert-authority".toList
  | .namespaces _ => "namespaces".toList
  | .validAfter _ => "valid-after".toList
  | .validBefore _ => "valid-before".toList

theorem named_option {T : Chrono} {w n : List Char} {st : Setting} (h : OptionWord T w st) (hn : Named w n) : n = optName st := by
  obtain ⟨key, value, hk, h⟩ := h
  obtain ⟨key', hk1, hk2, rfl⟩ := hn
  have hkk : key' = key := by
    obtain ⟨h1, h2, _⟩ := hk
    have u : ∀ {k k' r r' : List Char}, '=' ∉ k → '=' ∉ k' → k ++ '=' :: r = k' ++ '=' :: r' → k = k' := by
      intro k k' r r' a b e
      have e1 := (splitOnce_some (b := r)).mpr ⟨a, rfl⟩
      rw [e, splitOnce_some.mpr ⟨b, rfl⟩] at e1
      cases e1; rfl
    rcases hk2 with rfl | ⟨r, rfl⟩
    · rcases h2 with ⟨rfl, _⟩ | ⟨raw, rfl, _⟩
      · rfl
      · simp at hk1
    · rcases h2 with ⟨rfl, _⟩ | ⟨raw, e, _⟩
      · simp at h1
      · exact u hk1 h1 e
  subst hkk
  cases st with
  | certAuthority => exact h
  | namespaces => exact h.1
  | validAfter => exact h.1
  | validBefore => exact h.1

theorem named_keyWord {w n : List Char} (h : KeyWord w) (hn : Named w n) :
    n ∉ ["cert-authority".toList, "namespaces".toList, "valid-after".toList, "valid-before".toList] := by
  obtain ⟨key, value, hk, h⟩ := h
  obtain ⟨key', hk1, hk2, rfl⟩ := hn
  have hkk : key' = key := by
    obtain ⟨h1, h2, _⟩ := hk
    rcases hk2 with rfl | ⟨r, rfl⟩
    · rcases h2 with ⟨rfl, _⟩ | ⟨raw, rfl, _⟩
      · rfl
      · simp at hk1
    · rcases h2 with ⟨rfl, _⟩ | ⟨raw, e, _⟩
      · simp at h1
      · have e1 := (splitOnce_some (b := r)).mpr ⟨hk1, rfl⟩
        rw [e, splitOnce_some.mpr ⟨h1, rfl⟩] at e1
        cases e1; rfl
  subst hkk
  exact h

/-- C54: a line is rejected if, after the principals, there are words that are all options and among which
`namespaces`, `valid-after` or `valid-before` occurs twice; whatever follows. -/
theorem C54_duplicates (T : Chrono) (s p rest : List Char) (ws1 ws2 : List (List Char)) (w w' name : List Char)
    (h : Chain s (p :: (ws1 ++ w :: (ws2 ++ [w']))) rest)
    (hopt : ∀ x ∈ ws1 ++ w :: ws2, ∃ n ∈ ["cert-authority".toList, "namespaces".toList, "valid-after".toList, "valid-before".toList], Named x n)
    (hname : name ∈ ["namespaces".toList, "valid-after".toList, "valid-before".toList]) (hw : Named w name) (hw' : Named w' name) :
    ∀ a, AllowedSigner.fromString T s ≠ .ok a := by
  intro a ha
  obtain ⟨hq, p', os, kt, kd, v, hws, _, _, _, hos, hkt, _, c2, c3, c4, _⟩ := allowed_ok.mp ha
  have hpre := words_unique hq hws h
  rw [List.cons_prefix_cons] at hpre
  obtain ⟨rfl, hpre⟩ := hpre
  have hname4 : name ∈ ["cert-authority".toList, "namespaces".toList, "valid-after".toList, "valid-before".toList] :=
    List.mem_cons_of_mem _ hname
  have hopt' : ∀ x ∈ ws1 ++ w :: (ws2 ++ [w']), ∃ n ∈ ["cert-authority".toList, "namespaces".toList, "valid-after".toList, "valid-before".toList], Named x n := by
    intro x hx
    have : x ∈ (ws1 ++ w :: ws2) ++ [w'] := by simpa using hx
    rcases List.mem_append.mp this with h | h
    · exact hopt x h
    · rw [List.mem_singleton.mp h]; exact ⟨name, hname4, hw'⟩
  -- the options come before the key type
  have key : ∀ (os : List (List Char × Setting)) (ws : List (List Char)), ws <+: os.map (·.1) ++ [kt, kd] →
      (∀ x ∈ ws, ∃ n ∈ ["cert-authority".toList, "namespaces".toList, "valid-after".toList, "valid-before".toList], Named x n) →
      ∃ os1 os2, os = os1 ++ os2 ∧ ws = os1.map (·.1) := by
    intro os
    induction os with
    | nil =>
      intro ws hp hn
      cases ws with
      | nil => exact ⟨[], [], rfl, rfl⟩
      | cons x xs =>
        simp only [List.map_nil, List.nil_append, List.cons_prefix_cons] at hp
        obtain ⟨rfl, _⟩ := hp
        obtain ⟨n, hn1, hn2⟩ := hn x (by simp)
        exact absurd hn1 (named_keyWord hkt hn2)
    | cons o os ih =>
      intro ws hp hn
      cases ws with
      | nil => exact ⟨[], o :: os, rfl, rfl⟩
      | cons x xs =>
        simp only [List.map_cons, List.cons_append, List.cons_prefix_cons] at hp
        obtain ⟨rfl, hp⟩ := hp
        obtain ⟨os1, os2, rfl, rfl⟩ := ih xs hp fun y hy => hn y (by simp [hy])
        exact ⟨o :: os1, os2, rfl, rfl⟩
  obtain ⟨os1, os2, rfl, e⟩ := key os _ hpre hopt'
  obtain ⟨oa, ob, rfl, e1, e2⟩ := List.map_eq_append_iff.mp e.symm
  obtain ⟨ow, oc, rfl, rfl, e3⟩ := List.map_eq_cons_iff.mp e2
  obtain ⟨od, oe, rfl, _, e4⟩ := List.map_eq_append_iff.mp e3
  obtain ⟨ow', of, rfl, rfl, e5⟩ := List.map_eq_cons_iff.mp e4
  have o1 := named_option (hos ow (by simp)) hw
  have o2 := named_option (hos ow' (by simp)) hw'
  obtain ⟨n1, n2, n3, n4, n5, n6⟩ := names_ne
  have two : ∀ {α : Type} (l : Option α), l.toList.length < 2 := by
    intro α l
    cases l <;> simp
  simp only [List.mem_cons, List.not_mem_nil, or_false] at hname
  cases h1 : ow.2 with
  | certAuthority =>
    rw [h1] at o1
    rcases hname with h | h | h
    · exact n1 (o1.symm.trans h)
    · exact n2 (o1.symm.trans h)
    · exact n3 (o1.symm.trans h)
  | namespaces l =>
    rw [h1] at o1
    cases h2 : ow'.2 with
    | namespaces l' =>
      have hl := two a.namespaces
      rw [← c2] at hl
      simp [List.filterMap_append, h1, h2, Setting.ns?] at hl
      omega
    | certAuthority => rw [h2] at o2; exact n1 (o2.symm.trans o1)
    | validAfter t => rw [h2] at o2; exact n4 (o1.symm.trans o2)
    | validBefore t => rw [h2] at o2; exact n5 (o1.symm.trans o2)
  | validAfter l =>
    rw [h1] at o1
    cases h2 : ow'.2 with
    | validAfter l' =>
      have hl := two a.validAfter
      rw [← c3] at hl
      simp [List.filterMap_append, h1, h2, Setting.after?] at hl
      omega
    | certAuthority => rw [h2] at o2; exact n2 (o2.symm.trans o1)
    | namespaces t => rw [h2] at o2; exact n4 (o2.symm.trans o1)
    | validBefore t => rw [h2] at o2; exact n6 (o1.symm.trans o2)
  | validBefore l =>
    rw [h1] at o1
    cases h2 : ow'.2 with
    | validBefore l' =>
      have hl := two a.validBefore
      rw [← c4] at hl
      simp [List.filterMap_append, h1, h2, Setting.before?] at hl
      omega
    | certAuthority => rw [h2] at o2; exact n3 (o2.symm.trans o1)
    | namespaces t => rw [h2] at o2; exact n5 (o2.symm.trans o1)
    | validAfter t => rw [h2] at o2; exact n6 (o2.symm.trans o1)

example : ∃ s p rest w w', Chain s (p :: ([] ++ w :: (["cert-authority".toList] ++ [w']))) rest ∧ Named w "namespaces".toList ∧
    Named w' "namespaces".toList := by
  refine ⟨"me namespaces=git cert-authority NAMESPACES=x ssh-ed25519 AAAA".toList, "me".toList, " ssh-ed25519 AAAA".toList,
    "namespaces=git".toList, "NAMESPACES=x".toList,
    ⟨_, ⟨0, rfl, ⟨by decide, _, ?_, .inl rfl⟩, .inr ⟨' ', _, rfl, .inl rfl⟩⟩,
     _, ⟨1, rfl, ⟨by decide, _, ?_, .inl rfl⟩, .inr ⟨' ', _, rfl, .inl rfl⟩⟩,
     _, ⟨1, rfl, ⟨by decide, _, ?_, .inl rfl⟩, .inr ⟨' ', _, rfl, .inl rfl⟩⟩,
     _, ⟨1, rfl, ⟨by decide, _, ?_, .inl rfl⟩, .inr ⟨' ', _, rfl, .inl rfl⟩⟩, rfl⟩,
    ⟨"namespaces".toList, by decide, .inr ⟨_, rfl⟩, by decide⟩, ⟨"NAMESPACES".toList, by decide, .inr ⟨_, rfl⟩, by decide⟩⟩ <;> decide

/-! ## C56 -/

/-- C56: an entry without validity bounds, whose principals and namespaces need no quoting and whose key has a plain
type and no comment, is reproduced from its text.  The claim for entries with bounds is false, see `C56_bounds`. -/
theorem C56_partial (T : Chrono) (a : AllowedSigner)
    (hp : a.principals ≠ [] ∧ ∀ x ∈ a.principals, x ≠ [] ∧ ',' ∉ x ∧ Simple x)
    (hn : ∀ l, a.namespaces = some l → ∀ x ∈ l, x ≠ [] ∧ ',' ∉ x ∧ Simple x)
    (hb : a.validAfter = none ∧ a.validBefore = none)
    (hk : WellFormedKey a.key) (hkp : a.key.keyType.name = a.key.keyType.plain) (hkc : a.key.comment = none) :
    ∃ t, a.display = .ok t ∧ AllowedSigner.fromString T t = .ok a := by
  obtain ⟨b, he, hf⟩ := text_roundtrip hk hkp (by rw [hkc]; intro c h; cases h) [] rfl (.inl rfl)
  refine ⟨_, display_words he hkc, ?_⟩
  rw [hkc] at hf
  simp only [List.append_nil] at hf
  obtain ⟨k1, k2, k3, k4⟩ := keyNames_props _ hk.1
  have hpj : commaJoin a.principals ≠ [] := by
    obtain ⟨h1, h2⟩ := hp
    cases hl : a.principals with
    | nil => exact absurd hl h1
    | cons x xs =>
      have := (h2 x (by rw [hl]; simp)).1
      cases xs with
      | nil => exact this
      | cons y ys => simp [commaJoin]
  have hps : Simple (commaJoin a.principals) := commaJoin_simple fun x hx => (hp.2 x hx).2.2
  let os : List (List Char × Setting) := (if a.certAuthority then [("cert-authority".toList, .certAuthority)] else []) ++
    (match a.namespaces with | some ns => [("namespaces=".toList ++ commaJoin ns, .namespaces ns)] | none => [])
  have hos : optWords a = os.map (·.1) := by
    unfold optWords
    rw [hb.1, hb.2]
    dsimp only [os]
    cases a.certAuthority <;> cases a.namespaces <;> simp
  have hoa : ∀ x ∈ os, OptionWord T x.1 x.2 ∧ x.1 ≠ [] ∧ Simple x.1 := by
    intro x hx
    rcases List.mem_append.mp hx with h | h
    · split at h
      · rw [List.mem_singleton] at h
        subst h
        exact ⟨⟨_, [], ⟨by decide, .inl ⟨rfl, rfl⟩, by decide⟩, rfl⟩, by decide, by unfold Simple; decide⟩
      · cases h
    · cases hns : a.namespaces with
      | none => rw [hns] at h; cases h
      | some l =>
        rw [hns] at h
        have h := List.mem_singleton.mp h
        subst h
        have hl := hn l hns
        have hs : Simple (commaJoin l) := commaJoin_simple fun x hx => (hl x hx).2.2
        have hq : '"' ∉ commaJoin l := fun h => (hs _ h).2.1 rfl
        refine ⟨⟨"namespaces".toList, commaJoin l, ⟨by decide, .inr ⟨commaJoin l, rfl, stripQuotes_self hq⟩, hq⟩, ?_⟩, by simp, ?_⟩
        · refine ⟨by decide, ?_⟩
          cases l with
          | nil => exact ⟨[[]], ⟨by simp, rfl, by simp⟩, by simp⟩
          | cons y ys =>
            refine ⟨y :: ys, ⟨by simp, rfl, fun x hx => (hl x hx).2.1⟩, ?_⟩
            symm
            rw [List.filter_eq_self]
            intro x hx
            simpa using (hl x hx).1
        · intro c hc
          rcases List.mem_append.mp hc with h | h
          · exact (by decide : ∀ c ∈ "namespaces=".toList, c ≠ ' ' ∧ c ≠ '"' ∧ c ≠ '#') c h
          · exact hs c h
  rw [hos]
  have hws : ∀ w ∈ commaJoin a.principals :: (os.map (·.1) ++ [a.key.keyType.name.toList, b64Encode b]), w ≠ [] ∧ Simple w := by
    intro w hw
    rcases List.mem_cons.mp hw with rfl | hw
    · exact ⟨hpj, hps⟩
    · rcases List.mem_append.mp hw with h | h
      · obtain ⟨x, hx, rfl⟩ := List.mem_map.mp h
        exact (hoa x hx).2
      · simp only [List.mem_cons, List.not_mem_nil, or_false] at h
        rcases h with rfl | rfl
        · exact ⟨k1, k2⟩
        · exact ⟨b64Encode_ne_nil (encode_ne_nil he), b64_simple b⟩
  rw [allowed_ok]
  refine ⟨spaced_last hws, _, os, _, _, _, spaced_words (by simp) hws, stripQuotes_self fun h => (hps _ h).2.1 rfl,
    ⟨hp.1, rfl, fun x hx => (hp.2 x hx).2.1⟩, fun x hx => (hp.2 x hx).1, fun o ho => (hoa o ho).1, keyWord_name hk.1, ?_, ?_, ?_, ?_, ?_, hf⟩
  · dsimp only [os]; cases a.certAuthority <;> cases a.namespaces <;> simp
  · dsimp only [os]; cases a.certAuthority <;> cases a.namespaces <;> simp [Setting.ns?]
  · dsimp only [os]; rw [hb.1]; cases a.certAuthority <;> cases a.namespaces <;> simp [Setting.after?]
  · dsimp only [os]; rw [hb.2]; cases a.certAuthority <;> cases a.namespaces <;> simp [Setting.before?]
  · rw [hb.1]; intro x y h; cases h

example : ∃ a : AllowedSigner, a.certAuthority = true ∧ (a.principals ≠ [] ∧ ∀ x ∈ a.principals, x ≠ [] ∧ ',' ∉ x ∧ Simple x) ∧
    (∀ l, a.namespaces = some l → ∀ x ∈ l, x ≠ [] ∧ ',' ∉ x ∧ Simple x) ∧ a.namespaces.isSome = true ∧ WellFormedKey a.key := by
  refine ⟨⟨["a@x".toList, "b".toList], true, some ["git".toList], none, none, sampleSk⟩, rfl, ⟨by decide, by unfold Simple; decide⟩, ?_, rfl, sampleSk_wf⟩
  intro l h
  cases h
  unfold Simple
  decide

theorem int_chars (t : Int) : ∀ c ∈ (toString t).toList, c = '-' ∨ c.isDigit = true := by
  intro c hc
  have hd : ∀ n : Nat, c ∈ n.repr.toList → c.isDigit = true := by
    intro n h
    rw [Nat.toList_repr] at h
    exact Nat.isDigit_of_mem_toDigits (by decide) (by decide) h
  rw [Int.toString_eq_repr, Int.repr_eq_if] at hc
  split at hc
  · exact .inr (hd _ hc)
  · rw [String.toList_append] at hc
    rcases List.mem_append.mp hc with h | h
    · left; simpa using h
    · exact .inr (hd _ h)

theorem int_simple (t : Int) : ∀ c ∈ (toString t).toList, c ≠ ' ' ∧ c ≠ '"' ∧ c ≠ '#' ∧ c ≠ 'Z' := by
  intro c hc
  rcases int_chars t c hc with rfl | h
  · decide
  · refine ⟨?_, ?_, ?_, ?_⟩ <;> (rintro rfl; revert h; decide)

/-- A bound printed in decimal is not a timestamp unless it has 8, 12 or 14 digits. -/
theorem decimal_timestamp {T : Chrono} {t u : Int} (h : Timestamp T (toString t).toList u) : (toString t).utf8ByteSize ∈ [8, 12, 14] := by
  obtain ⟨d, n, dt, e, _, hd, _⟩ := h
  have hn : n = 0 := by
    cases n with
    | zero => rfl
    | succ n =>
      have : 'Z' ∈ (toString t).toList := by rw [e]; simp
      exact absurd rfl (int_simple t _ this).2.2.2
  subst hn
  rw [List.replicate_zero, List.append_nil] at e
  subst e
  unfold DateTime utf8Len at hd
  rw [String.ofList_toList] at hd
  rcases hd with ⟨h, _⟩ | ⟨h, _⟩ | ⟨h, _⟩ <;> (rw [h]; decide)

theorem optWords_mem {a : AllowedSigner} {t : Int} (h : a.validAfter = some t ∨ a.validBefore = some t) :
    ("valid-after=".toList ++ (toString t).toList) ∈ optWords a ∨ ("valid-before=".toList ++ (toString t).toList) ∈ optWords a := by
  unfold optWords
  rcases h with h | h
  · left; rw [h]; exact List.mem_append_left _ (List.mem_append_right _ (List.mem_singleton.mpr rfl))
  · right; rw [h]; exact List.mem_append_right _ (List.mem_singleton.mpr rfl)

/-- C56: with a validity bound whose decimal text is not 8, 12 or 14 characters long, the text of the entry is never
accepted (Unix times are printed, dates are read). -/
theorem C56_bounds (T : Chrono) (a : AllowedSigner)
    (hp : a.principals ≠ [] ∧ ∀ x ∈ a.principals, x ≠ [] ∧ ',' ∉ x ∧ Simple x)
    (hn : ∀ l, a.namespaces = some l → ∀ x ∈ l, x ≠ [] ∧ ',' ∉ x ∧ Simple x)
    (hk : WellFormedKey a.key) (hkc : a.key.comment = none)
    (hb : ∃ t, (a.validAfter = some t ∨ a.validBefore = some t) ∧ (toString t).utf8ByteSize ∉ [8, 12, 14]) :
    ∃ t, a.display = .ok t ∧ ∀ a', AllowedSigner.fromString T t ≠ .ok a' := by
  obtain ⟨_, b, _, _, _, _, _, _, _, _, _, he, _⟩ := encode_wellFormed hk
  refine ⟨_, display_words he hkc, ?_⟩
  intro a' ha
  obtain ⟨k1, k2, k3, k4⟩ := keyNames_props _ hk.1
  have hpj : commaJoin a.principals ≠ [] := by
    obtain ⟨h1, h2⟩ := hp
    cases hl : a.principals with
    | nil => exact absurd hl h1
    | cons x xs =>
      have := (h2 x (by rw [hl]; simp)).1
      cases xs with
      | nil => exact this
      | cons y ys => simp [commaJoin]
  have hps : Simple (commaJoin a.principals) := commaJoin_simple fun x hx => (hp.2 x hx).2.2
  have app : ∀ {x y : List Char}, Simple x → Simple y → Simple (x ++ y) := by
    intro x y h1 h2 c hc
    rcases List.mem_append.mp hc with h | h
    · exact h1 c h
    · exact h2 c h
  have hos : ∀ w ∈ optWords a, w ≠ [] ∧ Simple w := by
    intro w hw
    unfold optWords at hw
    simp only [List.mem_append] at hw
    rcases hw with ((hw | hw) | hw) | hw
    · split at hw
      · rw [List.mem_singleton.mp hw]; exact ⟨by decide, by unfold Simple; decide⟩
      · cases hw
    · split at hw
      · rename_i l hl
        rw [List.mem_singleton.mp hw]
        exact ⟨by simp, app (by unfold Simple; decide) (commaJoin_simple fun x hx => (hn l hl x hx).2.2)⟩
      · cases hw
    · split at hw
      · rw [List.mem_singleton.mp hw]
        exact ⟨by simp, app (by unfold Simple; decide) fun c hc => ⟨(int_simple _ c hc).1, (int_simple _ c hc).2.1, (int_simple _ c hc).2.2.1⟩⟩
      · cases hw
    · split at hw
      · rw [List.mem_singleton.mp hw]
        exact ⟨by simp, app (by unfold Simple; decide) fun c hc => ⟨(int_simple _ c hc).1, (int_simple _ c hc).2.1, (int_simple _ c hc).2.2.1⟩⟩
      · cases hw
  have hws : ∀ w ∈ commaJoin a.principals :: (optWords a ++ [a.key.keyType.name.toList, b64Encode b]), w ≠ [] ∧ Simple w := by
    intro w hw
    rcases List.mem_cons.mp hw with rfl | hw
    · exact ⟨hpj, hps⟩
    · rcases List.mem_append.mp hw with h | h
      · exact hos w h
      · simp only [List.mem_cons, List.not_mem_nil, or_false] at h
        rcases h with rfl | rfl
        · exact ⟨k1, k2⟩
        · exact ⟨b64Encode_ne_nil (encode_ne_nil he), b64_simple b⟩
  obtain ⟨hq, p', os, kt, kd, v, hws', _, _, _, hoa, hkt, _⟩ := allowed_ok.mp ha
  have hch : Chain _ (commaJoin a.principals :: (optWords a ++ [a.key.keyType.name.toList, b64Encode b])) [] :=
    spaced_chain (by simp) hws 0
  have hp1 := words_unique hq hws' hch
  have hp2 : p' :: (os.map (·.1) ++ [kt, kd]) <+: commaJoin a.principals :: (optWords a ++ [a.key.keyType.name.toList, b64Encode b]) := by
    obtain ⟨m, hc, _⟩ := hws'
    exact words_unique hq (spaced_words (by simp) hws) hc
  have hlen := Nat.le_antisymm hp1.length_le hp2.length_le
  have e := hp1.eq_of_length hlen
  simp only [List.cons.injEq] at e
  obtain ⟨rfl, e⟩ := e
  have e : optWords a = os.map (·.1) := by
    have h2 := congrArg (fun l => l.reverse.drop 2 |>.reverse) e
    simpa using h2
  obtain ⟨t, ht, hlt⟩ := hb
  have hmem := optWords_mem ht
  rw [e] at hmem
  have hqt : '"' ∉ (toString t).toList := fun h => (int_simple t _ h).2.1 rfl
  rcases hmem with hm | hm
  · obtain ⟨x, hx, hx1⟩ := List.mem_map.mp hm
    have ho := hoa x hx
    rw [hx1] at ho
    have hkv : KeyValue ("valid-after=".toList ++ (toString t).toList) "valid-after".toList (toString t).toList :=
      ⟨by decide, .inr ⟨_, rfl, stripQuotes_self hqt⟩, hqt⟩
    rw [optionWord_iff hkv] at ho
    cases hx2 : x.2 with
    | certAuthority => rw [hx2] at ho; exact absurd (show lower _ = "cert-authority".toList from ho) (by decide)
    | namespaces l => rw [hx2] at ho; exact absurd ho.1 (by decide)
    | validAfter u => rw [hx2] at ho; exact hlt (decimal_timestamp ho.2)
    | validBefore u => rw [hx2] at ho; exact absurd ho.1 (by decide)
  · obtain ⟨x, hx, hx1⟩ := List.mem_map.mp hm
    have ho := hoa x hx
    rw [hx1] at ho
    have hkv : KeyValue ("valid-before=".toList ++ (toString t).toList) "valid-before".toList (toString t).toList :=
      ⟨by decide, .inr ⟨_, rfl, stripQuotes_self hqt⟩, hqt⟩
    rw [optionWord_iff hkv] at ho
    cases hx2 : x.2 with
    | certAuthority => rw [hx2] at ho; exact absurd (show lower _ = "cert-authority".toList from ho) (by decide)
    | namespaces l => rw [hx2] at ho; exact absurd ho.1 (by decide)
    | validAfter u => rw [hx2] at ho; exact absurd ho.1 (by decide)
    | validBefore u => rw [hx2] at ho; exact hlt (decimal_timestamp ho.2)

/-- The date 2023-11-14 as a Unix time has ten digits. -/
example : (toString (1700000000 : Int)).utf8ByteSize ∉ [8, 12, 14] := by decide

/-! ## C57 -/

/-- C57: a comment that does not end with a quote can be appended to an accepted line. -/
theorem C57_comment_partial (T : Chrono) (s c : List Char) (a : AllowedSigner) (h : AllowedSigner.fromString T s = .ok a)
    (hc : c.getLast? ≠ some '"') : AllowedSigner.fromString T (s ++ '#' :: c) = .ok a := by
  rw [allowed_ok] at h ⊢
  obtain ⟨_, p, os, kt, kd, v, ⟨m, hch, hb⟩, hr⟩ := h
  refine ⟨?_, p, os, kt, kd, v, ⟨_, chain_comment (.inr rfl) c hch, blank_comment hb c⟩, hr⟩
  rw [getLast?_suffix (by simp)]
  cases c with
  | nil => decide
  | cons x c => rwa [List.getLast?_cons_cons]

example : AllowedSigner.fromString sampleChrono (sampleLine ++ '#' :: "more \"words\" here".toList) = .ok sampleEntry :=
  C57_comment_partial _ _ _ _ sampleLine_parses (by decide)

/-- C57: a comment without quotes changes nothing: the line is accepted with it exactly if it is accepted without,
provided that the line itself does not end with a quote. -/
theorem C57_exact (T : Chrono) (s c : List Char) (a : AllowedSigner) (hs : s.getLast? ≠ some '"') (hc : '"' ∉ c) :
    AllowedSigner.fromString T (s ++ '#' :: c) = .ok a ↔ AllowedSigner.fromString T s = .ok a := by
  refine ⟨fun h => ?_, fun h => C57_comment_partial T s c a h fun e => hc (List.mem_of_getLast? e)⟩
  rw [allowed_ok] at h ⊢
  obtain ⟨_, p, os, kt, kd, v, ⟨m, hch, hb⟩, hr⟩ := h
  obtain ⟨m', rfl, hch'⟩ := chain_comment_inv hc hch
  exact ⟨hs, p, os, kt, kd, v, ⟨m', hch', blank_comment_inv hb⟩, hr⟩

example : AllowedSigner.fromString sampleChrono (sampleLine ++ '#' :: "more".toList) = .ok sampleEntry :=
  (C57_exact _ _ _ _ (by decide) (by decide)).mpr sampleLine_parses

/-- C57: a comment that ends with a quote makes every line invalid. -/
theorem C57_quoted (T : Chrono) (s c : List Char) : ∀ a, AllowedSigner.fromString T (s ++ '#' :: (c ++ ['"'])) ≠ .ok a := by
  intro a
  obtain ⟨e, h⟩ := C55_final_quote T (s ++ '#' :: c)
  simp only [List.append_assoc, List.cons_append] at h
  rw [h]
  exact nofun

example : ∃ s a, AllowedSigner.fromString sampleChrono s = .ok a ∧ s.getLast? ≠ some '"' ∧
    AllowedSigner.fromString sampleChrono (s ++ '#' :: "see \"x\" for".toList) = .ok a :=
  ⟨_, _, sampleLine_parses, by decide, C57_comment_partial _ _ _ _ sampleLine_parses (by decide)⟩

/-! ## C58 -/

/-- C58: a file is accepted exactly if every line that is not blank or a comment is accepted; the result lists their
entries in order. -/
theorem C58_ok (T : Chrono) (s : List Char) (l : List AllowedSigner) :
    allowedSignersFromString T s = .ok l ↔ ∃ ls, FileLines s ls ∧ Entries T ls l := by
  unfold allowedSignersFromString
  constructor
  · intro h
    refine ⟨_, lines_iff.mpr rfl, ?_⟩
    rcases fileLoop_cases T (lines s) 0 [] with ⟨l', h1, h2⟩ | ⟨b, x, af, l', t, _, _, _, _, ⟨a, _, h2⟩ | ⟨_, h2⟩⟩
    · rw [h2] at h; cases h; simpa using h1
    · rw [h2] at h; cases h
    · rw [h2] at h; cases h
  · rintro ⟨ls, h, hl⟩
    rw [lines_iff.mp h]
    rcases fileLoop_cases T ls 0 [] with ⟨l', h1, h2⟩ | ⟨b, x, af, l', t, rfl, hb, hx, ht, hh⟩
    · rw [h2, entries_unique h1 hl]; simp
    · obtain ⟨a, ha⟩ := entries_not_bad hl hx
      rw [trimmed_iff.mp ht] at ha
      rcases hh with ⟨a', h3, _⟩ | ⟨h3, _⟩ <;> (rw [h3] at ha; cases ha)

/-- C58: a file is rejected exactly with the error of its first bad line, together with the number of lines before it. -/
theorem C58_err (T : Chrono) (s : List Char) (e : Err) : allowedSignersFromString T s = .err e ↔
    ∃ before x after l t a, FileLines s (before ++ x :: after) ∧ Entries T before l ∧ ¬ NoEntry x ∧ Trimmed x t ∧
      AllowedSigner.fromString T t = .err (.invalidAllowedSigner a) ∧ e = .invalidAllowedSigners a before.length := by
  unfold allowedSignersFromString
  constructor
  · intro h
    rcases fileLoop_cases T (lines s) 0 [] with ⟨l', h1, h2⟩ | ⟨b, x, af, l', t, e1, e2, e3, e4, ⟨a, h1, h2⟩ | ⟨_, h2⟩⟩
    · rw [h2] at h; cases h
    · rw [h2] at h; cases h
      exact ⟨b, x, af, l', t, a, lines_iff.mpr e1, e2, e3, e4, h1, by rw [Nat.zero_add]⟩
    · rw [h2] at h; cases h
  · rintro ⟨b, x, af, l, t, a, hl, hb, hx, ht, hf, rfl⟩
    rw [lines_iff.mp hl]
    have hne : ∀ a', AllowedSigner.fromString T (trimMatches isWs x) ≠ .ok a' := by
      intro a' h; rw [trimmed_iff.mp ht, hf] at h; cases h
    rcases fileLoop_cases T (b ++ x :: af) 0 [] with ⟨l', h1, h2⟩ | ⟨b', x', af', l', t', e1, e2, e3, e4, hh⟩
    · obtain ⟨a', ha'⟩ := entries_not_bad h1 hx
      exact absurd ha' (hne a')
    · have hne' : ∀ a', AllowedSigner.fromString T (trimMatches isWs x') ≠ .ok a' := by
        intro a' h
        rw [trimmed_iff.mp e4] at h
        rcases hh with ⟨a', h3, _⟩ | ⟨h3, _⟩ <;> (rw [h3] at h; cases h)
      obtain ⟨rfl, rfl⟩ := firstBad_unique hb e2 hx e3 hne hne' e1
      have := trimmed_iff.mp ht
      rw [trimmed_iff.mp e4] at this
      subst this
      rcases hh with ⟨a', h3, h4⟩ | ⟨h3, _⟩
      · rw [hf] at h3; cases h3; rw [h4, Nat.zero_add]
      · rw [hf] at h3; cases h3

/-- C58: reading a file panics exactly if its first bad line makes the line parser panic (see C59). -/
theorem C58_panic (T : Chrono) (s : List Char) : allowedSignersFromString T s = .panic ↔
    ∃ before x after l t, FileLines s (before ++ x :: after) ∧ Entries T before l ∧ ¬ NoEntry x ∧ Trimmed x t ∧
      AllowedSigner.fromString T t = .panic := by
  unfold allowedSignersFromString
  constructor
  · intro h
    rcases fileLoop_cases T (lines s) 0 [] with ⟨l', h1, h2⟩ | ⟨b, x, af, l', t, e1, e2, e3, e4, ⟨a, h1, h2⟩ | ⟨h1, h2⟩⟩
    · rw [h2] at h; cases h
    · rw [h2] at h; cases h
    · exact ⟨b, x, af, l', t, lines_iff.mpr e1, e2, e3, e4, h1⟩
  · rintro ⟨b, x, af, l, t, hl, hb, hx, ht, hf⟩
    rw [lines_iff.mp hl]
    have hne : ∀ a', AllowedSigner.fromString T (trimMatches isWs x) ≠ .ok a' := by
      intro a' h; rw [trimmed_iff.mp ht, hf] at h; cases h
    rcases fileLoop_cases T (b ++ x :: af) 0 [] with ⟨l', h1, h2⟩ | ⟨b', x', af', l', t', e1, e2, e3, e4, hh⟩
    · obtain ⟨a', ha'⟩ := entries_not_bad h1 hx
      exact absurd ha' (hne a')
    · have hne' : ∀ a', AllowedSigner.fromString T (trimMatches isWs x') ≠ .ok a' := by
        intro a' h
        rw [trimmed_iff.mp e4] at h
        rcases hh with ⟨a', h3, _⟩ | ⟨h3, _⟩ <;> (rw [h3] at h; cases h)
      obtain ⟨rfl, rfl⟩ := firstBad_unique hb e2 hx e3 hne hne' e1
      have := trimmed_iff.mp ht
      rw [trimmed_iff.mp e4] at this
      subst this
      rcases hh with ⟨a', h3, h4⟩ | ⟨_, h4⟩
      · rw [hf] at h3; cases h3
      · exact h4

/-- C58: lines are parsed with errors of the line parser only. -/
theorem C58_line_errors (T : Chrono) (s : List Char) (e : Err) (h : AllowedSigner.fromString T s = .err e) :
    ∃ a, e = .invalidAllowedSigner a := allowed_as T s e h

example : allowedSignersFromString sampleChrono ("# first\n\n".toList ++ sampleLine ++ "\r\n  ".toList ++ sampleLine ++ " \n".toList) =
    .ok [sampleEntry, sampleEntry] := by decide +kernel

example : ∃ e, allowedSignersFromString sampleChrono ("# first\n\n".toList ++ sampleLine ++ "\nfoo".toList) = .err (.invalidAllowedSigners e 3) :=
  ⟨.missingKey, by decide +kernel⟩

/-! ## C59 -/

theorem chain_split {ws : List (List Char)} : ∀ {s s' : List Char}, Chain s ws s' → ∀ w ∈ ws, ∃ a b, s = a ++ (w ++ b) ∧
    (b = [] ∨ ∃ c r, b = c :: r ∧ (c = ' ' ∨ c = '#')) := by
  induction ws with
  | nil => intro s s' _ w hw; cases hw
  | cons x ws ih =>
    rintro s s' ⟨r, ⟨n, rfl, _, hr⟩, h2⟩ w hw
    rcases List.mem_cons.mp hw with rfl | hw
    · exact ⟨List.replicate n ' ', r, rfl, hr⟩
    · obtain ⟨a, b, e, hb⟩ := ih h2 w hw
      exact ⟨List.replicate n ' ' ++ (x ++ a), b, by simp [e], hb⟩

/-- C59: parsing a line panics only if it contains, after an equals sign or a quote and before a quote, a space, a comment or the
end, a date and time without `Z` that the local time zone does not resolve to one time. -/
theorem C59_only_local (T : Chrono) (s : List Char) (h : AllowedSigner.fromString T s = .panic) :
    ∃ a d b dt, s = a ++ (d ++ b) ∧ (a.getLast? = some '=' ∨ a.getLast? = some '"') ∧
      (b = [] ∨ ∃ c r, b = c :: r ∧ (c = ' ' ∨ c = '#' ∨ c = '"')) ∧
      d.getLast? ≠ some 'Z' ∧ DateTime T d dt ∧ T.localUnix dt = none := by
  obtain ⟨_, p, os, w, v, s2, l, o, hc, _, _, _, _, _, key, value, dt, hk, _, hz, hd, hu⟩ := allowed_panic.mp h
  obtain ⟨a, b, rfl, hb⟩ := chain_split hc w (by simp)
  obtain ⟨_, ⟨rfl, rfl⟩ | ⟨raw, rfl, m, n, rfl, _⟩, _⟩ := hk
  · obtain ⟨hl, _⟩ | ⟨hl, _⟩ | ⟨hl, _⟩ := hd <;> exact absurd hl (by decide)
  · refine ⟨a ++ (key ++ '=' :: List.replicate m '"'), value, List.replicate n '"' ++ b, dt, by simp, ?_, ?_, hz, hd, hu⟩
    · cases m with
      | zero => left; simp
      | succ m =>
        right
        rw [List.replicate_succ', show a ++ (key ++ '=' :: (List.replicate m '"' ++ ['"'])) =
          (a ++ (key ++ '=' :: List.replicate m '"')) ++ ['"'] by simp]
        exact List.getLast?_concat
    · cases n with
      | zero =>
        rcases hb with rfl | ⟨c, r, rfl, h | h⟩
        · exact .inl rfl
        · exact .inr ⟨c, r, rfl, .inl h⟩
        · exact .inr ⟨c, r, rfl, .inr (.inl h)⟩
      | succ n => exact .inr ⟨'"', List.replicate n '"' ++ b, rfl, .inr (.inr rfl)⟩

example : ∃ a d b dt, badLocalLine = a ++ (d ++ b) ∧ (a.getLast? = some '=' ∨ a.getLast? = some '"') ∧
    (b = [] ∨ ∃ c r, b = c :: r ∧ (c = ' ' ∨ c = '#' ∨ c = '"')) ∧
    d.getLast? ≠ some 'Z' ∧ DateTime sampleChrono d dt ∧ sampleChrono.localUnix dt = none :=
  C59_only_local _ _ (by decide +kernel)

/-- C59: hence no panic if every local time can be resolved. -/
theorem C59_total (T : Chrono) (hT : ∀ dt, T.localUnix dt ≠ none) (s : List Char) : AllowedSigner.fromString T s ≠ .panic := by
  intro h
  obtain ⟨_, _, _, dt, _, _, _, _, _, hu⟩ := C59_only_local T s h
  exact hT dt hu

example : AllowedSigner.fromString { sampleChrono with localUnix := some } badLocalLine ≠ .panic :=
  C59_total _ (fun _ h => by cases h) _

/-- C59: nor if every date and time that stands by itself in the line, after an equals sign or a quote and before a quote, a space,
a comment or the end, ends with `Z`. -/
theorem C59_utc (T : Chrono) (s : List Char)
    (hs : ∀ a d b dt, s = a ++ (d ++ b) → (a.getLast? = some '=' ∨ a.getLast? = some '"') →
      (b = [] ∨ ∃ c r, b = c :: r ∧ (c = ' ' ∨ c = '#' ∨ c = '"')) → DateTime T d dt → d.getLast? = some 'Z') :
    AllowedSigner.fromString T s ≠ .panic := by
  intro h
  obtain ⟨a, d, b, dt, e, ha, hb, hz, hdt, _⟩ := C59_only_local T s h
  exact hz (hs a d b dt e ha hb hdt)

/-- A calendar that takes all digits for dates and resolves no local time. -/
def digitChrono : Chrono where
  parseDate d := if d.all Char.isDigit then some 7 else none
  parseMinute d := if d.all Char.isDigit then some 7 else none
  parseSecond d := if d.all Char.isDigit then some 7 else none
  localUnix _ := none

/-- The line has one date, followed by `Z`; without the `Z` it panics. -/
example : AllowedSigner.fromString digitChrono "a@x valid-after=20230101120000Z ssh-ed25519 AAAA".toList ≠ .panic ∧
    AllowedSigner.fromString digitChrono "a@x valid-after=20230101120000 ssh-ed25519 AAAA".toList = .panic := by
  refine ⟨C59_utc _ _ ?_, by decide +kernel⟩
  intro a d b dt e ha hb hd
  exfalso
  have hdig : d.all Char.isDigit = true ∧ d ≠ [] := by
    constructor
    · rcases hd with ⟨_, h⟩ | ⟨_, h⟩ | ⟨_, h⟩ <;> (simp only [digitChrono] at h; split at h <;> simp_all)
    · rintro rfl
      rcases hd with ⟨h, _⟩ | ⟨h, _⟩ | ⟨h, _⟩ <;> exact absurd h (by decide)
  have key : ∀ i ∈ List.range 49, ∀ n ∈ List.range 49,
      ("a@x valid-after=20230101120000Z ssh-ed25519 AAAA".toList.take i).getLast? = some '=' ∨
        ("a@x valid-after=20230101120000Z ssh-ed25519 AAAA".toList.take i).getLast? = some '"' →
      (("a@x valid-after=20230101120000Z ssh-ed25519 AAAA".toList.drop i).take n).all Char.isDigit = true →
      ("a@x valid-after=20230101120000Z ssh-ed25519 AAAA".toList.drop i).take n ≠ [] →
      (("a@x valid-after=20230101120000Z ssh-ed25519 AAAA".toList.drop i).drop n).head?.any (fun c => c.isDigit || c == 'Z') = true := by
    decide +kernel
  have hl := congrArg List.length e
  rw [show "a@x valid-after=20230101120000Z ssh-ed25519 AAAA".toList.length = 48 by decide +kernel, List.length_append,
    List.length_append] at hl
  have := key a.length (List.mem_range.mpr (by omega)) d.length (List.mem_range.mpr (by omega))
  rw [e, List.take_left, List.drop_left, List.take_left, List.drop_left] at this
  have := this ha hdig.1 hdig.2
  rcases hb with rfl | ⟨c, r, rfl, rfl | rfl | rfl⟩
  · cases this
  · exact absurd (show ((' ').isDigit || ' ' == 'Z') = true from this) (by decide)
  · exact absurd (show (('#').isDigit || '#' == 'Z') = true from this) (by decide)
  · exact absurd (show (('"').isDigit || '"' == 'Z') = true from this) (by decide)

/-- C59: exactly when a line panics: its first words are principals and options, then a bound that is not set yet, given as a
local time that cannot be resolved. -/
theorem C59_exact (T : Chrono) (s : List Char) : AllowedSigner.fromString T s = .panic ↔
    s.getLast? ≠ some '"' ∧ ∃ (p : List Char) (os : List (List Char × Setting)) (w v rest key value : List Char) (l : List (List Char)) (dt : Int),
      Chain s (p :: (os.map (·.1) ++ [w])) rest ∧ StripQuotes p v ∧ CommaList v l ∧ (∀ x ∈ l, x ≠ []) ∧
      (∀ x ∈ os, OptionWord T x.1 x.2) ∧ (os.filterMap (·.2.ns?)).length ≤ 1 ∧ (os.filterMap (·.2.after?)).length ≤ 1 ∧
      (os.filterMap (·.2.before?)).length ≤ 1 ∧ KeyValue w key value ∧
      ((lower key = "valid-after".toList ∧ os.filterMap (·.2.after?) = []) ∨ (lower key = "valid-before".toList ∧ os.filterMap (·.2.before?) = [])) ∧
      value.getLast? ≠ some 'Z' ∧ DateTime T value dt ∧ T.localUnix dt = none := by
  rw [allowed_panic]
  have f1 : ∀ os : List (List Char × Setting), os.filterMap (·.2.ns?) = (os.map (·.2)).filterMap Setting.ns? := by
    intro os; rw [List.filterMap_map]; rfl
  have f2 : ∀ os : List (List Char × Setting), os.filterMap (·.2.after?) = (os.map (·.2)).filterMap Setting.after? := by
    intro os; rw [List.filterMap_map]; rfl
  have f3 : ∀ os : List (List Char × Setting), os.filterMap (·.2.before?) = (os.map (·.2)).filterMap Setting.before? := by
    intro os; rw [List.filterMap_map]; rfl
  have one : ∀ {α : Type} (l : Option α), l.toList.length ≤ 1 := by
    intro α l
    cases l <;> simp
  have back : ∀ {α : Type} (l : List α), l.length ≤ 1 → l.head?.toList = l := by
    intro α l h
    cases l with
    | nil => rfl
    | cons x l =>
      have : l = [] := List.length_eq_zero_iff.mp (by simpa using h)
      subst this; rfl
  constructor
  · rintro ⟨hq, p, os, w, v, s2, l, o, hc, hv, hl, hne, hos, hsets, key, value, dt, hk, hb, hz, hd, hu⟩
    obtain ⟨c1, c2, c3, c4⟩ := sets_iff.mp hsets
    simp only [Opts.empty, Option.toList_none, List.nil_append] at c2 c3 c4
    refine ⟨hq, p, os, w, v, s2, key, value, l, dt, hc, hv, hl, hne, hos, ?_, ?_, ?_, hk, ?_, hz, hd, hu⟩
    · rw [f1, ← c2]; exact one _
    · rw [f2, ← c3]; exact one _
    · rw [f3, ← c4]; exact one _
    · rw [f2, f3, ← c3, ← c4]
      rcases hb with ⟨h1, h2⟩ | ⟨h1, h2⟩
      · exact .inl ⟨h1, by rw [h2]; rfl⟩
      · exact .inr ⟨h1, by rw [h2]; rfl⟩
  · rintro ⟨hq, p, os, w, v, s2, key, value, l, dt, hc, hv, hl, hne, hos, l1, l2, l3, hk, hb, hz, hd, hu⟩
    refine ⟨hq, p, os, w, v, s2, l, ⟨@decide (Setting.certAuthority ∈ os.map (·.2)) (Classical.propDecidable _), (os.filterMap (·.2.ns?)).head?,
      (os.filterMap (·.2.after?)).head?, (os.filterMap (·.2.before?)).head?⟩, hc, hv, hl, hne, hos, ?_, key, value, dt, hk, ?_, hz, hd, hu⟩
    · rw [sets_iff]
      refine ⟨by simp [Opts.empty], ?_, ?_, ?_⟩
      · rw [← f1]; simpa [Opts.empty] using back _ l1
      · rw [← f2]; simpa [Opts.empty] using back _ l2
      · rw [← f3]; simpa [Opts.empty] using back _ l3
    · rcases hb with ⟨h1, h2⟩ | ⟨h1, h2⟩
      · exact .inl ⟨h1, by simp [h2]⟩
      · exact .inr ⟨h1, by simp [h2]⟩

/-- C59: a line that panics, with a time zone that skips the time 7. -/
theorem C59_counterexample : ∃ T s, AllowedSigner.fromString T s = .panic := ⟨sampleChrono, badLocalLine, by decide +kernel⟩

/-! ## C60 -/

/-- C60: which texts are accepted as a bound, and the time they denote. -/
theorem C60_timestamp (T : Chrono) (s : List Char) (t : Int) :
    parseTimestamp T s = .ok t ↔ ∃ v, StripQuotes s v ∧ Timestamp T v t := parseTimestamp_ok

/-- C60: when reading a bound panics. -/
theorem C60_panic (T : Chrono) (s : List Char) : parseTimestamp T s = .panic ↔
    ∃ d dt, StripQuotes s d ∧ d.getLast? ≠ some 'Z' ∧ DateTime T d dt ∧ T.localUnix dt = none := parseTimestamp_panic

/-- C60: with `Z` the time zone does not matter. -/
theorem C60_utc (T T' : Chrono) (d : List Char) (h : ∀ x, T.parseDate x = T'.parseDate x ∧ T.parseMinute x = T'.parseMinute x ∧ T.parseSecond x = T'.parseSecond x)
    (t : Int) : parseTimestamp T (d ++ ['Z']) = .ok t ↔ parseTimestamp T' (d ++ ['Z']) = .ok t := by
  have key : ∀ (T T' : Chrono), (∀ x, T.parseDate x = T'.parseDate x ∧ T.parseMinute x = T'.parseMinute x ∧ T.parseSecond x = T'.parseSecond x) →
      parseTimestamp T (d ++ ['Z']) = .ok t → parseTimestamp T' (d ++ ['Z']) = .ok t := by
    intro T T' h hp
    rw [parseTimestamp_ok] at hp ⊢
    obtain ⟨v, hv, x, n, dt, rfl, hx, hd, hn⟩ := hp
    refine ⟨_, hv, x, n, dt, rfl, hx, ?_, ?_⟩
    · unfold DateTime at hd ⊢
      rw [← (h x).1, ← (h x).2.1, ← (h x).2.2]
      exact hd
    · have hn0 : n ≠ 0 := by
        rintro rfl
        obtain ⟨m, k, e, _, _⟩ := hv
        rw [List.replicate_zero, List.append_nil] at e
        cases k with
        | zero =>
          rw [List.replicate_zero, List.append_nil] at e
          cases x with
          | nil =>
            rw [List.append_nil] at e
            have : 'Z' ∈ List.replicate m '"' := by rw [← e]; simp
            exact absurd (List.mem_replicate.mp this).2 (by decide)
          | cons y x =>
            have := congrArg List.getLast? e
            rw [getLast?_suffix (by simp), getLast?_suffix (by simp)] at this
            exact hx this.symm
        | succ k =>
          have := congrArg List.getLast? e
          rw [getLast?_suffix (by simp), getLast?_suffix (by simp), getLast?_suffix (by simp), List.getLast?_replicate] at this
          simp at this
      rw [if_neg hn0] at hn ⊢
      exact hn
  exact ⟨key T T' h, key T' T fun x => ⟨(h x).1.symm, (h x).2.1.symm, (h x).2.2.symm⟩⟩

example : parseTimestamp sampleChrono ("20200101".toList ++ ['Z']) = .ok 20200101 :=
  (C60_utc { sampleChrono with localUnix := fun _ => none } sampleChrono _ (fun _ => ⟨rfl, rfl, rfl⟩) _).mp (by decide +kernel)

/-- C60: a rejected bound is an error, nothing else is possible. -/
theorem C60_total (T : Chrono) (hT : ∀ dt, T.localUnix dt ≠ none) (s : List Char) : parseTimestamp T s ≠ .panic := by
  intro h
  obtain ⟨_, dt, _, _, _, hu⟩ := parseTimestamp_panic.mp h
  exact hT dt hu

example : parseTimestamp { sampleChrono with localUnix := some } "00000007".toList ≠ .panic :=
  C60_total _ (fun _ h => by cases h) _

/-! ## C20 -/

/-- C20: the key of an accepted line is well-formed. -/
theorem C20_allowed_signer (T : Chrono) (s : List Char) (a : AllowedSigner) (h : AllowedSigner.fromString T s = .ok a) : WellFormedKey a.key := by
  obtain ⟨_, _, _, _, _, _, _, _, _, _, _, _, _, _, _, _, _, hk⟩ := allowed_ok.mp h
  exact C20_parsed _ (.inr ⟨_, hk⟩)

example : WellFormedKey sampleEntry.key := C20_allowed_signer _ _ _ sampleLine_parses

end Ssh
