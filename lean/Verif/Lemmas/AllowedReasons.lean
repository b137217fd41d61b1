import Verif.Spec.AllowedReasons
import Verif.Lemmas.AllowedFile
import Verif.Lemmas.Reasons

/-! # Errors of allowed signer lines -/

namespace Ssh

open Spec

theorem asErr_iff {α : Type} {a b : ASErr} : (asErr a : Res α) = .err (.invalidAllowedSigner b) ↔ b = a := by
  unfold asErr
  constructor
  · intro h; cases h; rfl
  · rintro rfl; rfl

/-! ## Words -/

theorem goes_not_blank {s w r : List Char} (h : Goes s w r) : ¬ Blank s := by
  intro hb
  have e := asNext_nextWord true h.1 h.2
  rw [asNext_blank true hb] at e
  cases e

theorem goes_unique {s w r w' r' : List Char} (h : Goes s w r) (h' : Goes s w' r') : w = w' ∧ r = r' :=
  nextWord_unique h.1 h.2 h'.2

/-- The three outcomes of reading a word that must not start with a quote on a line ending with one. -/
theorem asNext_false (s : List Char) :
    (Blank s ∧ asNext false (splitTokens [] s) = .ok (none, [])) ∨
    (∃ w r, Goes s w r ∧ asNext false (splitTokens [] s) = .ok (some w, splitTokens [] r)) ∨
    (Misquoted s ∧ asNext false (splitTokens [] s) = asErr .invalidQuotes) := by
  by_cases hb : Blank s
  · exact .inl ⟨hb, asNext_blank false hb⟩
  right
  by_cases hs : s.getLast? = some '"'
  · right
    refine ⟨⟨hb, fun w r h => h.1 hs⟩, ?_⟩
    rcases asNext_endsQ (q := false) (b := splitTokens [] s) (.inr ((splitTokens_last s).mpr hs)) with e | e | ⟨h, _⟩
    · exfalso
      apply hb
      rw [← asTrim_nil_iff]
      apply Classical.byContradiction
      intro hne
      have hq := endsQ_trim (b := splitTokens [] s) (.inr ((splitTokens_last s).mpr hs))
      rcases hq with hq | hq
      · exact hne hq
      · unfold asNext at e
        simp only [hq, Res.unwrap, Res.ok_bind] at e
        rw [if_neg (by simpa using hne), if_pos trivial, if_neg (by simp)] at e
        cases e
    · exact e
    · cases h
  · rcases asNext_cases false s hs with ⟨h, _⟩ | ⟨w, r, h, e⟩ | e
    · exact absurd h hb
    · exact .inl ⟨w, r, ⟨hs, h⟩, e⟩
    · refine .inr ⟨⟨hb, fun w r h => ?_⟩, e⟩
      rw [asNext_nextWord false h.1 h.2] at e
      cases e

theorem splitTokens_quote (s : List Char) : splitTokens [] ('"' :: s) = ['"'] :: splitTokens [] s := by
  simp [splitTokens, isDelim]

theorem not_blank_of_head {n : Nat} {c : Char} {t : List Char} (h1 : c ≠ ' ') (h2 : c ≠ '#') :
    ¬ Blank (List.replicate n ' ' ++ c :: t) := by
  rw [← asTrim_nil_iff, asTrim_spaces, asTrim_word (by simpa using h1) (by simpa using h2)]
  exact splitTokens_ne_nil (by simp)

/-- On a line that ends with a quote the first word must be quoted. -/
theorem asNext_last (s : List Char) (hs : s.getLast? = some '"') (hb : ¬ Blank s) :
    asNext true (splitTokens [] s) = (splitQuote (asTrim (splitTokens [] s)) >>= fun x => return (some x.1, x.2)) := by
  have hq := endsQ_trim (b := splitTokens [] s) (.inr ((splitTokens_last s).mpr hs))
  have hne : asTrim (splitTokens [] s) ≠ [] := fun h => hb ((asTrim_nil_iff s).mp h)
  rcases hq with hq | hq
  · exact absurd hq hne
  · unfold asNext
    simp only [hq, Res.unwrap, Res.ok_bind]
    rw [if_neg (by simpa using hne), if_pos trivial, if_pos trivial]

theorem first_not_blank {s p r : List Char} (h : FirstWord s p r) : ¬ Blank s := by
  rcases h with h | ⟨_, n, body, _, rfl, rfl⟩
  · exact goes_not_blank h
  · exact not_blank_of_head (by decide) (by decide)

theorem asNext_first {s p r : List Char} (h : FirstWord s p r) :
    asNext true (splitTokens [] s) = .ok (some p, splitTokens [] r) := by
  rcases h with h | ⟨hs, n, body, hq, rfl, rfl⟩
  · exact asNext_nextWord true h.1 h.2
  · rw [asNext_last _ hs (not_blank_of_head (by decide) (by decide)), asTrim_spaces, asTrim_word (by simp) (by simp),
      List.cons_append, splitTokens_quote, splitQuote, if_neg (by simp)]
    have := splitQuoteLoop_found body r hq ['"']
    have e : body ++ ['"'] ++ r = body ++ '"' :: r := by simp
    rw [e, this]
    simp

theorem asNext_true (s : List Char) :
    (Blank s ∧ asNext true (splitTokens [] s) = .ok (none, [])) ∨
    (∃ p r, FirstWord s p r ∧ asNext true (splitTokens [] s) = .ok (some p, splitTokens [] r)) ∨
    ((¬ Blank s ∧ ∀ p r, ¬ FirstWord s p r) ∧ asNext true (splitTokens [] s) = asErr .invalidQuotes) := by
  by_cases hb : Blank s
  · exact .inl ⟨hb, asNext_blank true hb⟩
  right
  by_cases hf : ∃ p r, FirstWord s p r
  · obtain ⟨p, r, h⟩ := hf
    exact .inl ⟨p, r, h, asNext_first h⟩
  · right
    refine ⟨⟨hb, fun p r h => hf ⟨p, r, h⟩⟩, ?_⟩
    by_cases hs : s.getLast? = some '"'
    · rw [asNext_last s hs hb]
      obtain ⟨n, s1, rfl, h1⟩ := spaces_cases s
      cases s1 with
      | nil => exact absurd ⟨n, .inl (by simp)⟩ hb
      | cons c s2 =>
        have hc : c ≠ '#' := by rintro rfl; exact hb ⟨n, .inr ⟨s2, rfl⟩⟩
        rw [asTrim_spaces, asTrim_word h1 (by simpa using hc)]
        by_cases hq : c = '"'
        · subst hq
          rw [splitTokens_quote, splitQuote, if_neg (by simp)]
          rcases quote_cases s2 with h | ⟨body, rest, rfl, h⟩
          · rw [splitQuoteLoop_missing s2 h]
            rfl
          · exact absurd ⟨_, rest, .inr ⟨hs, n, body, h, rfl, by simp⟩⟩ hf
        · have : ∃ t ts, splitTokens [] (c :: s2) = t :: ts ∧ t ≠ ['"'] := by
            rcases plain_cases (c :: s2) with hp | ⟨a', d', r', e', ha', hd'⟩
            · exact ⟨c :: s2, [], by rw [splitTokens_plain hp]; simp [tok1], plain_ne_delim hp (by decide)⟩
            · rw [e', splitTokens_delim ha' hd', List.nil_append]
              cases a' with
              | nil =>
                simp only [List.nil_append, List.cons.injEq] at e'
                obtain ⟨rfl, _⟩ := e'
                exact ⟨[c], _, rfl, by simpa using hq⟩
              | cons y a' => exact ⟨y :: a', _, rfl, plain_ne_delim ha' (by decide)⟩
          obtain ⟨t, ts, e, ht⟩ := this
          rw [e, splitQuote, if_pos ht]
          rfl
    · rcases asNext_cases true s hs with ⟨h, _⟩ | ⟨w, r, h, e⟩ | e
      · exact absurd h hb
      · exact absurd ⟨w, r, .inl ⟨hs, h⟩⟩ hf
      · exact e

/-! ## One word -/

/-- The options recorded are those seen. -/
def Records (o : Opts) (seen : List Setting) : Prop :=
  (∀ l, o.namespaces = some l ↔ Setting.namespaces l ∈ seen) ∧
  (∀ t, o.validAfter = some t ↔ Setting.validAfter t ∈ seen) ∧
  (∀ t, o.validBefore = some t ↔ Setting.validBefore t ∈ seen)

theorem records_empty : Records Opts.empty [] := by simp [Records, Opts.empty]

theorem records_ns {o : Opts} {seen : List Setting} (h : Records o seen) : o.namespaces.isSome = true ↔ ∃ st ∈ seen, st.name = "namespaces" := by
  rw [Option.isSome_iff_exists]
  constructor
  · rintro ⟨l, e⟩; exact ⟨_, (h.1 l).mp e, rfl⟩
  · rintro ⟨st, hm, hn⟩
    cases st with
    | namespaces l => exact ⟨l, (h.1 l).mpr hm⟩
    | certAuthority => simp [Setting.name] at hn
    | validAfter t => simp [Setting.name] at hn
    | validBefore t => simp [Setting.name] at hn

theorem records_after {o : Opts} {seen : List Setting} (h : Records o seen) : o.validAfter.isSome = true ↔ ∃ st ∈ seen, st.name = "valid-after" := by
  rw [Option.isSome_iff_exists]
  constructor
  · rintro ⟨l, e⟩; exact ⟨_, (h.2.1 l).mp e, rfl⟩
  · rintro ⟨st, hm, hn⟩
    cases st with
    | namespaces l => simp [Setting.name] at hn
    | certAuthority => simp [Setting.name] at hn
    | validAfter t => exact ⟨t, (h.2.1 t).mpr hm⟩
    | validBefore t => simp [Setting.name] at hn

theorem records_before {o : Opts} {seen : List Setting} (h : Records o seen) : o.validBefore.isSome = true ↔ ∃ st ∈ seen, st.name = "valid-before" := by
  rw [Option.isSome_iff_exists]
  constructor
  · rintro ⟨l, e⟩; exact ⟨_, (h.2.2 l).mp e, rfl⟩
  · rintro ⟨st, hm, hn⟩
    cases st with
    | namespaces l => simp [Setting.name] at hn
    | certAuthority => simp [Setting.name] at hn
    | validAfter t => simp [Setting.name] at hn
    | validBefore t => exact ⟨t, (h.2.2 t).mpr hm⟩

theorem set_fresh {o : Opts} {seen : List Setting} (h : Records o seen) (st : Setting) :
    (∃ o', o.set st = some o') ↔ (st = .certAuthority ∨ ∀ x ∈ seen, x.name ≠ st.name) := by
  cases st with
  | certAuthority => simp [Opts.set]
  | namespaces l =>
    have hr := records_ns h
    rw [Opts.set]
    by_cases hs : o.namespaces.isSome = true
    · rw [if_pos hs]
      obtain ⟨st, hm, hn⟩ := hr.mp hs
      constructor
      · rintro ⟨_, e⟩; cases e
      · rintro (e | e)
        · cases e
        · exact absurd hn (e st hm)
    · rw [if_neg hs]
      exact ⟨fun _ => .inr fun x hx hn => hs (hr.mpr ⟨x, hx, hn⟩), fun _ => ⟨_, rfl⟩⟩
  | validAfter l =>
    have hr := records_after h
    rw [Opts.set]
    by_cases hs : o.validAfter.isSome = true
    · rw [if_pos hs]
      obtain ⟨st, hm, hn⟩ := hr.mp hs
      constructor
      · rintro ⟨_, e⟩; cases e
      · rintro (e | e)
        · cases e
        · exact absurd hn (e st hm)
    · rw [if_neg hs]
      exact ⟨fun _ => .inr fun x hx hn => hs (hr.mpr ⟨x, hx, hn⟩), fun _ => ⟨_, rfl⟩⟩
  | validBefore l =>
    have hr := records_before h
    rw [Opts.set]
    by_cases hs : o.validBefore.isSome = true
    · rw [if_pos hs]
      obtain ⟨st, hm, hn⟩ := hr.mp hs
      constructor
      · rintro ⟨_, e⟩; cases e
      · rintro (e | e)
        · cases e
        · exact absurd hn (e st hm)
    · rw [if_neg hs]
      exact ⟨fun _ => .inr fun x hx hn => hs (hr.mpr ⟨x, hx, hn⟩), fun _ => ⟨_, rfl⟩⟩

theorem records_set {o o' : Opts} {seen : List Setting} (h : Records o seen) {st : Setting} (e : o.set st = some o') :
    Records o' (st :: seen) := by
  obtain ⟨h1, h2, h3⟩ := h
  cases st with
  | certAuthority =>
    cases e
    exact ⟨by simpa using h1, by simpa using h2, by simpa using h3⟩
  | namespaces l =>
    rw [Opts.set] at e
    split at e
    · cases e
    · rename_i hn
      have hn := isSome_none hn
      cases e
      refine ⟨fun l' => ?_, by simpa using h2, by simpa using h3⟩
      have := h1 l'
      rw [hn] at this
      simp only [List.mem_cons, ← this]
      simp [eq_comm]
  | validAfter l =>
    rw [Opts.set] at e
    split at e
    · cases e
    · rename_i hn
      have hn := isSome_none hn
      cases e
      refine ⟨by simpa using h1, fun l' => ?_, by simpa using h3⟩
      have := h2 l'
      rw [hn] at this
      simp only [List.mem_cons, ← this]
      simp [eq_comm]
  | validBefore l =>
    rw [Opts.set] at e
    split at e
    · cases e
    · rename_i hn
      have hn := isSome_none hn
      cases e
      refine ⟨by simpa using h1, by simpa using h2, fun l' => ?_⟩
      have := h3 l'
      rw [hn] at this
      simp only [List.mem_cons, ← this]
      simp [eq_comm]

/-- A bound without date and time. -/
theorem timestamp_err {T : Chrono} {v : List Char} (h : '"' ∉ v) : (∃ e, parseTimestamp T v = .err e) ↔ NoDateTime T v := by
  rw [parseTimestamp_eq, stripQuotes_id h]
  obtain ⟨n, e, hl⟩ := trimEnd_cases 'Z' v
  unfold NoDateTime
  cases hd : dateOf T (trimEnd (· == 'Z') v) with
  | none =>
    dsimp only
    constructor
    · intro _ d m dt e' hl' hdt
      have : trimEnd (· == 'Z') v = d := by rw [e', trimEnd_replicate 'Z' m d hl']
      rw [← dateOf_iff, ← this, hd] at hdt
      cases hdt
    · intro _; exact ⟨_, rfl⟩
  | some dt =>
    dsimp only
    constructor
    · rintro ⟨x, hx⟩
      split at hx
      · cases hx
      · cases ht : T.localUnix dt <;> rw [ht] at hx <;> cases hx
    · intro hh
      exact absurd (dateOf_iff.mp hd) (hh _ n dt e hl)

theorem mapErr_bind_err {T : Chrono} {v : List Char} (h : '"' ∉ v) (f : Int → Option Opts) (a e : ASErr) :
    ((do let t ← Res.mapErr (fun _ => .invalidAllowedSigner a) (parseTimestamp T v); return f t) : Res (Option Opts)) =
      .err (.invalidAllowedSigner e) ↔ e = a ∧ NoDateTime T v := by
  rw [← timestamp_err h]
  cases hp : parseTimestamp T v with
  | ok t => simp [Res.mapErr]
  | panic => simp [Res.mapErr]
  | err x =>
    simp only [Res.mapErr, Res.err_bind, Res.err.injEq, Err.invalidAllowedSigner.injEq]
    constructor
    · rintro rfl; exact ⟨rfl, x, rfl⟩
    · rintro ⟨rfl, _⟩; rfl

theorem toList_ne {a b : String} (h : a ≠ b) : a.toList ≠ b.toList := fun e => h (String.toList_inj.mp e)

theorem applyOption_err {T : Chrono} {o : Opts} {seen : List Setting} (hr : Records o seen) {w : List Char} {e : ASErr} :
    applyOption T o w = .err (.invalidAllowedSigner e) ↔ SignerWordFault T seen w e := by
  by_cases h : ∃ key value, KeyValue w key value
  · obtain ⟨key, value, h⟩ := h
    have h3 := h.2.2
    have inv : SignerWordFault T seen w e ↔
        (∃ name : String, e = .duplicateOptions name ∧ lower key = name.toList ∧ name ∈ ["namespaces", "valid-after", "valid-before"] ∧
          ∃ st ∈ seen, st.name = name) ∨
        (∃ name : String, e = .invalidOption name ∧ lower key = name.toList ∧ name ∈ ["valid-after", "valid-before"] ∧
          (∀ st ∈ seen, st.name ≠ name) ∧ NoDateTime T value) := by
      constructor
      · intro hw
        cases hw with
        | value hn => exact absurd h (hn key value)
        | duplicate k v name hk hl hn hs =>
          obtain ⟨rfl, rfl⟩ := keyValue_unique h hk
          exact .inl ⟨name, rfl, hl, hn, hs⟩
        | bound k v name hk hl hn hs ht =>
          obtain ⟨rfl, rfl⟩ := keyValue_unique h hk
          exact .inr ⟨name, rfl, hl, hn, hs, ht⟩
      · rintro (⟨name, rfl, hl, hn, hs⟩ | ⟨name, rfl, hl, hn, hs, ht⟩)
        · exact .duplicate key value name h hl hn hs
        · exact .bound key value name h hl hn hs ht
    rw [inv, applyOption_eq T o h]
    have un : ∀ a b : String, lower key = a.toList → lower key = b.toList → a = b :=
      fun a b h1 h2 => String.toList_inj.mp (h1.symm.trans h2)
    by_cases k1 : lower key = "cert-authority".toList
    · rw [if_pos k1]
      constructor
      · intro h; cases h
      · rintro (⟨name, rfl, hl, hn, hs⟩ | ⟨name, rfl, hl, hn, hs, ht⟩) <;> (cases un _ _ k1 hl; simp at hn)
    rw [if_neg k1]
    by_cases k2 : lower key = "namespaces".toList
    · rw [if_pos k2]
      by_cases hs : o.namespaces.isSome = true
      · rw [if_pos hs, asErr_iff]
        constructor
        · rintro rfl; exact .inl ⟨_, rfl, k2, by simp, (records_ns hr).mp hs⟩
        · rintro (⟨name, rfl, hl, hn, hs⟩ | ⟨name, rfl, hl, hn, hs, ht⟩)
          · cases un _ _ k2 hl; rfl
          · cases un _ _ k2 hl; simp at hn
      · rw [if_neg hs]
        constructor
        · intro h; cases h
        · rintro (⟨name, rfl, hl, hn, hs'⟩ | ⟨name, rfl, hl, hn, hs', ht⟩)
          · cases un _ _ k2 hl; exact absurd ((records_ns hr).mpr hs') hs
          · cases un _ _ k2 hl; simp at hn
    rw [if_neg k2]
    by_cases k3 : lower key = "valid-after".toList
    · rw [if_pos k3]
      by_cases hs : o.validAfter.isSome = true
      · rw [if_pos hs, asErr_iff]
        have hs' := (records_after hr).mp hs
        constructor
        · rintro rfl; exact .inl ⟨_, rfl, k3, by simp, hs'⟩
        · rintro (⟨name, rfl, hl, hn, hs⟩ | ⟨name, rfl, hl, hn, hs, ht⟩)
          · cases un _ _ k3 hl; rfl
          · cases un _ _ k3 hl
            obtain ⟨st, hm, hn⟩ := hs'
            exact absurd hn (hs st hm)
      · rw [if_neg hs, mapErr_bind_err h3]
        have hs' : ∀ st ∈ seen, st.name ≠ "valid-after" := fun st hm hn => hs ((records_after hr).mpr ⟨st, hm, hn⟩)
        constructor
        · rintro ⟨rfl, ht⟩; exact .inr ⟨_, rfl, k3, by simp, hs', ht⟩
        · rintro (⟨name, rfl, hl, hn, st, hm, hs⟩ | ⟨name, rfl, hl, hn, hs, ht⟩)
          · cases un _ _ k3 hl; exact absurd hs (hs' st hm)
          · cases un _ _ k3 hl; exact ⟨rfl, ht⟩
    rw [if_neg k3]
    by_cases k4 : lower key = "valid-before".toList
    · rw [if_pos k4]
      by_cases hs : o.validBefore.isSome = true
      · rw [if_pos hs, asErr_iff]
        have hs' := (records_before hr).mp hs
        constructor
        · rintro rfl; exact .inl ⟨_, rfl, k4, by simp, hs'⟩
        · rintro (⟨name, rfl, hl, hn, hs⟩ | ⟨name, rfl, hl, hn, hs, ht⟩)
          · cases un _ _ k4 hl; rfl
          · cases un _ _ k4 hl
            obtain ⟨st, hm, hn⟩ := hs'
            exact absurd hn (hs st hm)
      · rw [if_neg hs, mapErr_bind_err h3]
        have hs' : ∀ st ∈ seen, st.name ≠ "valid-before" := fun st hm hn => hs ((records_before hr).mpr ⟨st, hm, hn⟩)
        constructor
        · rintro ⟨rfl, ht⟩; exact .inr ⟨_, rfl, k4, by simp, hs', ht⟩
        · rintro (⟨name, rfl, hl, hn, st, hm, hs⟩ | ⟨name, rfl, hl, hn, hs, ht⟩)
          · cases un _ _ k4 hl; exact absurd hs (hs' st hm)
          · cases un _ _ k4 hl; exact ⟨rfl, ht⟩
    rw [if_neg k4]
    constructor
    · intro h; cases h
    · rintro (⟨name, rfl, hl, hn, _⟩ | ⟨name, rfl, hl, hn, _⟩)
      · simp only [List.mem_cons, List.not_mem_nil, or_false] at hn
        rcases hn with rfl | rfl | rfl
        · exact absurd hl k2
        · exact absurd hl k3
        · exact absurd hl k4
      · simp only [List.mem_cons, List.not_mem_nil, or_false] at hn
        rcases hn with rfl | rfl
        · exact absurd hl k3
        · exact absurd hl k4
  · rw [applyOption_not h, asErr_iff]
    constructor
    · rintro rfl; exact .value fun k v hk => h ⟨k, v, hk⟩
    · intro hw
      cases hw with
      | value => rfl
      | duplicate k v name hk => exact absurd ⟨k, v, hk⟩ h
      | bound k v name hk => exact absurd ⟨k, v, hk⟩ h

/-! ## The text after the key type -/

/-- What follows the option loop in `from_string`. -/
def keyPart (principals : List (List Char)) (x : Tok × Opts × List Tok) : Res AllowedSigner := do
  let (kt, o, toks) := x
  let (ktok, toks) ← asNext false toks
  match ktok with
  | none => asErr .invalidKey
  | some keyData => do
    let key ← Res.mapErr (fun _ => .invalidAllowedSigner .invalidKey) (PublicKey.fromString (kt ++ ' ' :: keyData))
    if emptyWindow o.validBefore o.validAfter then asErr .invalidTimestamps
    else if ¬ (asTrim toks).isEmpty then asErr .unexpectedEnd
    else return {
      principals, certAuthority := o.certAuthority, namespaces := o.namespaces,
      validAfter := o.validAfter, validBefore := o.validBefore, key }

theorem noWindow_iff {o : Opts} {seen : List Setting} (hr : Records o seen) :
    emptyWindow o.validBefore o.validAfter = true ↔ NoWindow seen := by
  unfold NoWindow
  simp only [← hr.2.1, ← hr.2.2]
  cases o.validBefore <;> cases o.validAfter <;> simp [emptyWindow]

theorem keyPart_err {o : Opts} {seen : List Setting} (hr : Records o seen) (l : List (List Char)) {kt s : List Char} {e : ASErr} :
    keyPart l (kt, o, splitTokens [] s) = .err (.invalidAllowedSigner e) ↔ SignerKeyFault seen kt s e := by
  unfold keyPart
  dsimp only
  rcases asNext_false s with ⟨hb, h⟩ | ⟨w, r, hg, h⟩ | ⟨hm, h⟩
  · rw [h]
    simp only [Res.ok_bind]
    rw [asErr_iff]
    constructor
    · rintro rfl; exact .missing hb
    · intro hk
      cases hk with
      | missing => rfl
      | quotes hm => exact absurd hb hm.1
      | key _ _ _ hg => exact absurd hb (goes_not_blank hg)
      | window _ _ hg => exact absurd hb (goes_not_blank hg)
      | more _ _ hg => exact absurd hb (goes_not_blank hg)
  · rw [h]
    simp only [Res.ok_bind]
    cases hp : PublicKey.fromString (kt ++ ' ' :: w) with
    | panic => exact absurd hp (C17_total _)
    | err x =>
      simp only [Res.mapErr, Res.err_bind, Res.err.injEq, Err.invalidAllowedSigner.injEq]
      have hx := keyLine_err.mp hp
      constructor
      · rintro rfl; exact .key w r x hg hx
      · intro hk
        cases hk with
        | missing hb => exact absurd hb (goes_not_blank hg)
        | quotes hm => exact absurd hg (hm.2 _ _)
        | key => rfl
        | window _ _ hg' hn => obtain ⟨rfl, rfl⟩ := goes_unique hg hg'; exact absurd hx (hn x)
        | more _ _ hg' hn => obtain ⟨rfl, rfl⟩ := goes_unique hg hg'; exact absurd hx (hn x)
    | ok k =>
      simp only [Res.mapErr, Res.ok_bind]
      have hx : ∀ x, ¬ KeyLineFault (kt ++ ' ' :: w) x := by
        intro x hx
        rw [keyLine_err.mpr hx] at hp
        cases hp
      have hw := noWindow_iff hr
      by_cases hwin : emptyWindow o.validBefore o.validAfter = true
      · rw [if_pos hwin, asErr_iff]
        constructor
        · rintro rfl; exact .window w r hg hx (hw.mp hwin)
        · intro hk
          cases hk with
          | missing hb => exact absurd hb (goes_not_blank hg)
          | quotes hm => exact absurd hg (hm.2 _ _)
          | key _ _ _ hg' hn => obtain ⟨rfl, rfl⟩ := goes_unique hg hg'; exact absurd hn (hx _)
          | window => rfl
          | more _ _ _ _ hn => exact absurd (hw.mp hwin) hn
      · rw [if_neg hwin]
        by_cases hb : Blank r
        · rw [if_neg (by simp [(asTrim_nil_iff r).mpr hb])]
          constructor
          · intro h; cases h
          · intro hk
            cases hk with
            | missing hb => exact absurd hb (goes_not_blank hg)
            | quotes hm => exact absurd hg (hm.2 _ _)
            | key _ _ _ hg' hn => obtain ⟨rfl, rfl⟩ := goes_unique hg hg'; exact absurd hn (hx _)
            | window _ _ _ _ hn => exact absurd (hw.mpr hn) hwin
            | more _ _ hg' _ _ hn => obtain ⟨rfl, rfl⟩ := goes_unique hg hg'; exact absurd hb hn
        · rw [if_pos (by simpa using fun h => hb ((asTrim_nil_iff r).mp h)), asErr_iff]
          constructor
          · rintro rfl; exact .more w r hg hx (fun h => hwin (hw.mpr h)) hb
          · intro hk
            cases hk with
            | missing hb => exact absurd hb (goes_not_blank hg)
            | quotes hm => exact absurd hg (hm.2 _ _)
            | key _ _ _ hg' hn => obtain ⟨rfl, rfl⟩ := goes_unique hg hg'; exact absurd hn (hx _)
            | window _ _ _ _ hn => exact absurd (hw.mpr hn) hwin
            | more => rfl
  · rw [h]
    show asErr _ = _ ↔ _
    rw [asErr_iff]
    constructor
    · rintro rfl; exact .quotes hm
    · intro hk
      cases hk with
      | missing hb => exact absurd hb hm.1
      | quotes hm => rfl
      | key _ _ _ hg => exact absurd hg (hm.2 _ _)
      | window _ _ hg => exact absurd hg (hm.2 _ _)
      | more _ _ hg => exact absurd hg (hm.2 _ _)

/-! ## The options -/

theorem goes_length {s w r : List Char} (h : Goes s w r) : (splitTokens [] r).length < (splitTokens [] s).length :=
  asNext_length (asNext_nextWord false h.1 h.2)

theorem optionLoop_err {T : Chrono} (l : List (List Char)) {e : ASErr} : ∀ {fuel : Nat} {s : List Char} {o : Opts} {seen : List Setting},
    Records o seen → (splitTokens [] s).length < fuel →
    ((optionLoop T fuel (splitTokens [] s) o >>= keyPart l) = .err (.invalidAllowedSigner e) ↔ SignerOptionsFault T seen s e) := by
  intro fuel
  induction fuel with
  | zero => intro s o seen _ h; omega
  | succ n ih =>
    intro s o seen hr hf
    rw [optionLoop]
    rcases asNext_false s with ⟨hb, h⟩ | ⟨w, r, hg, h⟩ | ⟨hm, h⟩
    · rw [h]
      show asErr _ = _ ↔ _
      rw [asErr_iff]
      constructor
      · rintro rfl; exact .missing _ _ hb
      · intro hk
        cases hk with
        | missing => rfl
        | quotes _ _ hm => exact absurd hb hm.1
        | word _ _ _ _ _ hg => exact absurd hb (goes_not_blank hg)
        | option _ _ _ _ _ _ hg => exact absurd hb (goes_not_blank hg)
        | key _ _ _ _ _ hg => exact absurd hb (goes_not_blank hg)
    · rw [h]
      simp only [Res.ok_bind]
      have hl := goes_length hg
      cases ha : applyOption T o w with
      | panic =>
        simp only [Res.panic_bind]
        constructor
        · intro h; cases h
        · intro hk
          cases hk with
          | missing _ _ hb => exact absurd hb (goes_not_blank hg)
          | quotes _ _ hm => exact absurd hg (hm.2 _ _)
          | word _ _ _ _ _ hg' hw =>
            obtain ⟨rfl, rfl⟩ := goes_unique hg hg'
            rw [(applyOption_err hr).mpr hw] at ha; cases ha
          | option _ _ _ _ st _ hg' ho hfr =>
            obtain ⟨rfl, rfl⟩ := goes_unique hg hg'
            obtain ⟨o', hs⟩ := (set_fresh hr st).mpr hfr
            rw [applyOption_some.mpr ⟨st, ho, hs⟩] at ha; cases ha
          | key _ _ _ _ _ hg' hkw =>
            obtain ⟨rfl, rfl⟩ := goes_unique hg hg'
            rw [applyOption_none.mpr hkw] at ha; cases ha
      | err x =>
        obtain ⟨a, rfl⟩ := applyOption_as T o w x ha
        have hw := (applyOption_err hr).mp ha
        simp only [Res.err_bind, Res.err.injEq, Err.invalidAllowedSigner.injEq]
        constructor
        · rintro rfl; exact .word _ _ w r _ hg hw
        · intro hk
          cases hk with
          | missing _ _ hb => exact absurd hb (goes_not_blank hg)
          | quotes _ _ hm => exact absurd hg (hm.2 _ _)
          | word _ _ _ _ _ hg' hw' =>
            obtain ⟨rfl, rfl⟩ := goes_unique hg hg'
            rw [(applyOption_err hr).mpr hw'] at ha
            cases ha
            rfl
          | option _ _ _ _ st _ hg' ho hfr =>
            obtain ⟨rfl, rfl⟩ := goes_unique hg hg'
            obtain ⟨o', hs⟩ := (set_fresh hr st).mpr hfr
            rw [applyOption_some.mpr ⟨st, ho, hs⟩] at ha; cases ha
          | key _ _ _ _ _ hg' hkw =>
            obtain ⟨rfl, rfl⟩ := goes_unique hg hg'
            rw [applyOption_none.mpr hkw] at ha; cases ha
      | ok x =>
        simp only [Res.ok_bind]
        cases x with
        | none =>
          have hkw := applyOption_none.mp ha
          dsimp only
          refine Iff.trans (b := keyPart l (w, o, splitTokens [] r) = .err (.invalidAllowedSigner e)) Iff.rfl ?_
          rw [keyPart_err hr l]
          constructor
          · intro hk; exact .key _ _ w r _ hg hkw hk
          · intro hk
            cases hk with
            | missing _ _ hb => exact absurd hb (goes_not_blank hg)
            | quotes _ _ hm => exact absurd hg (hm.2 _ _)
            | word _ _ _ _ _ hg' hw' =>
              obtain ⟨rfl, rfl⟩ := goes_unique hg hg'
              rw [(applyOption_err hr).mpr hw'] at ha
              cases ha
            | option _ _ _ _ st _ hg' ho hfr =>
              obtain ⟨rfl, rfl⟩ := goes_unique hg hg'
              obtain ⟨o', hs⟩ := (set_fresh hr st).mpr hfr
              rw [applyOption_some.mpr ⟨st, ho, hs⟩] at ha; cases ha
            | key _ _ _ _ _ hg' _ hk =>
              obtain ⟨rfl, rfl⟩ := goes_unique hg hg'
              exact hk
        | some o' =>
          obtain ⟨st, ho, hs⟩ := applyOption_some.mp ha
          dsimp only
          rw [ih (records_set hr hs) (by omega)]
          constructor
          · intro hk; exact .option _ _ w r st _ hg ho ((set_fresh hr st).mp ⟨o', hs⟩) hk
          · intro hk
            cases hk with
            | missing _ _ hb => exact absurd hb (goes_not_blank hg)
            | quotes _ _ hm => exact absurd hg (hm.2 _ _)
            | word _ _ _ _ _ hg' hw' =>
              obtain ⟨rfl, rfl⟩ := goes_unique hg hg'
              rw [(applyOption_err hr).mpr hw'] at ha
              cases ha
            | option _ _ _ _ st' _ hg' ho' hfr hk =>
              obtain ⟨rfl, rfl⟩ := goes_unique hg hg'
              obtain ⟨o2, hs'⟩ := (set_fresh hr st').mpr hfr
              have := applyOption_some.mpr ⟨st', ho', hs'⟩
              rw [ha] at this
              cases this
              exact (ih (records_set hr hs) (by omega)).mp ((ih (records_set hr hs') (by omega)).mpr hk)
            | key _ _ _ _ _ hg' hkw =>
              obtain ⟨rfl, rfl⟩ := goes_unique hg hg'
              rw [applyOption_none.mpr hkw] at ha; cases ha
    · rw [h]
      show asErr _ = _ ↔ _
      rw [asErr_iff]
      constructor
      · rintro rfl; exact .quotes _ _ hm
      · intro hk
        cases hk with
        | missing _ _ hb => exact absurd hb hm.1
        | quotes => rfl
        | word _ _ _ _ _ hg => exact absurd hg (hm.2 _ _)
        | option _ _ _ _ _ _ hg => exact absurd hg (hm.2 _ _)
        | key _ _ _ _ _ hg => exact absurd hg (hm.2 _ _)

theorem first_unique {s p r p' r' : List Char} (h : FirstWord s p r) (h' : FirstWord s p' r') :
    p = p' ∧ splitTokens [] r = splitTokens [] r' := by
  have e := asNext_first h
  rw [asNext_first h'] at e
  simp only [Res.ok.injEq, Prod.mk.injEq, Option.some.injEq] at e
  exact ⟨e.1.symm, e.2.symm⟩

/-- The error of a line. -/
theorem line_err {T : Chrono} {s : List Char} {e : ASErr} :
    AllowedSigner.fromString T s = .err (.invalidAllowedSigner e) ↔ SignerLineFault T s e := by
  have hdef : AllowedSigner.fromString T s = (asNext true (splitTokens [] s) >>= fun x =>
      match x.1 with
      | none => asErr .missingPrincipals
      | some p =>
        if (splitOn (· == ',') (trimQuotes p)).any (·.isEmpty) then asErr .invalidPrincipals
        else optionLoop T (x.2.length + 1) x.2 Opts.empty >>= keyPart (splitOn (· == ',') (trimQuotes p))) := by
    unfold AllowedSigner.fromString
    dsimp only
    rcases asNext true (splitTokens [] s) with ⟨_ | p, r⟩ | _ | _ <;> rfl
  rw [hdef]
  rcases asNext_true s with ⟨hb, h⟩ | ⟨p, r, hf, h⟩ | ⟨hm, h⟩
  · rw [h]
    show asErr _ = _ ↔ _
    rw [asErr_iff]
    constructor
    · rintro rfl; exact .missing hb
    · intro hk
      cases hk with
      | missing => rfl
      | quotes hn => exact absurd hb hn
      | principals _ _ _ _ hf => exact absurd hb (first_not_blank hf)
      | after _ _ _ _ _ hf => exact absurd hb (first_not_blank hf)
  · rw [h]
    simp only [Res.ok_bind]
    have hany : (splitOn (· == ',') (trimQuotes p)).any (·.isEmpty) = true ↔ [] ∈ splitOn (· == ',') (trimQuotes p) := by
      rw [List.any_eq_true]
      constructor
      · rintro ⟨x, hx, he⟩
        rw [List.isEmpty_iff] at he
        rwa [← he]
      · intro hx; exact ⟨[], hx, rfl⟩
    by_cases hp : (splitOn (· == ',') (trimQuotes p)).any (·.isEmpty) = true
    · rw [if_pos hp, asErr_iff]
      constructor
      · rintro rfl
        exact .principals p r _ _ hf (stripQuotes_iff.mpr rfl) (commaList_iff.mpr rfl) (hany.mp hp)
      · intro hk
        cases hk with
        | missing hb => exact absurd hb (first_not_blank hf)
        | quotes _ hn => exact absurd hf (hn _ _)
        | principals => rfl
        | after p' r' v l _ hf' hv hl hn =>
          obtain ⟨rfl, _⟩ := first_unique hf hf'
          rw [stripQuotes_iff] at hv
          rw [commaList_iff] at hl
          subst hv hl
          exact absurd (hany.mp hp) hn
    · rw [if_neg hp, optionLoop_err _ records_empty (by omega)]
      constructor
      · intro hk
        exact .after p r _ _ _ hf (stripQuotes_iff.mpr rfl) (commaList_iff.mpr rfl) (fun h => hp (hany.mpr h)) hk
      · intro hk
        cases hk with
        | missing hb => exact absurd hb (first_not_blank hf)
        | quotes _ hn => exact absurd hf (hn _ _)
        | principals p' r' v l hf' hv hl hn =>
          obtain ⟨rfl, _⟩ := first_unique hf hf'
          rw [stripQuotes_iff] at hv
          rw [commaList_iff] at hl
          subst hv hl
          exact absurd (hany.mpr hn) hp
        | after p' r' v l _ hf' hv hl hn hk =>
          obtain ⟨_, hrr⟩ := first_unique hf hf'
          have := (optionLoop_err (T := T) (e := e) [] (s := r') records_empty (Nat.lt_succ_self _)).mpr hk
          rw [← hrr] at this
          exact (optionLoop_err [] records_empty (Nat.lt_succ_self _)).mp this
  · rw [h]
    show asErr _ = _ ↔ _
    rw [asErr_iff]
    constructor
    · rintro rfl; exact .quotes hm.1 hm.2
    · intro hk
      cases hk with
      | missing hb => exact absurd hb hm.1
      | quotes => rfl
      | principals _ _ _ _ hf => exact absurd hf (hm.2 _ _)
      | after _ _ _ _ _ hf => exact absurd hf (hm.2 _ _)

end Ssh
