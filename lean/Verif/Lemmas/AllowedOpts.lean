import Verif.Lemmas.AllowedLine

/-! # The option loop of allowed signer lines -/

namespace Ssh

open Spec

/-- Record an option; `none` when it is already set. -/
def Opts.set (o : Opts) : Setting → Option Opts
  | .certAuthority => some { o with certAuthority := true }
  | .namespaces l => if o.namespaces.isSome then none else some { o with namespaces := some l }
  | .validAfter t => if o.validAfter.isSome then none else some { o with validAfter := some t }
  | .validBefore t => if o.validBefore.isSome then none else some { o with validBefore := some t }

/-- A bound given as a local time that the time zone does not resolve. -/
def BadLocal (T : Chrono) (o : Opts) (w : List Char) : Prop :=
  ∃ key value dt, KeyValue w key value ∧
    ((lower key = "valid-after".toList ∧ o.validAfter = none) ∨ (lower key = "valid-before".toList ∧ o.validBefore = none)) ∧
    value.getLast? ≠ some 'Z' ∧ DateTime T value dt ∧ T.localUnix dt = none

theorem keyValue_unique {w k v k' v' : List Char} (h : KeyValue w k v) (h' : KeyValue w k' v') : k = k' ∧ v = v' := by
  obtain ⟨a, b, _⟩ := keyValue_iff.mp h
  obtain ⟨a', b', _⟩ := keyValue_iff.mp h'
  exact ⟨a.symm.trans a', b.symm.trans b'⟩

theorem names_ne : "cert-authority".toList ≠ "namespaces".toList ∧ "cert-authority".toList ≠ "valid-after".toList ∧
    "cert-authority".toList ≠ "valid-before".toList ∧ "namespaces".toList ≠ "valid-after".toList ∧
    "namespaces".toList ≠ "valid-before".toList ∧ "valid-after".toList ≠ "valid-before".toList := by decide

theorem timestamp_stripped {T : Chrono} {v : List Char} {t : Int} (h : '"' ∉ v) : parseTimestamp T v = .ok t ↔ Timestamp T v t := by
  rw [parseTimestamp_ok]
  constructor
  · rintro ⟨v', h1, h2⟩
    rw [stripQuotes_iff, stripQuotes_id h] at h1
    rwa [h1]
  · intro h2
    exact ⟨v, stripQuotes_iff.mpr (stripQuotes_id h), h2⟩

theorem timestamp_stripped_panic {T : Chrono} {v : List Char} (h : '"' ∉ v) :
    parseTimestamp T v = .panic ↔ ∃ dt, v.getLast? ≠ some 'Z' ∧ DateTime T v dt ∧ T.localUnix dt = none := by
  rw [parseTimestamp_panic]
  constructor
  · rintro ⟨d, dt, h1, h2⟩
    rw [stripQuotes_iff, stripQuotes_id h] at h1
    subst h1
    exact ⟨dt, h2⟩
  · rintro ⟨dt, h2⟩
    exact ⟨v, dt, stripQuotes_iff.mpr (stripQuotes_id h), h2⟩

/-- A setting as an option with key and value. -/
def OptionIs (T : Chrono) (key value : List Char) : Setting → Prop
  | .certAuthority => lower key = "cert-authority".toList
  | .namespaces l => lower key = "namespaces".toList ∧ ∃ pieces, CommaList value pieces ∧ l = pieces.filter (· ≠ [])
  | .validAfter t => lower key = "valid-after".toList ∧ Timestamp T value t
  | .validBefore t => lower key = "valid-before".toList ∧ Timestamp T value t

theorem optionWord_iff {T : Chrono} {w key value : List Char} (h : KeyValue w key value) (st : Setting) :
    OptionWord T w st ↔ OptionIs T key value st := by
  unfold OptionWord
  constructor
  · rintro ⟨k, v, hk, hh⟩
    obtain ⟨rfl, rfl⟩ := keyValue_unique h hk
    cases st <;> exact hh
  · intro hh
    refine ⟨key, value, h, ?_⟩
    cases st <;> exact hh

theorem keyWord_iff {w key value : List Char} (h : KeyValue w key value) :
    KeyWord w ↔ lower key ∉ ["cert-authority".toList, "namespaces".toList, "valid-after".toList, "valid-before".toList] := by
  unfold KeyWord
  constructor
  · rintro ⟨k, v, hk, hh⟩
    obtain ⟨rfl, rfl⟩ := keyValue_unique h hk
    exact hh
  · intro hh; exact ⟨key, value, h, hh⟩

theorem badLocal_iff {T : Chrono} {o : Opts} {w key value : List Char} (h : KeyValue w key value) :
    BadLocal T o w ↔ ((lower key = "valid-after".toList ∧ o.validAfter = none) ∨ (lower key = "valid-before".toList ∧ o.validBefore = none)) ∧
      parseTimestamp T value = .panic := by
  rw [timestamp_stripped_panic h.2.2]
  unfold BadLocal
  constructor
  · rintro ⟨k, v, dt, hk, h1, h2⟩
    obtain ⟨rfl, rfl⟩ := keyValue_unique h hk
    exact ⟨h1, dt, h2⟩
  · rintro ⟨h1, dt, h2⟩
    exact ⟨key, value, dt, h, h1, h2⟩

/-- `applyOption` on a word that is a key and a value. -/
theorem applyOption_eq (T : Chrono) (o : Opts) {w key value : List Char} (h : KeyValue w key value) :
    applyOption T o w =
      (if lower key = "cert-authority".toList then .ok (some { o with certAuthority := true })
      else if lower key = "namespaces".toList then
        if o.namespaces.isSome then asErr (.duplicateOptions "namespaces")
        else .ok (some { o with namespaces := some ((splitOn (· == ',') value).filter fun e => !e.isEmpty) })
      else if lower key = "valid-after".toList then
        if o.validAfter.isSome then asErr (.duplicateOptions "valid-after")
        else do
          let t ← Res.mapErr (fun _ => .invalidAllowedSigner (.invalidOption "valid-after")) (parseTimestamp T value)
          return some { o with validAfter := some t }
      else if lower key = "valid-before".toList then
        if o.validBefore.isSome then asErr (.duplicateOptions "valid-before")
        else do
          let t ← Res.mapErr (fun _ => .invalidAllowedSigner (.invalidOption "valid-before")) (parseTimestamp T value)
          return some { o with validBefore := some t }
      else .ok none) := by
  obtain ⟨h1, h2, h3⟩ := keyValue_iff.mp h
  unfold applyOption
  dsimp only
  rw [h1, h2, if_neg (by simpa using h3), lowerAscii_eq]

theorem applyOption_not {T : Chrono} {o : Opts} {w : List Char} (h : ¬ ∃ key value, KeyValue w key value) :
    applyOption T o w = asErr .invalidQuotes := by
  unfold applyOption
  dsimp only
  rw [if_pos]
  rw [List.contains_iff_mem]
  apply Classical.byContradiction
  intro hn
  exact h ⟨_, _, keyValue_iff.mpr ⟨rfl, rfl, hn⟩⟩

theorem mapErr_ok {α : Type} {f : Err → Err} {r : Res α} {x : α} : Res.mapErr f r = .ok x ↔ r = .ok x := by
  cases r <;> simp [Res.mapErr]

theorem mapErr_panic {α : Type} {f : Err → Err} {r : Res α} : Res.mapErr f r = .panic ↔ r = .panic := by
  cases r <;> simp [Res.mapErr]

theorem isSome_none {α : Type} {o : Option α} (h : ¬ o.isSome = true) : o = none := by
  cases o with
  | none => rfl
  | some x => exact absurd rfl h

/-- The outcomes of one word. -/
theorem applyOption_some {T : Chrono} {o o' : Opts} {w : List Char} :
    applyOption T o w = .ok (some o') ↔ ∃ st, OptionWord T w st ∧ o.set st = some o' := by
  by_cases h : ∃ key value, KeyValue w key value
  · obtain ⟨key, value, h⟩ := h
    obtain ⟨n1, n2, n3, n4, n5, n6⟩ := names_ne
    rw [applyOption_eq T o h]
    have h3 := h.2.2
    simp only [optionWord_iff h]
    constructor
    · intro e
      split at e
      · rename_i hk
        exact ⟨.certAuthority, by assumption, by cases e; rfl⟩
      split at e
      · split at e
        · cases e
        · rename_i hk hn
          refine ⟨.namespaces ((splitOn (· == ',') value).filter (· ≠ [])), ⟨hk, _, commaList_iff.mpr rfl, rfl⟩, ?_⟩
          cases e
          simp only [Opts.set, if_neg hn]
          congr 3
          apply List.filter_congr
          intro x _
          cases x <;> simp
      split at e
      · split at e
        · cases e
        · rename_i hk hn
          rw [bind_ok_iff] at e
          obtain ⟨t, ht, e⟩ := e
          rw [mapErr_ok, timestamp_stripped h3] at ht
          refine ⟨.validAfter t, ⟨hk, ht⟩, ?_⟩
          cases e
          simp only [Opts.set, if_neg hn]
      split at e
      · split at e
        · cases e
        · rename_i hk hn
          rw [bind_ok_iff] at e
          obtain ⟨t, ht, e⟩ := e
          rw [mapErr_ok, timestamp_stripped h3] at ht
          refine ⟨.validBefore t, ⟨hk, ht⟩, ?_⟩
          cases e
          simp only [Opts.set, if_neg hn]
      · cases e
    · rintro ⟨st, hs, hset⟩
      cases st with
      | certAuthority =>
        have hk : lower key = _ := hs
        rw [if_pos hk]
        cases hset; rfl
      | namespaces l =>
        obtain ⟨hk, ps, hp, rfl⟩ := hs
        rw [if_neg (by rw [hk]; exact n1.symm), if_pos hk]
        rw [Opts.set] at hset
        split at hset
        · cases hset
        · rename_i hn
          rw [if_neg hn]
          cases hset
          rw [commaList_iff.mp hp]
          congr 4
          apply List.filter_congr
          intro x _
          cases x <;> simp
      | validAfter t =>
        obtain ⟨hk, ht⟩ := hs
        rw [if_neg (by rw [hk]; exact n2.symm), if_neg (by rw [hk]; exact n4.symm), if_pos hk]
        rw [Opts.set] at hset
        split at hset
        · cases hset
        · rename_i hn
          rw [if_neg hn, bind_ok_iff]
          cases hset
          exact ⟨t, mapErr_ok.mpr ((timestamp_stripped h3).mpr ht), rfl⟩
      | validBefore t =>
        obtain ⟨hk, ht⟩ := hs
        rw [if_neg (by rw [hk]; exact n3.symm), if_neg (by rw [hk]; exact n5.symm), if_neg (by rw [hk]; exact n6.symm), if_pos hk]
        rw [Opts.set] at hset
        split at hset
        · cases hset
        · rename_i hn
          rw [if_neg hn, bind_ok_iff]
          cases hset
          exact ⟨t, mapErr_ok.mpr ((timestamp_stripped h3).mpr ht), rfl⟩
  · rw [applyOption_not h]
    constructor
    · intro e; cases e
    · rintro ⟨st, ⟨key, value, hk, _⟩, _⟩
      exact absurd ⟨key, value, hk⟩ h

theorem applyOption_none {T : Chrono} {o : Opts} {w : List Char} : applyOption T o w = .ok none ↔ KeyWord w := by
  by_cases h : ∃ key value, KeyValue w key value
  · obtain ⟨key, value, h⟩ := h
    rw [applyOption_eq T o h, keyWord_iff h]
    have hb : ∀ (r : Res Int) (f : Int → Opts), ((do let t ← r; return some (f t)) : Res (Option Opts)) ≠ .ok none := by
      intro r f e
      rw [bind_ok_iff] at e
      obtain ⟨t, _, e⟩ := e
      cases e
    simp only [List.mem_cons, List.not_mem_nil, or_false, not_or]
    constructor
    · intro e
      split at e
      · cases e
      split at e
      · split at e <;> cases e
      split at e
      · split at e
        · cases e
        · exact absurd e (hb _ _)
      split at e
      · split at e
        · cases e
        · exact absurd e (hb _ _)
      · refine ⟨?_, ?_, ?_, ?_⟩ <;> assumption
    · rintro ⟨h1, h2, h3, h4⟩
      rw [if_neg h1, if_neg h2, if_neg h3, if_neg h4]
  · rw [applyOption_not h]
    constructor
    · intro e; cases e
    · rintro ⟨key, value, hk, _⟩
      exact absurd ⟨key, value, hk⟩ h

theorem applyOption_panic {T : Chrono} {o : Opts} {w : List Char} : applyOption T o w = .panic ↔ BadLocal T o w := by
  by_cases h : ∃ key value, KeyValue w key value
  · obtain ⟨key, value, h⟩ := h
    obtain ⟨n1, n2, n3, n4, n5, n6⟩ := names_ne
    rw [applyOption_eq T o h, badLocal_iff h]
    have hb : ∀ (f : Err → Err) (r : Res Int) (g : Int → Opts),
        ((do let t ← Res.mapErr f r; return some (g t)) : Res (Option Opts)) = .panic ↔ r = .panic := by
      intro f r g
      cases r <;> simp [Res.mapErr, Res.pure_eq]
    constructor
    · intro e
      split at e
      · cases e
      split at e
      · split at e <;> cases e
      split at e
      · split at e
        · cases e
        · rename_i hk hn
          exact ⟨.inl ⟨hk, isSome_none hn⟩, (hb _ _ _).mp e⟩
      split at e
      · split at e
        · cases e
        · rename_i hk hn
          exact ⟨.inr ⟨hk, isSome_none hn⟩, (hb _ _ _).mp e⟩
      · cases e
    · rintro ⟨⟨hk, hn⟩ | ⟨hk, hn⟩, hp⟩
      · rw [if_neg (by rw [hk]; exact n2.symm), if_neg (by rw [hk]; exact n4.symm), if_pos hk, if_neg (by simp [hn])]
        exact (hb _ _ _).mpr hp
      · rw [if_neg (by rw [hk]; exact n3.symm), if_neg (by rw [hk]; exact n5.symm), if_neg (by rw [hk]; exact n6.symm), if_pos hk,
          if_neg (by simp [hn])]
        exact (hb _ _ _).mpr hp
  · rw [applyOption_not h]
    constructor
    · intro e; cases e
    · rintro ⟨key, value, _, hk, _⟩
      exact absurd ⟨key, value, hk⟩ h

/-! ## The loop -/

/-- Record options one after the other. -/
def Opts.sets : Opts → List Setting → Option Opts
  | o, [] => some o
  | o, st :: sts => (o.set st).bind fun o' => o'.sets sts

theorem optionLoop_ok {T : Chrono} {fuel : Nat} {s : List Char} {o o' : Opts} {kt : Tok} {r : List Tok}
    (hs : s.getLast? ≠ some '"') (hf : (splitTokens [] s).length < fuel) :
    optionLoop T fuel (splitTokens [] s) o = .ok (kt, o', r) ↔
      ∃ (os : List (List Char × Setting)) (s2 : List Char), Chain s (os.map (·.1) ++ [kt]) s2 ∧ (∀ x ∈ os, OptionWord T x.1 x.2) ∧
        KeyWord kt ∧ o.sets (os.map (·.2)) = some o' ∧ r = splitTokens [] s2 := by
  induction fuel generalizing s o with
  | zero => omega
  | succ fuel ih =>
    rw [optionLoop, bind_ok_iff]
    constructor
    · rintro ⟨⟨tok, rest⟩, h1, h2⟩
      cases tok with
      | none => cases h2
      | some w =>
        have hlen := asNext_length h1
        obtain ⟨s1, hw, rfl⟩ := (asNext_some false hs).mp h1
        dsimp only at h2
        rw [bind_ok_iff] at h2
        obtain ⟨ao, ha, h2⟩ := h2
        cases ao with
        | none =>
          cases h2
          exact ⟨[], s1, ⟨s1, hw, rfl⟩, by simp, applyOption_none.mp ha, rfl, rfl⟩
        | some o1 =>
          obtain ⟨st, hst, hset⟩ := applyOption_some.mp ha
          obtain ⟨os, s2, hc, hos, hk, hsets, rfl⟩ := (ih (nextWord_last hw hs) (by omega)).mp h2
          refine ⟨(w, st) :: os, s2, ⟨s1, hw, hc⟩, ?_, hk, ?_, rfl⟩
          · intro x hx
            rcases List.mem_cons.mp hx with rfl | hx
            · exact hst
            · exact hos x hx
          · simp only [List.map_cons, Opts.sets, hset, Option.bind_some, hsets]
    · rintro ⟨os, s2, hc, hos, hk, hsets, rfl⟩
      cases os with
      | nil =>
        obtain ⟨s1, hw, rfl⟩ := hc
        refine ⟨_, asNext_nextWord false hs hw, ?_⟩
        dsimp only
        rw [applyOption_none.mpr hk]
        cases hsets
        rfl
      | cons x os =>
        obtain ⟨s1, hw, hc⟩ := hc
        have h1 := asNext_nextWord false hs hw
        refine ⟨_, h1, ?_⟩
        have hlen := asNext_length h1
        dsimp only
        simp only [List.map_cons, Opts.sets, Option.bind_eq_some_iff] at hsets
        obtain ⟨o1, hset, hsets⟩ := hsets
        rw [applyOption_some.mpr ⟨x.2, hos x (by simp), hset⟩]
        exact (ih (nextWord_last hw hs) (by omega)).mpr ⟨os, s2, hc, fun y hy => hos y (by simp [hy]), hk, hsets, rfl⟩

theorem optionLoop_panic {T : Chrono} {fuel : Nat} {s : List Char} {o : Opts}
    (hs : s.getLast? ≠ some '"') (hf : (splitTokens [] s).length < fuel) :
    optionLoop T fuel (splitTokens [] s) o = .panic ↔
      ∃ (os : List (List Char × Setting)) (w s2 : List Char) (o' : Opts), Chain s (os.map (·.1) ++ [w]) s2 ∧ (∀ x ∈ os, OptionWord T x.1 x.2) ∧
        o.sets (os.map (·.2)) = some o' ∧ BadLocal T o' w := by
  induction fuel generalizing s o with
  | zero => omega
  | succ fuel ih =>
    rw [optionLoop, bind_panic_iff]
    constructor
    · rintro (h | ⟨⟨tok, rest⟩, h1, h2⟩)
      · exact absurd h (asNext_noPanic false hs)
      cases tok with
      | none => cases h2
      | some w =>
        have hlen := asNext_length h1
        obtain ⟨s1, hw, rfl⟩ := (asNext_some false hs).mp h1
        dsimp only at h2
        rw [bind_panic_iff] at h2
        rcases h2 with h2 | ⟨ao, ha, h2⟩
        · exact ⟨[], w, s1, o, ⟨s1, hw, rfl⟩, by simp, rfl, applyOption_panic.mp h2⟩
        cases ao with
        | none => cases h2
        | some o1 =>
          obtain ⟨st, hst, hset⟩ := applyOption_some.mp ha
          obtain ⟨os, w2, s2, o', hc, hos, hsets, hb⟩ := (ih (nextWord_last hw hs) (by omega)).mp h2
          refine ⟨(w, st) :: os, w2, s2, o', ⟨s1, hw, hc⟩, ?_, ?_, hb⟩
          · intro x hx
            rcases List.mem_cons.mp hx with rfl | hx
            · exact hst
            · exact hos x hx
          · simp only [List.map_cons, Opts.sets, hset, Option.bind_some, hsets]
    · rintro ⟨os, w, s2, o', hc, hos, hsets, hb⟩
      right
      cases os with
      | nil =>
        obtain ⟨s1, hw, rfl⟩ := hc
        refine ⟨_, asNext_nextWord false hs hw, ?_⟩
        dsimp only
        cases hsets
        rw [applyOption_panic.mpr hb]
        rfl
      | cons x os =>
        obtain ⟨s1, hw, hc⟩ := hc
        have h1 := asNext_nextWord false hs hw
        refine ⟨_, h1, ?_⟩
        have hlen := asNext_length h1
        dsimp only
        simp only [List.map_cons, Opts.sets, Option.bind_eq_some_iff] at hsets
        obtain ⟨o1, hset, hsets⟩ := hsets
        rw [applyOption_some.mpr ⟨x.2, hos x (by simp), hset⟩]
        exact (ih (nextWord_last hw hs) (by omega)).mpr ⟨os, w, s2, o', hc, fun y hy => hos y (by simp [hy]), hsets, hb⟩

/-- What a sequence of settings amounts to. -/
theorem sets_iff {sts : List Setting} : ∀ {o o' : Opts}, o.sets sts = some o' ↔
    (o'.certAuthority = true ↔ o.certAuthority = true ∨ Setting.certAuthority ∈ sts) ∧
    o'.namespaces.toList = o.namespaces.toList ++ sts.filterMap Setting.ns? ∧
    o'.validAfter.toList = o.validAfter.toList ++ sts.filterMap Setting.after? ∧
    o'.validBefore.toList = o.validBefore.toList ++ sts.filterMap Setting.before? := by
  have tl : ∀ {α : Type} {a b : Option α}, a.toList = b.toList → a = b := by
    intro α a b h
    cases a <;> cases b <;> simp_all
  have two : ∀ {α : Type} {a : Option α} {x y : α} {l : List α}, a.toList ≠ x :: y :: l := by
    intro α a x y l h
    cases a <;> simp at h
  induction sts with
  | nil =>
    intro o o'
    simp only [Opts.sets, Option.some.injEq, List.not_mem_nil, or_false, List.filterMap_nil, List.append_nil]
    constructor
    · rintro rfl; simp
    · rintro ⟨h1, h2, h3, h4⟩
      obtain ⟨c, n, a, b⟩ := o
      obtain ⟨c', n', a', b'⟩ := o'
      have := tl h2; have := tl h3; have := tl h4
      have : c = c' := by cases c <;> cases c' <;> simp_all
      simp_all
  | cons st sts ih =>
    intro o o'
    rw [Opts.sets, Option.bind_eq_some_iff]
    obtain ⟨c, n, a, b⟩ := o
    constructor
    · rintro ⟨o1, hs, h⟩
      obtain ⟨h1, h2, h3, h4⟩ := ih.mp h
      cases st with
      | certAuthority =>
        cases hs
        refine ⟨by simp [h1], by simpa [List.filterMap_cons, Setting.ns?] using h2, by simpa [List.filterMap_cons, Setting.after?] using h3, by simpa [List.filterMap_cons, Setting.before?] using h4⟩
      | namespaces l =>
        cases n with
        | some x => cases hs
        | none =>
          cases hs
          refine ⟨by simp [h1], by simpa [List.filterMap_cons, Setting.ns?] using h2, by simpa [List.filterMap_cons, Setting.after?] using h3, by simpa [List.filterMap_cons, Setting.before?] using h4⟩
      | validAfter l =>
        cases a with
        | some x => cases hs
        | none =>
          cases hs
          refine ⟨by simp [h1], by simpa [List.filterMap_cons, Setting.ns?] using h2, by simpa [List.filterMap_cons, Setting.after?] using h3, by simpa [List.filterMap_cons, Setting.before?] using h4⟩
      | validBefore l =>
        cases b with
        | some x => cases hs
        | none =>
          cases hs
          refine ⟨by simp [h1], by simpa [List.filterMap_cons, Setting.ns?] using h2, by simpa [List.filterMap_cons, Setting.after?] using h3, by simpa [List.filterMap_cons, Setting.before?] using h4⟩
    · rintro ⟨h1, h2, h3, h4⟩
      cases st with
      | certAuthority =>
        refine ⟨_, rfl, ih.mpr ⟨by simpa using h1, by simpa [List.filterMap_cons, Setting.ns?] using h2, by simpa [List.filterMap_cons, Setting.after?] using h3, by simpa [List.filterMap_cons, Setting.before?] using h4⟩⟩
      | namespaces l =>
        cases n with
        | some x => exact absurd (by simpa [List.filterMap_cons, Setting.ns?] using h2) two
        | none =>
          refine ⟨_, rfl, ih.mpr ⟨by simpa using h1, by simpa [List.filterMap_cons, Setting.ns?] using h2, by simpa [List.filterMap_cons, Setting.after?] using h3, by simpa [List.filterMap_cons, Setting.before?] using h4⟩⟩
      | validAfter l =>
        cases a with
        | some x => exact absurd (by simpa [List.filterMap_cons, Setting.after?] using h3) two
        | none =>
          refine ⟨_, rfl, ih.mpr ⟨by simpa using h1, by simpa [List.filterMap_cons, Setting.ns?] using h2, by simpa [List.filterMap_cons, Setting.after?] using h3, by simpa [List.filterMap_cons, Setting.before?] using h4⟩⟩
      | validBefore l =>
        cases b with
        | some x => exact absurd (by simpa [List.filterMap_cons, Setting.before?] using h4) two
        | none =>
          refine ⟨_, rfl, ih.mpr ⟨by simpa using h1, by simpa [List.filterMap_cons, Setting.ns?] using h2, by simpa [List.filterMap_cons, Setting.after?] using h3, by simpa [List.filterMap_cons, Setting.before?] using h4⟩⟩

end Ssh
