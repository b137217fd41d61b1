import Verif.Lemmas.AllowedOpts
import Verif.Props.Key

/-! # Whole allowed signer lines -/

namespace Ssh

open Spec

theorem chain_append {ws ws' : List (List Char)} : ∀ {s s' : List Char}, Chain s (ws ++ ws') s' ↔ ∃ m, Chain s ws m ∧ Chain m ws' s' := by
  induction ws with
  | nil => intro s s'; simp [Chain]
  | cons w ws ih =>
    intro s s'
    simp only [List.cons_append, Chain, ih]
    constructor
    · rintro ⟨r, h, m, h1, h2⟩; exact ⟨m, ⟨r, h, h1⟩, h2⟩
    · rintro ⟨m, ⟨r, h, h1⟩, h2⟩; exact ⟨r, h, m, h1, h2⟩

theorem chain_last {ws : List (List Char)} : ∀ {s s' : List Char}, Chain s ws s' → s.getLast? ≠ some '"' → s'.getLast? ≠ some '"' := by
  induction ws with
  | nil => rintro s _ rfl h; exact h
  | cons w ws ih =>
    rintro s s' ⟨r, h, hc⟩ hs
    exact ih hc (nextWord_last h hs)

theorem nextWord_unique {s w r w' r' : List Char} (hs : s.getLast? ≠ some '"') (h : NextWord s w r) (h' : NextWord s w' r') :
    w = w' ∧ r = r' := by
  have e := asNext_nextWord true hs h
  rw [asNext_nextWord true hs h'] at e
  have hw : w' = w := by simpa using congrArg (fun x => match x with | Res.ok (some w, _) => w | _ => []) e
  subst hw
  refine ⟨rfl, ?_⟩
  obtain ⟨n, e1, hw, _⟩ := h
  obtain ⟨n', e2, _, _⟩ := h'
  have hd : ∀ r, (w' ++ r).head? ≠ some ' ' := by
    intro r
    have := (word_head hw).1
    cases hh : w' with
    | nil => exact absurd hh hw.1
    | cons c x => rw [hh] at this; exact this
  have a1 := dropWhile_replicate ' ' n _ (hd r)
  have a2 := dropWhile_replicate ' ' n' _ (hd r')
  rw [← e1] at a1
  rw [← e2, a1] at a2
  exact List.append_cancel_left a2

theorem chain_prefix {ws ws' : List (List Char)} : ∀ {s t t' : List Char}, s.getLast? ≠ some '"' → Chain s ws t → Chain s ws' t' →
    ws.length ≤ ws'.length → ws <+: ws' := by
  induction ws generalizing ws' with
  | nil => intros; exact List.nil_prefix
  | cons w ws ih =>
    intro s t t' hs h h' hl
    cases ws' with
    | nil => simp at hl
    | cons w' ws' =>
      obtain ⟨r, h1, h2⟩ := h
      obtain ⟨r', h1', h2'⟩ := h'
      obtain ⟨rfl, rfl⟩ := nextWord_unique hs h1 h1'
      rw [List.cons_prefix_cons]
      exact ⟨rfl, ih (nextWord_last h1 hs) h2 h2' (by simpa using hl)⟩

/-- The words of a line are determined. -/
theorem words_unique {s : List Char} {ws ws' : List (List Char)} {t : List Char} (hs : s.getLast? ≠ some '"')
    (h : Words s ws) (h' : Chain s ws' t) : ws' <+: ws := by
  obtain ⟨m, hc, hb⟩ := h
  rcases Nat.le_or_ge ws'.length ws.length with hl | hl
  · exact chain_prefix hs h' hc hl
  · obtain ⟨tl, rfl⟩ := chain_prefix hs hc h' hl
    obtain ⟨m', h1, h2⟩ := chain_append.mp h'
    cases tl with
    | nil => simp
    | cons w tl =>
      obtain ⟨r, hw, _⟩ := h2
      have hm : m' = m := by
        clear h' hl hw hb
        induction ws generalizing s with
        | nil => rw [← h1, ← hc]
        | cons w ws ih =>
          obtain ⟨r1, a1, a2⟩ := h1
          obtain ⟨r2, b1, b2⟩ := hc
          obtain ⟨_, rfl⟩ := nextWord_unique hs a1 b1
          exact ih (nextWord_last a1 hs) b2 a2
      subst hm
      have e1 := asNext_nextWord true (chain_last h1 hs) hw
      rw [asNext_blank true hb] at e1
      cases e1

theorem emptyWindow_false {b a : Option Int} : emptyWindow b a = false ↔ ∀ x y, a = some x → b = some y → x < y := by
  cases b <;> cases a <;> simp [emptyWindow]

theorem bool_iff {c : Bool} {p : Prop} (h : c = true ↔ false = true ∨ p) : c = true ↔ p := by simpa using h

/-- Parsing a line. -/
theorem allowed_ok {T : Chrono} {s : List Char} {a : AllowedSigner} : AllowedSigner.fromString T s = .ok a ↔ AllowedLine T s a := by
  by_cases hs : s.getLast? = some '"'
  · obtain ⟨e, h⟩ := fromString_endsQ T hs
    rw [h]
    constructor
    · intro h; cases h
    · intro h; exact absurd hs h.1
  unfold AllowedSigner.fromString AllowedLine
  dsimp only
  rw [bind_ok_iff]
  constructor
  · rintro ⟨⟨ptok, r⟩, h1, h⟩
    cases ptok with
    | none => cases h
    | some p =>
      obtain ⟨s1, hw, rfl⟩ := (asNext_some true hs).mp h1
      have hs1 := nextWord_last hw hs
      dsimp only at h
      split at h
      · cases h
      · rename_i hany
        rw [bind_ok_iff] at h
        obtain ⟨⟨kt, o, r⟩, h2, h⟩ := h
        obtain ⟨os, s2, hc, hos, hkt, hsets, rfl⟩ := (optionLoop_ok hs1 (by omega)).mp h2
        have hs2 := chain_last hc hs1
        dsimp only at h
        rw [bind_ok_iff] at h
        obtain ⟨⟨ktok, r⟩, h3, h⟩ := h
        cases ktok with
        | none => cases h
        | some kd =>
          obtain ⟨s3, hw3, rfl⟩ := (asNext_some false hs2).mp h3
          dsimp only at h
          rw [bind_ok_iff] at h
          obtain ⟨key, hkey, h⟩ := h
          split at h
          · cases h
          · rename_i hwin
            split at h
            · cases h
            · rename_i hb
              cases h
              have hb : Blank s3 := (asTrim_nil_iff s3).mp (by simpa using hb)
              obtain ⟨c1, c2, c3, c4⟩ := sets_iff.mp hsets
              refine ⟨hs, p, os, kt, kd, trimQuotes p, ⟨s3, ⟨s1, hw, ?_⟩, hb⟩, stripQuotes_iff.mpr rfl, commaList_iff.mpr rfl, ?_, hos, hkt,
                ?_, ?_, ?_, ?_, ?_, mapErr_ok.mp hkey⟩
              · have : os.map (·.1) ++ [kt, kd] = (os.map (·.1) ++ [kt]) ++ [kd] := by simp
                rw [this, chain_append]
                exact ⟨s2, hc, s3, hw3, rfl⟩
              · intro x hx he
                apply hany
                rw [List.any_eq_true]
                exact ⟨x, hx, by simp [he]⟩
              · exact bool_iff c1
              · have : os.filterMap (·.2.ns?) = (os.map (·.2)).filterMap Setting.ns? := by rw [List.filterMap_map]; rfl
                rw [this]; simpa [Opts.empty] using c2.symm
              · have : os.filterMap (·.2.after?) = (os.map (·.2)).filterMap Setting.after? := by rw [List.filterMap_map]; rfl
                rw [this]; simpa [Opts.empty] using c3.symm
              · have : os.filterMap (·.2.before?) = (os.map (·.2)).filterMap Setting.before? := by rw [List.filterMap_map]; rfl
                rw [this]; simpa [Opts.empty] using c4.symm
              · exact emptyWindow_false.mp (by simpa using hwin)
  · rintro ⟨_, p, os, kt, kd, v, ⟨s3, ⟨s1, hw, hc⟩, hb⟩, hv, hl, hne, hos, hkt, c1, c2, c3, c4, hwin, hkey⟩
    refine ⟨_, asNext_nextWord true hs hw, ?_⟩
    have hs1 := nextWord_last hw hs
    dsimp only
    have e : os.map (·.1) ++ [kt, kd] = (os.map (·.1) ++ [kt]) ++ [kd] := by simp
    rw [e, chain_append] at hc
    obtain ⟨s2, hc, s3', hw3, rfl⟩ := hc
    rw [stripQuotes_iff.mp hv, commaList_iff.mp hl, if_neg, bind_ok_iff]
    · refine ⟨(kt, ⟨a.certAuthority, a.namespaces, a.validAfter, a.validBefore⟩, splitTokens [] s2), (optionLoop_ok hs1 (by omega)).mpr
        ⟨os, s2, hc, hos, hkt, ?_, rfl⟩, ?_⟩
      · rw [sets_iff]
        refine ⟨by simpa [Opts.empty] using c1, ?_, ?_, ?_⟩
        · have : os.filterMap (·.2.ns?) = (os.map (·.2)).filterMap Setting.ns? := by rw [List.filterMap_map]; rfl
          rw [this] at c2; simpa [Opts.empty] using c2.symm
        · have : os.filterMap (·.2.after?) = (os.map (·.2)).filterMap Setting.after? := by rw [List.filterMap_map]; rfl
          rw [this] at c3; simpa [Opts.empty] using c3.symm
        · have : os.filterMap (·.2.before?) = (os.map (·.2)).filterMap Setting.before? := by rw [List.filterMap_map]; rfl
          rw [this] at c4; simpa [Opts.empty] using c4.symm
      · dsimp only
        rw [bind_ok_iff]
        refine ⟨_, asNext_nextWord false (chain_last hc hs1) hw3, ?_⟩
        dsimp only
        rw [bind_ok_iff]
        refine ⟨a.key, mapErr_ok.mpr hkey, ?_⟩
        rw [if_neg (by rw [emptyWindow_false.mpr hwin]; decide), if_neg (by simp [asTrim_blank hb])]
        rfl
    · rw [List.any_eq_true]
      rintro ⟨x, hx, he⟩
      exact hne x hx (by simpa using he)

/-- When parsing a line panics. -/
theorem allowed_panic {T : Chrono} {s : List Char} : AllowedSigner.fromString T s = .panic ↔
    s.getLast? ≠ some '"' ∧ ∃ (p : List Char) (os : List (List Char × Setting)) (w v s2 : List Char) (l : List (List Char)) (o : Opts),
      Chain s (p :: (os.map (·.1) ++ [w])) s2 ∧ StripQuotes p v ∧ CommaList v l ∧ (∀ x ∈ l, x ≠ []) ∧
      (∀ x ∈ os, OptionWord T x.1 x.2) ∧ Opts.empty.sets (os.map (·.2)) = some o ∧ BadLocal T o w := by
  by_cases hs : s.getLast? = some '"'
  · obtain ⟨e, h⟩ := fromString_endsQ T hs
    rw [h]
    constructor
    · intro h; cases h
    · intro h; exact absurd hs h.1
  unfold AllowedSigner.fromString
  dsimp only
  rw [bind_panic_iff]
  constructor
  · rintro (h | ⟨⟨ptok, r⟩, h1, h⟩)
    · exact absurd h (asNext_noPanic true hs)
    cases ptok with
    | none => cases h
    | some p =>
      obtain ⟨s1, hw, rfl⟩ := (asNext_some true hs).mp h1
      have hs1 := nextWord_last hw hs
      dsimp only at h
      split at h
      · cases h
      · rename_i hany
        rw [bind_panic_iff] at h
        rcases h with h | ⟨⟨kt, o, r⟩, h2, h⟩
        · obtain ⟨os, w, s2, o, hc, hos, hsets, hb⟩ := (optionLoop_panic hs1 (by omega)).mp h
          refine ⟨hs, p, os, w, _, s2, _, o, ⟨s1, hw, hc⟩, stripQuotes_iff.mpr rfl, commaList_iff.mpr rfl, ?_, hos, hsets, hb⟩
          intro x hx he
          apply hany
          rw [List.any_eq_true]
          exact ⟨x, hx, by simp [he]⟩
        · exfalso
          obtain ⟨os, s2, hc, hos, hkt, hsets, rfl⟩ := (optionLoop_ok hs1 (by omega)).mp h2
          dsimp only at h
          rw [bind_panic_iff] at h
          rcases h with h | ⟨⟨ktok, r⟩, h3, h⟩
          · exact asNext_noPanic false (chain_last hc hs1) h
          cases ktok with
          | none => cases h
          | some kd =>
            dsimp only at h
            rw [bind_panic_iff] at h
            rcases h with h | ⟨key, hkey, h⟩
            · exact C17_total _ (mapErr_panic.mp h)
            split at h
            · cases h
            · split at h <;> cases h
  · rintro ⟨_, p, os, w, v, s2, l, o, ⟨s1, hw, hc⟩, hv, hl, hne, hos, hsets, hb⟩
    right
    refine ⟨_, asNext_nextWord true hs hw, ?_⟩
    have hs1 := nextWord_last hw hs
    dsimp only
    rw [stripQuotes_iff.mp hv, commaList_iff.mp hl, if_neg, bind_panic_iff]
    · exact .inl ((optionLoop_panic hs1 (by omega)).mpr ⟨os, w, s2, o, hc, hos, hsets, hb⟩)
    · rw [List.any_eq_true]
      rintro ⟨x, hx, he⟩
      exact hne x hx (by simpa using he)

/-! ## Errors -/

/-- Only errors of the allowed signer parser. -/
def AsOnly {α : Type} (r : Res α) : Prop := ∀ e, r = .err e → ∃ a, e = .invalidAllowedSigner a

theorem AsOnly.asErr {α : Type} (a : ASErr) : AsOnly (asErr a : Res α) := by rintro e h; cases h; exact ⟨a, rfl⟩
theorem AsOnly.ok {α : Type} (a : α) : AsOnly (.ok a : Res α) := by rintro e h; cases h
theorem AsOnly.pure {α : Type} (a : α) : AsOnly (Pure.pure a : Res α) := by rintro e h; cases h
theorem AsOnly.panic {α : Type} : AsOnly (.panic : Res α) := by rintro e h; cases h
theorem AsOnly.unwrap {α : Type} (o : Option α) : AsOnly (Res.unwrap o) := by cases o; exact AsOnly.panic; exact AsOnly.ok _
theorem AsOnly.mapErr {α : Type} (a : ASErr) (r : Res α) : AsOnly (Res.mapErr (fun _ => .invalidAllowedSigner a) r) := by
  rintro e h
  cases r <;> simp [Res.mapErr] at h
  exact ⟨a, h.symm⟩
theorem AsOnly.bind {α β : Type} {r : Res α} {f : α → Res β} (h : AsOnly r) (hf : ∀ a, AsOnly (f a)) : AsOnly (r >>= f) := by
  rintro e he
  cases r with
  | ok a => exact hf a e he
  | err e' => exact h e (by simpa using he)
  | panic => cases he
theorem AsOnly.ite {α : Type} {p : Prop} [Decidable p] {a b : Res α} (ha : AsOnly a) (hb : AsOnly b) : AsOnly (if p then a else b) := by
  split <;> assumption

theorem splitQuoteLoop_as (b : List Tok) : ∀ acc, AsOnly (splitQuoteLoop b acc) := by
  induction b with
  | nil => intro acc; exact AsOnly.asErr _
  | cons t ts ih => intro acc; rw [splitQuoteLoop]; exact .ite (.ok _) (ih _)

theorem splitQuote_as (b : List Tok) : AsOnly (splitQuote b) := by
  cases b with
  | nil => exact AsOnly.asErr _
  | cons t ts => rw [splitQuote]; exact .ite (.asErr _) (splitQuoteLoop_as _ _)

theorem asNext_as (q : Bool) (b : List Tok) : AsOnly (asNext q b) := by
  unfold asNext
  dsimp only
  refine .ite (.pure _) (.bind (.unwrap _) fun f => .ite (.ite (.bind (splitQuote_as _) fun _ => .pure _) (.asErr _)) ?_)
  split
  · refine .ite (.bind (splitQuote_as _) fun x => ?_) (.pure _)
    split
    · exact .ite (.asErr _) (.pure _)
    · exact .pure _
  · exact .pure _

theorem applyOption_as (T : Chrono) (o : Opts) (w : Tok) : AsOnly (applyOption T o w) := by
  unfold applyOption
  refine .ite (.asErr _) (.ite (.ok _) (.ite (.ite (.asErr _) (.ok _)) (.ite (.ite (.asErr _) (.bind (.mapErr _ _) fun _ => .pure _))
    (.ite (.ite (.asErr _) (.bind (.mapErr _ _) fun _ => .pure _)) (.ok _)))))

theorem optionLoop_as (T : Chrono) (fuel : Nat) : ∀ b o, AsOnly (optionLoop T fuel b o) := by
  induction fuel with
  | zero => intro b o; exact AsOnly.panic
  | succ n ih =>
    intro b o
    rw [optionLoop]
    refine .bind (asNext_as _ _) fun x => ?_
    obtain ⟨t, r⟩ := x
    cases t with
    | none => exact .asErr _
    | some w =>
      refine .bind (applyOption_as _ _ _) fun y => ?_
      cases y with
      | none => exact .pure _
      | some o' => exact ih _ _

theorem allowed_as (T : Chrono) (s : List Char) : AsOnly (AllowedSigner.fromString T s) := by
  unfold AllowedSigner.fromString
  refine .bind (asNext_as _ _) fun x => ?_
  obtain ⟨t, r⟩ := x
  cases t with
  | none => exact .asErr _
  | some p =>
    refine .ite (.asErr _) (.bind (optionLoop_as _ _ _ _) fun y => .bind (asNext_as _ _) fun z => ?_)
    obtain ⟨t, r⟩ := z
    cases t with
    | none => exact .asErr _
    | some kd => exact .bind (.mapErr _ _) fun k => .ite (.asErr _) (.ite (.asErr _) (.pure _))

end Ssh
