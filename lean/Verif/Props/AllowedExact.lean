import Verif.Props.AllowedSigner

/-! # C56: exactly which allowed signers survive printing and parsing -/

namespace Ssh

open Spec

/-- The text of an entry: its words, and the comment of the key. -/
theorem display_text {a : AllowedSigner} {t : List Char} (h : a.display = .ok t) : ∃ b tl, a.key.encode = .ok b ∧
    t = spaced (commaJoin a.principals :: (optWords a ++ [a.key.keyType.name.toList, b64Encode b])) ++ tl ∧
    ((tl = [] ∧ a.key.comment = none) ∨ ∃ c, a.key.comment = some c ∧ tl = ' ' :: c.toList) := by
  cases he : a.key.encode with
  | err e =>
    have hk : a.key.display = .err e := by unfold PublicKey.display; rw [he]; rfl
    unfold AllowedSigner.display at h
    rw [hk] at h
    cases h
  | panic =>
    have hk : a.key.display = .panic := by unfold PublicKey.display; rw [he]; rfl
    unfold AllowedSigner.display at h
    rw [hk] at h
    cases h
  | ok b =>
    cases hc : a.key.comment with
    | none =>
      rw [display_words he hc] at h
      cases h
      exact ⟨b, [], rfl, by simp, .inl ⟨rfl, rfl⟩⟩
    | some c =>
      refine ⟨b, ' ' :: c.toList, rfl, ?_, .inr ⟨c, rfl, rfl⟩⟩
      have hk : a.key.display = .ok (a.key.keyType.name.toList ++ ' ' :: b64Encode b ++ ' ' :: c.toList) := by
        unfold PublicKey.display
        rw [he, hc]
        rfl
      unfold AllowedSigner.display at h
      rw [hk] at h
      simp only [Res.ok_bind, Res.pure_eq, Res.ok.injEq, joinComma_eq] at h
      rw [← h]
      unfold optWords
      cases a.certAuthority <;> cases a.namespaces <;> cases a.validAfter <;> cases a.validBefore <;> simp [spaced]

/-- A word that begins a text whose first part has no quote and is followed by a space lies within that part. -/
theorem word_within {w r X tl : List Char} (hw : Word w) (hX : '"' ∉ X) (e : w ++ r = X ++ ' ' :: tl) :
    Simple w ∧ ∃ X', X = w ++ X' ∧ r = X' ++ ' ' :: tl := by
  obtain ⟨_, a, ha, hw⟩ := hw
  have key : ∀ r, a ++ r = X ++ ' ' :: tl → ∃ X', X = a ++ X' ∧ r = X' ++ ' ' :: tl := by
    intro r e
    rcases List.append_eq_append_iff.mp e with ⟨x, e1, e2⟩ | ⟨x, e1, e2⟩
    · exact ⟨x, e1, e2⟩
    · cases x with
      | nil => exact ⟨[], by simpa using e1.symm, by simpa using e2.symm⟩
      | cons c x =>
        simp only [List.cons_append, List.cons.injEq] at e2
        exact absurd e2.1.symm (ha c (by rw [e1]; simp)).1
  rcases hw with rfl | ⟨body, _, rfl⟩
  · exact ⟨ha, key r e⟩
  · exfalso
    rw [List.append_assoc] at e
    obtain ⟨X', e1, e2⟩ := key _ e
    cases X' with
    | nil => simp at e2
    | cons c X' =>
      simp only [List.cons_append, List.cons.injEq] at e2
      exact hX (by rw [e1, ← e2.1]; simp)

/-- The principals of a text that reads back are its first word. -/
theorem first_word {J p r tl : List Char} (hJ : J ≠ []) (hp : StripQuotes p J) (ht : ∃ c l, tl = c :: l ∧ c ≠ ' ' ∧ c ≠ '"')
    (h : NextWord (J ++ ' ' :: tl) p r) : Simple J ∧ p = J ∧ r = ' ' :: tl := by
  obtain ⟨n, e, hw, _⟩ := h
  obtain ⟨m, k, ep, hh, hl⟩ := hp
  obtain ⟨_, a, ha, hw⟩ := hw
  rcases hw with rfl | ⟨body, hb, hpb⟩
  · -- no quotes
    have hq : '"' ∉ p := fun h => (ha _ h).2.1 rfl
    have hm : m = 0 := by
      cases m with
      | zero => rfl
      | succ m => exact absurd (by rw [ep]; simp) hq
    have hk : k = 0 := by
      cases k with
      | zero => rfl
      | succ k => exact absurd (by rw [ep]; simp) hq
    subst hm hk
    have hpJ : p = J := by simpa using ep
    subst hpJ
    cases n with
    | zero => exact ⟨ha, rfl, (List.append_cancel_left (as := p) (by simpa using e)).symm⟩
    | succ n =>
      exfalso
      cases p with
      | nil => exact hJ rfl
      | cons c J =>
        simp only [List.cons_append, List.replicate_succ, List.cons.injEq] at e
        exact (ha c (by simp)).1 e.1
  · exfalso
    cases a with
    | nil =>
      -- a quoted word: its text is the principals
      simp only [List.nil_append] at hpb
      have hbJ : J = body := by
        have h1 : StripQuotes p J := ⟨m, k, ep, hh, hl⟩
        cases body with
        | nil =>
          rw [hpb, stripQuotes_iff] at h1
          exact absurd (h1.symm.trans (by decide)) hJ
        | cons x body =>
          have h2 : StripQuotes p (x :: body) := by
            refine ⟨1, 1, by rw [hpb]; rfl, ?_, ?_⟩
            · simp only [List.head?_cons, Option.some.injEq, ne_eq]; rintro rfl; simp at hb
            · intro e; exact hb (List.mem_of_getLast? e)
          rw [stripQuotes_iff] at h1 h2
          exact h1.symm.trans h2
      subst hbJ
      rw [hpb] at e
      obtain ⟨c, l, rfl, hc1, hc2⟩ := ht
      rcases List.append_eq_append_iff.mp e with ⟨x, e1, e2⟩ | ⟨x, e1, e2⟩
      · -- the spaces include the principals
        cases x with
        | nil => simp at e2
        | cons d x =>
          simp only [List.cons_append, List.cons.injEq] at e2
          cases x with
          | nil => simp only [List.nil_append, List.cons.injEq] at e2; exact hc2 e2.2.1
          | cons d' x =>
            simp only [List.cons_append, List.cons.injEq] at e2
            have : d' ∈ List.replicate n ' ' := by rw [e1]; simp
            exact hc1 (e2.2.1.trans (List.eq_of_mem_replicate this))
      · cases x with
        | nil => simp at e2
        | cons d x =>
          simp only [List.cons_append, List.cons.injEq] at e2
          exact hb (by rw [e1, ← e2.1]; simp)
    | cons x a =>
      have hx := ha x (by simp)
      have hm : m = 0 := by
        cases m with
        | zero => rfl
        | succ m =>
          rw [hpb] at ep
          simp only [List.cons_append, List.replicate_succ, List.cons.injEq] at ep
          exact absurd ep.1 hx.2.1
      subst hm
      simp only [List.replicate_zero, List.nil_append] at ep
      cases k with
      | zero =>
        simp only [List.replicate_zero, List.append_nil] at ep
        subst ep
        apply hl
        rw [hpb, show x :: a ++ '"' :: (body ++ ['"']) = (x :: a ++ '"' :: body) ++ ['"'] by simp, getLast?_suffix (by simp)]
        rfl
      | succ k =>
        cases J with
        | nil => exact hJ rfl
        | cons y J =>
          rw [hpb] at ep
          simp only [List.cons_append, List.cons.injEq] at ep
          have hxy := ep.1
          subst hxy
          have hn : n = 0 := by
            cases n with
            | zero => rfl
            | succ n =>
              simp only [List.cons_append, List.replicate_succ, List.cons.injEq] at e
              exact absurd e.1 hx.1
          subst hn
          rw [hpb] at e
          simp only [List.replicate_zero, List.nil_append, List.cons_append, List.cons.injEq, true_and] at e
          rw [ep.2, List.append_assoc] at e
          have := List.append_cancel_left e
          simp [List.replicate_succ] at this

/-- Text that is a simple word followed by the rest. -/
theorem nextWord_simple {w tl : List Char} (n : Nat) (hw : w ≠ [] ∧ Simple w) (ht : tl = [] ∨ ∃ r, tl = ' ' :: r) :
    NextWord (List.replicate n ' ' ++ (w ++ tl)) w tl := by
  refine ⟨n, rfl, simple_word hw.2 hw.1, ?_⟩
  rcases ht with rfl | ⟨r, rfl⟩
  · exact .inl rfl
  · exact .inr ⟨' ', r, rfl, .inl rfl⟩

theorem spaced_chain_tl {ws : List (List Char)} {tl : List Char} (hne : ws ≠ []) (h : ∀ w ∈ ws, w ≠ [] ∧ Simple w)
    (ht : tl = [] ∨ ∃ r, tl = ' ' :: r) : Chain (spaced ws ++ tl) ws tl := by
  have := spaced_chain hne h 0
  rcases ht with rfl | ⟨r, rfl⟩
  · simpa using this
  · have := chain_comment (.inl rfl) r this
    simpa using this

theorem decimal_simple (t : Int) : Simple (toString t).toList := fun c hc =>
  ⟨(int_simple t c hc).1, (int_simple t c hc).2.1, (int_simple t c hc).2.2.1⟩

theorem simple_append {x y : List Char} (h1 : Simple x) (h2 : Simple y) : Simple (x ++ y) := by
  intro c hc
  rcases List.mem_append.mp hc with h | h
  · exact h1 c h
  · exact h2 c h

/-- The printed option words need no quoting if the namespaces do not. -/
theorem optWords_simple {a : AllowedSigner} (hn : ∀ l, a.namespaces = some l → Simple (commaJoin l)) :
    ∀ w ∈ optWords a, w ≠ [] ∧ Simple w := by
  intro w hw
  unfold optWords at hw
  simp only [List.mem_append] at hw
  rcases hw with ((hw | hw) | hw) | hw
  · split at hw
    · rw [List.mem_singleton.mp hw]; exact ⟨by decide, by unfold Simple; decide⟩
    · cases hw
  · split at hw
    · rename_i l hl
      rw [List.mem_singleton.mp hw]
      exact ⟨by simp, simple_append (by unfold Simple; decide) (hn l hl)⟩
    · cases hw
  · split at hw
    · rw [List.mem_singleton.mp hw]
      exact ⟨by simp, simple_append (by unfold Simple; decide) (decimal_simple _)⟩
    · cases hw
  · split at hw
    · rw [List.mem_singleton.mp hw]
      exact ⟨by simp, simple_append (by unfold Simple; decide) (decimal_simple _)⟩
    · cases hw

theorem commaJoin_ne_nil {l : List (List Char)} (h : l ≠ []) (h2 : ∀ x ∈ l, x ≠ []) : commaJoin l ≠ [] := by
  cases l with
  | nil => exact absurd rfl h
  | cons x xs =>
    have := h2 x (by simp)
    cases xs with
    | nil => exact this
    | cons y ys => simp [commaJoin]

theorem commaJoin_of_mem {l : List (List Char)} {x : List Char} {c : Char} (h : x ∈ l) (hc : c ∈ x) : c ∈ commaJoin l := by
  induction l with
  | nil => cases h
  | cons y ys ih =>
    cases ys with
    | nil => simp only [List.mem_singleton] at h; subst h; exact hc
    | cons z zs =>
      show c ∈ y ++ ',' :: commaJoin (z :: zs)
      rcases List.mem_cons.mp h with rfl | h
      · simp [hc]
      · simp [ih h]

/-- The first character of the words after the principals. -/
theorem tail_head {a : AllowedSigner} (hk : a.key.keyType ∈ keyTypes) (b : List Char) (tl : List Char) :
    ∃ c l, spaced (optWords a ++ [a.key.keyType.name.toList, b]) ++ tl = c :: l ∧ c ≠ ' ' ∧ c ≠ '"' := by
  obtain ⟨k1, k2, _, _⟩ := keyNames_props _ hk
  have gen : ∀ (w : List Char) (ws : List (List Char)), w ≠ [] → Simple w → ∃ c l, spaced (w :: ws) ++ tl = c :: l ∧ c ≠ ' ' ∧ c ≠ '"' := by
    intro w ws hne hs
    cases w with
    | nil => exact absurd rfl hne
    | cons c w =>
      have := hs c (by simp)
      cases ws with
      | nil => exact ⟨c, _, rfl, this.1, this.2.1⟩
      | cons x xs => exact ⟨c, _, rfl, this.1, this.2.1⟩
  have gen2 : ∀ (w u : List Char) (ws : List (List Char)), w ≠ [] → Simple w → ∃ c l, spaced ((w ++ u) :: ws) ++ tl = c :: l ∧ c ≠ ' ' ∧ c ≠ '"' := by
    intro w u ws hne hs
    cases w with
    | nil => exact absurd rfl hne
    | cons c w =>
      have := hs c (by simp)
      cases ws with
      | nil => exact ⟨c, _, rfl, this.1, this.2.1⟩
      | cons x xs => exact ⟨c, _, rfl, this.1, this.2.1⟩
  unfold optWords
  cases a.certAuthority with
  | true => exact gen _ _ (by decide) (by unfold Simple; decide)
  | false =>
    cases a.namespaces with
    | some l => exact gen2 _ _ _ (by decide) (by unfold Simple; decide)
    | none =>
      cases a.validAfter with
      | some t => exact gen2 _ _ _ (by decide) (by unfold Simple; decide)
      | none =>
        cases a.validBefore with
        | some t => exact gen2 _ _ _ (by decide) (by unfold Simple; decide)
        | none => exact gen _ _ k1 k2

/-- A word that begins a text starting with `P` includes `P`. -/
theorem word_starts {w r P Y : List Char} (hP : Simple P) (hr : r = [] ∨ ∃ c r', r = c :: r' ∧ (c = ' ' ∨ c = '#'))
    (e : w ++ r = P ++ Y) : ∃ raw, w = P ++ raw ∧ raw ++ r = Y := by
  rcases List.append_eq_append_iff.mp e with ⟨x, e1, e2⟩ | ⟨x, e1, e2⟩
  · cases x with
    | nil => exact ⟨[], by simpa using e1.symm, by simpa using e2⟩
    | cons c x =>
      exfalso
      rcases hr with rfl | ⟨d, r', rfl, hd⟩
      · cases e2
      · simp only [List.cons_append, List.cons.injEq] at e2
        have := hP c (by rw [e1]; simp)
        rw [e2.1] at hd
        rcases hd with h | h
        · exact this.1 h
        · exact this.2.2 h
  · exact ⟨x, e1, e2.symm⟩

/-- The namespaces of an entry whose text reads back need no quoting. -/
theorem namespaces_within {T : Chrono} {l : List (List Char)} {w r tl : List Char} {n : Nat}
    (hw : NextWord (List.replicate n ' ' ++ (("namespaces=".toList ++ commaJoin l) ++ ' ' :: tl)) w r)
    (ho : (∃ st, OptionWord T w st ∧ ∀ x, st.ns? = some x → x = l) ∨ KeyWord w) :
    ∀ x ∈ l, x ≠ [] ∧ ',' ∉ x ∧ Simple x := by
  obtain ⟨n', e, hw, hr⟩ := hw
  have e : w ++ r = "namespaces=".toList ++ (commaJoin l ++ ' ' :: tl) := by
    have h1 : (w ++ r).head? ≠ some ' ' := by
      have := (word_head hw).1
      cases hh : w with
      | nil => exact absurd hh hw.1
      | cons c x => rw [hh] at this; exact this
    have a1 := dropWhile_replicate ' ' n' _ h1
    have a2 := dropWhile_replicate ' ' n (("namespaces=".toList ++ commaJoin l) ++ ' ' :: tl) (by
      rw [List.append_assoc]; simp)
    rw [e, a1] at a2
    rw [a2]; simp
  obtain ⟨raw, rfl, e2⟩ := word_starts (by unfold Simple; decide) hr e
  have hso : splitOnce '=' ("namespaces=".toList ++ raw) = some ("namespaces".toList, raw) := splitOnce_some.mpr ⟨by decide, rfl⟩
  have hkv : ∀ {key value}, KeyValue ("namespaces=".toList ++ raw) key value → key = "namespaces".toList ∧ StripQuotes raw value ∧ '"' ∉ value := by
    intro key value h
    rw [keyValue_iff, hso] at h
    exact ⟨h.1.symm, stripQuotes_iff.mpr h.2.1, h.2.2⟩
  have hl : lower "namespaces".toList = "namespaces".toList := by decide
  rcases ho with ⟨st, ⟨key, value, hk, hst⟩, hx⟩ | ⟨key, value, hk, hn⟩
  · obtain ⟨rfl, hsq, hq⟩ := hkv hk
    cases st with
    | certAuthority => exact absurd (show lower _ = "cert-authority".toList from hst) (by decide)
    | validAfter t => exact absurd hst.1 (by decide)
    | validBefore t => exact absurd hst.1 (by decide)
    | namespaces l' =>
      obtain rfl := hx l' rfl
      obtain ⟨_, pieces, ⟨_, hv, hcom⟩, hl'⟩ := hst
      have hmem : ∀ x ∈ l', x ≠ [] ∧ ',' ∉ x ∧ ∀ c ∈ x, c ∈ value := by
        intro x hx
        rw [hl', List.mem_filter] at hx
        exact ⟨by simpa using hx.2, hcom x hx.1, fun c hc => by rw [hv]; exact commaJoin_of_mem hx.1 hc⟩
      have hN : '"' ∉ "namespaces=".toList ++ commaJoin l' := by
        intro h
        rcases List.mem_append.mp h with h | h
        · revert h; decide
        · rcases commaJoin_mem h with h | ⟨x, hx, hc⟩
          · revert h; decide
          · exact hq ((hmem x hx).2.2 _ hc)
      obtain ⟨hs, _⟩ := word_within (X := "namespaces=".toList ++ commaJoin l') (tl := tl) hw hN (by rw [e, List.append_assoc])
      intro x hx
      obtain ⟨h1, h2, h3⟩ := hmem x hx
      refine ⟨h1, h2, fun c hc => hs c ?_⟩
      obtain ⟨m, k, e, _, _⟩ := hsq
      rw [e]
      simp [h3 c hc]
  · obtain ⟨rfl, _, _⟩ := hkv hk
    exact absurd hn (by decide)

/-- The words of options and key: which are options. -/
theorem chain_head {s s' : List Char} {os : List (List Char × Setting)} {kt kd : List Char}
    (h : Chain s (os.map (·.1) ++ [kt, kd]) s') :
    ∃ w r, NextWord s w r ∧ ((∃ o os', os = o :: os' ∧ o.1 = w ∧ Chain r (os'.map (·.1) ++ [kt, kd]) s') ∨ (os = [] ∧ kt = w)) := by
  cases os with
  | nil =>
    obtain ⟨r, h1, h2⟩ := h
    exact ⟨kt, r, h1, .inr ⟨rfl, rfl⟩⟩
  | cons o os' =>
    obtain ⟨r, h1, h2⟩ := h
    exact ⟨o.1, r, h1, .inl ⟨o, os', rfl, rfl, h2⟩⟩

/-- C56: an entry is reproduced from its text exactly if its principals and namespaces need no quoting, its bounds
happen to be dates as well, and its key has a plain type and no comment. -/
theorem C56_exact (T : Chrono) (a : AllowedSigner) (t : List Char) (ht : a.display = .ok t) :
    AllowedSigner.fromString T t = .ok a ↔
      (a.principals ≠ [] ∧ ∀ x ∈ a.principals, x ≠ [] ∧ ',' ∉ x ∧ Simple x) ∧
      (∀ l, a.namespaces = some l → ∀ x ∈ l, x ≠ [] ∧ ',' ∉ x ∧ Simple x) ∧
      (∀ u, a.validAfter = some u ∨ a.validBefore = some u → Timestamp T (toString u).toList u) ∧
      (∀ x y, a.validAfter = some x → a.validBefore = some y → x < y) ∧
      WellFormedKey a.key ∧ a.key.keyType.name = a.key.keyType.plain ∧ a.key.comment = none := by
  obtain ⟨b, tl, he, rfl, htl⟩ := display_text ht
  have htl' : tl = [] ∨ ∃ r, tl = ' ' :: r := by
    rcases htl with ⟨h, _⟩ | ⟨c, _, h⟩
    · exact .inl h
    · exact .inr ⟨_, h⟩
  constructor
  · intro h
    obtain ⟨hq, p, os, kt, kd, v, ⟨m, hchain, hbl⟩, hsq, ⟨hpne, rfl, hpc⟩, hpe, hoa, hkt, hca, hns, hva, hvb, hord, hkey⟩ := allowed_ok.mp h
    have hwf : WellFormedKey a.key := C20_parsed _ (.inr ⟨_, hkey⟩)
    obtain ⟨k1, k2, k3, k4⟩ := keyNames_props _ hwf.1
    have hchain' := hchain
    obtain ⟨r, hw, hch⟩ := hchain'
    rw [spaced_cons (by simp), List.append_assoc, List.cons_append] at hw
    obtain ⟨hJs, rfl, rfl⟩ := first_word (commaJoin_ne_nil hpne hpe) hsq (tail_head hwf.1 _ _) hw
    have hps : ∀ x ∈ a.principals, x ≠ [] ∧ ',' ∉ x ∧ Simple x := fun x hx =>
      ⟨hpe x hx, hpc x hx, fun c hc => hJs c (commaJoin_of_mem hx hc)⟩
    have hq1 := nextWord_last hw (by rw [spaced_cons (by simp), List.append_assoc, List.cons_append] at hq; exact hq)
    have hnsw : ∀ l, a.namespaces = some l → ∀ x ∈ l, x ≠ [] ∧ ',' ∉ x ∧ Simple x := by
      intro l hl
      have hopt : ∀ {w : List Char} {os0 os' : List (List Char × Setting)} {o}, os = os0 ++ o :: os' → o.1 = w →
          (∃ st, OptionWord T w st ∧ ∀ x, st.ns? = some x → x = l) := by
        rintro w os0 os' o ho rfl
        refine ⟨o.2, hoa o (by rw [ho]; simp), fun x hx => ?_⟩
        have : x ∈ os.filterMap (·.2.ns?) := List.mem_filterMap.mpr ⟨o, by rw [ho]; simp, hx⟩
        rw [hns, hl] at this
        simpa using this
      cases hc : a.certAuthority with
      | false =>
        obtain ⟨w, r, hw1, hcase⟩ := chain_head hch
        have hst : ∃ ws, spaced (optWords a ++ [a.key.keyType.name.toList, b64Encode b]) ++ tl =
            ("namespaces=".toList ++ commaJoin l) ++ ' ' :: ws := by
          unfold optWords
          rw [hc, hl]
          simp only [Bool.false_eq_true, if_false, List.nil_append, List.cons_append, List.append_assoc]
          rw [spaced_cons (by simp)]
          exact ⟨_, by simp only [List.append_assoc, List.cons_append]; rfl⟩
        obtain ⟨ws, hst⟩ := hst
        rw [hst] at hw1
        refine namespaces_within (T := T) (n := 1) hw1 ?_
        rcases hcase with ⟨o, os', ho, how, _⟩ | ⟨_, rfl⟩
        · exact .inl (hopt (os0 := []) ho how)
        · exact .inr hkt
      | true =>
        obtain ⟨w, r, hw1, hcase⟩ := chain_head hch
        have hst : ∃ ws, spaced (optWords a ++ [a.key.keyType.name.toList, b64Encode b]) ++ tl =
            "cert-authority".toList ++ ' ' :: (("namespaces=".toList ++ commaJoin l) ++ ' ' :: ws) := by
          unfold optWords
          rw [hc, hl]
          simp only [if_true, List.nil_append, List.cons_append, List.append_assoc]
          rw [spaced_cons (by simp), spaced_cons (by simp)]
          exact ⟨_, by simp only [List.append_assoc, List.cons_append]; rfl⟩
        obtain ⟨ws, hst⟩ := hst
        rw [hst] at hw1 hq1
        obtain ⟨rfl, rfl⟩ := nextWord_unique hq1 hw1 (nextWord_simple (w := "cert-authority".toList) 1 ⟨by decide, by unfold Simple; decide⟩ (.inr ⟨_, rfl⟩))
        rcases hcase with ⟨o, os', rfl, how, hch'⟩ | ⟨_, rfl⟩
        · obtain ⟨w, r, hw2, hcase⟩ := chain_head hch'
          refine namespaces_within (T := T) (n := 1) hw2 ?_
          rcases hcase with ⟨o', os'', rfl, how, _⟩ | ⟨_, rfl⟩
          · exact .inl (hopt (os0 := [o]) rfl how)
          · exact .inr hkt
        · rw [keyWord_iff (key := "cert-authority".toList) (value := []) ⟨by decide, .inl ⟨rfl, rfl⟩, by simp⟩] at hkt
          exact absurd hkt (by decide)
    have hos := optWords_simple (a := a) fun l hl => commaJoin_simple fun x hx => (hnsw l hl x hx).2.2
    have hws : ∀ w ∈ commaJoin a.principals :: (optWords a ++ [a.key.keyType.name.toList, b64Encode b]), w ≠ [] ∧ Simple w := by
      intro w hw
      rcases List.mem_cons.mp hw with rfl | hw
      · exact ⟨commaJoin_ne_nil hpne hpe, hJs⟩
      · rcases List.mem_append.mp hw with h | h
        · exact hos w h
        · simp only [List.mem_cons, List.not_mem_nil, or_false] at h
          rcases h with rfl | rfl
          · exact ⟨k1, k2⟩
          · exact ⟨b64Encode_ne_nil (encode_ne_nil he), b64_simple b⟩
    have hp1 := words_unique hq ⟨m, hchain, hbl⟩ (spaced_chain_tl (by simp) hws htl')
    obtain ⟨ex, e⟩ := hp1
    simp only [List.cons_append, List.cons.injEq, true_and, List.append_assoc, List.nil_append] at e
    have hnk : ∀ o ∈ os, o.1 ≠ a.key.keyType.name.toList := by
      intro o ho e
      obtain ⟨key, value, hkv, hst⟩ := hoa o ho
      rw [e] at hkv
      obtain ⟨rfl, rfl⟩ := keyValue_unique hkv ⟨k3, .inl ⟨rfl, rfl⟩, by simp⟩
      simp only [List.mem_cons, List.not_mem_nil, or_false, not_or] at k4
      revert hst
      cases o.2 with
      | certAuthority => exact k4.1
      | namespaces l => exact fun h => k4.2.1 h.1
      | validAfter u => exact fun h => k4.2.2.1 h.1
      | validBefore u => exact fun h => k4.2.2.2 h.1
    have hsplit : optWords a = os.map (·.1) ∧ kt = a.key.keyType.name.toList ∧ kd = b64Encode b := by
      rcases List.append_eq_append_iff.mp e with ⟨x, e1, e2⟩ | ⟨x, e1, e2⟩
      · cases x with
        | nil => simp at e2; exact ⟨by simpa using e1.symm, e2.1.symm, e2.2.1.symm⟩
        | cons y x =>
          simp only [List.cons_append, List.cons.injEq] at e2
          have : y ∈ os.map (·.1) := by rw [e1]; simp
          obtain ⟨o, ho, hoy⟩ := List.mem_map.mp this
          exact absurd (hoy.trans e2.1.symm) (hnk o ho)
      · have := congrArg List.length e2
        simp at this
        have hx : x = [] := List.eq_nil_of_length_eq_zero (by omega)
        subst hx
        simp at e2
        exact ⟨by simpa using e1, e2.1, e2.2.1⟩
    obtain ⟨how, rfl, rfl⟩ := hsplit
    have hcomment : a.key.comment = none := by
      obtain ⟨label, data, rest, blob, w, tl', hs, _, _, _, _, hc⟩ := (pubFromString_iff _ _).mp hkey
      have hsw : splitWhitespace (a.key.keyType.name.toList ++ ' ' :: b64Encode b) = [a.key.keyType.name.toList, b64Encode b] := by
        obtain ⟨hw1, hw2⟩ := table_name_word _ hwf.1
        rw [splitWhitespace_cons hw1 hw2 (by decide),
          splitWhitespace_word (b64Encode_ne_nil (encode_ne_nil he)) fun c hc => (b64Encode_props b c hc).1]
      rw [hsw] at hs
      simp only [List.cons.injEq] at hs
      rw [hc, ← hs.2.2]
      rfl
    refine ⟨⟨hpne, hps⟩, hnsw, ?_, hord, hwf, ?_, hcomment⟩
    · intro u hu
      have hqt : '"' ∉ (toString u).toList := fun h => (int_simple u _ h).2.1 rfl
      rcases hu with hu | hu
      · have hm : ("valid-after=".toList ++ (toString u).toList) ∈ optWords a := by
          unfold optWords
          rw [hu]
          exact List.mem_append_left _ (List.mem_append_right _ (List.mem_singleton.mpr rfl))
        rw [how] at hm
        obtain ⟨x, hx, hx1⟩ := List.mem_map.mp hm
        have ho := hoa x hx
        rw [hx1] at ho
        have hkv : KeyValue ("valid-after=".toList ++ (toString u).toList) "valid-after".toList (toString u).toList :=
          ⟨by decide, .inr ⟨_, rfl, stripQuotes_self hqt⟩, hqt⟩
        rw [optionWord_iff hkv] at ho
        cases hx2 : x.2 with
        | certAuthority => rw [hx2] at ho; exact absurd (show lower _ = "cert-authority".toList from ho) (by decide)
        | namespaces l => rw [hx2] at ho; exact absurd ho.1 (by decide)
        | validAfter u' =>
          rw [hx2] at ho
          have : u' ∈ os.filterMap (·.2.after?) := List.mem_filterMap.mpr ⟨x, hx, by rw [hx2]; rfl⟩
          rw [hva, hu] at this
          have : u' = u := by simpa using this
          rw [this] at ho
          exact ho.2
        | validBefore u => rw [hx2] at ho; exact absurd ho.1 (by decide)
      · have hm : ("valid-before=".toList ++ (toString u).toList) ∈ optWords a := by
          unfold optWords
          rw [hu]
          exact List.mem_append_right _ (List.mem_singleton.mpr rfl)
        rw [how] at hm
        obtain ⟨x, hx, hx1⟩ := List.mem_map.mp hm
        have ho := hoa x hx
        rw [hx1] at ho
        have hkv : KeyValue ("valid-before=".toList ++ (toString u).toList) "valid-before".toList (toString u).toList :=
          ⟨by decide, .inr ⟨_, rfl, stripQuotes_self hqt⟩, hqt⟩
        rw [optionWord_iff hkv] at ho
        cases hx2 : x.2 with
        | certAuthority => rw [hx2] at ho; exact absurd (show lower _ = "cert-authority".toList from ho) (by decide)
        | namespaces l => rw [hx2] at ho; exact absurd ho.1 (by decide)
        | validAfter u => rw [hx2] at ho; exact absurd ho.1 (by decide)
        | validBefore u' =>
          rw [hx2] at ho
          have : u' ∈ os.filterMap (·.2.before?) := List.mem_filterMap.mpr ⟨x, hx, by rw [hx2]; rfl⟩
          rw [hvb, hu] at this
          have : u' = u := by simpa using this
          rw [this] at ho
          exact ho.2
    · refine Classical.byContradiction fun hp => ?_
      obtain ⟨t', h1, h2⟩ := C16_nonplain_rejected a.key hwf hcomment hp
      unfold PublicKey.display at h1
      rw [he, hcomment] at h1
      cases h1
      rw [hkey] at h2
      cases h2
  · rintro ⟨hp, hn, hbd, hord, hk, hkp, hkc⟩
    obtain ⟨b', he', hf⟩ := text_roundtrip hk hkp (by rw [hkc]; intro c h; cases h) [] rfl (.inl rfl)
    rw [he] at he'
    cases he'
    have htn : tl = [] := by
      rcases htl with ⟨h, _⟩ | ⟨c, h, _⟩
      · exact h
      · rw [hkc] at h; cases h
    subst htn
    rw [hkc] at hf
    simp only [List.append_nil] at hf ⊢
    obtain ⟨k1, k2, k3, k4⟩ := keyNames_props _ hk.1
    have hpj : commaJoin a.principals ≠ [] := commaJoin_ne_nil hp.1 fun x hx => (hp.2 x hx).1
    have hps : Simple (commaJoin a.principals) := commaJoin_simple fun x hx => (hp.2 x hx).2.2
    let os : List (List Char × Setting) := (if a.certAuthority then [("cert-authority".toList, .certAuthority)] else []) ++
      (match a.namespaces with | some ns => [("namespaces=".toList ++ commaJoin ns, .namespaces ns)] | none => []) ++
      (match a.validAfter with | some t => [("valid-after=".toList ++ (toString t).toList, .validAfter t)] | none => []) ++
      (match a.validBefore with | some t => [("valid-before=".toList ++ (toString t).toList, .validBefore t)] | none => [])
    have hos : optWords a = os.map (·.1) := by
      unfold optWords
      dsimp only [os]
      cases a.certAuthority <;> cases a.namespaces <;> cases a.validAfter <;> cases a.validBefore <;> simp
    have hoa : ∀ x ∈ os, OptionWord T x.1 x.2 := by
      intro x hx
      simp only [os, List.mem_append] at hx
      rcases hx with ((h | h) | h) | h
      · split at h
        · rw [List.mem_singleton] at h
          subst h
          exact ⟨_, [], ⟨by decide, .inl ⟨rfl, rfl⟩, by decide⟩, rfl⟩
        · cases h
      · cases hns : a.namespaces with
        | none => rw [hns] at h; cases h
        | some l =>
          rw [hns] at h
          have h := List.mem_singleton.mp h
          subst h
          have hl := hn l hns
          have hs : Simple (commaJoin l) := commaJoin_simple fun x hx => (hl x hx).2.2
          have hq : '"' ∉ commaJoin l := fun h => (hs _ h).2.1 rfl
          refine ⟨"namespaces".toList, commaJoin l, ⟨by decide, .inr ⟨commaJoin l, rfl, stripQuotes_self hq⟩, hq⟩, by decide, ?_⟩
          cases l with
          | nil => exact ⟨[[]], ⟨by simp, rfl, by simp⟩, by simp⟩
          | cons y ys =>
            refine ⟨y :: ys, ⟨by simp, rfl, fun x hx => (hl x hx).2.1⟩, ?_⟩
            symm
            rw [List.filter_eq_self]
            intro x hx
            simpa using (hl x hx).1
      · cases hv : a.validAfter with
        | none => rw [hv] at h; cases h
        | some u =>
          rw [hv] at h
          have h := List.mem_singleton.mp h
          subst h
          have hqt : '"' ∉ (toString u).toList := fun h => (int_simple u _ h).2.1 rfl
          exact ⟨"valid-after".toList, _, ⟨by decide, .inr ⟨_, rfl, stripQuotes_self hqt⟩, hqt⟩, by decide, hbd u (.inl hv)⟩
      · cases hv : a.validBefore with
        | none => rw [hv] at h; cases h
        | some u =>
          rw [hv] at h
          have h := List.mem_singleton.mp h
          subst h
          have hqt : '"' ∉ (toString u).toList := fun h => (int_simple u _ h).2.1 rfl
          exact ⟨"valid-before".toList, _, ⟨by decide, .inr ⟨_, rfl, stripQuotes_self hqt⟩, hqt⟩, by decide, hbd u (.inr hv)⟩
    have hosw := optWords_simple (a := a) fun l hl => commaJoin_simple fun x hx => (hn l hl x hx).2.2
    rw [hos] at hosw ⊢
    have hws : ∀ w ∈ commaJoin a.principals :: (os.map (·.1) ++ [a.key.keyType.name.toList, b64Encode b]), w ≠ [] ∧ Simple w := by
      intro w hw
      rcases List.mem_cons.mp hw with rfl | hw
      · exact ⟨hpj, hps⟩
      · rcases List.mem_append.mp hw with h | h
        · exact hosw w h
        · simp only [List.mem_cons, List.not_mem_nil, or_false] at h
          rcases h with rfl | rfl
          · exact ⟨k1, k2⟩
          · exact ⟨b64Encode_ne_nil (encode_ne_nil he), b64_simple b⟩
    rw [allowed_ok]
    refine ⟨spaced_last hws, _, os, _, _, _, spaced_words (by simp) hws, stripQuotes_self fun h => (hps _ h).2.1 rfl,
      ⟨hp.1, rfl, fun x hx => (hp.2 x hx).2.1⟩, fun x hx => (hp.2 x hx).1, hoa, keyWord_name hk.1, ?_, ?_, ?_, ?_, hord, hf⟩
    · dsimp only [os]; cases a.certAuthority <;> cases a.namespaces <;> cases a.validAfter <;> cases a.validBefore <;> simp
    · dsimp only [os]; cases a.certAuthority <;> cases a.namespaces <;> cases a.validAfter <;> cases a.validBefore <;> simp [Setting.ns?]
    · dsimp only [os]; cases a.certAuthority <;> cases a.namespaces <;> cases a.validAfter <;> cases a.validBefore <;> simp [Setting.after?]
    · dsimp only [os]; cases a.certAuthority <;> cases a.namespaces <;> cases a.validAfter <;> cases a.validBefore <;> simp [Setting.before?]

/-- An entry with every option but bounds, whose text reads back. -/
example : ∃ a : AllowedSigner, ∃ t, a.display = .ok t ∧ a.certAuthority = true ∧ a.namespaces = some ["git".toList] ∧
    AllowedSigner.fromString sampleChrono t = .ok a := by
  have hk : WellFormedKey { sampleEd with comment := none } := ⟨by decide +kernel, rfl, by decide, rfl⟩
  obtain ⟨b, he, _⟩ := text_roundtrip hk (by decide) (by intro c h; cases h) [] rfl (.inl rfl)
  refine ⟨⟨["a@x".toList, "b".toList], true, some ["git".toList], none, none, { sampleEd with comment := none }⟩, _, display_words he rfl, rfl, rfl, ?_⟩
  refine (C56_exact _ _ _ (display_words he rfl)).mpr ⟨⟨by decide, by unfold Simple; decide⟩, ?_, ?_, ?_, hk, by decide, rfl⟩
  · intro l h
    cases h
    unfold Simple
    decide
  · intro u h
    rcases h with h | h <;> cases h
  · intro x y h
    cases h

/-- An entry whose namespace has a space: its text does not read back. -/
example : ∃ a : AllowedSigner, ∃ t, a.display = .ok t ∧ AllowedSigner.fromString sampleChrono t ≠ .ok a := by
  have hk : WellFormedKey { sampleEd with comment := none } := ⟨by decide +kernel, rfl, by decide, rfl⟩
  obtain ⟨b, he, _⟩ := text_roundtrip hk (by decide) (by intro c h; cases h) [] rfl (.inl rfl)
  refine ⟨⟨["a@x".toList], false, some ["g t".toList], none, none, { sampleEd with comment := none }⟩, _, display_words he rfl, fun h => ?_⟩
  have := ((C56_exact _ _ _ (display_words he rfl)).mp h).2.1 _ rfl "g t".toList (by simp)
  exact (this.2.2 ' ' (by decide)).1 rfl

end Ssh
