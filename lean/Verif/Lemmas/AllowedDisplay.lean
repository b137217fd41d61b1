import Verif.Lemmas.AllowedFile

/-! # Printing allowed signer lines; appending comments -/

namespace Ssh

open Spec

theorem joinComma_eq (l : List (List Char)) : AllowedSigner.joinComma l = commaJoin l := by
  induction l with
  | nil => rfl
  | cons x xs ih =>
    cases xs with
    | nil => rfl
    | cons y ys => rw [AllowedSigner.joinComma, commaJoin, ih]; simp; simp

theorem spaced_cons {w : List Char} {ws : List (List Char)} (h : ws ≠ []) : spaced (w :: ws) = w ++ ' ' :: spaced ws := by
  cases ws with
  | nil => exact absurd rfl h
  | cons x xs => rfl

theorem spaced_noQuote {ws : List (List Char)} (h : ∀ w ∈ ws, '"' ∉ w) : '"' ∉ spaced ws := by
  induction ws with
  | nil => simp [spaced]
  | cons w ws ih =>
    cases ws with
    | nil => exact h w (by simp)
    | cons x xs =>
      rw [spaced_cons (by simp)]
      have h1 := h w (by simp)
      have h2 := ih fun y hy => h y (by simp [hy])
      simp [h1, h2]

theorem commaJoin_mem {l : List (List Char)} {c : Char} (h : c ∈ commaJoin l) : c = ',' ∨ ∃ x ∈ l, c ∈ x := by
  induction l with
  | nil => cases h
  | cons x xs ih =>
    cases xs with
    | nil => exact .inr ⟨x, by simp, h⟩
    | cons y ys =>
      rw [commaJoin] at h
      rcases List.mem_append.mp h with h | h
      · exact .inr ⟨x, by simp, h⟩
      · rcases List.mem_cons.mp h with h | h
        · exact .inl h
        · rcases ih h with h | ⟨z, hz, h⟩
          · exact .inl h
          · exact .inr ⟨z, by simp [hz], h⟩
      simp

theorem commaJoin_simple {l : List (List Char)} (h : ∀ x ∈ l, Simple x) : Simple (commaJoin l) := by
  intro c hc
  rcases commaJoin_mem hc with rfl | ⟨x, hx, hcx⟩
  · decide
  · exact h x hx c hcx

theorem simple_word {w : List Char} (h : Simple w) (hne : w ≠ []) : Word w := ⟨hne, w, h, .inl rfl⟩

theorem spaced_chain {ws : List (List Char)} (hne : ws ≠ []) (h : ∀ w ∈ ws, w ≠ [] ∧ Simple w) (n : Nat) :
    Chain (List.replicate n ' ' ++ spaced ws) ws [] := by
  induction ws generalizing n with
  | nil => exact absurd rfl hne
  | cons w ws ih =>
    have hw := h w (by simp)
    cases ws with
    | nil => exact ⟨[], ⟨n, by simp [spaced], simple_word hw.2 hw.1, .inl rfl⟩, rfl⟩
    | cons x xs =>
      refine ⟨' ' :: spaced (x :: xs), ⟨n, by rw [spaced_cons (by simp)], simple_word hw.2 hw.1, .inr ⟨' ', _, rfl, .inl rfl⟩⟩, ?_⟩
      exact ih (by simp) (fun y hy => h y (by simp [hy])) 1

theorem spaced_words {ws : List (List Char)} (hne : ws ≠ []) (h : ∀ w ∈ ws, w ≠ [] ∧ Simple w) : Words (spaced ws) ws :=
  ⟨[], spaced_chain hne h 0, 0, .inl rfl⟩

theorem spaced_last {ws : List (List Char)} (h : ∀ w ∈ ws, w ≠ [] ∧ Simple w) : (spaced ws).getLast? ≠ some '"' := by
  intro e
  exact spaced_noQuote (fun w hw hq => ((h w hw).2 _ hq).2.1 rfl) (List.mem_of_getLast? e)

/-- The words of the options as printed. -/
def optWords (a : AllowedSigner) : List (List Char) :=
  (if a.certAuthority then ["cert-authority".toList] else []) ++
  (match a.namespaces with | some ns => ["namespaces=".toList ++ commaJoin ns] | none => []) ++
  (match a.validAfter with | some t => ["valid-after=".toList ++ (toString t).toList] | none => []) ++
  (match a.validBefore with | some t => ["valid-before=".toList ++ (toString t).toList] | none => [])

theorem display_words {a : AllowedSigner} {b : Bytes} (he : a.key.encode = .ok b) (hc : a.key.comment = none) :
    a.display = .ok (spaced (commaJoin a.principals :: (optWords a ++ [a.key.keyType.name.toList, b64Encode b]))) := by
  have hk : a.key.display = .ok (a.key.keyType.name.toList ++ ' ' :: b64Encode b) := by
    unfold PublicKey.display
    rw [he, hc]
    rfl
  unfold AllowedSigner.display
  rw [hk]
  simp only [Res.ok_bind, Res.pure_eq, Res.ok.injEq, joinComma_eq]
  unfold optWords
  have e1 : ∀ w : List Char, ' ' :: w = " ".toList ++ w := fun w => rfl
  cases a.certAuthority <;> cases a.namespaces <;> cases a.validAfter <;> cases a.validBefore <;> simp [spaced]

theorem keyNames_props : ∀ kt ∈ keyTypes, kt.name.toList ≠ [] ∧ (∀ c ∈ kt.name.toList, c ≠ ' ' ∧ c ≠ '"' ∧ c ≠ '#') ∧
    '=' ∉ kt.name.toList ∧
    lower kt.name.toList ∉ ["cert-authority".toList, "namespaces".toList, "valid-after".toList, "valid-before".toList] := by
  decide +kernel

theorem stripQuotes_self {v : List Char} (h : '"' ∉ v) : StripQuotes v v := stripQuotes_iff.mpr (stripQuotes_id h)

theorem keyWord_name {kt : KeyType} (h : kt ∈ keyTypes) : KeyWord kt.name.toList := by
  obtain ⟨_, _, h3, h4⟩ := keyNames_props kt h
  exact ⟨_, [], ⟨h3, .inl ⟨rfl, rfl⟩, by simp⟩, h4⟩

theorem b64_simple (b : Bytes) : Simple (b64Encode b) := by
  intro c hc
  obtain ⟨h1, _, _, _, h2, h3, _⟩ := b64Encode_props b c hc
  exact ⟨by rintro rfl; exact absurd h1 (by decide), h2, h3⟩

/-! ## Comments -/

theorem nextWord_append {s w r : List Char} (h : NextWord s w r) {c : Char} (hc : c = ' ' ∨ c = '#') (t : List Char) :
    NextWord (s ++ c :: t) w (r ++ c :: t) := by
  obtain ⟨n, rfl, hw, hr⟩ := h
  refine ⟨n, by simp, hw, .inr ?_⟩
  rcases hr with rfl | ⟨d, r', rfl, hd⟩
  · exact ⟨c, t, rfl, hc⟩
  · exact ⟨d, _, rfl, hd⟩

theorem chain_comment {ws : List (List Char)} {c : Char} (hc : c = ' ' ∨ c = '#') (t : List Char) :
    ∀ {s s' : List Char}, Chain s ws s' → Chain (s ++ c :: t) ws (s' ++ c :: t) := by
  induction ws with
  | nil => rintro s _ rfl; rfl
  | cons w ws ih => rintro s s' ⟨r, h1, h2⟩; exact ⟨_, nextWord_append h1 hc t, ih h2⟩

theorem blank_comment {s : List Char} (h : Blank s) (t : List Char) : Blank (s ++ '#' :: t) := by
  obtain ⟨n, rfl | ⟨c, rfl⟩⟩ := h
  · exact ⟨n, .inr ⟨t, rfl⟩⟩
  · exact ⟨n, .inr ⟨c ++ '#' :: t, by simp⟩⟩

/-- A word does not extend into a comment without quotes. -/
theorem nextWord_comment {s w r c : List Char} (hc : '"' ∉ c) (h : NextWord (s ++ '#' :: c) w r) :
    ∃ r', r = r' ++ '#' :: c ∧ NextWord s w r' := by
  obtain ⟨n, e, hw, hr⟩ := h
  rw [← List.append_assoc, List.append_eq_append_iff] at e
  have hgood : ∀ r', s = List.replicate n ' ' ++ w ++ r' → r = r' ++ '#' :: c → ∃ r', r = r' ++ '#' :: c ∧ NextWord s w r' := by
    intro r' e1 e2
    refine ⟨r', e2, n, by simpa using e1, hw, ?_⟩
    cases r' with
    | nil => exact .inl rfl
    | cons x r' =>
      right
      rcases hr with rfl | ⟨d, r'', rfl, hd⟩
      · cases e2
      · simp at e2
        exact ⟨x, r', rfl, e2.1 ▸ hd⟩
  rcases e with ⟨a', e1, e2⟩ | ⟨c', e1, e2⟩
  · cases a' with
    | nil => exact hgood [] (by simpa using e1.symm) (by simpa using e2.symm)
    | cons x a' =>
      simp at e2
      obtain ⟨rfl, rfl⟩ := e2
      exfalso
      obtain ⟨_, a, ha, rfl | ⟨body, hb, rfl⟩⟩ := hw
      · have : '#' ∈ List.replicate n ' ' ++ w := by rw [e1]; simp
        rcases List.mem_append.mp this with h | h
        · exact absurd (List.eq_of_mem_replicate h) (by decide)
        · exact (ha _ h).2.2 rfl
      · have hl : (List.replicate n ' ' ++ (a ++ '"' :: (body ++ ['"']))).getLast? = some '"' := by
          rw [show List.replicate n ' ' ++ (a ++ '"' :: (body ++ ['"'])) = (List.replicate n ' ' ++ (a ++ '"' :: body)) ++ ['"'] by simp,
            getLast?_suffix (by simp)]
          rfl
        rw [e1, getLast?_suffix (by simp)] at hl
        cases a' with
        | nil => exact absurd hl (by decide)
        | cons y a' =>
          rw [List.getLast?_cons_cons] at hl
          exact hc (List.mem_append_left _ (List.mem_of_getLast? hl))
  · exact hgood c' e1 e2

theorem chain_comment_inv {ws : List (List Char)} {c : List Char} (hc : '"' ∉ c) :
    ∀ {s m : List Char}, Chain (s ++ '#' :: c) ws m → ∃ m', m = m' ++ '#' :: c ∧ Chain s ws m' := by
  induction ws with
  | nil => rintro s m rfl; exact ⟨s, rfl, rfl⟩
  | cons w ws ih =>
    rintro s m ⟨r, h1, h2⟩
    obtain ⟨r', rfl, h3⟩ := nextWord_comment hc h1
    obtain ⟨m', rfl, h4⟩ := ih h2
    exact ⟨m', rfl, r', h3, h4⟩

theorem blank_comment_inv {s c : List Char} (h : Blank (s ++ '#' :: c)) : Blank s := by
  obtain ⟨n, s1, rfl, h1⟩ := spaces_cases s
  cases s1 with
  | nil => exact ⟨n, .inl (by simp)⟩
  | cons x s1 =>
    by_cases hx : x = '#'
    · subst hx; exact ⟨n, .inr ⟨s1, rfl⟩⟩
    · exfalso
      have ht := asTrim_blank h
      rw [List.append_assoc, asTrim_spaces, asTrim_word (by simpa using h1) (by simpa using hx)] at ht
      exact splitTokens_ne_nil (by simp) ht

end Ssh
