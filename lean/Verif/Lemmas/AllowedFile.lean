import Verif.Lemmas.AllowedParse
import Verif.Lemmas.Armor

/-! # Allowed signers files; printing -/

namespace Ssh

open Spec

/-! ## Trimming -/

theorem dropWhile_all (p : Char → Bool) {a : List Char} (ha : ∀ c ∈ a, p c = true) {v : List Char} (h : ∀ c, v.head? = some c → p c = false) :
    (a ++ v).dropWhile p = v := by
  induction a with
  | nil =>
    cases v with
    | nil => rfl
    | cons c v => simp [h c rfl]
  | cons c a ih => rw [List.cons_append, List.dropWhile_cons, if_pos (ha c (by simp))]; exact ih fun x hx => ha x (by simp [hx])

theorem dropWhile_split (p : Char → Bool) (s : List Char) : ∃ a, s = a ++ s.dropWhile p ∧ (∀ c ∈ a, p c = true) ∧
    ∀ c, (s.dropWhile p).head? = some c → p c = false := by
  induction s with
  | nil => exact ⟨[], rfl, by simp, by simp⟩
  | cons c s ih =>
    rw [List.dropWhile_cons]
    by_cases h : p c = true
    · obtain ⟨a, e, h1, h2⟩ := ih
      rw [if_pos h]
      refine ⟨c :: a, by rw [List.cons_append, ← e], ?_, h2⟩
      intro x hx
      rcases List.mem_cons.mp hx with rfl | hx
      · exact h
      · exact h1 x hx
    · rw [if_neg h]
      exact ⟨[], rfl, by simp, by simpa using h⟩

theorem trimmed_ws {x t : List Char} : Trimmed x t ↔ ∃ a b, x = a ++ (t ++ b) ∧ (∀ c ∈ a, isWs c = true) ∧
    (∀ c ∈ b, isWs c = true) ∧ (∀ c, t.head? = some c → isWs c = false) ∧ (∀ c, t.getLast? = some c → isWs c = false) := by
  simp only [Trimmed, isWs_iff, isWs_false]

theorem trimmed_iff {x t : List Char} : Trimmed x t ↔ trimMatches isWs x = t := by
  rw [trimmed_ws]
  unfold trimMatches trimStart trimEnd
  constructor
  · rintro ⟨a, b, rfl, ha, hb, h1, h2⟩
    cases t with
    | nil =>
      have : (a ++ ([] ++ b)).dropWhile isWs = [] := by
        have := dropWhile_all isWs (a := a ++ b) (v := []) (by
          intro c hc
          rcases List.mem_append.mp hc with h | h
          · exact ha c h
          · exact hb c h) (by simp)
        simpa using this
      rw [this]
      rfl
    | cons c t =>
      rw [dropWhile_all isWs ha (by simpa using h1), List.reverse_append, dropWhile_all isWs (by simpa using hb) (by
        rw [List.head?_reverse]; exact h2), List.reverse_reverse]
  · rintro rfl
    obtain ⟨a, e, h1, h2⟩ := dropWhile_split isWs x
    obtain ⟨b, e', h3, h4⟩ := dropWhile_split isWs (x.dropWhile isWs).reverse
    have e'' : x.dropWhile isWs = ((x.dropWhile isWs).reverse.dropWhile isWs).reverse ++ b.reverse := by
      have := congrArg List.reverse e'
      rwa [List.reverse_reverse, List.reverse_append] at this
    refine ⟨a, b.reverse, ?_, h1, by simpa using h3, ?_, ?_⟩
    · rw [← e'', ← e]
    · intro c hc
      apply h2
      rw [e'']
      cases hv : ((x.dropWhile isWs).reverse.dropWhile isWs).reverse with
      | nil => rw [hv] at hc; cases hc
      | cons y v => rw [hv] at hc; simpa using hc
    · rw [List.getLast?_reverse]; exact h4

theorem noEntry_iff {x : List Char} : NoEntry x ↔ ((trimMatches isWs x).isEmpty = true ∨ (trimMatches isWs x).head? = some '#') := by
  unfold NoEntry
  constructor
  · rintro ⟨t, h, hh⟩
    rw [trimmed_iff.mp h]
    simpa using hh
  · intro h
    exact ⟨_, trimmed_iff.mpr rfl, by simpa using h⟩

/-! ## The file loop -/

theorem entries_unique {T : Chrono} {ls : List (List Char)} {l l' : List AllowedSigner} (h : Entries T ls l) (h' : Entries T ls l') : l = l' := by
  induction h generalizing l' with
  | nil => cases h'; rfl
  | skip x ls l hn _ ih =>
    cases h' with
    | skip _ _ _ _ h2 => exact ih h2
    | entry _ _ _ _ _ hn' => exact absurd hn hn'
  | entry x t a ls l hn ht ha _ ih =>
    cases h' with
    | skip _ _ _ hn' => exact absurd hn' hn
    | entry _ t' a' _ l2 _ ht' ha' h2 =>
      have e := trimmed_iff.mp ht
      rw [trimmed_iff.mp ht'] at e
      subst e
      have := allowed_ok.mpr ha
      rw [allowed_ok.mpr ha'] at this
      cases this
      rw [ih h2]

theorem fileLoop_cases (T : Chrono) (ls : List (List Char)) : ∀ n acc,
    (∃ l, Entries T ls l ∧ allowedSignersLoop T ls n acc = .ok (acc ++ l)) ∨
    (∃ before x after l t, ls = before ++ x :: after ∧ Entries T before l ∧ ¬ NoEntry x ∧ Trimmed x t ∧
      ((∃ a, AllowedSigner.fromString T t = .err (.invalidAllowedSigner a) ∧
        allowedSignersLoop T ls n acc = .err (.invalidAllowedSigners a (n + before.length))) ∨
       (AllowedSigner.fromString T t = .panic ∧ allowedSignersLoop T ls n acc = .panic))) := by
  induction ls with
  | nil => intro n acc; left; exact ⟨[], .nil, by simp [allowedSignersLoop]⟩
  | cons x ls ih =>
    intro n acc
    rw [allowedSignersLoop]
    by_cases hn : NoEntry x
    · rw [if_pos (noEntry_iff.mp hn)]
      rcases ih (n + 1) acc with ⟨l, h1, h2⟩ | ⟨b, y, af, l, t, rfl, h1, h2, h3, h4⟩
      · exact .inl ⟨l, .skip _ _ _ hn h1, h2⟩
      · right
        refine ⟨x :: b, y, af, l, t, rfl, .skip _ _ _ hn h1, h2, h3, ?_⟩
        rcases h4 with ⟨a, h4, h5⟩ | h4
        · exact .inl ⟨a, h4, by rw [h5, List.length_cons]; congr 2; omega⟩
        · exact .inr h4
    · rw [if_neg (fun h => hn (noEntry_iff.mpr h))]
      cases hf : AllowedSigner.fromString T (trimMatches isWs x) with
      | ok v =>
        dsimp only
        rcases ih (n + 1) (acc ++ [v]) with ⟨l, h1, h2⟩ | ⟨b, y, af, l, t, rfl, h1, h2, h3, h4⟩
        · exact .inl ⟨v :: l, .entry _ _ _ _ _ hn (trimmed_iff.mpr rfl) (allowed_ok.mp hf) h1, by rw [h2]; simp⟩
        · right
          refine ⟨x :: b, y, af, v :: l, t, rfl, .entry _ _ _ _ _ hn (trimmed_iff.mpr rfl) (allowed_ok.mp hf) h1, h2, h3, ?_⟩
          rcases h4 with ⟨a, h4, h5⟩ | h4
          · exact .inl ⟨a, h4, by rw [h5, List.length_cons]; congr 2; omega⟩
          · exact .inr h4
      | err e =>
        obtain ⟨a, rfl⟩ := allowed_as T _ e hf
        right
        exact ⟨[], x, ls, [], _, rfl, .nil, hn, trimmed_iff.mpr rfl, .inl ⟨a, hf, rfl⟩⟩
      | panic =>
        right
        exact ⟨[], x, ls, [], _, rfl, .nil, hn, trimmed_iff.mpr rfl, .inr ⟨hf, rfl⟩⟩

/-- The entries before the first bad line determine it. -/
theorem firstBad_unique {T : Chrono} {before before' after after' : List (List Char)} {x x' : List Char} {l l' : List AllowedSigner}
    (h : Entries T before l) (h' : Entries T before' l') (hx : ¬ NoEntry x) (hx' : ¬ NoEntry x')
    (hb : ∀ a, AllowedSigner.fromString T (trimMatches isWs x) ≠ .ok a) (hb' : ∀ a, AllowedSigner.fromString T (trimMatches isWs x') ≠ .ok a)
    (e : before ++ x :: after = before' ++ x' :: after') : before = before' ∧ x = x' := by
  induction h generalizing before' l' with
  | nil =>
    cases h' with
    | nil => simp at e; exact ⟨rfl, e.1⟩
    | skip y ls l hn => simp at e; rw [e.1] at hx; exact absurd hn hx
    | entry y t a ls l hn ht ha =>
      simp at e
      rw [e.1] at hb
      rw [trimmed_iff] at ht
      exact absurd (allowed_ok.mpr ha) (by rw [← ht]; exact hb a)
  | skip y ls l hn h ih =>
    cases h' with
    | nil => simp at e; rw [e.1] at hn; exact absurd hn hx'
    | skip _ _ _ _ h2 => simp at e; obtain ⟨h3, h4⟩ := ih h2 e.2; exact ⟨by rw [e.1, h3], h4⟩
    | entry _ _ _ _ _ _ _ _ h2 => simp at e; obtain ⟨h3, h4⟩ := ih h2 e.2; exact ⟨by rw [e.1, h3], h4⟩
  | entry y t a ls l hn ht ha h ih =>
    cases h' with
    | nil =>
      simp at e
      rw [← e.1] at hb'
      rw [trimmed_iff] at ht
      exact absurd (allowed_ok.mpr ha) (by rw [← ht]; exact hb' a)
    | skip _ _ _ _ h2 => simp at e; obtain ⟨h3, h4⟩ := ih h2 e.2; exact ⟨by rw [e.1, h3], h4⟩
    | entry _ _ _ _ _ _ _ _ h2 => simp at e; obtain ⟨h3, h4⟩ := ih h2 e.2; exact ⟨by rw [e.1, h3], h4⟩

/-- An entry line parses, so it is not bad. -/
theorem entries_not_bad {T : Chrono} {before after : List (List Char)} {x : List Char} {l : List AllowedSigner}
    (h : Entries T (before ++ x :: after) l) (hx : ¬ NoEntry x) : ∃ a, AllowedSigner.fromString T (trimMatches isWs x) = .ok a := by
  induction before generalizing l with
  | nil =>
    cases h with
    | skip _ _ _ hn => exact absurd hn hx
    | entry _ t a _ _ _ ht ha => rw [trimmed_iff] at ht; rw [ht]; exact ⟨a, allowed_ok.mpr ha⟩
  | cons y ys ih =>
    cases h with
    | skip _ _ _ _ h2 => exact ih h2
    | entry _ _ _ _ _ _ _ _ h2 => exact ih h2

end Ssh
