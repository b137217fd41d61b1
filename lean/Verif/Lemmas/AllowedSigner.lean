import Verif.Spec.AllowedSigner
import Verif.Lemmas.Text

/-! # The tokenizer and option loop of allowed signer lines -/

namespace Ssh

open Spec

/-! ## Tokens -/

/-- No delimiter. -/
def Plain (a : List Char) : Prop := ∀ c ∈ a, isDelim c = false

/-- A token for non-empty text. -/
def tok1 (a : List Char) : List Tok := if a = [] then [] else [a]

theorem splitTokens_plain {a : List Char} (h : Plain a) : ∀ cur, splitTokens cur a = tok1 (cur ++ a) := by
  induction a with
  | nil => intro cur; simp [splitTokens, tok1]
  | cons c a ih =>
    intro cur
    rw [splitTokens, if_neg (by rw [h c (by simp)]; decide), ih fun x hx => h x (by simp [hx])]
    simp

theorem splitTokens_delim {a : List Char} (h : Plain a) {d : Char} (hd : isDelim d = true) (rest : List Char) :
    ∀ cur, splitTokens cur (a ++ d :: rest) = tok1 (cur ++ a) ++ [d] :: splitTokens [] rest := by
  induction a with
  | nil => intro cur; simp [splitTokens, hd, tok1]
  | cons c a ih =>
    intro cur
    rw [List.cons_append, splitTokens, if_neg (by rw [h c (by simp)]; decide), ih fun x hx => h x (by simp [hx])]
    simp

/-- Every text is plain, or plain up to a first delimiter. -/
theorem plain_cases (s : List Char) :
    Plain s ∨ ∃ a d rest, s = a ++ d :: rest ∧ Plain a ∧ isDelim d = true := by
  induction s with
  | nil => left; intro c hc; cases hc
  | cons c s ih =>
    by_cases hc : isDelim c = true
    · exact .inr ⟨[], c, s, rfl, (fun x hx => nomatch hx), hc⟩
    · have hc : isDelim c = false := by simpa using hc
      rcases ih with h | ⟨a, d, rest, rfl, ha, hd⟩
      · left
        intro x hx
        rcases List.mem_cons.mp hx with rfl | hx
        · exact hc
        · exact h x hx
      · right
        refine ⟨c :: a, d, rest, rfl, ?_, hd⟩
        intro x hx
        rcases List.mem_cons.mp hx with rfl | hx
        · exact hc
        · exact ha x hx

theorem isDelim_iff {c : Char} : isDelim c = true ↔ c = ' ' ∨ c = '"' ∨ c = '#' := by
  simp [isDelim, or_assoc]

theorem plain_iff {a : List Char} : Plain a ↔ ∀ c ∈ a, c ≠ ' ' ∧ c ≠ '"' ∧ c ≠ '#' := by
  unfold Plain
  constructor
  · intro h c hc
    have := h c hc
    refine ⟨?_, ?_, ?_⟩ <;> (rintro rfl; revert this; decide)
  · intro h c hc
    have := h c hc
    cases hd : isDelim c with
    | false => rfl
    | true =>
      rcases isDelim_iff.mp hd with e | e | e
      · exact absurd e this.1
      · exact absurd e this.2.1
      · exact absurd e this.2.2

/-- A token that is plain text is not a delimiter token. -/
theorem plain_ne_delim {a : List Char} (h : Plain a) {d : Char} (hd : isDelim d = true) : a ≠ [d] := by
  rintro rfl
  rw [h d (by simp)] at hd
  cases hd

/-- The last token is a quote iff the text ends with a quote. -/
theorem splitTokens_last (s : List Char) : (splitTokens [] s).getLast? = some ['"'] ↔ s.getLast? = some '"' := by
  induction hn : s.length using Nat.strongRecOn generalizing s with
  | ind n ih =>
    rcases plain_cases s with h | ⟨a, d, rest, rfl, ha, hd⟩
    · rw [splitTokens_plain h, List.nil_append, tok1]
      constructor
      · intro e
        split at e
        · cases e
        · exact absurd (Option.some.inj e) (plain_ne_delim h (by decide))
      · intro e
        have := h _ (List.mem_of_getLast? e)
        exact absurd this (by decide)
    · rw [splitTokens_delim ha hd, List.nil_append, List.getLast?_append, List.getLast?_append, List.getLast?_cons,
        List.getLast?_cons]
      have := ih rest.length (by subst hn; simp; omega) rest rfl
      cases hr : rest with
      | nil => simp [splitTokens]
      | cons c r =>
        rw [hr] at this
        have hne : splitTokens [] (c :: r) ≠ [] := by
          rcases plain_cases (c :: r) with h | ⟨a, d, rest, e, ha, hd⟩
          · rw [splitTokens_plain h]; simp [tok1]
          · rw [e, splitTokens_delim ha hd]; simp
        obtain ⟨x, hx⟩ : ∃ x, (splitTokens [] (c :: r)).getLast? = some x := by
          cases hg : (splitTokens [] (c :: r)).getLast? with
          | none => rw [List.getLast?_eq_none_iff] at hg; exact absurd hg hne
          | some x => exact ⟨x, rfl⟩
        obtain ⟨y, hy⟩ : ∃ y, (c :: r).getLast? = some y := by
          cases hg : (c :: r).getLast? with
          | none => rw [List.getLast?_eq_none_iff] at hg; cases hg
          | some y => exact ⟨y, rfl⟩
        rw [hx, hy] at this ⊢
        simpa using this

/-! ## Reading a word -/

theorem asTrim_spaces (n : Nat) (s : List Char) : asTrim (splitTokens [] (List.replicate n ' ' ++ s)) = asTrim (splitTokens [] s) := by
  induction n with
  | zero => simp
  | succ n ih =>
    have : splitTokens [] (' ' :: (List.replicate n ' ' ++ s)) = [' '] :: splitTokens [] (List.replicate n ' ' ++ s) := by
      simp [splitTokens, isDelim]
    rw [List.replicate_succ, List.cons_append, this, asTrim, if_pos rfl, ih]

theorem asTrim_comment (c : List Char) : asTrim (splitTokens [] ('#' :: c)) = [] := by
  have : splitTokens [] ('#' :: c) = ['#'] :: splitTokens [] c := by simp [splitTokens, isDelim]
  rw [this, asTrim, if_neg (by decide), if_pos rfl]

theorem asTrim_blank {s : List Char} (h : Blank s) : asTrim (splitTokens [] s) = [] := by
  obtain ⟨n, rfl | ⟨c, rfl⟩⟩ := h
  · have := asTrim_spaces n []
    rw [List.append_nil] at this
    rw [this]
    rfl
  · rw [asTrim_spaces, asTrim_comment]

/-- Text that starts with neither space nor `#`. -/
theorem asTrim_word {s : List Char} (h : s.head? ≠ some ' ') (h' : s.head? ≠ some '#') : asTrim (splitTokens [] s) = splitTokens [] s := by
  have key : ∀ t ts, t ≠ [' '] → t ≠ ['#'] → asTrim (t :: ts) = t :: ts := by
    intro t ts h1 h2
    rw [asTrim, if_neg h1, if_neg h2]
  rcases plain_cases s with hp | ⟨a, d, rest, rfl, ha, hd⟩
  · rw [splitTokens_plain hp, List.nil_append, tok1]
    split
    · rfl
    · exact key _ _ (plain_ne_delim hp (by decide)) (plain_ne_delim hp (by decide))
  · rw [splitTokens_delim ha hd, List.nil_append, tok1]
    split
    · rename_i e
      subst e
      exact key _ _ (by rintro e; cases e; exact h rfl) (by rintro e; cases e; exact h' rfl)
    · exact key _ _ (plain_ne_delim ha (by decide)) (plain_ne_delim ha (by decide))

theorem isDelim_tok {d : Char} (hd : isDelim d = true) : ([d] : Tok) = [' '] ∨ ([d] : Tok) = ['"'] ∨ ([d] : Tok) = ['#'] := by
  rcases isDelim_iff.mp hd with rfl | rfl | rfl <;> simp

theorem takeWord_plain {a : List Char} (h : Plain a) (acc : Tok) : takeWord (splitTokens [] a) acc = (acc ++ a, []) := by
  rw [splitTokens_plain h, List.nil_append, tok1]
  split
  · rename_i e; subst e; simp [takeWord]
  · rw [takeWord, if_neg]
    · simp [takeWord]
    · rintro (e | e | e)
      · exact plain_ne_delim h (by decide) e
      · exact plain_ne_delim h (by decide) e
      · exact plain_ne_delim h (by decide) e

theorem takeWord_delim {a : List Char} (h : Plain a) {d : Char} (hd : isDelim d = true) (rest : List Char) (acc : Tok) :
    takeWord (splitTokens [] (a ++ d :: rest)) acc = (acc ++ a, [d] :: splitTokens [] rest) := by
  have h0 : ∀ acc, takeWord ([d] :: splitTokens [] rest) acc = (acc, [d] :: splitTokens [] rest) := by
    intro acc
    rw [takeWord, if_pos (isDelim_tok hd)]
  rw [splitTokens_delim h hd, List.nil_append, tok1]
  split
  · rename_i e; subst e; simp [h0]
  · rw [List.singleton_append, takeWord, if_neg, h0]
    rintro (e | e | e)
    · exact plain_ne_delim h (by decide) e
    · exact plain_ne_delim h (by decide) e
    · exact plain_ne_delim h (by decide) e

theorem splitQuoteLoop_tok1 {a : List Char} (h : Plain a) (ts : List Tok) (acc : Tok) :
    splitQuoteLoop (tok1 a ++ ts) acc = splitQuoteLoop ts (acc ++ a) := by
  unfold tok1
  split
  · rename_i e; subst e; simp
  · rw [List.singleton_append, splitQuoteLoop, if_neg (plain_ne_delim h (by decide))]

/-- Searching the closing quote. -/
theorem splitQuoteLoop_found (body rest : List Char) (hb : '"' ∉ body) : ∀ acc,
    splitQuoteLoop (splitTokens [] (body ++ '"' :: rest)) acc = .ok (acc ++ (body ++ ['"']), splitTokens [] rest) := by
  induction hn : body.length using Nat.strongRecOn generalizing body with
  | ind n ih =>
    intro acc
    rcases plain_cases body with h | ⟨a, d, r, rfl, ha, hd⟩
    · rw [splitTokens_delim h (by decide), List.nil_append, splitQuoteLoop_tok1 h, splitQuoteLoop, if_pos rfl]
      simp
    · have hdq : d ≠ '"' := by rintro rfl; exact hb (by simp)
      rw [List.append_assoc, List.cons_append, splitTokens_delim ha hd, List.nil_append, splitQuoteLoop_tok1 ha, splitQuoteLoop,
        if_neg (by simpa using hdq), ih r.length (by subst hn; simp; omega) r (fun h => hb (by simp [h])) rfl]
      simp

theorem splitQuoteLoop_missing (body : List Char) (hb : '"' ∉ body) : ∀ acc,
    splitQuoteLoop (splitTokens [] body) acc = asErr .invalidQuotes := by
  induction hn : body.length using Nat.strongRecOn generalizing body with
  | ind n ih =>
    intro acc
    rcases plain_cases body with h | ⟨a, d, r, rfl, ha, hd⟩
    · have := splitQuoteLoop_tok1 h [] acc
      rw [List.append_nil] at this
      rw [splitTokens_plain h, List.nil_append, this]
      rfl
    · have hdq : d ≠ '"' := by rintro rfl; exact hb (by simp)
      rw [splitTokens_delim ha hd, List.nil_append, splitQuoteLoop_tok1 ha, splitQuoteLoop,
        if_neg (by simpa using hdq), ih r.length (by subst hn; simp; omega) r (fun h => hb (by simp [h])) rfl]

theorem splitTokens_ne_nil {s : List Char} (h : s ≠ []) : splitTokens [] s ≠ [] := by
  rcases plain_cases s with hp | ⟨a, d, rest, rfl, ha, hd⟩
  · rw [splitTokens_plain hp]; simp [tok1, h]
  · rw [splitTokens_delim ha hd]; simp

/-- The text after the spaces. -/
theorem spaces_cases (s : List Char) : ∃ n s1, s = List.replicate n ' ' ++ s1 ∧ s1.head? ≠ some ' ' := by
  induction s with
  | nil => exact ⟨0, [], rfl, by simp⟩
  | cons c s ih =>
    by_cases h : c = ' '
    · obtain ⟨n, s1, rfl, h1⟩ := ih
      exact ⟨n + 1, s1, by simp [h, List.replicate_succ], h1⟩
    · exact ⟨0, c :: s, rfl, by simpa using h⟩

theorem quote_cases (s : List Char) : '"' ∉ s ∨ ∃ body rest, s = body ++ '"' :: rest ∧ '"' ∉ body := by
  induction s with
  | nil => left; simp
  | cons c s ih =>
    by_cases h : c = '"'
    · exact .inr ⟨[], s, by simp [h], by simp⟩
    · rcases ih with ih | ⟨body, rest, rfl, hb⟩
      · left; simp [ih, Ne.symm h]
      · exact .inr ⟨c :: body, rest, rfl, by simp [hb, Ne.symm h]⟩

theorem asNext_nil {q : Bool} {b : List Tok} (h : asTrim b = []) : asNext q b = .ok (none, []) := by
  unfold asNext
  simp [h]

/-- `next` on a text that starts with a word and does not end with a quote. -/
theorem asNext_eq {q : Bool} {b : List Tok} (hne : asTrim b ≠ []) (hl : (asTrim b).getLast? ≠ some ['"']) :
    asNext q b = (match takeWord (asTrim b) [] with
      | (s, t :: ts) =>
        if t = ['"'] then do
          let (q, rest) ← splitQuote (t :: ts)
          match rest with
          | t' :: _ => if t' ≠ [' '] ∧ t' ≠ ['#'] then asErr .invalidQuotes else return (some (s ++ q), rest)
          | [] => return (some (s ++ q), rest)
        else return (some s, t :: ts)
      | (s, []) => return (some s, [])) := by
  unfold asNext
  obtain ⟨x, hx⟩ : ∃ x, (asTrim b).getLast? = some x := by
    cases hg : (asTrim b).getLast? with
    | none => rw [List.getLast?_eq_none_iff] at hg; exact absurd hg hne
    | some x => exact ⟨x, rfl⟩
  rw [hx] at hl
  have hl : x ≠ ['"'] := fun e => hl (by rw [e])
  simp only [hx, Res.unwrap, Res.ok_bind]
  rw [if_neg (by simpa using hne), if_neg hl]
  rcases takeWord (asTrim b) [] with ⟨s, _ | ⟨t, ts⟩⟩
  · rfl
  · rfl

theorem getLast?_suffix {a b : List Char} (h : b ≠ []) : (a ++ b).getLast? = b.getLast? := by
  rw [List.getLast?_append]
  cases hb : b.getLast? with
  | none => rw [List.getLast?_eq_none_iff] at hb; exact absurd hb h
  | some x => rfl

/-- The three outcomes of `next` on a text that does not end with a quote. -/
theorem asNext_cases (q : Bool) (s : List Char) (hs : s.getLast? ≠ some '"') :
    (Blank s ∧ asNext q (splitTokens [] s) = .ok (none, [])) ∨
    (∃ w rest, NextWord s w rest ∧ asNext q (splitTokens [] s) = .ok (some w, splitTokens [] rest)) ∨
    (asNext q (splitTokens [] s) = asErr .invalidQuotes) := by
  obtain ⟨n, s1, rfl, h1⟩ := spaces_cases s
  cases hs1 : s1 with
  | nil =>
    left
    have hb : Blank (List.replicate n ' ' ++ []) := ⟨n, .inl (by simp)⟩
    exact ⟨hb, asNext_nil (asTrim_blank hb)⟩
  | cons c s2 =>
    by_cases hc : c = '#'
    · left
      subst hc
      have hb : Blank (List.replicate n ' ' ++ '#' :: s2) := ⟨n, .inr ⟨s2, rfl⟩⟩
      exact ⟨hb, asNext_nil (asTrim_blank hb)⟩
    · right
      rw [← hs1]
      have hne1 : s1 ≠ [] := by simp [hs1]
      have ht : asTrim (splitTokens [] (List.replicate n ' ' ++ s1)) = splitTokens [] s1 := by
        rw [asTrim_spaces, asTrim_word h1 (by simp [hs1, hc])]
      have hl1 : s1.getLast? ≠ some '"' := by rwa [getLast?_suffix hne1] at hs
      have hl : (splitTokens [] s1).getLast? ≠ some ['"'] := fun e => hl1 ((splitTokens_last s1).mp e)
      rw [asNext_eq (by rw [ht]; exact splitTokens_ne_nil hne1) (by rw [ht]; exact hl), ht]
      rcases plain_cases s1 with hp | ⟨a, d, rest, rfl, ha, hd⟩
      · left
        refine ⟨s1, [], ⟨n, by simp, ⟨hne1, s1, plain_iff.mp hp, .inl rfl⟩, .inl rfl⟩, ?_⟩
        rw [takeWord_plain hp]
        rfl
      · rw [takeWord_delim ha hd]
        dsimp only
        by_cases hdq : d = '"'
        · subst hdq
          rw [if_pos rfl]
          have e : splitQuote (['"'] :: splitTokens [] rest) = splitQuoteLoop (splitTokens [] rest) ['"'] := by
            simp [splitQuote]
          rw [e]
          rcases quote_cases rest with hq | ⟨body, rest', rfl, hb⟩
          · right
            rw [splitQuoteLoop_missing rest hq]
            rfl
          · rw [splitQuoteLoop_found body rest' hb]
            simp only [Res.ok_bind, List.nil_append]
            have hw : Word (a ++ '"' :: (body ++ ['"'])) := ⟨by simp, a, plain_iff.mp ha, .inr ⟨body, hb, rfl⟩⟩
            cases hr : rest' with
            | nil =>
              left
              exact ⟨_, [], ⟨n, by simp, hw, .inl rfl⟩, by simp [splitTokens]⟩
            | cons x r =>
              by_cases hx : x = ' ' ∨ x = '#'
              · left
                have hxt : splitTokens [] (x :: r) = [x] :: splitTokens [] r := by
                  rcases hx with rfl | rfl <;> simp [splitTokens, isDelim]
                refine ⟨_, x :: r, ⟨n, by simp, hw, .inr ⟨x, r, rfl, hx⟩⟩, ?_⟩
                rw [hxt]
                dsimp only
                rw [if_neg]
                · simp
                · rcases hx with rfl | rfl <;> simp
              · right
                have : ∃ t ts, splitTokens [] (x :: r) = t :: ts ∧ t ≠ [' '] ∧ t ≠ ['#'] := by
                  rcases plain_cases (x :: r) with hp | ⟨a', d', r', e', ha', hd'⟩
                  · exact ⟨x :: r, [], by rw [splitTokens_plain hp]; simp [tok1], plain_ne_delim hp (by decide), plain_ne_delim hp (by decide)⟩
                  · rw [e', splitTokens_delim ha' hd', List.nil_append]
                    cases a' with
                    | nil =>
                      simp only [List.nil_append, List.cons.injEq] at e'
                      obtain ⟨rfl, _⟩ := e'
                      exact ⟨[x], _, rfl, by simpa using fun e => hx (.inl e), by simpa using fun e => hx (.inr e)⟩
                    | cons y a' =>
                      exact ⟨y :: a', _, rfl, plain_ne_delim ha' (by decide), plain_ne_delim ha' (by decide)⟩
                obtain ⟨t, ts, e, h1, h2⟩ := this
                rw [e]
                dsimp only
                rw [if_pos ⟨h1, h2⟩]
        · left
          rw [if_neg (by simpa using hdq)]
          have hdd : d = ' ' ∨ d = '#' := by
            rcases isDelim_iff.mp hd with h | h | h
            · exact .inl h
            · exact absurd h hdq
            · exact .inr h
          have hane : a ≠ [] := by
            rintro rfl
            simp only [List.nil_append, List.cons.injEq] at hs1
            obtain ⟨rfl, _⟩ := hs1
            rcases hdd with rfl | rfl
            · exact h1 rfl
            · exact hc rfl
          refine ⟨a, d :: rest, ⟨n, rfl, ⟨hane, a, plain_iff.mp ha, .inl rfl⟩, .inr ⟨d, rest, rfl, hdd⟩⟩, ?_⟩
          rcases hdd with rfl | rfl <;> simp [splitTokens, isDelim]

end Ssh
