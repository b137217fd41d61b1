import Verif.Lemmas.TextSpec
import Verif.Lemmas.AllowedFile
import Verif.Model.Writer

/-! # The text functions of the standard library that the parsers rely on -/

namespace Ssh
open Ssh.Spec

/-! ## C121 -/

/-- C121: white space is the 25 code points with the Unicode property. -/
theorem C121_white (c : Char) : isWs c = true ↔ White c := isWs_iff

/-- C121: the words of a text. -/
theorem C121_words (s : List Char) (ws : List (List Char)) : splitWhitespace s = ws ↔ TextWords s ws := textWords_iff.symm

/-- C121: the lines of a text. -/
theorem C121_lines (s : List Char) (ls : List (List Char)) : lines s = ls ↔ FileLines s ls := lines_iff.symm

/-- C121: every text has exactly one sequence of words and one of lines. -/
theorem C121_unique (s : List Char) : (∃ ws, TextWords s ws ∧ ∀ ws', TextWords s ws' → ws' = ws) ∧
    (∃ ls, FileLines s ls ∧ ∀ ls', FileLines s ls' → ls' = ls) :=
  ⟨⟨_, textWords_iff.mpr rfl, fun _ h => (textWords_iff.mp h).symm⟩,
    ⟨_, lines_iff.mpr rfl, fun _ h => (lines_iff.mp h).symm⟩⟩

/-- C121: trimming takes off the white space at both ends and nothing else. -/
theorem C121_trim (x t : List Char) : trimMatches isWs x = t ↔ Trimmed x t := trimmed_iff.symm

/-- C121: `split` gives the pieces between the separators. -/
theorem C121_split (c : Char) (s : List Char) (ps : List (List Char)) : splitOn (· == c) s = ps ↔ Pieces c s ps := by
  have h1 : ∀ l : List Char, c ∉ l → splitOn (· == c) l = [l] := by
    intro l
    induction l with
    | nil => intro _; rfl
    | cons x l ih =>
      intro h
      have hx : (x == c) = false := by simpa using fun e : x = c => h (e ▸ List.mem_cons_self ..)
      simp [splitOn, hx, ih fun hh => h (List.mem_cons_of_mem _ hh)]
  have h2 : ∀ l s : List Char, c ∉ l → splitOn (· == c) (l ++ c :: s) = l :: splitOn (· == c) s := by
    intro l s
    induction l with
    | nil => intro _; simp [splitOn]
    | cons x l ih =>
      intro h
      have hx : (x == c) = false := by simpa using fun e : x = c => h (e ▸ List.mem_cons_self ..)
      simp [splitOn, hx, ih fun hh => h (List.mem_cons_of_mem _ hh)]
  have h3 : ∀ n (s : List Char), s.length = n → Pieces c s (splitOn (· == c) s) := by
    intro n
    induction n using Nat.strongRecOn with
    | ind n ih =>
      intro s hn
      by_cases h : c ∈ s
      · obtain ⟨l, s', rfl, hl⟩ := List.eq_append_cons_of_mem h
        rw [h2 l s' hl]
        exact .more _ _ _ hl (ih s'.length (by simp at hn; omega) s' rfl)
      · rw [h1 s h]
        exact .last _ h
  constructor
  · rintro rfl
    exact h3 _ s rfl
  · intro h
    induction h with
    | last l h => exact h1 l h
    | more l s ps h _ ih => rw [h2 l s h, ih]

/-- C121: `split_once` splits at the first occurrence, and fails if there is none. -/
theorem C121_split_once (c : Char) (s : List Char) :
    (∀ a b, splitOnce c s = some (a, b) ↔ s = a ++ c :: b ∧ c ∉ a) ∧ (splitOnce c s = none ↔ c ∉ s) := by
  induction s with
  | nil => simp [splitOnce]
  | cons x xs ih =>
    obtain ⟨h1, h2⟩ := ih
    unfold splitOnce
    by_cases hx : x = c
    · subst hx
      rw [if_pos rfl]
      refine ⟨fun a b => ?_, by simp⟩
      constructor
      · intro h
        cases h
        simp
      · rintro ⟨h, hn⟩
        cases a with
        | nil => cases h; rfl
        | cons y a => cases h; exact absurd (List.mem_cons_self ..) hn
    · rw [if_neg hx]
      constructor
      · intro a b
        rw [Option.map_eq_some_iff]
        constructor
        · rintro ⟨⟨a', b'⟩, h, e⟩
          cases e
          obtain ⟨rfl, hn⟩ := (h1 _ _).mp h
          exact ⟨rfl, by simp [hn, Ne.symm hx]⟩
        · rintro ⟨h, hn⟩
          cases a with
          | nil => cases h; exact absurd rfl hx
          | cons y a =>
            cases h
            exact ⟨(a, b), (h1 _ _).mpr ⟨rfl, fun hh => hn (List.mem_cons_of_mem _ hh)⟩, rfl⟩
      · rw [Option.map_eq_none_iff, h2]
        simp [Ne.symm hx]

/-- C121: looking up a key gives the value of its first entry. -/
theorem C121_get (m : StrMap) (k v : String) : mapGet m k = some v ↔ ∃ a b, m = a ++ (k, v) :: b ∧ k ∉ a.map (·.1) := by
  induction m with
  | nil => simp [mapGet]
  | cons e m ih =>
    obtain ⟨k', v'⟩ := e
    unfold mapGet
    by_cases hk : k' = k
    · subst hk
      rw [if_pos rfl]
      constructor
      · rintro h
        cases h
        exact ⟨[], m, rfl, by simp⟩
      · rintro ⟨a, b, h, hn⟩
        cases a with
        | nil => cases h; rfl
        | cons y a => cases h; simp at hn
    · rw [if_neg hk, ih]
      constructor
      · rintro ⟨a, b, rfl, hn⟩
        exact ⟨(k', v') :: a, b, rfl, by simpa [Ne.symm hk] using hn⟩
      · rintro ⟨a, b, h, hn⟩
        cases a with
        | nil => cases h; exact absurd rfl hk
        | cons y a =>
          cases h
          exact ⟨a, b, rfl, fun hh => hn (List.mem_cons_of_mem _ hh)⟩

/-- C121: inserting changes the value of that key only, and leaves at most one entry for each key. -/
theorem C121_insert (m : StrMap) (k v : String) : mapGet (mapInsert m k v) k = some v ∧
    (∀ k', k' ≠ k → mapGet (mapInsert m k v) k' = mapGet m k') ∧
    ((m.map (·.1)).Nodup → ((mapInsert m k v).map (·.1)).Nodup) := by
  have hk : ∀ m : StrMap, ∀ x, x ∈ (mapInsert m k v).map (·.1) → x = k ∨ x ∈ m.map (·.1) := by
    intro m
    induction m with
    | nil => intro x; simp [mapInsert]
    | cons e m ih =>
      intro x
      unfold mapInsert
      split
      · next h => subst h; simp
      · rw [List.map_cons, List.map_cons, List.mem_cons, List.mem_cons]
        rintro (h | h)
        · exact .inr (.inl h)
        · exact (ih x h).imp id .inr
  induction m with
  | nil => simp [mapInsert, mapGet]; exact fun k' h h' => absurd h'.symm h
  | cons e m ih =>
    obtain ⟨h1, h2, h3⟩ := ih
    obtain ⟨k1, v1⟩ := e
    unfold mapInsert
    by_cases h : k1 = k
    · subst h
      rw [if_pos rfl]
      refine ⟨by simp [mapGet], fun k' hn => ?_, by simp⟩
      simp [mapGet, Ne.symm hn]
    · rw [if_neg h]
      refine ⟨by simpa [mapGet, h] using h1, fun k' hn => ?_, ?_⟩
      · simp only [mapGet, h2 k' hn]
      · rw [List.map_cons, List.map_cons, List.nodup_cons, List.nodup_cons]
        rintro ⟨hn, hd⟩
        exact ⟨fun hm => (hk m _ hm).elim h hn, h3 hd⟩

/-- No-break space separates words, a lone CR does not end a line, and a file may lack the last line break. -/
example : TextWords " a bc\t".toList ["a".toList, "bc".toList] ∧
    FileLines "a\rb\r\n\nc".toList ["a\rb".toList, [], "c".toList] ∧ Trimmed "　 x y\n".toList "x y".toList := by
  refine ⟨(C121_words _ _).mp ?_, (C121_lines _ _).mp ?_, (C121_trim _ _).mp ?_⟩ <;> decide +kernel

example : ¬ White '\u200B' ∧ White '\u0085' := by
  simp only [← C121_white]
  decide +kernel

example : Pieces ',' ",a,".toList [[], "a".toList, []] := by
  rw [← C121_split]
  decide +kernel

example : splitOnce '=' "a=b=c".toList = some ("a".toList, "b=c".toList) ∧
    mapGet (mapInsert [("a", "1"), ("b", "2")] "a" "3") "a" = some "3" := by decide +kernel

end Ssh
