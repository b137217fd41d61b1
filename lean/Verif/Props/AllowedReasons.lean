import Verif.Lemmas.AllowedReasons
import Verif.Props.AllowedSigner

/-! # C128: which defect of an allowed signers line is reported as which error -/

namespace Ssh

open Spec

/-- C128: a line is refused with the error `e` exactly if its first defect is the one named by `e`. -/
theorem C128_line (T : Chrono) (s : List Char) (e : Err) :
    AllowedSigner.fromString T s = .err e ↔ ∃ a, e = .invalidAllowedSigner a ∧ SignerLineFault T s a := by
  constructor
  · intro h
    obtain ⟨a, rfl⟩ := allowed_as T s e h
    exact ⟨a, rfl, line_err.mp h⟩
  · rintro ⟨a, rfl, h⟩
    exact line_err.mpr h

/-- C128: a file is refused with the defect of its first bad line, and the number of the lines before that line. -/
theorem C128_file (T : Chrono) (s : List Char) (e : Err) :
    allowedSignersFromString T s = .err e ↔ ∃ before x after l t a, FileLines s (before ++ x :: after) ∧ Entries T before l ∧
      ¬ NoEntry x ∧ Trimmed x t ∧ SignerLineFault T t a ∧ e = .invalidAllowedSigners a before.length := by
  rw [C58_err]
  simp only [line_err]

/-- C128: a line has at most one first defect, and a line with a defect says nothing. -/
theorem C128_one (T : Chrono) (s : List Char) (a b : ASErr) (ha : SignerLineFault T s a) :
    (SignerLineFault T s b → b = a) ∧ ∀ x, ¬ AllowedLine T s x := by
  have h := line_err.mpr ha
  constructor
  · intro hb
    rw [line_err.mpr hb] at h
    cases h
    rfl
  · intro x hx
    rw [C55_exact .. |>.mpr hx] at h
    cases h

example : ∀ x, ¬ AllowedLine sampleChrono "  # nothing".toList x :=
  (C128_one _ _ _ .missingKey (line_err.mp (by decide +kernel : AllowedSigner.fromString sampleChrono "  # nothing".toList =
    .err (.invalidAllowedSigner .missingPrincipals)))).2

/-- C128: when every local time can be resolved, a line either says an entry or has a first defect. -/
theorem C128_either (T : Chrono) (hT : ∀ dt, T.localUnix dt ≠ none) (s : List Char) :
    (∃ x, AllowedLine T s x) ∨ ∃ a, SignerLineFault T s a := by
  cases h : AllowedSigner.fromString T s with
  | ok x => exact .inl ⟨x, (C55_exact T s x).mp h⟩
  | err e =>
    obtain ⟨a, _, ha⟩ := (C128_line T s e).mp h
    exact .inr ⟨a, ha⟩
  | panic => exact absurd h (C59_total T hT s)

example : ∀ dt, ({ sampleChrono with localUnix := some } : Chrono).localUnix dt ≠ none := fun _ h => by cases h

/-- C128: a line that starts with a word and ends with a quote — even one in a comment — is refused for its quotes. -/
theorem C128_final_quote (T : Chrono) (n : Nat) (c : Char) (s : List Char) (h1 : c ≠ ' ') (h2 : c ≠ '#') (h3 : c ≠ '"') :
    AllowedSigner.fromString T (List.replicate n ' ' ++ c :: (s ++ ['"'])) = .err (.invalidAllowedSigner .invalidQuotes) := by
  apply line_err.mpr
  apply SignerLineFault.quotes (not_blank_of_head h1 h2)
  have hl : (List.replicate n ' ' ++ c :: (s ++ ['"'])).getLast? = some '"' := by
    rw [getLast?_suffix (by simp), ← List.cons_append, getLast?_suffix (by simp)]
    rfl
  rintro p r (h | ⟨_, m, body, _, rfl, e⟩)
  · exact h.1 hl
  · have a1 := dropWhile_replicate ' ' n (c :: (s ++ ['"'])) (by simpa using h1)
    have a2 := dropWhile_replicate ' ' m ('"' :: (body ++ ['"']) ++ r) (by simp)
    rw [← e, a1] at a2
    rw [List.cons_append, List.cons.injEq] at a2
    exact h3 a2.1

/-! One line for every error. -/

example : SignerLineFault sampleChrono "  # nothing".toList .missingPrincipals := line_err.mp (by decide +kernel)
example : SignerLineFault sampleChrono ("a,,b ".toList ++ sampleKeyText) .invalidPrincipals := line_err.mp (by decide +kernel)
example : SignerLineFault sampleChrono "a@x cert-authority # key".toList .missingKey := line_err.mp (by decide +kernel)
example : SignerLineFault sampleChrono ("a@x namespaces=b\"c\" ".toList ++ sampleKeyText) .invalidQuotes := line_err.mp (by decide +kernel)
example : SignerLineFault sampleChrono ("a@x ".toList ++ sampleKeyText ++ " # \"quoted\"".toList) .invalidQuotes := line_err.mp (by decide +kernel)
example : SignerLineFault sampleChrono ("\"a@x\" b \"".toList) .invalidQuotes := line_err.mp (by decide +kernel)
example : SignerLineFault sampleChrono ("\"a@x\"".toList) .missingKey := line_err.mp (by decide +kernel)
example : SignerLineFault sampleChrono ("a@x valid-after=20200101Z Valid-After=zz ".toList ++ sampleKeyText) (.duplicateOptions "valid-after") :=
  line_err.mp (by decide +kernel)
example : SignerLineFault sampleChrono ("a@x valid-before=2020 ".toList ++ sampleKeyText) (.invalidOption "valid-before") :=
  line_err.mp (by decide +kernel)
example : SignerLineFault sampleChrono "a@x ssh-ed25519 # no data".toList .invalidKey := line_err.mp (by decide +kernel)
example : SignerLineFault sampleChrono "a@x ssh-ed25519 AAAA".toList .invalidKey := line_err.mp (by decide +kernel)
example : SignerLineFault sampleChrono ("a@x valid-after=20210101Z valid-before=20210101Z ".toList ++ sampleKeyText ++ " more".toList)
    .invalidTimestamps := line_err.mp (by decide +kernel)
example : SignerLineFault sampleChrono ("a@x ".toList ++ sampleKeyText ++ " more".toList) .unexpectedEnd := line_err.mp (by decide +kernel)

/-- The defect found by hand, without the parser: the second lower bound is refused before its value is looked at. -/
example : SignerLineFault sampleChrono "a valid-after=00000009Z valid-after=x".toList (.duplicateOptions "valid-after") := by
  refine .after "a".toList " valid-after=00000009Z valid-after=x".toList "a".toList ["a".toList] _
    (.inl ⟨by decide, 0, by decide, ⟨by decide, _, by decide, .inl rfl⟩, .inr ⟨_, _, rfl, .inl rfl⟩⟩)
    ⟨0, 0, by decide, by decide, by decide⟩ ⟨by decide, by decide, by decide⟩ (by decide) ?_
  refine .option [] _ "valid-after=00000009Z".toList " valid-after=x".toList (.validAfter 9) _
    ⟨by decide, 1, by decide, ⟨by decide, _, by decide, .inl rfl⟩, .inr ⟨_, _, rfl, .inl rfl⟩⟩
    ⟨"valid-after".toList, "00000009Z".toList, ⟨by decide, .inr ⟨"00000009Z".toList, by decide, 0, 0, by decide, by decide, by decide⟩, by decide⟩,
      by decide, "00000009".toList, 1, 9, by decide, by decide, .inl ⟨by decide, by decide⟩, rfl⟩ (.inr (by simp)) ?_
  exact .word _ _ "valid-after=x".toList [] _ ⟨by decide, 1, by decide, ⟨by decide, _, by decide, .inl rfl⟩, .inl rfl⟩
    (.duplicate "valid-after".toList "x".toList "valid-after"
      ⟨by decide, .inr ⟨"x".toList, by decide, 0, 0, by decide, by decide, by decide⟩, by decide⟩ (by decide) (by simp) ⟨.validAfter 9, by simp, rfl⟩)

example : allowedSignersFromString sampleChrono ("# first\n\n".toList ++ sampleLine ++ "\na,,b x".toList) =
    .err (.invalidAllowedSigners .invalidPrincipals 3) := by decide +kernel

end Ssh
