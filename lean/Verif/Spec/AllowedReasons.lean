import Verif.Spec.AllowedSigner
import Verif.Spec.Reasons

/-!
# Which defect of an allowed signers line is reported as which error

A line is read word by word; the first defect counts.  Used from the model: the data types and `Chrono`.
-/

namespace Ssh.Spec

/-- After spaces `s` goes on with the word `w`, and `s` does not end with a quote. -/
def Goes (s w rest : List Char) : Prop := s.getLast? ≠ some '"' ∧ NextWord s w rest

/-- There is text, but no word can be read from it. -/
def Misquoted (s : List Char) : Prop := ¬ Blank s ∧ ∀ w rest, ¬ Goes s w rest

/-- The option name of a setting. -/
def Setting.name : Setting → String
  | .certAuthority => "cert-authority"
  | .namespaces _ => "namespaces"
  | .validAfter _ => "valid-after"
  | .validBefore _ => "valid-before"

/-- No date and time, in UTC or in local time. -/
def NoDateTime (T : Chrono) (v : List Char) : Prop :=
  ∀ d n dt, v = d ++ List.replicate n 'Z' → d.getLast? ≠ some 'Z' → ¬ DateTime T d dt

/-- Defects of one word, after the options `seen`. -/
inductive SignerWordFault (T : Chrono) (seen : List Setting) (w : List Char) : ASErr → Prop where
  /-- a value with a quote inside -/
  | value : (∀ key value, ¬ KeyValue w key value) → SignerWordFault T seen w .invalidQuotes
  /-- an option given before -/
  | duplicate (key value : List Char) (name : String) : KeyValue w key value → lower key = name.toList →
      name ∈ ["namespaces", "valid-after", "valid-before"] → (∃ st ∈ seen, st.name = name) →
      SignerWordFault T seen w (.duplicateOptions name)
  /-- a bound that is no date and time -/
  | bound (key value : List Char) (name : String) : KeyValue w key value → lower key = name.toList →
      name ∈ ["valid-after", "valid-before"] → (∀ st ∈ seen, st.name ≠ name) → NoDateTime T value →
      SignerWordFault T seen w (.invalidOption name)

/-- The options leave no time in which the key is valid. -/
def NoWindow (seen : List Setting) : Prop :=
  ∃ x y, Setting.validAfter x ∈ seen ∧ Setting.validBefore y ∈ seen ∧ y ≤ x

/-- Defects of the text `s` after the key type `kt`. -/
inductive SignerKeyFault (seen : List Setting) (kt s : List Char) : ASErr → Prop where
  /-- no key data -/
  | missing : Blank s → SignerKeyFault seen kt s .invalidKey
  | quotes : Misquoted s → SignerKeyFault seen kt s .invalidQuotes
  /-- key type and key data are not a key -/
  | key (kd rest : List Char) (x : Err) : Goes s kd rest → KeyLineFault (kt ++ ' ' :: kd) x → SignerKeyFault seen kt s .invalidKey
  | window (kd rest : List Char) : Goes s kd rest → (∀ x, ¬ KeyLineFault (kt ++ ' ' :: kd) x) → NoWindow seen →
      SignerKeyFault seen kt s .invalidTimestamps
  /-- more text than a comment -/
  | more (kd rest : List Char) : Goes s kd rest → (∀ x, ¬ KeyLineFault (kt ++ ' ' :: kd) x) → ¬ NoWindow seen → ¬ Blank rest →
      SignerKeyFault seen kt s .unexpectedEnd

/-- Defects of the text after the principals and the options `seen`. -/
inductive SignerOptionsFault (T : Chrono) : List Setting → List Char → ASErr → Prop where
  /-- neither option nor key -/
  | missing (seen : List Setting) (s : List Char) : Blank s → SignerOptionsFault T seen s .missingKey
  | quotes (seen : List Setting) (s : List Char) : Misquoted s → SignerOptionsFault T seen s .invalidQuotes
  | word (seen : List Setting) (s w rest : List Char) (e : ASErr) : Goes s w rest → SignerWordFault T seen w e → SignerOptionsFault T seen s e
  /-- a good option, and a defect after it -/
  | option (seen : List Setting) (s w rest : List Char) (st : Setting) (e : ASErr) : Goes s w rest → OptionWord T w st →
      (st = .certAuthority ∨ ∀ x ∈ seen, x.name ≠ st.name) → SignerOptionsFault T (st :: seen) rest e → SignerOptionsFault T seen s e
  /-- the key type, and a defect after it -/
  | key (seen : List Setting) (s w rest : List Char) (e : ASErr) : Goes s w rest → KeyWord w → SignerKeyFault seen w rest e →
      SignerOptionsFault T seen s e

/-- The first word; it may also be a quoted text on a line that ends with a quote. -/
def FirstWord (s p rest : List Char) : Prop :=
  Goes s p rest ∨
  (s.getLast? = some '"' ∧ ∃ n body, '"' ∉ body ∧ p = '"' :: (body ++ ['"']) ∧ s = List.replicate n ' ' ++ (p ++ rest))

/-- Defects of a line. -/
inductive SignerLineFault (T : Chrono) (s : List Char) : ASErr → Prop where
  | missing : Blank s → SignerLineFault T s .missingPrincipals
  | quotes : ¬ Blank s → (∀ p rest, ¬ FirstWord s p rest) → SignerLineFault T s .invalidQuotes
  /-- an empty principal -/
  | principals (p rest v : List Char) (l : List (List Char)) : FirstWord s p rest → StripQuotes p v → CommaList v l → [] ∈ l →
      SignerLineFault T s .invalidPrincipals
  | after (p rest v : List Char) (l : List (List Char)) (e : ASErr) : FirstWord s p rest → StripQuotes p v → CommaList v l → [] ∉ l →
      SignerOptionsFault T [] rest e → SignerLineFault T s e

end Ssh.Spec
