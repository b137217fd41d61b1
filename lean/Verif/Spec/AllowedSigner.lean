import Verif.Spec.Key
import Verif.Spec.Text
import Verif.Model.AllowedSigner

/-!
# Lines of an allowed signers file, independent of the tokenizer

Used from the model: the data types, `Chrono` (the external calendar) and, for the key at the end of the line,
`PublicKey.fromString` (characterised by C17).
-/

namespace Ssh.Spec

/-- A word: text without space, quote and `#`, then possibly one quoted part (any text without quotes). -/
def Word (w : List Char) : Prop :=
  w ≠ [] ∧ ∃ a, (∀ c ∈ a, c ≠ ' ' ∧ c ≠ '"' ∧ c ≠ '#') ∧ (w = a ∨ ∃ body, '"' ∉ body ∧ w = a ++ '"' :: (body ++ ['"']))

/-- After spaces `s` continues with the word `w`, delimited by the end, a space or a comment. -/
def NextWord (s w rest : List Char) : Prop :=
  ∃ n, s = List.replicate n ' ' ++ (w ++ rest) ∧ Word w ∧
    (rest = [] ∨ ∃ c r, rest = c :: r ∧ (c = ' ' ∨ c = '#'))

/-- Only spaces and possibly a comment. -/
def Blank (s : List Char) : Prop :=
  ∃ n, s = List.replicate n ' ' ∨ ∃ comment, s = List.replicate n ' ' ++ '#' :: comment

/-- `s` is the words `ws` followed by `s'`. -/
def Chain : List Char → List (List Char) → List Char → Prop
  | s, [], s' => s = s'
  | s, w :: ws, s' => ∃ r, NextWord s w r ∧ Chain r ws s'

/-- `s` consists of the words `ws`, and possibly a comment. -/
def Words (s : List Char) (ws : List (List Char)) : Prop := ∃ s', Chain s ws s' ∧ Blank s'

/-- `v` is `p` without the quotes at both ends. -/
def StripQuotes (p v : List Char) : Prop :=
  ∃ m n, p = List.replicate m '"' ++ (v ++ List.replicate n '"') ∧ v.head? ≠ some '"' ∧ v.getLast? ≠ some '"'

/-- Text with commas in between. -/
def commaJoin : List (List Char) → List Char
  | [] => []
  | [x] => x
  | x :: xs => x ++ ',' :: commaJoin xs

/-- `v` is the comma-separated list `l`. -/
def CommaList (v : List Char) (l : List (List Char)) : Prop := l ≠ [] ∧ v = commaJoin l ∧ ∀ x ∈ l, ',' ∉ x

/-- Length in bytes of UTF-8. -/
def utf8Len (s : List Char) : Nat := (String.ofList s).utf8ByteSize

/-- `d` denotes the date and time `t`, as YYYYMMDD, YYYYMMDDHHMM or YYYYMMDDHHMMSS. -/
def DateTime (T : Chrono) (d : List Char) (t : Int) : Prop :=
  (utf8Len d = 8 ∧ T.parseDate d = some t) ∨ (utf8Len d = 12 ∧ T.parseMinute d = some t) ∨
  (utf8Len d = 14 ∧ T.parseSecond d = some t)

/-- `v` denotes the Unix time `t`: with one or more `Z` at the end in UTC, otherwise in local time. -/
def Timestamp (T : Chrono) (v : List Char) (t : Int) : Prop :=
  ∃ d n dt, v = d ++ List.replicate n 'Z' ∧ d.getLast? ≠ some 'Z' ∧ DateTime T d dt ∧
    (if n = 0 then T.localUnix dt = some t else t = dt)

/-- An option. -/
inductive Setting where
  | certAuthority
  | namespaces (l : List (List Char))
  | validAfter (t : Int)
  | validBefore (t : Int)

/-- The word `w` is `key` or `key=value`, the value possibly in quotes. -/
def KeyValue (w key value : List Char) : Prop :=
  '=' ∉ key ∧ ((w = key ∧ value = []) ∨ ∃ raw, w = key ++ '=' :: raw ∧ StripQuotes raw value) ∧ '"' ∉ value

/-- Lower case of ASCII letters. -/
def lower (s : List Char) : List Char := s.map Char.toLower

/-- The word `w` is the option `st`. -/
def OptionWord (T : Chrono) (w : List Char) (st : Setting) : Prop :=
  ∃ key value, KeyValue w key value ∧
    match st with
    | .certAuthority => lower key = "cert-authority".toList
    | .namespaces l => lower key = "namespaces".toList ∧ ∃ pieces, CommaList value pieces ∧ l = pieces.filter (· ≠ [])
    | .validAfter t => lower key = "valid-after".toList ∧ Timestamp T value t
    | .validBefore t => lower key = "valid-before".toList ∧ Timestamp T value t

/-- The word is not an option. -/
def KeyWord (w : List Char) : Prop :=
  ∃ key value, KeyValue w key value ∧
    lower key ∉ ["cert-authority".toList, "namespaces".toList, "valid-after".toList, "valid-before".toList]

/-- The namespaces set by an option. -/
def Setting.ns? : Setting → Option (List (List Char))
  | .namespaces l => some l
  | _ => none
/-- The lower bound set by an option. -/
def Setting.after? : Setting → Option Int
  | .validAfter t => some t
  | _ => none
/-- The upper bound set by an option. -/
def Setting.before? : Setting → Option Int
  | .validBefore t => some t
  | _ => none

/-- The line `s` says `a`: principals, options in any order (each of the last three at most once), key type, key
data, and possibly a comment; a line that ends with a quote is not allowed. -/
def AllowedLine (T : Chrono) (s : List Char) (a : AllowedSigner) : Prop :=
  s.getLast? ≠ some '"' ∧
  ∃ (p : List Char) (os : List (List Char × Setting)) (kt kd v : List Char), Words s (p :: (os.map (·.1) ++ [kt, kd])) ∧
    StripQuotes p v ∧ CommaList v a.principals ∧ (∀ x ∈ a.principals, x ≠ []) ∧
    (∀ o ∈ os, OptionWord T o.1 o.2) ∧ KeyWord kt ∧
    (a.certAuthority = true ↔ Setting.certAuthority ∈ os.map (·.2)) ∧
    os.filterMap (·.2.ns?) = a.namespaces.toList ∧
    os.filterMap (·.2.after?) = a.validAfter.toList ∧ os.filterMap (·.2.before?) = a.validBefore.toList ∧
    (∀ x y, a.validAfter = some x → a.validBefore = some y → x < y) ∧
    PublicKey.fromString (kt ++ ' ' :: kd) = .ok a.key

/-- The word `w` is `n` or `n=…`, in any letter case. -/
def Named (w n : List Char) : Prop := ∃ key, '=' ∉ key ∧ (w = key ∨ ∃ r, w = key ++ '=' :: r) ∧ lower key = n

/-- Words separated by single spaces. -/
def spaced : List (List Char) → List Char
  | [] => []
  | [w] => w
  | w :: ws => w ++ ' ' :: spaced ws

/-- Text that needs no quoting. -/
def Simple (w : List Char) : Prop := ∀ c ∈ w, c ≠ ' ' ∧ c ≠ '"' ∧ c ≠ '#'

/-! ## Files -/

/-- `t` is `x` without the white space at both ends. -/
def Trimmed (x t : List Char) : Prop :=
  ∃ a b, x = a ++ (t ++ b) ∧ (∀ c ∈ a, White c) ∧ (∀ c ∈ b, White c) ∧
    (∀ c, t.head? = some c → ¬ White c) ∧ (∀ c, t.getLast? = some c → ¬ White c)

/-- A line without an entry: blank or a comment. -/
def NoEntry (x : List Char) : Prop := ∃ t, Trimmed x t ∧ (t = [] ∨ t.head? = some '#')

/-- The lines hold exactly these entries, in order. -/
inductive Entries (T : Chrono) : List (List Char) → List AllowedSigner → Prop where
  | nil : Entries T [] []
  | skip (x ls l) : NoEntry x → Entries T ls l → Entries T (x :: ls) l
  | entry (x t a ls l) : ¬ NoEntry x → Trimmed x t → AllowedLine T t a → Entries T ls l → Entries T (x :: ls) (a :: l)

end Ssh.Spec
