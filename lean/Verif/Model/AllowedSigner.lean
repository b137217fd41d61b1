import Verif.Model.PubKey

/-! # src/ssh/allowed_signer.rs -/

namespace Ssh

/-- External time handling (crate `chrono`), as arbitrary functions.  A `NaiveDateTime` is
represented by its number of seconds since 1970-01-01T00:00:00 (`and_utc().timestamp()`). -/
structure Chrono where
  /-- `NaiveDate::parse_from_str(s, "%Y%m%d")` followed by `and_time(00:00:00)` -/
  parseDate : List Char → Option Int
  /-- `NaiveDateTime::parse_from_str(s, "%Y%m%d%H%M")` -/
  parseMinute : List Char → Option Int
  /-- `NaiveDateTime::parse_from_str(s, "%Y%m%d%H%M%S")` -/
  parseSecond : List Char → Option Int
  /-- `and_local_timezone(Local)`: Unix time of a local time; `none` when the local time is
  ambiguous or does not exist (`LocalResult::unwrap` then panics) -/
  localUnix : Int → Option Int

/-- src/ssh/allowed_signer.rs:58-76 `AllowedSigner`. -/
structure AllowedSigner where
  principals : List (List Char)
  certAuthority : Bool
  namespaces : Option (List (List Char))
  validAfter : Option Int
  validBefore : Option Int
  key : PublicKey
deriving DecidableEq, Repr

/-- A token of the splitter. -/
abbrev Tok := List Char

/-- The delimiters of src/ssh/allowed_signer.rs:313. -/
def isDelim (c : Char) : Bool := c = ' ' || c = '"' || c = '#'

/-- src/ssh/allowed_signer.rs:309-326, the loop of `AllowedSignerSplitter::new`; `cur` is the text
`s[last..index]` scanned since the last delimiter. -/
def splitTokens (cur : Tok) : List Char → List Tok
  | [] => if cur = [] then [] else [cur]
  | c :: cs =>
    if isDelim c then (if cur = [] then [] else [cur]) ++ [c] :: splitTokens [] cs
    else splitTokens (cur ++ [c]) cs

/-- `Err(Error::InvalidAllowedSigner(e))`. -/
def asErr {α : Type} (e : ASErr) : Res α := .err (.invalidAllowedSigner e)

/-!
The splitter keeps its tokens in a `Vec` in reverse order and works on the end of the `Vec`.  The
model keeps the tokens in reading order: `buffer.last()`/`pop()` is the head of the list,
`buffer[0]` is the last element of the list.  Since every error aborts the parse, the state after an
error is not represented.
-/

/-- src/ssh/allowed_signer.rs:389-402 `trim`. -/
def asTrim : List Tok → List Tok
  | [] => []
  | t :: ts => if t = [' '] then asTrim ts else if t = ['#'] then [] else t :: ts

/-- src/ssh/allowed_signer.rs:416-424, the loop of `split_quote`. -/
def splitQuoteLoop : List Tok → Tok → Res (Tok × List Tok)
  | [], _ => asErr .invalidQuotes
  | t :: ts, s => if t = ['"'] then .ok (s ++ t, ts) else splitQuoteLoop ts (s ++ t)

/-- src/ssh/allowed_signer.rs:406-427 `split_quote`. -/
def splitQuote : List Tok → Res (Tok × List Tok)
  | [] => asErr .invalidQuotes
  | t :: ts => if t ≠ ['"'] then asErr .invalidQuotes else splitQuoteLoop ts ['"']

/-- src/ssh/allowed_signer.rs:360-368: concatenate tokens up to the next delimiter token. -/
def takeWord : List Tok → Tok → Tok × List Tok
  | [], s => (s, [])
  | t :: ts, s =>
    if t = [' '] ∨ t = ['"'] ∨ t = ['#'] then (s, t :: ts) else takeWord ts (s ++ t)

/-- src/ssh/allowed_signer.rs:341-386 `next`. -/
def asNext (openingQuotesAllowed : Bool) (buffer : List Tok) : Res (Option Tok × List Tok) := do
  let buffer := asTrim buffer
  if buffer.isEmpty then return (none, [])
  else do
    let first ← Res.unwrap buffer.getLast?
    if first = ['"'] then
      if openingQuotesAllowed then do
        let (v, rest) ← splitQuote buffer
        return (some v, rest)
      else asErr .invalidQuotes
    else do
      let (s, rest) := takeWord buffer []
      match rest with
      | t :: _ =>
        if t = ['"'] then do
          let (q, rest) ← splitQuote rest
          match rest with
          | t' :: _ =>
            if t' ≠ [' '] ∧ t' ≠ ['#'] then asErr .invalidQuotes
            else return (some (s ++ q), rest)
          | [] => return (some (s ++ q), rest)
        else return (some s, rest)
      | [] => return (some s, rest)

/-- `str::trim_matches('"')`. -/
def trimQuotes (s : List Char) : List Char := trimMatches (· == '"') s

/-- `str::len` in bytes. -/
def byteLen (s : List Char) : Nat := (strBytes (String.ofList s)).length

/-- src/ssh/allowed_signer.rs:433-469 `parse_timestamp`. -/
def parseTimestamp (T : Chrono) (s : List Char) : Res Int := do
  let s := trimQuotes s
  let isUtc := s.getLast? = some 'Z'
  if byteLen s % 2 = 1 ∧ ¬ isUtc then asErr .invalidTimestamp
  else do
    let s := if isUtc then trimEnd (· == 'Z') s else s
    let datetime ←
      if byteLen s = 8 then Res.ofOption (.invalidAllowedSigner .invalidTimestamp) (T.parseDate s)
      else if byteLen s = 12 then
        Res.ofOption (.invalidAllowedSigner .invalidTimestamp) (T.parseMinute s)
      else if byteLen s = 14 then
        Res.ofOption (.invalidAllowedSigner .invalidTimestamp) (T.parseSecond s)
      else asErr .invalidTimestamp
    if isUtc then return datetime else Res.unwrap (T.localUnix datetime)

/-- The option values collected by the loop of src/ssh/allowed_signer.rs:112-173. -/
structure Opts where
  certAuthority : Bool
  namespaces : Option (List (List Char))
  validAfter : Option Int
  validBefore : Option Int
deriving DecidableEq, Repr

/-- src/ssh/allowed_signer.rs:112-115. -/
def Opts.empty : Opts := ⟨false, none, none, none⟩

/-- ASCII lower case.  `str::to_lowercase` maps to one of the four option names exactly the ASCII
case variants of it: outside ASCII only U+212A lowercases to an ASCII letter, `k`, which occurs in
no option name. -/
def lowerAscii (s : List Char) : List Char :=
  s.map fun c => if 'A' ≤ c ∧ c ≤ 'Z' then Char.ofNat (c.toNat + 32) else c

/-- What one token does in the loop: it is the key type (`none`) or an option. -/
def applyOption (T : Chrono) (o : Opts) (option : Tok) : Res (Option Opts) :=
  let kv := (splitOnce '=' option).getD (option, [])
  let value := trimQuotes kv.2
  if value.contains '"' then asErr .invalidQuotes
  else
    let key := lowerAscii kv.1
    if key = "cert-authority".toList then .ok (some { o with certAuthority := true })
    else if key = "namespaces".toList then
      if o.namespaces.isSome then asErr (.duplicateOptions "namespaces")
      else .ok (some { o with
        namespaces := some ((splitOn (· == ',') value).filter fun e => !e.isEmpty) })
    else if key = "valid-after".toList then
      if o.validAfter.isSome then asErr (.duplicateOptions "valid-after")
      else do
        let t ← Res.mapErr (fun _ => .invalidAllowedSigner (.invalidOption "valid-after"))
          (parseTimestamp T value)
        return some { o with validAfter := some t }
    else if key = "valid-before".toList then
      if o.validBefore.isSome then asErr (.duplicateOptions "valid-before")
      else do
        let t ← Res.mapErr (fun _ => .invalidAllowedSigner (.invalidOption "valid-before"))
          (parseTimestamp T value)
        return some { o with validBefore := some t }
    else .ok none

/-- src/ssh/allowed_signer.rs:117-173: the option loop.  Every iteration consumes a token, so
`fuel := number of tokens + 1` is never exhausted (`optionLoop_panic` in Lemmas); running out is
represented as a panic. -/
def optionLoop (T : Chrono) : Nat → List Tok → Opts → Res (Tok × Opts × List Tok)
  | 0, _, _ => .panic
  | fuel + 1, buffer, o => do
    let (tok, rest) ← asNext false buffer
    match tok with
    | none => asErr .missingKey
    | some option => do
      match ← applyOption T o option with
      | some o' => optionLoop T fuel rest o'
      | none => return (option, o, rest)

/-- src/ssh/allowed_signer.rs:182-188: the timestamp sanity check. -/
def emptyWindow : Option Int → Option Int → Bool
  | some before, some after => decide (before ≤ after)
  | _, _ => false

namespace AllowedSigner

/-- src/ssh/allowed_signer.rs:99-205 `from_string`. -/
def fromString (T : Chrono) (s : List Char) : Res AllowedSigner := do
  let toks := splitTokens [] s
  let (ptok, toks) ← asNext true toks
  match ptok with
  | none => asErr .missingPrincipals
  | some p => do
    let principals := splitOn (· == ',') (trimQuotes p)
    if principals.any (·.isEmpty) then asErr .invalidPrincipals
    else do
      let (kt, o, toks) ← optionLoop T (toks.length + 1) toks Opts.empty
      let (ktok, toks) ← asNext false toks
      match ktok with
      | none => asErr .invalidKey
      | some keyData => do
        let key ← Res.mapErr (fun _ => .invalidAllowedSigner .invalidKey)
          (PublicKey.fromString (kt ++ ' ' :: keyData))
        if emptyWindow o.validBefore o.validAfter then asErr .invalidTimestamps
        else if ¬ (asTrim toks).isEmpty then asErr .unexpectedEnd
        else return {
          principals, certAuthority := o.certAuthority, namespaces := o.namespaces,
          validAfter := o.validAfter, validBefore := o.validBefore, key }

/-- `Vec::join(",")`. -/
def joinComma : List (List Char) → List Char
  | [] => []
  | [l] => l
  | l :: ls => l ++ ',' :: joinComma ls

/-- src/ssh/allowed_signer.rs:208-234 `Display`. -/
def display (a : AllowedSigner) : Res (List Char) := do
  let k ← a.key.display
  return joinComma a.principals ++
    (if a.certAuthority then " cert-authority".toList else []) ++
    (match a.namespaces with
     | some ns => " namespaces=".toList ++ joinComma ns
     | none => []) ++
    (match a.validAfter with
     | some t => " valid-after=".toList ++ (toString t).toList
     | none => []) ++
    (match a.validBefore with
     | some t => " valid-before=".toList ++ (toString t).toList
     | none => []) ++
    ' ' :: k

end AllowedSigner

/-- src/ssh/allowed_signer.rs:275-290: the loop over numbered lines. -/
def allowedSignersLoop (T : Chrono) : List (List Char) → Nat → List AllowedSigner →
    Res (List AllowedSigner)
  | [], _, acc => .ok acc
  | line :: rest, n, acc =>
    let line := trimMatches isWs line
    if line.isEmpty ∨ line.head? = some '#' then allowedSignersLoop T rest (n + 1) acc
    else
      match AllowedSigner.fromString T line with
      | .ok v => allowedSignersLoop T rest (n + 1) (acc ++ [v])
      | .err (.invalidAllowedSigner e) => .err (.invalidAllowedSigners e n)
      | .err _ => .err .parsingError
      | .panic => .panic

/-- src/ssh/allowed_signer.rs:272-293 `AllowedSigners::from_string`. -/
def allowedSignersFromString (T : Chrono) (s : List Char) : Res (List AllowedSigner) :=
  allowedSignersLoop T (lines s) 0 []

end Ssh
