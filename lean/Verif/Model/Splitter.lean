import Verif.Model.AllowedSigner
import Verif.Model.Machine

/-! # src/ssh/allowed_signer.rs:95-427 with the data structures of the code

`AllowedSigner` keeps the tokens of a line in reading order.  Here they are kept as in the code: a `Vec` with the first
token at its end, found by byte positions in the line. -/

namespace Ssh
namespace Splitter

/-- `str::split_at`: the characters before and after a byte position; none if it is inside a character or beyond the end. -/
def byteSplit : List Char → Nat → Option (List Char × List Char)
  | s, 0 => some ([], s)
  | [], _ + 1 => none
  | c :: s, i + 1 =>
    if c.utf8Size ≤ i + 1 then (byteSplit s (i + 1 - c.utf8Size)).map fun p => (c :: p.1, p.2) else none

/-- `&s[a..b]` of a `str`. -/
def strSlice (s : List Char) (a b : Nat) : Res Tok :=
  match byteSplit s b with
  | some (p, _) =>
    match byteSplit p a with
    | some (_, q) => .ok q
    | none => .panic
  | none => .panic

/-- `&s[a..]` of a `str`. -/
def strSliceFrom (s : List Char) (a : Nat) : Res Tok :=
  match byteSplit s a with
  | some (_, q) => .ok q
  | none => .panic

/-- `str::match_indices`, of the rest of a string that begins at the byte position `i`. -/
def matchIndices : List Char → Nat → List (Nat × Tok)
  | [], _ => []
  | c :: s, i =>
    if isDelim c then (i, [c]) :: matchIndices s (i + c.utf8Size) else matchIndices s (i + c.utf8Size)

/-- src/ssh/allowed_signer.rs:314-317: push the text before a delimiter. -/
def pushBefore (s : List Char) (last index : Nat) (buffer : List Tok) : Res (List Tok) :=
  if last ≠ index then do
    let t ← strSlice s last index
    return buffer ++ [t]
  else .ok buffer

/-- src/ssh/allowed_signer.rs:313-321: the loop. -/
def newLoop (M : Machine) (s : List Char) : List (Nat × Tok) → Nat → List Tok → Res (Nat × List Tok)
  | [], last, buffer => .ok (last, buffer)
  | (index, matched) :: rest, last, buffer => do
    let buffer ← pushBefore s last index buffer
    let buffer := buffer ++ [matched]
    let last ← M.add index (byteLen matched)
    newLoop M s rest last buffer

/-- src/ssh/allowed_signer.rs:309-332 `AllowedSignerSplitter::new`. -/
def new (M : Machine) (s : List Char) : Res (List Tok) := do
  let (last, buffer) ← newLoop M s (matchIndices s 0) 0 []
  let buffer ← if last < byteLen s then do
      let t ← strSliceFrom s last
      pure (buffer ++ [t])
    else pure buffer
  return buffer.reverse

/-- src/ssh/allowed_signer.rs:389-402 `trim`. -/
def trim (buffer : List Tok) : List Tok :=
  match _h : buffer.getLast? with
  | some last =>
    if last = [' '] then trim buffer.dropLast
    else if last = ['#'] then trim []
    else buffer
  | none => buffer
termination_by buffer.length
decreasing_by
  all_goals
    have : buffer ≠ [] := by rintro rfl; cases _h
    have := List.length_pos_iff.mpr this
    simp
    try omega

/-- `Vec::pop`. -/
def pop (buffer : List Tok) : Option (Tok × List Tok) := buffer.getLast?.map fun t => (t, buffer.dropLast)

theorem pop_length {buffer b : List Tok} {t : Tok} (h : pop buffer = some (t, b)) : b.length < buffer.length := by
  unfold pop at h
  cases hg : buffer.getLast? with
  | none => rw [hg] at h; cases h
  | some x =>
    rw [hg] at h
    cases h
    have : buffer ≠ [] := by rintro rfl; cases hg
    have := List.length_pos_iff.mpr this
    simp
    omega

/-- src/ssh/allowed_signer.rs:416-424, the loop of `split_quote`. -/
def splitQuoteLoop (buffer : List Tok) (s : Tok) : Res (Tok × List Tok) :=
  match _h : pop buffer with
  | some (token, buffer') =>
    let s := s ++ token
    if token = ['"'] then .ok (s, buffer') else splitQuoteLoop buffer' s
  | none => asErr .invalidQuotes
termination_by buffer.length
decreasing_by exact pop_length _h

/-- src/ssh/allowed_signer.rs:406-427 `split_quote`. -/
def splitQuote (buffer : List Tok) : Res (Tok × List Tok) :=
  match pop buffer with
  | some (v, buffer) => if v ≠ ['"'] then asErr .invalidQuotes else splitQuoteLoop buffer ['"']
  | none => asErr .invalidQuotes

/-- src/ssh/allowed_signer.rs:360-368. -/
def takeWord (buffer : List Tok) (s : Tok) : Tok × List Tok :=
  match _h : pop buffer with
  | some (last, buffer') =>
    if [[' '], ['"'], ['#']].contains last then (s, buffer' ++ [last]) else takeWord buffer' (s ++ last)
  | none => (s, buffer)
termination_by buffer.length
decreasing_by exact pop_length _h

/-- src/ssh/allowed_signer.rs:341-386 `next`. -/
def next (openingQuotesAllowed : Bool) (buffer : List Tok) : Res (Option Tok × List Tok) := do
  let buffer := trim buffer
  if buffer.isEmpty then return (none, buffer)
  else do
    let first ← index buffer 0
    if first = ['"'] then
      if openingQuotesAllowed then do
        let (v, buffer) ← splitQuote buffer
        return (some v, buffer)
      else asErr .invalidQuotes
    else do
      let (s, buffer) := takeWord buffer []
      match buffer.getLast? with
      | some last =>
        if last = ['"'] then do
          let (q, buffer) ← splitQuote buffer
          let s := s ++ q
          match buffer.getLast? with
          | some last => if ¬ [[' '], ['#']].contains last then asErr .invalidQuotes else return (some s, buffer)
          | none => return (some s, buffer)
        else return (some s, buffer)
      | none => return (some s, buffer)

/-- src/ssh/allowed_signer.rs:121-171: what one token does; `lower` is `str::to_lowercase`. -/
def applyOption (lower : List Char → List Char) (T : Chrono) (o : Opts) (option : Tok) : Res (Option Opts) :=
  let kv := (splitOnce '=' option).getD (option, [])
  let value := trimQuotes kv.2
  if value.contains '"' then asErr .invalidQuotes
  else
    let key := lower kv.1
    if key = "cert-authority".toList then .ok (some { o with certAuthority := true })
    else if key = "namespaces".toList then
      if o.namespaces.isSome then asErr (.duplicateOptions "namespaces")
      else .ok (some { o with
        namespaces := some ((splitOn (· == ',') value).filter fun e => !e.isEmpty) })
    else if key = "valid-after".toList then
      if o.validAfter.isSome then asErr (.duplicateOptions "valid-after")
      else do
        let t ← Res.mapErr (fun _ => .invalidAllowedSigner (.invalidOption "valid-after"))
          (parseTimestamp T value)
        return some { o with validAfter := some t }
    else if key = "valid-before".toList then
      if o.validBefore.isSome then asErr (.duplicateOptions "valid-before")
      else do
        let t ← Res.mapErr (fun _ => .invalidAllowedSigner (.invalidOption "valid-before"))
          (parseTimestamp T value)
        return some { o with validBefore := some t }
    else .ok none

/-- src/ssh/allowed_signer.rs:117-173, at most `n` rounds of the loop over the options; `none` if it goes on. -/
def optionLoop (lower : List Char → List Char) (T : Chrono) : Nat → List Tok → Opts → Option (Res (Tok × Opts × List Tok))
  | 0, _, _ => none
  | n + 1, buffer, o =>
    match next false buffer with
    | .ok (none, _) => some (asErr .missingKey)
    | .ok (some option, buffer) =>
      match applyOption lower T o option with
      | .ok (some o) => optionLoop lower T n buffer o
      | .ok none => some (.ok (option, o, buffer))
      | .err e => some (.err e)
      | .panic => some .panic
    | .err e => some (.err e)
    | .panic => some .panic

/-- src/ssh/allowed_signer.rs:175-205: what follows the loop. -/
def finish (principals : List (List Char)) (kt : Tok) (o : Opts) (buffer : List Tok) : Res AllowedSigner := do
  let (keyData, buffer) ← next false buffer
  match keyData with
  | none => asErr .invalidKey
  | some keyData => do
    let key ← Res.mapErr (fun _ => .invalidAllowedSigner .invalidKey) (PublicKey.fromString (kt ++ ' ' :: keyData))
    if emptyWindow o.validBefore o.validAfter then asErr .invalidTimestamps
    else if ¬ (trim buffer).isEmpty then asErr .unexpectedEnd
    else return {
      principals, certAuthority := o.certAuthority, namespaces := o.namespaces,
      validAfter := o.validAfter, validBefore := o.validBefore, key }

/-- src/ssh/allowed_signer.rs:100-110: the principals and the tokens after them. -/
def start (M : Machine) (s : List Char) : Res (List (List Char) × List Tok) := do
  let buffer ← new M s
  let (p, buffer) ← next true buffer
  match p with
  | none => asErr .missingPrincipals
  | some p =>
    let principals := splitOn (· == ',') (trimQuotes p)
    if principals.any (·.isEmpty) then asErr .invalidPrincipals else return (principals, buffer)

/-- src/ssh/allowed_signer.rs:99-205 `from_string`, with at most `n` rounds of the loop. -/
def fromString (M : Machine) (lower : List Char → List Char) (T : Chrono) (n : Nat) (s : List Char) : Option (Res AllowedSigner) :=
  match start M s with
  | .ok (principals, buffer) =>
    match optionLoop lower T n buffer Opts.empty with
    | some (.ok (kt, o, buffer)) => some (finish principals kt o buffer)
    | some (.err e) => some (.err e)
    | some .panic => some .panic
    | none => none
  | .err e => some (.err e)
  | .panic => some .panic

end Splitter
end Ssh
