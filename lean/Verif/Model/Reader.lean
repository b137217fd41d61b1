import Verif.Model.Basic

/-! # src/ssh/reader.rs -/

namespace Ssh

/-- src/ssh/reader.rs:7-10 `Reader`. -/
structure Reader where
  inner : Bytes
  offset : Nat
deriving DecidableEq, Repr

/-- A function taking `&mut Reader` and returning `Result`: outcome plus the reader afterwards
(also after an error, since the cursor stays observable). -/
abbrev Rd (α : Type) := Reader → Res α × Reader

namespace Rd

/-- `?` in a function over `&mut Reader`. -/
def bind {α β : Type} (m : Rd α) (f : α → Rd β) : Rd β := fun r =>
  match m r with
  | (.ok a, r') => f a r'
  | (.err e, r') => (.err e, r')
  | (.panic, r') => (.panic, r')

/-- `Ok(a)`. -/
def pure {α : Type} (a : α) : Rd α := fun r => (.ok a, r)

instance : Monad Rd where
  pure := Rd.pure
  bind := Rd.bind

/-- A computation that does not touch the reader. -/
def lift {α : Type} (x : Res α) : Rd α := fun r => (x, r)

end Rd

namespace Reader

/-- src/ssh/reader.rs:23-28 `Reader::new`. -/
def new (inner : Bytes) : Reader := ⟨inner, 0⟩

/-- src/ssh/reader.rs:43-47 `set_offset`. -/
def setOffset (offset : Nat) : Rd Unit := fun r => (.ok (), { r with offset := offset })

/-- src/ssh/reader.rs:60-62 `get_offset`. -/
def getOffset : Rd Nat := fun r => (.ok r.offset, r)

/-- Helper of the model only: a primitive computes a value and the new offset, or fails leaving
the offset alone (in each primitive below every `return Err` precedes the assignment to
`self.offset`, or, for `read_cstring`, is preceded by the reset of it). -/
def commit {α : Type} (r : Reader) : Res (α × Nat) → Res α × Reader
  | .ok (a, o) => (.ok a, { r with offset := o })
  | .err e => (.err e, r)
  | .panic => (.panic, r)

/-- src/ssh/reader.rs:77-107 `read_bytes`. -/
def readBytes : Rd Bytes := fun r => commit r <|
  if r.offset ≥ r.inner.length then .err .unexpectedEof
  else do
    let sl ← sliceFrom r.inner r.offset
    if sl.length < 4 then .err .invalidFormat
    else do
      let size := beNat (← slice sl 0 4)
      if (← subNat sl.length 4) < size then .err .invalidFormat
      else do
        let result ← slice sl 4 (size + 4)
        return (result, r.offset + (size + 4))

/-- src/ssh/reader.rs:118-141 `read_raw_bytes`. -/
def readRawBytes (len : Nat) : Rd Bytes := fun r => commit r <|
  if r.offset ≥ r.inner.length then .err .unexpectedEof
  else do
    if len > (← subNat r.inner.length r.offset) then .err .unexpectedEof
    else do
      let sl ← sliceFrom r.inner r.offset
      let result ← slice sl 0 len
      return (result, r.offset + len)

/-- src/ssh/reader.rs:155-186 `read_positive_mpint`. -/
def readPositiveMpint : Rd Bytes := do
  let bytes ← readBytes
  if bytes.isEmpty then return bytes
  else do
    let b0 ← Rd.lift (index bytes 0)
    if b0 = 0 then
      if bytes.length = 1 then Rd.lift (.err .invalidFormat)
      else do
        let b1 ← Rd.lift (index bytes 1)
        if b1 < 0x80 then Rd.lift (.err .invalidFormat)
        else Rd.lift (sliceFrom bytes 1)
    else if b0 ≤ 0x7f then return bytes
    else Rd.lift (.err .invalidFormat)

/-- src/ssh/reader.rs:199-204 `read_string`. -/
def readString : Rd String := do
  let bytes ← readBytes
  match fromUtf8 bytes with
  | some s => return s
  | none => Rd.lift (.err .utf8Error)

/-- src/ssh/reader.rs:217-229, the loop of `read_cstring`; `chr as char` maps a byte to the code
point with the same number. -/
def cstringLoop (inner : Bytes) (offset : Nat) (s : List Char) : Res (String × Nat) :=
  if h : offset < inner.length then
    let chr := inner[offset]
    if chr = 0 then .ok (String.ofList s, offset + 1)
    else cstringLoop inner (offset + 1) (s ++ [Char.ofNat chr.toNat])
  else .err .unexpectedEof
termination_by inner.length - offset

/-- src/ssh/reader.rs:213-230 `read_cstring`. -/
def readCstring : Rd String := fun r => commit r (cstringLoop r.inner r.offset [])

/-- src/ssh/reader.rs:242-256 `read_u32`. -/
def readU32 : Rd UInt32 := fun r => commit r <|
  if r.offset ≥ r.inner.length then .err .unexpectedEof
  else do
    let sl ← sliceFrom r.inner r.offset
    if sl.length < 4 then .err .invalidFormat
    else do
      let value := beNat (← slice sl 0 4)
      return (UInt32.ofNat value, r.offset + 4)

/-- src/ssh/reader.rs:268-282 `read_u64`. -/
def readU64 : Rd UInt64 := fun r => commit r <|
  if r.offset ≥ r.inner.length then .err .unexpectedEof
  else do
    let sl ← sliceFrom r.inner r.offset
    if sl.length < 8 then .err .invalidFormat
    else do
      let value := beNat (← slice sl 0 8)
      return (UInt64.ofNat value, r.offset + 8)

end Reader
end Ssh
