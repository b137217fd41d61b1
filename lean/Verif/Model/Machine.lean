import Verif.Model.Fido
import Verif.Model.Utils

/-! # The arithmetic of the machine

The other parts of the model compute lengths and positions with natural numbers.  Here the functions of the code that add
or multiply such numbers are written again with the integers of the machine. -/

namespace Ssh

/-- A target: the number of bits of `usize`, and whether the program is built with overflow checks. -/
structure Machine where
  bits : Nat
  checked : Bool
deriving DecidableEq, Repr

namespace Machine

/-- An operation on integers of `n` bits with the result `x`. -/
def fit (M : Machine) (n x : Nat) : Res Nat :=
  if x < 2 ^ n then .ok x else if M.checked then .panic else .ok (x % 2 ^ n)

/-- `a + b` and `a += b` of type `usize`. -/
def add (M : Machine) (a b : Nat) : Res Nat := M.fit M.bits (a + b)

/-- `a * b` of type `usize`. -/
def mul (M : Machine) (a b : Nat) : Res Nat := M.fit M.bits (a * b)

/-- src/ssh/reader.rs:77-107 `read_bytes`. -/
def readBytes (M : Machine) : Rd Bytes := fun r => Reader.commit r <|
  if r.offset ≥ r.inner.length then .err .unexpectedEof
  else do
    let sl ← sliceFrom r.inner r.offset
    if sl.length < 4 then .err .invalidFormat
    else do
      let size := beNat (← slice sl 0 4) % 2 ^ M.bits
      if (← subNat sl.length 4) < size then .err .invalidFormat
      else do
        let step ← M.add size 4
        let offset ← M.add r.offset step
        let stop ← M.add size 4
        let result ← slice sl 4 stop
        return (result, offset)

/-- src/ssh/reader.rs:118-141 `read_raw_bytes`. -/
def readRawBytes (M : Machine) (len : Nat) : Rd Bytes := fun r => Reader.commit r <|
  if r.offset ≥ r.inner.length then .err .unexpectedEof
  else do
    if len > (← subNat r.inner.length r.offset) then .err .unexpectedEof
    else do
      let sl ← sliceFrom r.inner r.offset
      let offset ← M.add r.offset len
      let result ← slice sl 0 len
      return (result, offset)

/-- src/ssh/reader.rs:217-229, at most `n` rounds of the loop of `read_cstring`; `none` if it goes on. -/
def cstringLoop (M : Machine) (inner : Bytes) : Nat → Nat → List Char → Option (Res (String × Nat))
  | 0, _, _ => none
  | n + 1, offset, s =>
    if h : offset < inner.length then
      let chr := inner[offset]
      if chr = 0 then some (do let offset ← M.add offset 1; return (String.ofList s, offset))
      else
        match M.add offset 1 with
        | .ok offset => cstringLoop M inner n offset (s ++ [Char.ofNat chr.toNat])
        | .err e => some (.err e)
        | .panic => some .panic
    else some (.err .unexpectedEof)

/-- src/ssh/reader.rs:213-230 `read_cstring`. -/
def readCstring (M : Machine) (n : Nat) (r : Reader) : Option (Res String × Reader) :=
  (M.cstringLoop r.inner n r.offset []).map (Reader.commit r)

/-- src/ssh/reader.rs:242-256 `read_u32`. -/
def readU32 (M : Machine) : Rd UInt32 := fun r => Reader.commit r <|
  if r.offset ≥ r.inner.length then .err .unexpectedEof
  else do
    let sl ← sliceFrom r.inner r.offset
    if sl.length < 4 then .err .invalidFormat
    else do
      let offset ← M.add r.offset 4
      let value := beNat (← slice sl 0 4)
      return (UInt32.ofNat value, offset)

/-- src/ssh/reader.rs:268-282 `read_u64`. -/
def readU64 (M : Machine) : Rd UInt64 := fun r => Reader.commit r <|
  if r.offset ≥ r.inner.length then .err .unexpectedEof
  else do
    let sl ← sliceFrom r.inner r.offset
    if sl.length < 8 then .err .invalidFormat
    else do
      let offset ← M.add r.offset 8
      let value := beNat (← slice sl 0 8)
      return (UInt64.ofNat value, offset)

/-- src/ssh/writer.rs:132-140, the loop counting leading zero bytes, with those counted so far. -/
def leadingZeros (M : Machine) : Bytes → Nat → Res Nat
  | [], n => .ok n
  | b :: bs, n => if b = 0 then do leadingZeros M bs (← M.add n 1) else .ok n

/-- src/ssh/writer.rs:131-152 `write_mpint`. -/
def writeMpint (M : Machine) (w : Writer) (val : Bytes) : Res Writer := do
  let n ← M.leadingZeros val 0
  let val ← sliceFrom val n
  let bytes := if (val.head?.getD 0) &&& 0x80 ≠ 0 then 0 :: val else val
  return w.writeBytes bytes

/-- `fold(init, |x, y| x + y)`. -/
def sum (M : Machine) : Nat → List Nat → Res Nat
  | x, [] => .ok x
  | x, y :: l => do sum M (← M.add x y) l

/-- src/ssh/writer.rs:165-175 `write_string_vec`. -/
def writeStringVec (M : Machine) (w : Writer) (vec : List String) : Res Writer := do
  let totalLength ← M.sum (← M.mul vec.length 4) (vec.map fun x => (strBytes x).length)
  let w := w.writeU32 (UInt32.ofNat totalLength)
  return vec.foldl (fun w item => w.writeString item) w

/-- src/ssh/writer.rs:194: the bytes taken by one entry, apart from two length fields; the map is lazy, each number is
computed just before it is added. -/
def entrySize (M : Machine) (x : String × String) : Res Nat := do
  let n ← M.add (strBytes x.1).length (strBytes x.2).length
  M.add n (if !(strBytes x.2).isEmpty then 4 else 0)

/-- src/ssh/writer.rs:192-195: the sum over the entries. -/
def mapSize (M : Machine) : Nat → StrMap → Res Nat
  | x, [] => .ok x
  | x, y :: l => do
    let n ← M.entrySize y
    mapSize M (← M.add x n) l

/-- src/ssh/writer.rs:199-207: the entries. -/
def writeEntries (M : Machine) : Writer → StrMap → Res Writer
  | w, [] => .ok w
  | w, kv :: l => do
    let w := w.writeString kv.1
    if (strBytes kv.2).isEmpty then writeEntries M (w.writeU32 0) l
    else do
      let n ← M.fit 32 ((strBytes kv.2).length % 2 ^ 32 + 4)
      writeEntries M ((w.writeU32 (UInt32.ofNat n)).writeString kv.2) l

/-- src/ssh/writer.rs:191-208 `write_string_map`. -/
def writeStringMap (M : Machine) (w : Writer) (map : StrMap) : Res Writer := do
  let totalLength ← M.mapSize (← M.mul map.length 8) map
  M.writeEntries (w.writeU32 (UInt32.ofNat totalLength)) map

/-- src/ssh/pubkey.rs:317-331 `bits`. -/
def keyBits (M : Machine) (k : PublicKey) : Res Nat :=
  match k.kind with
  | .rsa _ n => M.mul n.length 8
  | _ => .ok k.bits

/-- src/utils.rs:5-34 `asn_der_to_r_s`. -/
def asnDerToRS (M : Machine) (buf : Bytes) : Res (Option (Bytes × Bytes)) := do
  if buf.length < 4 then return none
  if (← index buf 0) ≠ 0x30 then return none
  if (← index buf 2) ≠ 0x2 then return none
  let buf ← sliceFrom buf 3
  let rLength := (← index buf 0).toNat
  let need ← M.add rLength 2
  if buf.length < need then return none
  let buf ← sliceFrom buf 1
  let r ← slice buf 0 rLength
  let buf ← sliceFrom buf rLength
  if buf.length < 3 then return none
  if (← index buf 0) ≠ 0x2 then return none
  let sLength := (← index buf 1).toNat
  let s ← sliceFrom buf 2
  if s.length ≠ sLength then return none
  return some (r, s)

/-- src/fido/parsing.rs:150-196, at most `n` rounds of the loop over the entries, with the position `idx`; `none` if it
goes on. -/
def coseLoop (M : Machine) (len : Nat) : Nat → Nat → Bytes → CoseKey → Option (Res CoseKey)
  | 0, _, _, _ => none
  | n + 1, idx, b, k =>
    match M.fit 64 (len * 2) with
    | .ok stop =>
      if idx < stop then
        match coseEntry b k with
        | .ok (k, b) =>
          match M.fit 64 (idx + 2) with
          | .ok idx => coseLoop M len n idx b k
          | .err e => some (.err e)
          | .panic => some .panic
        | .err e => some (.err e)
        | .panic => some .panic
      else some (.ok k)
    | .err e => some (.err e)
    | .panic => some .panic

/-- src/fido/parsing.rs:130-196: the COSE key. -/
def parseCose (M : Machine) (n : Nat) (b : Bytes) : Option (Res CoseKey) :=
  match cborMap b with
  | some (some len, rest) =>
    if len > 256 then some (.err (.fidoError (.cborFormat "Map is too long"))) else M.coseLoop len n 0 rest CoseKey.default
  | _ => some (.err (.fidoError (.cborFormat "Refusing to read indefinite map")))

end Machine
end Ssh
