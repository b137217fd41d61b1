import Verif.Model.PublicKey

/-! # src/ssh/writer.rs -/

namespace Ssh

/-- src/ssh/writer.rs:8-10 `Writer`. -/
structure Writer where
  inner : Bytes
deriving DecidableEq, Repr

/-- `HashMap<String, String>`: the association list of its entries in the (arbitrary) order in
which the map is currently iterated.  Rust maps have no duplicate keys; see `mapInsert`. -/
abbrev StrMap := List (String × String)

/-- `HashMap::insert`.  A present key keeps its place and gets the new value, a new key is placed
at the end (the place is irrelevant: no theorem depends on the iteration order). -/
def mapInsert : StrMap → String → String → StrMap
  | [], k, v => [(k, v)]
  | (k', v') :: m, k, v => if k' = k then (k, v) :: m else (k', v') :: mapInsert m k v

/-- `HashMap::get`. -/
def mapGet : StrMap → String → Option String
  | [], _ => none
  | (k', v') :: m, k => if k' = k then some v' else mapGet m k

namespace Writer

/-- src/ssh/writer.rs:19-21 `Writer::new`. -/
def new : Writer := ⟨[]⟩

/-- src/ssh/writer.rs:33-37 `write_cstring`. -/
def writeCstring (w : Writer) (s : String) : Writer := ⟨w.inner ++ strBytes s ++ [0]⟩

/-- src/ssh/writer.rs:51-56 `write_bytes`: the length is cast with `as u32`. -/
def writeBytes (w : Writer) (val : Bytes) : Writer :=
  ⟨w.inner ++ beBytes 4 val.length ++ val⟩

/-- src/ssh/writer.rs:68-70 `write_raw_bytes`. -/
def writeRawBytes (w : Writer) (val : Bytes) : Writer := ⟨w.inner ++ val⟩

/-- src/ssh/writer.rs:82-84 `write_string`. -/
def writeString (w : Writer) (val : String) : Writer := w.writeBytes (strBytes val)

/-- src/ssh/writer.rs:96-99 `write_u64`. -/
def writeU64 (w : Writer) (val : UInt64) : Writer := ⟨w.inner ++ beBytes 8 val.toNat⟩

/-- src/ssh/writer.rs:111-114 `write_u32`. -/
def writeU32 (w : Writer) (val : UInt32) : Writer := ⟨w.inner ++ beBytes 4 val.toNat⟩

/-- src/ssh/writer.rs:132-140, the loop counting leading zero bytes. -/
def leadingZeros : Bytes → Nat
  | [] => 0
  | b :: bs => if b = 0 then leadingZeros bs + 1 else 0

/-- src/ssh/writer.rs:131-152 `write_mpint`.  (`&val[leading_zeros..]` cannot be out of range;
`drop` is used.) -/
def writeMpint (w : Writer) (val : Bytes) : Writer :=
  let val := val.drop (leadingZeros val)
  let bytes := if (val.head?.getD 0) &&& 0x80 ≠ 0 then 0 :: val else val
  w.writeBytes bytes

/-- src/ssh/writer.rs:165-175 `write_string_vec`. -/
def writeStringVec (w : Writer) (vec : List String) : Writer :=
  let totalLength := (vec.map fun x => (strBytes x).length).foldl (· + ·) (vec.length * 4)
  let w := w.writeU32 (UInt32.ofNat totalLength)
  vec.foldl (fun w item => w.writeString item) w

/-- src/ssh/writer.rs:191-208 `write_string_map`; `v.len() as u32 + 4` is u32 arithmetic (taken
modulo 2^32; debug builds would panic on overflow). -/
def writeStringMap (w : Writer) (map : StrMap) : Writer :=
  let totalLength := (map.map fun x => (strBytes x.1).length + (strBytes x.2).length +
      (if !(strBytes x.2).isEmpty then 4 else 0)).foldl (· + ·) (map.length * 8)
  let w := w.writeU32 (UInt32.ofNat totalLength)
  map.foldl (fun w kv =>
    let w := w.writeString kv.1
    if (strBytes kv.2).isEmpty then w.writeU32 0
    else (w.writeU32 (UInt32.ofNat (strBytes kv.2).length + 4)).writeString kv.2) w

/-- src/ssh/writer.rs:229-250 `write_pub_key_data`; `sk_application.as_ref().unwrap()` panics on
`None`. -/
def writePubKeyData (w : Writer) (key : PublicKey) : Res Writer :=
  match key.kind with
  | .rsa e n => .ok ((w.writeMpint e).writeMpint n)
  | .ecdsa curve k app =>
    let w := (w.writeString curve.identifier).writeBytes k
    if key.keyType.isSk then do
      let a ← Res.unwrap app
      return w.writeString a
    else .ok w
  | .ed25519 k app =>
    let w := w.writeBytes k
    if key.keyType.isSk then do
      let a ← Res.unwrap app
      return w.writeString a
    else .ok w

/-- src/ssh/writer.rs:215-222 `write_pub_key`. -/
def writePubKey (w : Writer) (key : PublicKey) : Res Writer := do
  let inner := Writer.new.writeString key.keyType.name
  let inner ← inner.writePubKeyData key
  return w.writeBytes inner.inner

end Writer
end Ssh
