import Verif.Model.Reader
import Verif.Model.Writer
import Verif.Model.Text
import Verif.Model.Crypto

/-! # src/ssh/pubkey.rs -/

namespace Ssh

/-- src/ssh/pubkey.rs:95-104 `FingerprintKind`. -/
inductive FingerprintKind where
  | sha256 | sha384 | sha512
deriving DecidableEq, Repr

/-- src/ssh/pubkey.rs:106-116 `Display for FingerprintKind`. -/
def FingerprintKind.display : FingerprintKind → String
  | .sha256 => "SHA256"
  | .sha384 => "SHA384"
  | .sha512 => "SHA512"

/-- src/ssh/pubkey.rs:120-126 `Fingerprint`. -/
structure Fingerprint where
  kind : FingerprintKind
  hash : List Char
deriving DecidableEq, Repr

/-- src/ssh/pubkey.rs:128-132 `Display for Fingerprint`. -/
def Fingerprint.display (f : Fingerprint) : List Char :=
  f.kind.display.toList ++ ':' :: f.hash

/-- The digest selected in src/ssh/pubkey.rs:148-158. -/
def Crypto.digest (C : Crypto) : FingerprintKind → Bytes → Bytes
  | .sha256 => C.sha256
  | .sha384 => C.sha384
  | .sha512 => C.sha512

/-- src/ssh/pubkey.rs:147-169 `Fingerprint::compute`; `encoded.find('=')` and `drain(..offset)`
keep what precedes the first `=`. -/
def Fingerprint.compute (C : Crypto) (kind : FingerprintKind) (data : Bytes) : Fingerprint :=
  ⟨kind, (b64Encode (C.digest kind data)).takeWhile (· ≠ '=')⟩

namespace PublicKey

/-- src/ssh/pubkey.rs:272-275 and 286-289: the application string is present in hardware key
types only. -/
def readApplication (isSk : Bool) : Rd (Option String) :=
  if isSk then do
    let a ← Reader.readString
    return some a
  else return none

/-- src/ssh/pubkey.rs:259-297: the key material of a key type. -/
def readKind (kt : KeyType) : Rd PublicKeyKind :=
  match kt.kind with
  | .rsa | .rsaCert => do
    let e ← Reader.readPositiveMpint
    let n ← Reader.readPositiveMpint
    return .rsa e n
  | .ecdsa | .ecdsaCert => do
    let identifier ← Reader.readString
    let curve ← Rd.lift (Curve.fromIdentifier identifier)
    let key ← Reader.readBytes
    let skApplication ← readApplication kt.isSk
    return .ecdsa curve key skApplication
  | .ed25519 | .ed25519Cert => do
    let key ← Reader.readBytes
    let skApplication ← readApplication kt.isSk
    return .ed25519 key skApplication

/-- src/ssh/pubkey.rs:256-306 `from_reader`. -/
def fromReader (ktName : String) : Rd PublicKey := do
  let kt ← Rd.lift (KeyType.fromName ktName)
  let kind ← readKind kt
  return ⟨kt, kind, none⟩

/-- src/ssh/pubkey.rs:247-251 `from_bytes`. -/
def fromBytes (data : Bytes) : Res PublicKey :=
  ((do
    let ktName ← Reader.readString
    fromReader ktName : Rd PublicKey) (Reader.new data)).1

/-- src/ssh/pubkey.rs:200-225 `from_string`. -/
def fromString (contents : List Char) : Res PublicKey :=
  match splitWhitespace contents with
  | [] => .err .invalidFormat
  | [_] => .err .invalidFormat
  | kt :: data :: rest => do
    let ktName := String.ofList kt
    let comment := rest.head?.map String.ofList
    let keyType ← KeyType.fromName ktName
    let decoded ← Res.ofOption .decode (b64Decode data)
    ((do
      let ktFromReader ← Reader.readString
      if ktName ≠ ktFromReader then Rd.lift (.err .keyTypeMismatch)
      else do
        let k ← fromReader ktName
        return { keyType := keyType, kind := k.kind, comment := comment } : Rd PublicKey)
      (Reader.new decoded)).1

/-- src/ssh/pubkey.rs:317-331 `bits`. -/
def bits (k : PublicKey) : Nat :=
  match k.kind with
  | .rsa _ n => n.length * 8
  | .ecdsa curve _ _ =>
    match curve.kind with
    | .nistp256 => 256
    | .nistp384 => 384
    | .nistp521 => 521
  | .ed25519 _ _ => 256

/-- src/ssh/pubkey.rs:341-366 `encode`. -/
def encode (k : PublicKey) : Res Bytes := do
  let w := Writer.new.writeString k.keyType.plain
  match k.kind with
  | .rsa e n => return ((w.writeMpint e).writeMpint n).inner
  | .ecdsa curve key app =>
    let w := (w.writeString curve.identifier).writeBytes key
    if k.keyType.isSk then do
      let a ← Res.unwrap app
      return (w.writeString a).inner
    else return w.inner
  | .ed25519 key app =>
    let w := w.writeBytes key
    if k.keyType.isSk then do
      let a ← Res.unwrap app
      return (w.writeString a).inner
    else return w.inner

/-- src/ssh/pubkey.rs:398-400 `fingerprint_with` (`fingerprint`, 381-383, is the SHA-256 case). -/
def fingerprintWith (C : Crypto) (k : PublicKey) (kind : FingerprintKind) : Res Fingerprint := do
  let b ← k.encode
  return Fingerprint.compute C kind b

/-- src/ssh/pubkey.rs:77-91 `Display`. -/
def display (k : PublicKey) : Res (List Char) := do
  let b ← k.encode
  match k.comment with
  | some c => return k.keyType.name.toList ++ ' ' :: b64Encode b ++ ' ' :: c.toList
  | none => return k.keyType.name.toList ++ ' ' :: b64Encode b

/-- src/ssh/pubkey.rs:414-421 `write` (the text handed to the `io::Write`). -/
def write (k : PublicKey) : Res (List Char) := do
  let b ← k.encode
  match k.comment with
  | some c => return k.keyType.name.toList ++ ' ' :: b64Encode b ++ ' ' :: c.toList ++ ['\n']
  | none => return k.keyType.name.toList ++ ' ' :: b64Encode b ++ ['\n']

end PublicKey
end Ssh
