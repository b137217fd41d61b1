import Verif.Model.Verify

/-! # src/ssh/cert.rs -/

namespace Ssh

/-- src/ssh/cert.rs:17-23 `CertType`. -/
inductive CertType where
  | user | host
deriving DecidableEq, Repr

namespace CertType

/-- `cert_type as u32` (discriminants, src/ssh/cert.rs:17-23). -/
def toU32 : CertType → UInt32
  | .user => 1
  | .host => 2

/-- src/ssh/cert.rs:25-35 `TryFrom<&str>`. -/
def tryFrom (s : String) : Option CertType :=
  if s = "user" then some .user
  else if s = "User" then some .user
  else if s = "host" then some .host
  else if s = "Host" then some .host
  else none

end CertType

/-- src/ssh/cert.rs:61-111 `Certificate`. -/
structure Certificate where
  keyType : KeyType
  nonce : Bytes
  key : PublicKey
  serial : UInt64
  certType : CertType
  keyId : String
  principals : List String
  validAfter : UInt64
  validBefore : UInt64
  criticalOptions : StrMap
  extensions : StrMap
  reserved : Bytes
  signatureKey : PublicKey
  signature : Bytes
  comment : Option String
  serialized : Bytes
deriving DecidableEq, Repr

/-- src/ssh/cert.rs:509-524 `read_principals`, the loop.  Each iteration that does not leave the
loop advances the cursor by at least 4, so `fuel := len + 1` iterations are never exhausted
(`readPrincipals_fuel` in Lemmas); running out of fuel is represented as a panic. -/
def readPrincipalsLoop : Nat → Reader → List String → Res (List String)
  | 0, _, _ => .panic
  | fuel + 1, r, items =>
    match Reader.readString r with
    | (.ok v, r') => readPrincipalsLoop fuel r' (items ++ [v])
    | (.err .unexpectedEof, _) => .ok items
    | (.err e, _) => .err e
    | (.panic, _) => .panic

/-- src/ssh/cert.rs:509-524 `read_principals`. -/
def readPrincipals (buf : Bytes) : Res (List String) :=
  readPrincipalsLoop (buf.length + 1) (Reader.new buf) []

/-- src/ssh/cert.rs:491-496: the value of one option. -/
def readOptionValue : Rd String := do
  let valueBuf ← Reader.readBytes
  if !valueBuf.isEmpty then Rd.lift (Reader.readString (Reader.new valueBuf)).1
  else return ""

/-- src/ssh/cert.rs:474-502 `read_options`, the loop (fuel as in `readPrincipalsLoop`). -/
def readOptionsLoop : Nat → Reader → StrMap → Res StrMap
  | 0, _, _ => .panic
  | fuel + 1, r, options =>
    match Reader.readString r with
    | (.ok name, r') =>
      match readOptionValue r' with
      | (.ok value, r'') => readOptionsLoop fuel r'' (mapInsert options name value)
      | (.err e, _) => .err e
      | (.panic, _) => .panic
    | (.err .unexpectedEof, _) => .ok options
    | (.err e, _) => .err e
    | (.panic, _) => .panic

/-- src/ssh/cert.rs:474-502 `read_options`. -/
def readOptions (buf : Bytes) : Res StrMap :=
  readOptionsLoop (buf.length + 1) (Reader.new buf) []

namespace Certificate

/-- src/ssh/cert.rs:185-189. -/
def readCertType : Rd CertType := do
  let n ← Reader.readU32
  if n = 1 then return .user
  else if n = 2 then return .host
  else Rd.lift (.err (.invalidCertType n))

/-- src/ssh/cert.rs:170-229 `from_bytes`. -/
def fromBytes (C : Crypto) (data : Bytes) : Res Certificate :=
  ((do
    let ktName ← Reader.readString
    let keyType ← Rd.lift (KeyType.fromName ktName)
    if !keyType.isCert then Rd.lift (.err .notCertificate)
    else do
      let nonce ← Reader.readBytes
      let key ← PublicKey.fromReader keyType.asPubkeyName
      let serial ← Reader.readU64
      let certType ← readCertType
      let keyId ← Reader.readString
      let pbuf ← Reader.readBytes
      let principals ← Rd.lift (readPrincipals pbuf)
      let validAfter ← Reader.readU64
      let validBefore ← Reader.readU64
      let cbuf ← Reader.readBytes
      let criticalOptions ← Rd.lift (readOptions cbuf)
      let ebuf ← Reader.readBytes
      let extensions ← Rd.lift (readOptions ebuf)
      let reserved ← Reader.readBytes
      let sbuf ← Reader.readBytes
      let signatureKey ← Rd.lift (PublicKey.fromBytes sbuf)
      let signedLen ← Reader.getOffset
      let signature ← Reader.readBytes
      Reader.setOffset 0
      let signedBytes ← Reader.readRawBytes signedLen
      let _ ← Rd.lift (verifySignature C signature signedBytes signatureKey)
      return {
        keyType, nonce, key, serial, certType, keyId, principals, validAfter, validBefore,
        criticalOptions, extensions, reserved, signatureKey, signature,
        comment := none, serialized := data } : Rd Certificate) (Reader.new data)).1

/-- src/ssh/cert.rs:149-164 `from_string`. -/
def fromString (C : Crypto) (s : List Char) : Res Certificate :=
  match splitWhitespace s with
  | [] => .err .invalidFormat
  | kt :: rest => do
    let outerKt ← KeyType.fromName (String.ofList kt)
    match rest with
    | [] => .err .invalidFormat
    | data :: rest => do
      let comment := rest.head?.map String.ofList
      let decoded ← Res.ofOption .decode (b64Decode data)
      let cert ← fromBytes C decoded
      let cert := { cert with comment := comment }
      if cert.keyType.kind ≠ outerKt.kind then .err .keyTypeMismatch
      else return cert

/-- src/ssh/cert.rs:49-55 `STANDARD_EXTENSIONS`. -/
def standardExtensionsTable : List (String × String) :=
  [("permit-agent-forwarding", ""), ("permit-port-forwarding", ""), ("permit-pty", ""),
   ("permit-user-rc", ""), ("permit-X11-forwarding", "")]

/-- src/ssh/cert.rs:234-240 `standard_extensions`. -/
def standardExtensions : StrMap :=
  standardExtensionsTable.foldl (fun hm x => mapInsert hm x.1 x.2) []

/-- src/ssh/cert.rs:277-317 `builder`.  The two draws from the system random number generator are
parameters (`none` when it fails); the arrays have 32 and 8 bytes by type. -/
def builder (nonce : Option (Vector UInt8 32)) (serial : Option (Vector UInt8 8))
    (pubkey : PublicKey) (certType : CertType) (signingKey : PublicKey) : Res Certificate := do
  let ktName ← pubkey.keyType.asCertName
  let keyType ← KeyType.fromName ktName
  let nonce ← Res.ofOption .unexpectedEof nonce
  let serial ← Res.ofOption .unexpectedEof serial
  return {
    nonce := nonce.toList
    key := pubkey
    keyType
    serial := UInt64.ofNat (beNat serial.toList)
    certType
    keyId := ""
    principals := []
    validAfter := 0
    validBefore := 0
    criticalOptions := []
    extensions := []
    reserved := [0, 0, 0, 0, 0, 0, 0, 0]
    signatureKey := signingKey
    signature := []
    comment := none
    serialized := [] }

/-- src/ssh/cert.rs:320-323. -/
def setSerial (c : Certificate) (serial : UInt64) : Certificate := { c with serial }

/-- src/ssh/cert.rs:326-329. -/
def setKeyId (c : Certificate) (keyId : String) : Certificate := { c with keyId }

/-- src/ssh/cert.rs:332-335. -/
def addPrincipal (c : Certificate) (p : String) : Certificate :=
  { c with principals := c.principals ++ [p] }

/-- src/ssh/cert.rs:338-341. -/
def setPrincipals (c : Certificate) (principals : List String) : Certificate :=
  { c with principals }

/-- src/ssh/cert.rs:344-347. -/
def setValidAfter (c : Certificate) (validAfter : UInt64) : Certificate := { c with validAfter }

/-- src/ssh/cert.rs:350-353. -/
def setValidBefore (c : Certificate) (validBefore : UInt64) : Certificate := { c with validBefore }

/-- src/ssh/cert.rs:356-360. -/
def addCriticalOption (c : Certificate) (k v : String) : Certificate :=
  { c with criticalOptions := mapInsert c.criticalOptions k v }

/-- src/ssh/cert.rs:363-366. -/
def setCriticalOptions (c : Certificate) (criticalOptions : StrMap) : Certificate :=
  { c with criticalOptions }

/-- src/ssh/cert.rs:369-373. -/
def addExtension (c : Certificate) (k v : String) : Certificate :=
  { c with extensions := mapInsert c.extensions k v }

/-- src/ssh/cert.rs:376-379. -/
def setExtensions (c : Certificate) (extensions : StrMap) : Certificate := { c with extensions }

/-- src/ssh/cert.rs:382-385. -/
def setComment (c : Certificate) (comment : String) : Certificate :=
  { c with comment := some comment }

/-- src/ssh/cert.rs:388-432 `tbs_certificate`. -/
def tbsCertificate (c : Certificate) : Res Bytes := do
  let ktName ← c.keyType.asCertName
  let w := (Writer.new.writeString ktName).writeBytes c.nonce
  let w ← w.writePubKeyData c.key
  let w := w.writeU64 c.serial
  let w := w.writeU32 c.certType.toU32
  let w := w.writeString c.keyId
  let w := w.writeStringVec c.principals
  let w := w.writeU64 c.validAfter
  let w := w.writeU64 c.validBefore
  let w := w.writeStringMap c.criticalOptions
  let w := w.writeStringMap c.extensions
  let w := w.writeU32 0
  let caKey ← c.signatureKey.encode
  let w := w.writeBytes caKey
  return w.inner

/-- src/ssh/cert.rs:437-451 `add_signature`. -/
def addSignature (C : Crypto) (c : Certificate) (signature : Bytes) : Res Certificate := do
  let tbs ← c.tbsCertificate
  let _ ← verifySignature C signature tbs c.signatureKey
  let wrapped := Writer.new.writeBytes signature
  return { c with signature := signature, serialized := tbs ++ wrapped.inner }

/-- src/ssh/cert.rs:454-460 `sign`; the signer (any `SSHCertificateSigner`) is an arbitrary
function, which may also panic. -/
def sign (C : Crypto) (signer : Bytes → Res (Option Bytes)) (c : Certificate) : Res Certificate := do
  let tbs ← c.tbsCertificate
  let sig ← signer tbs
  let sig ← Res.ofOption .signingError sig
  c.addSignature C sig

/-- src/ssh/cert.rs:526-535 `Display` (non-alternate form). -/
def display (c : Certificate) : List Char :=
  c.keyType.name.toList ++ ' ' :: b64Encode c.serialized ++ ' ' :: c.keyId.toList

end Certificate
end Ssh
