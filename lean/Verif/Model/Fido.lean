import Verif.Model.X509
import Verif.Model.PrivKey

/-! # src/fido/parsing.rs, src/fido/verification.rs, src/fido/generate -/

namespace Ssh

/-! ## The calls of `minicbor` 0.13 that are used

A decoder is represented by the bytes not yet consumed; `none` is a decoding error. -/

/-- `Decoder::read_slice`. -/
def cborTake (n : Nat) (b : Bytes) : Option (Bytes × Bytes) :=
  if n ≤ b.length then some (b.take n, b.drop n) else none

/-- `Decoder::unsigned`: the argument encoded by the additional information `info`. -/
def cborArg (info : Nat) (b : Bytes) : Option (Nat × Bytes) :=
  if info ≤ 0x17 then some (info, b)
  else if info = 0x18 then (cborTake 1 b).map fun p => (beNat p.1, p.2)
  else if info = 0x19 then (cborTake 2 b).map fun p => (beNat p.1, p.2)
  else if info = 0x1a then (cborTake 4 b).map fun p => (beNat p.1, p.2)
  else if info = 0x1b then (cborTake 8 b).map fun p => (beNat p.1, p.2)
  else none

/-- `Decoder::map`: the number of entries, `none` inside for an indefinite map. -/
def cborMap : Bytes → Option (Option Nat × Bytes)
  | [] => none
  | h :: b =>
    if h = 0xbf then some (none, b)
    else if h.toNat / 32 = 5 then (cborArg (h.toNat % 32) b).map fun p => (some p.1, p.2)
    else none

/-- `Decoder::bytes`: definite-length byte string. -/
def cborBytes : Bytes → Option (Bytes × Bytes)
  | [] => none
  | h :: b =>
    if h.toNat / 32 = 2 then do
      let p ← cborArg (h.toNat % 32) b
      cborTake p.1 p.2
    else none

/-- `Decoder::undefined`. -/
def cborUndefined : Bytes → Option (Unit × Bytes)
  | [] => none
  | h :: b => if h = 0xf7 then some ((), b) else none

/-- src/fido/parsing.rs:46-61 `read_integer`.  `datatype` selects the reader: first byte 0x00-0x18
`U8`, 0x19 `U16`, 0x1a `U32`, 0x1b `U64`, 0x20-0x3b the smallest signed type holding the value, an
error for values below -2^63 (first argument byte of 0x3b at least 0x80); all readers return the
CBOR integer. -/
def readInteger : Bytes → Option (Int × Bytes)
  | [] => none
  | h :: b =>
    if h.toNat / 32 = 0 then (cborArg (h.toNat % 32) b).map fun p => ((p.1 : Int), p.2)
    else if h.toNat / 32 = 1 then do
      let p ← cborArg (h.toNat % 32) b
      if p.1 < 2 ^ 63 then some (-1 - (p.1 : Int), p.2) else none
    else none

/-- src/fido/parsing.rs:17-26 `CoseKey`.  Simplification: `parameters` only ever holds the key -1,
whose value is the decimal text of an integer; that integer is stored. -/
structure CoseKey where
  keyType : Int
  algorithm : Int
  key : Bytes
  parameter : Option Int
deriving DecidableEq, Repr

/-- src/fido/parsing.rs:31-44 `AuthData`. -/
structure AuthData where
  rpidHash : Bytes
  flags : UInt8
  signCount : UInt32
  aaguid : Bytes
  credentialId : Bytes
  coseKey : CoseKey
deriving DecidableEq, Repr

/-- `CoseKey::default()`. -/
def CoseKey.default : CoseKey := ⟨0, 0, [], none⟩

/-- src/fido/parsing.rs:154-193: one entry of the COSE map. -/
def coseEntry (b : Bytes) (k : CoseKey) : Res (CoseKey × Bytes) :=
  match readInteger b with
  | none => .err .parsingError
  | some (key, b) =>
    if key = -1 then do
      let p ← Res.ofOption (.fidoError (.cborFormat "Could not read integer for key -1 (parameters)")) (readInteger b)
      return ({ k with parameter := some p.1 }, p.2)
    else if key = 1 then do
      let p ← Res.ofOption
        (.fidoError (.cborFormat "Could not read integer for key 1 (key_type): Could not parse the data provided")) (readInteger b)
      return ({ k with keyType := p.1 }, p.2)
    else if key = 3 then do
      let p ← Res.ofOption (.fidoError (.cborFormat "Could not read integer for key 3 (algorithm)")) (readInteger b)
      return ({ k with algorithm := p.1 }, p.2)
    else if key = -2 ∨ key = -3 then do
      let p ← Res.ofOption (.fidoError (.cborFormat "Could not bytes for key -2|-3 (key)")) (cborBytes b)
      return ({ k with key := p.1 }, p.2)
    else do
      let p ← Res.ofOption (.fidoError (.cborElse key)) (cborUndefined b)
      return (k, p.2)

/-- src/fido/parsing.rs:150-196: the loop over the entries. -/
def coseLoop : Nat → Bytes → CoseKey → Res CoseKey
  | 0, _, k => .ok k
  | n + 1, b, k => do
    let p ← coseEntry b k
    coseLoop n p.2 p.1

/-- src/fido/parsing.rs:130-196: the COSE key. -/
def parseCose (b : Bytes) : Res CoseKey :=
  match cborMap b with
  | some (some len, rest) =>
    if len > 256 then .err (.fidoError (.cborFormat "Map is too long")) else coseLoop len rest CoseKey.default
  | _ => .err (.fidoError (.cborFormat "Refusing to read indefinite map"))

namespace AuthData

/-- src/fido/parsing.rs:65-67 `user_presence`. -/
def userPresence (a : AuthData) : Bool := decide (a.flags &&& 0x1 > 0)

/-- src/fido/parsing.rs:70-72 `user_verification`. -/
def userVerification (a : AuthData) : Bool := decide (a.flags &&& 0x4 > 0)

/-- `Cursor::read_exact`, error as in src/fido/parsing.rs:80-126. -/
def readExact (n : Nat) (b : Bytes) (msg : String) : Res (Bytes × Bytes) :=
  Res.ofOption (.fidoError (.cborFormat msg)) (cborTake n b)

/-- src/fido/parsing.rs:75-211 `parse`.  The cursor is represented by the remaining bytes. -/
def parse (raw : Bytes) : Res AuthData := do
  let (rpidHash, b) ← readExact 32 raw "Could not read RPID"
  let (fl, b) ← readExact 1 b "Could not read flags"
  let flags ← index fl 0
  let (sc, b) ← readExact 4 b "Could not read sign count"
  let (aaguid, b) ← readExact 16 b "Could not read AAGUID"
  let (cl, b) ← readExact 2 b "Could not read credential length"
  let (credentialId, b) ← readExact (beNat cl) b "Could not read credential ID"
  if flags &&& 0x40 = 0x40 then do
    let coseKey ← parseCose b
    return { rpidHash, flags, signCount := UInt32.ofNat (beNat sc), aaguid, credentialId, coseKey }
  else .err .parsingError

/-- src/fido/parsing.rs:215-252 `ssh_public_key`. -/
def sshPublicKey (a : AuthData) (app : String) : Res PublicKey :=
  if a.coseKey.algorithm = -7 then do
    let curve ← curveUnwrap "nistp256"
    let kt ← keyTypeUnwrap "sk-ecdsa-sha2-nistp256@openssh.com"
    return ⟨kt, .ecdsa curve a.coseKey.key (some app), none⟩
  else if a.coseKey.algorithm = -8 then do
    let kt ← keyTypeUnwrap "sk-ssh-ed25519@openssh.com"
    return ⟨kt, .ed25519 a.coseKey.key (some app), none⟩
  else .err .parsingError

end AuthData

/-- src/fido/verification.rs:35-46 `Transport`. -/
inductive Transport where
  | bluetooth | bluetoothLE | usb | nfc | usbInternal
deriving DecidableEq, Repr

/-- src/fido/verification.rs:48-61 `TryFrom<usize>`. -/
def Transport.tryFrom : Nat → Option Transport
  | 0 => some .bluetooth
  | 1 => some .bluetoothLE
  | 2 => some .usb
  | 3 => some .nfc
  | 4 => some .usbInternal
  | _ => none

/-- src/fido/verification.rs:65-74 `ValidAttestation`. -/
structure ValidAttestation where
  authData : AuthData
  firmware : Option (List Char)
  aaguid : Option Bytes
  transports : Option (List Transport)
deriving DecidableEq, Repr

/-- `der_parser`'s `BitStringObject::is_set`. -/
def bitIsSet (data : Bytes) (bit : Nat) : Bool :=
  match data[bit / 8]? with
  | some b => b.toNat.testBit (7 - bit % 8)
  | none => false

/-- src/fido/verification.rs:116-124: the transports loop. -/
def transportsOf (bs : Bytes) : List Transport :=
  ([0, 1, 2, 3] : List Nat).filterMap fun t => if bitIsSet bs t then Transport.tryFrom t else none

/-- `format!("{}.{}.{}", s[0], s[1], s[2])`. -/
def versionText (s : Bytes) : Res (List Char) := do
  let a ← index s 0
  let b ← index s 1
  let c ← index s 2
  return (toString a.toNat).toList ++ '.' :: (toString b.toNat).toList ++ '.' ::
    (toString c.toNat).toList

/-- src/fido/verification.rs:88-130: one extension. -/
def fidoExtension (X : X509Env) (v : ValidAttestation) (ext : String × Bytes) :
    Res ValidAttestation :=
  if ext.1 = "1.3.6.1.4.1.41482.13.1" then do
    let s ← Res.ofOption .parsingError (X.octetString ext.2)
    if s.length ≠ 3 then return v
    else do
      let f ← versionText s
      return { v with firmware := some f }
  else if ext.1 = "1.3.6.1.4.1.45724.1.1.4" then do
    let s ← Res.ofOption .parsingError (X.octetString ext.2)
    if s.length ≠ 16 then return v
    else return { v with aaguid := some s }
  else if ext.1 = "1.3.6.1.4.1.45724.2.1.1" then do
    let bs ← Res.ofOption .parsingError (X.bitString ext.2)
    return { v with transports := some (transportsOf bs) }
  else return v

/-- src/fido/verification.rs:76-133 `extract_certificate_extension_data`. -/
def fidoExtensions (X : X509Env) (authData : AuthData) (cert : X509Cert) : Res ValidAttestation :=
  cert.extensions.foldlM (fidoExtension X) ⟨authData, none, none, none⟩

/-- src/fido/verification.rs:137-188 `verify_auth_data`; `yubicoRoot` is the built-in root
(`YUBICO_U2F_ROOT_CA`, 13-31). -/
def verifyAuthData (X : X509Env) (C : Crypto) (yubicoRoot : String)
    (authData sig challenge : Bytes) (alg : Int) (intermediate : Bytes) (rootPem : Option String) :
    Res ValidAttestation :=
  if alg = -7 then do
    let root ← Res.ofOption .parsingError (X.parsePem (rootPem.getD yubicoRoot))
    let inter ← Res.ofOption .parsingError (X.parseDer intermediate)
    if ¬ X.verify inter root.spki then .err .invalidSignature
    else if ¬ C.ecdsaAsn1Verify inter.spki.keyData (authData ++ challenge) sig then
      .err .invalidSignature
    else do
      let a ← AuthData.parse authData
      fidoExtensions X a inter
  else if alg = -8 then .err .unsupported
  else .err .invalidFormat

/-- src/fido/generate/mod.rs:17-30 `U2FAttestation`. -/
structure U2FAttestation where
  authData : Bytes
  authDataSig : Bytes
  intermediate : Bytes
  challenge : Bytes
  alg : Int
deriving DecidableEq, Repr

/-- src/fido/generate/mod.rs:43-52 `verify`. -/
def U2FAttestation.verify (X : X509Env) (C : Crypto) (yubicoRoot : String) (a : U2FAttestation) :
    Res ValidAttestation :=
  verifyAuthData X C yubicoRoot a.authData a.authDataSig a.challenge a.alg a.intermediate none

/-- src/fido/generate/mod.rs:34-39 `FIDOSSHKey`. -/
structure FidoSshKey where
  privateKey : PrivateKey
  attestation : U2FAttestation
deriving DecidableEq, Repr

/-- What a device answers to a credential request (crate `ctap_hid_fido2`, the fields used). -/
structure CtapAttestation where
  userPresent : Bool
  userVerified : Bool
  attestedData : Bool
  extensionData : Bool
  credentialId : Bytes
  authData : Bytes
  sig : Bytes
  x5c : List Bytes
  alg : Int
deriving DecidableEq, Repr

/-- src/fido/generate/ctap2_hid.rs:51-63: the flags byte. -/
def CtapAttestation.flags (a : CtapAttestation) : UInt8 :=
  let ret := 0
  let ret := if a.userPresent then ret ||| 0x01 else ret
  let ret := if a.userVerified then ret ||| 0x04 else ret
  let ret := if a.attestedData then ret ||| 0x40 else ret
  if a.extensionData then ret ||| 0x80 else ret

/-- src/fido/generate/ctap2_hid.rs:84-88, mozilla.rs:163-167. -/
def firstCert (l : List Bytes) : Bytes := l.head?.getD []

/-- src/fido/generate/ctap2_hid.rs:20-110 `generate_new_ssh_key`, given the challenge drawn and the
device's answer (a text when opening the device or the request fails). -/
def ctapGenerate (X : X509Env) (C : Crypto) (yubicoRoot : String) (application comment : String)
    (pin devicePath : Option String) (challenge : Bytes) (answer : Except String CtapAttestation) :
    Res FidoSshKey := do
  let att ← Res.ofExcept (fun e => .fidoError (.unknown e)) answer
  let keyType ← KeyType.fromName "sk-ssh-ed25519@openssh.com"
  let authData ← AuthData.parse att.authData
  let pubkey ← authData.sshPublicKey application
  let privateKey : PrivateKey := {
    keyType
    kind := .ed25519Sk { flags := att.flags, handle := att.credentialId, reserved := [], pin,
                         devicePath }
    pubkey, magic := 0, comment }
  let attestation : U2FAttestation := {
    authData := att.authData, authDataSig := att.sig, intermediate := firstCert att.x5c
    challenge := C.sha256 challenge, alg := att.alg }
  let _ ← attestation.verify X C yubicoRoot
  return { privateKey, attestation }

/-- A registration result of crate `authenticator`: raw authenticator data and, for packed
attestation only, signature, certificates and algorithm. -/
structure MozAttestation where
  authData : Bytes
  packed : Option (Bytes × List Bytes × Int)
deriving DecidableEq, Repr

/-- src/fido/generate/mozilla.rs:129-182: the part of `generate_new_ssh_key` after a successful
registration (the part before it is the transition system in Model/Mozilla.lean). -/
def mozGenerate (X : X509Env) (C : Crypto) (yubicoRoot : String) (application comment : String)
    (pin : Option String) (challenge : Bytes) (att : MozAttestation) : Res FidoSshKey := do
  let authData ← AuthData.parse att.authData
  let keyType ← KeyType.fromName "sk-ssh-ed25519@openssh.com"
  let pubkey ← authData.sshPublicKey application
  let privateKey : PrivateKey := {
    keyType
    kind := .ed25519Sk { flags := authData.flags, handle := authData.credentialId, reserved := [],
                         pin, devicePath := none }
    pubkey, magic := 0, comment }
  match att.packed with
  | none => .err (.fidoError (.unknown "Wrong attestation format"))
  | some (sig, certs, alg) => do
    let attestation : U2FAttestation := {
      authData := att.authData, authDataSig := sig, intermediate := firstCert certs
      challenge, alg }
    let _ ← attestation.verify X C yubicoRoot
    return { privateKey, attestation }

end Ssh
