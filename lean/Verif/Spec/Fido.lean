import Verif.Spec.Wire
import Verif.Spec.Key
import Verif.Model.Fido

/-! # CBOR, COSE keys and authenticator data (RFC 8949, RFC 9052, WebAuthn 6.1) -/

namespace Ssh.Spec

/-- `w` is a CBOR head of major type `m` and argument `n`. -/
def CborHead (m n : Nat) (w : Bytes) : Prop :=
  (n ≤ 23 ∧ w = [UInt8.ofNat (m * 32 + n)]) ∨
  ∃ (i k : Nat) (arg : Bytes), (i, k) ∈ [(24, 1), (25, 2), (26, 4), (27, 8)] ∧ arg.length = k ∧ natOf arg = n ∧
    w = UInt8.ofNat (m * 32 + i) :: arg

/-- `w` is the CBOR integer `v`, at least -2^63. -/
def CborInt (v : Int) (w : Bytes) : Prop :=
  (∃ n : Nat, v = n ∧ CborHead 0 n w) ∨ (∃ n : Nat, v = -1 - (n : Int) ∧ n < 2 ^ 63 ∧ CborHead 1 n w)

/-- `w` is the CBOR byte string `v`. -/
def CborBytes (v w : Bytes) : Prop := ∃ h, CborHead 2 v.length h ∧ w = h ++ v

/-- An entry of a COSE key. -/
inductive CoseField where
  /-- label 1 -/
  | keyType (v : Int)
  /-- label 3 -/
  | algorithm (v : Int)
  /-- label -1 -/
  | curve (v : Int)
  /-- label -2 -/
  | x (v : Bytes)
  /-- label -3 -/
  | y (v : Bytes)
  /-- any other label, with the value `undefined` -/
  | unknown (label : Int)

/-- `w` is the encoding of an entry. -/
def CoseFieldIs : CoseField → Bytes → Prop
  | .keyType v, w => ∃ a b, CborInt 1 a ∧ CborInt v b ∧ w = a ++ b
  | .algorithm v, w => ∃ a b, CborInt 3 a ∧ CborInt v b ∧ w = a ++ b
  | .curve v, w => ∃ a b, CborInt (-1) a ∧ CborInt v b ∧ w = a ++ b
  | .x v, w => ∃ a b, CborInt (-2) a ∧ CborBytes v b ∧ w = a ++ b
  | .y v, w => ∃ a b, CborInt (-3) a ∧ CborBytes v b ∧ w = a ++ b
  | .unknown l, w => l ∉ [1, 3, -1, -2, -3] ∧ ∃ a, CborInt l a ∧ w = a ++ [0xf7]

/-- `w` is the encoding of a sequence of entries. -/
inductive CoseFields : List CoseField → Bytes → Prop where
  | nil : CoseFields [] []
  | cons {f : CoseField} {fs : List CoseField} {a b : Bytes} : CoseFieldIs f a → CoseFields fs b → CoseFields (f :: fs) (a ++ b)

/-- `w` is a COSE key with the given entries. -/
def CoseMap (fs : List CoseField) (w : Bytes) : Prop :=
  fs.length ≤ 256 ∧ ∃ h b, CborHead 5 fs.length h ∧ CoseFields fs b ∧ w = h ++ b

/-- The key type in an entry. -/
def CoseField.keyType? : CoseField → Option Int
  | .keyType v => some v
  | _ => none
/-- The algorithm in an entry. -/
def CoseField.algorithm? : CoseField → Option Int
  | .algorithm v => some v
  | _ => none
/-- The curve in an entry. -/
def CoseField.curve? : CoseField → Option Int
  | .curve v => some v
  | _ => none
/-- The coordinate in an entry. -/
def CoseField.coordinate? : CoseField → Option Bytes
  | .x v => some v
  | .y v => some v
  | _ => none

/-- The key the entries describe, as the library sees it: the last entry of each kind counts. -/
def CoseKeyIs (fs : List CoseField) (k : CoseKey) : Prop :=
  k.keyType = ((fs.filterMap CoseField.keyType?).getLast?).getD 0 ∧
  k.algorithm = ((fs.filterMap CoseField.algorithm?).getLast?).getD 0 ∧
  k.key = ((fs.filterMap CoseField.coordinate?).getLast?).getD [] ∧
  k.parameter = (fs.filterMap CoseField.curve?).getLast?

/-- `raw` is authenticator data with attested credential data `a`; what follows the key is `junk`. -/
def AuthDataIs (raw : Bytes) (a : AuthData) (fs : List CoseField) (junk : Bytes) : Prop :=
  ∃ count len cose, raw = a.rpidHash ++ [a.flags] ++ count ++ a.aaguid ++ len ++ a.credentialId ++ cose ++ junk ∧
    a.rpidHash.length = 32 ∧ count.length = 4 ∧ a.signCount.toNat = natOf count ∧ a.aaguid.length = 16 ∧
    len.length = 2 ∧ natOf len = a.credentialId.length ∧ a.flags.toNat.testBit 6 = true ∧
    CoseMap fs cose ∧ CoseKeyIs fs a.coseKey

/-- Bit `n` of the first byte of a bit string, counted from the most significant. -/
def firstByteBit (bits : Bytes) (n : Nat) : Bool := (bits.headD 0).toNat.testBit (7 - n)

/-- The transports a bit string names: bits 0 to 3. -/
def TransportList (bits : Bytes) (l : List Transport) : Prop :=
  l = (if firstByteBit bits 0 then [.bluetooth] else []) ++ (if firstByteBit bits 1 then [.bluetoothLE] else []) ++
      (if firstByteBit bits 2 then [.usb] else []) ++ (if firstByteBit bits 3 then [.nfc] else [])

/-- The firmware version an extension gives. -/
def firmwareOf (X : X509Env) (e : String × Bytes) : Option (List Char) :=
  match e.1 == "1.3.6.1.4.1.41482.13.1", X.octetString e.2 with
  | true, some [a, b, c] => some s!"{a.toNat}.{b.toNat}.{c.toNat}".toList
  | _, _ => none

/-- The model identifier an extension gives. -/
def aaguidOf (X : X509Env) (e : String × Bytes) : Option Bytes :=
  match e.1 == "1.3.6.1.4.1.45724.1.1.4", X.octetString e.2 with
  | true, some s => if s.length = 16 then some s else none
  | _, _ => none

/-- The transport bits an extension gives. -/
def transportBitsOf (X : X509Env) (e : String × Bytes) : Option Bytes :=
  if e.1 = "1.3.6.1.4.1.45724.2.1.1" then X.bitString e.2 else none

/-- The extension values can be decoded. -/
def ExtensionsDecode (X : X509Env) (es : List (String × Bytes)) : Prop :=
  ∀ e ∈ es, (e.1 = "1.3.6.1.4.1.41482.13.1" ∨ e.1 = "1.3.6.1.4.1.45724.1.1.4" → X.octetString e.2 ≠ none) ∧
    (e.1 = "1.3.6.1.4.1.45724.2.1.1" → X.bitString e.2 ≠ none)

/-- What the extensions of the attestation certificate say; the last extension of each kind counts. -/
def AttestationInfo (X : X509Env) (es : List (String × Bytes)) (v : ValidAttestation) : Prop :=
  v.firmware = (es.filterMap (firmwareOf X)).getLast? ∧ v.aaguid = (es.filterMap (aaguidOf X)).getLast? ∧
  (match (es.filterMap (transportBitsOf X)).getLast? with
   | some bits => ∃ l, v.transports = some l ∧ TransportList bits l
   | none => v.transports = none)

/-- An attestation: the certificate is signed by the root, and its key signed the authenticator data followed by the
challenge. -/
def Attested (X : X509Env) (C : Crypto) (rootPem : String) (cert authData challenge sig : Bytes) (i : X509Cert) : Prop :=
  ∃ root, X.parsePem rootPem = some root ∧ X.parseDer cert = some i ∧ X.verify i root.spki = true ∧
    C.ecdsaAsn1Verify i.spki.keyData (authData ++ challenge) sig = true

/-- The first certificate of a chain, nothing if there is none. -/
def FirstOrEmpty (l : List Bytes) (c : Bytes) : Prop := (l = [] ∧ c = []) ∨ ∃ r, l = c :: r

/-- The SSH key of an attested credential key: by its algorithm, with the application asked for. -/
def AttestedKey (a : AuthData) (app : String) (k : PublicKey) : Prop :=
  k.comment = none ∧
    ((a.coseKey.algorithm = -7 ∧ k.keyType.name = "sk-ecdsa-sha2-nistp256@openssh.com" ∧ k.keyType ∈ keyTypes ∧
        ∃ c ∈ curves, c.identifier = "nistp256" ∧ k.kind = .ecdsa c a.coseKey.key (some app)) ∨
     (a.coseKey.algorithm = -8 ∧ k.keyType.name = "sk-ssh-ed25519@openssh.com" ∧ k.keyType ∈ keyTypes ∧
        k.kind = .ed25519 a.coseKey.key (some app)))

/-- The flags a device reported, as a byte. -/
def ReportedFlags (att : CtapAttestation) (f : UInt8) : Prop :=
  f.toNat = (if att.userPresent then 1 else 0) + (if att.userVerified then 4 else 0) + (if att.attestedData then 64 else 0) +
    (if att.extensionData then 128 else 0)

end Ssh.Spec
