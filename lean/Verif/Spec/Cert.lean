import Verif.Spec.Verify
import Verif.Spec.Lists
import Verif.Model.Cert

/-!
# OpenSSH certificates (PROTOCOL.certkeys), independent of the parsing and printing code

Only the data types of the model are used, and `mapGet` (lookup in a map).
-/

namespace Ssh.Spec

/-- The number of a certificate role. -/
def roleNumber : CertType → Nat
  | .user => 1
  | .host => 2

/-- `m` is the map which a sequence of pairs denotes: no name twice, the last value of each name. -/
def IsMapOf (l : List (String × String)) (m : StrMap) : Prop :=
  (m.map (·.1)).Nodup ∧ ∀ k, mapGet m k = lastValue l k

/-- `w` is the signed part of the certificate `c`: all fields up to and including the CA key. -/
def CertBody (c : Certificate) (w : Bytes) : Prop :=
  c.keyType ∈ keyTypes ∧ c.keyType.isCert = true ∧
  c.key.keyType ∈ keyTypes ∧ c.key.keyType.name = c.keyType.plain ∧ c.key.comment = none ∧
  c.signatureKey.comment = none ∧
  ∃ wName wNonce wKey wId pBuf wPrincipals cBuf wCritical eBuf wExtensions wReserved caBlob caJunk wCa
    critical extensions,
    w = wName ++ (wNonce ++ (wKey ++ (u64 c.serial.toNat ++ (u32 (roleNumber c.certType) ++ (wId ++
      (wPrincipals ++ (u64 c.validAfter.toNat ++ (u64 c.validBefore.toNat ++ (wCritical ++ (wExtensions ++
      (wReserved ++ wCa))))))))))) ∧
    Text c.keyType.name wName ∧ Frame c.nonce wNonce ∧ KeyMaterial c.key.keyType c.key.kind wKey ∧
    Text c.keyId wId ∧ Texts c.principals pBuf ∧ Frame pBuf wPrincipals ∧
    OptionPairs critical cBuf ∧ Frame cBuf wCritical ∧ IsMapOf critical c.criticalOptions ∧
    OptionPairs extensions eBuf ∧ Frame eBuf wExtensions ∧ IsMapOf extensions c.extensions ∧
    Frame c.reserved wReserved ∧ KeyBlob c.signatureKey caBlob ∧ Frame (caBlob ++ caJunk) wCa

/-- Two maps with the same bindings. -/
def SameMap (m m' : StrMap) : Prop := ∀ k, mapGet m k = mapGet m' k

/-- Equality of certificates: all fields equal, the option maps as maps (`HashMap` equality does not
depend on the iteration order). -/
def SameCert (c c' : Certificate) : Prop :=
  SameMap c.criticalOptions c'.criticalOptions ∧ SameMap c.extensions c'.extensions ∧
  { c with criticalOptions := [], extensions := [] } = { c' with criticalOptions := [], extensions := [] }

/-- Equality of everything except signature, comment and stored serialised form. -/
def SameFields (c c' : Certificate) : Prop :=
  SameCert { c with signature := [], comment := none, serialized := [] }
    { c' with signature := [], comment := none, serialized := [] }

/-- Bytes needed by the entries of an option map: two length fields, the name, and the value with its
own length field unless it is empty. -/
def optionsSize (m : StrMap) : Nat :=
  (m.map fun kv => 8 + kv.1.utf8ByteSize + (if kv.2 = "" then 0 else 4 + kv.2.utf8ByteSize)).sum

/-- Bytes needed by a list of principals. -/
def principalsSize (l : List String) : Nat := (l.map fun s => 4 + s.utf8ByteSize).sum

/-- The variable-length parts of a certificate fit into their 32-bit length fields. -/
def CertFits (c : Certificate) : Prop :=
  c.nonce.length < 4294967296 ∧ c.keyId.utf8ByteSize < 4294967296 ∧
  principalsSize c.principals < 4294967296 ∧ optionsSize c.criticalOptions < 4294967296 ∧
  optionsSize c.extensions < 4294967296 ∧
  ∀ b, c.signatureKey.encode = .ok b → b.length < 4294967296

/-- A certificate that can be serialised: a certificate type, the type of the key it certifies,
well-formed keys, maps without duplicate names. -/
def WellFormedCert (c : Certificate) : Prop :=
  c.keyType ∈ keyTypes ∧ c.keyType.isCert = true ∧ c.key.keyType.plain = c.keyType.plain ∧
  WellFormedKey c.key ∧ WellFormedKey c.signatureKey ∧
  (c.criticalOptions.map (·.1)).Nodup ∧ (c.extensions.map (·.1)).Nodup ∧ CertFits c

/-- `c` carries the contents of `c0`: everything a certificate says, keys by type and material. -/
def SameContent (c c0 : Certificate) : Prop :=
  c.keyType = c0.keyType ∧ c.nonce = c0.nonce ∧ c.key.keyType.plain = c0.key.keyType.plain ∧
  c.key.kind = c0.key.kind ∧ c.serial = c0.serial ∧ c.certType = c0.certType ∧ c.keyId = c0.keyId ∧
  c.principals = c0.principals ∧ c.validAfter = c0.validAfter ∧ c.validBefore = c0.validBefore ∧
  SameMap c.criticalOptions c0.criticalOptions ∧ SameMap c.extensions c0.extensions ∧
  c.signatureKey.keyType.plain = c0.signatureKey.keyType.plain ∧ c.signatureKey.kind = c0.signatureKey.kind

/-- The application string of a key. -/
def applicationOf (k : PublicKey) : Option String :=
  match k.kind with
  | .rsa _ _ => none
  | .ecdsa _ _ app => app
  | .ed25519 _ app => app

/-- The primitive for the key accepts the signature `s` for the message `m`. -/
def PrimitiveAccepts (C : Crypto) (k : PublicKey) (m s : Bytes) : Prop :=
  match k.kind with
  | .rsa e n => ∃ alg, C.rsaVerify alg n e m s = true
  | .ecdsa _ key _ => ∃ alg, C.ecdsaVerify alg key m s = true
  | .ed25519 key _ => C.ed25519Verify key m s = true

/-- The holder of the key made a signature for `m`: one of the messages in `signed`, for a hardware key wrapped in
the authenticator's message. -/
def MadeFor (C : Crypto) (k : PublicKey) (signed : Bytes → Prop) (m : Bytes) : Prop :=
  match applicationOf k with
  | none => signed m
  | some a => ∃ (flags : UInt8) (counter : UInt32) (msg : Bytes), signed msg ∧
      m = C.sha256 a.toByteArray.data.toList ++ [flags] ++ u32 counter.toNat ++ C.sha256 msg

/-- The blob `sig` is no forgery: a signature it carries is accepted under `k` only for what the holder of the key
signed.  Nothing is said about signatures that nobody presents. -/
def NotForged (C : Crypto) (k : PublicKey) (signed : Bytes → Prop) (sig : Bytes) : Prop :=
  ∀ m s, Carries sig s → PrimitiveAccepts C k m s → MadeFor C k signed m

/-- For a hardware key, which signs hashes: `msg` does not collide with a signed message. -/
def NoCollision (C : Crypto) (k : PublicKey) (signed : Bytes → Prop) (msg : Bytes) : Prop :=
  applicationOf k ≠ none → (∀ x, (C.sha256 x).length = 32) ∧ ∀ y, signed y → C.sha256 msg = C.sha256 y → msg = y

end Ssh.Spec
