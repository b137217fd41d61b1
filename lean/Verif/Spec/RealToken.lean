import Verif.Spec.KeyInfo
import Verif.Spec.Attest

/-! # Tokens with elliptic curve keys (FIPS 186-5), and requests made with them (RFC 2986) -/

namespace Ssh.Spec

/-- The object identifier of the curve of an algorithm: its text, and its contents in DER. -/
def curveOf : EcAlg → String × Bytes
  | .p256 => ("1.2.840.10045.3.1.7", [0x2a, 0x86, 0x48, 0xce, 0x3d, 3, 1, 7])
  | .p384 => ("1.3.132.0.34", [0x2b, 0x81, 4, 0, 0x22])

/-- A point as a key in a slot. -/
def pkiOf : EcAlg → Bytes → Pki
  | .p256, p => .ecP256 p
  | .p384, p => .ecP384 p

section
variable {E : Type} [AddCommGroup E] {σ : Type}

/-- A slot, seen over any connection, has the key with secret `d` and the point written `point`: its certificate (if it can be read at all
it is this one) is one for that point, and what it signs are signatures of FIPS 186-5 by `d` in DER.  It may also refuse to sign. -/
structure TokenOf (C : Crypto) (D : YkDev σ) (alg : EcAlg) (c : EcDomain E) (slot d : Nat) (point : Bytes) (sc : SlotCert) : Prop where
  holds : ∀ conn, SlotHolds D conn slot sc
  key : c.decode point = some (d • c.base)
  pki : sc.pki = pkiOf alg point
  certificate : ∃ info, KeyInfo (curveOf alg).2 point info ∧ CertificateDer info sc.bytes
  short : sc.bytes.length < 256 ^ 8
  signs : ∀ conn st m sig, (D.sign conn (slotDigest C (tokenAlg alg) m) (tokenAlg alg) slot st).1 = some sig →
    ∃ r s cr cs, EcdsaSignature c d (ecdsaHash C alg m) r s ∧ DerPositive r cr ∧ DerPositive s cs ∧ DerPair cr cs sig

/-- `sig` is the DER of two numbers that are a valid signature of `m` for the public point written `key`. -/
def SignedDer (C : Crypto) (alg : EcAlg) (c : EcDomain E) (key m sig : Bytes) : Prop :=
  ∃ Q r s cr cs, c.decode key = some Q ∧ DerPositive r cr ∧ DerPositive s cs ∧ DerPair cr cs sig ∧
    EcdsaValid c Q (ecdsaHash C alg m) r s

end

/-- A name with one common name (RFC 5280). -/
def CommonName (cn : String) (b : Bytes) : Prop :=
  ∃ o v pair set, Tlv 6 [0x55, 4, 3] o ∧ Tlv 0x0c cn.toUTF8.data.toList v ∧ Tlv 0x30 (o ++ v) pair ∧ Tlv 0x31 pair set ∧ Tlv 0x30 set b

/-- The contents of the object identifiers of ECDSA with SHA-256 and SHA-384. -/
def ecdsaWith : EcAlg → Bytes
  | .p256 => [0x2a, 0x86, 0x48, 0xce, 0x3d, 4, 3, 2]
  | .p384 => [0x2a, 0x86, 0x48, 0xce, 0x3d, 4, 3, 3]

/-- The part of a request that is signed: version 0, the name, the key, and attributes. -/
def RequestPart (cn : String) (alg : EcAlg) (point part : Bytes) : Prop :=
  ∃ version subject info attributes, Tlv 2 [0] version ∧ CommonName cn subject ∧ KeyInfo (curveOf alg).2 point info ∧ AnyTlv attributes ∧
    Tlv 0x30 (version ++ (subject ++ (info ++ attributes))) part

/-- A request: that part, the algorithm, and the signature. -/
def RequestOf (alg : EcAlg) (part sig b : Bytes) : Prop :=
  ∃ o a bits, Tlv 6 (ecdsaWith alg) o ∧ Tlv 0x30 o a ∧ Tlv 3 (0 :: sig) bits ∧ Tlv 0x30 (part ++ (a ++ bits)) b

/-- A library that makes requests of this form. -/
def Rfc2986 (G : Rcgen) : Prop :=
  (∀ cn alg point t, G.tbs cn (tokenAlg alg) point = some t → RequestPart cn alg point t) ∧
  ∀ t alg sig, RequestOf alg t sig (G.finish t (tokenAlg alg) sig)

end Ssh.Spec
