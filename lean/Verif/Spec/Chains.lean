import Mathlib.Data.List.Forall2
import Verif.Spec.KeyInfo
import Verif.Spec.Attest
import Verif.Spec.Rsa

/-! # Certificates in DER with their signatures: RFC 5280, with ECDSA (FIPS 186-5) or RSA (RFC 8017), both with SHA-256 -/

namespace Ssh.Spec

/-- Object identifiers of extensions in attestation certificates (Yubico's and those of the FIDO alliance, key usage and basic constraints), with the contents of
their DER. -/
def extensionOids : List (String × Bytes) :=
  [("1.3.6.1.4.1.41482.3.3", [0x2b, 6, 1, 4, 1, 0x82, 0xc4, 0x0a, 3, 3]), ("1.3.6.1.4.1.41482.3.7", [0x2b, 6, 1, 4, 1, 0x82, 0xc4, 0x0a, 3, 7]),
   ("1.3.6.1.4.1.41482.3.8", [0x2b, 6, 1, 4, 1, 0x82, 0xc4, 0x0a, 3, 8]), ("1.3.6.1.4.1.41482.3.9", [0x2b, 6, 1, 4, 1, 0x82, 0xc4, 0x0a, 3, 9]),
   ("1.3.6.1.4.1.41482.2", [0x2b, 6, 1, 4, 1, 0x82, 0xc4, 0x0a, 2]), ("1.3.6.1.4.1.41482.13.1", [0x2b, 6, 1, 4, 1, 0x82, 0xc4, 0x0a, 13, 1]), ("1.3.6.1.4.1.45724.1.1.4", [0x2b, 6, 1, 4, 1, 0x82, 0xe5, 0x1c, 1, 1, 4]),
   ("1.3.6.1.4.1.45724.2.1.1", [0x2b, 6, 1, 4, 1, 0x82, 0xe5, 0x1c, 2, 1, 1]), ("2.5.29.15", [0x55, 0x1d, 0x0f]), ("2.5.29.19", [0x55, 0x1d, 0x13])]

/-- `b` is the extension `e`. -/
def NamedExtension (e : String × Bytes) (b : Bytes) : Prop := ∃ oid, (e.1, oid) ∈ extensionOids ∧ ExtensionDer oid e.2 b

/-- The extensions `es` of a certificate; if there are none the part may be missing. -/
def TheExtensions (es : List (String × Bytes)) (parts : List Bytes) : Prop :=
  (es = [] ∧ parts = []) ∨ ∃ (exts : List Bytes) (inner outer : Bytes), parts = [outer] ∧ List.Forall₂ NamedExtension es exts ∧
    Tlv 0x30 exts.flatten inner ∧ Tlv 0xa3 inner outer

/-- A certificate of version 3 with the key `info` and the extensions `es`: `tbs` is what is signed with the algorithm named by `oid`,
and `sig` the signature.  Version, serial number, algorithm, issuer, validity and subject are anything. -/
def Certified (info : Bytes) (es : List (String × Bytes)) (tbs oid sig b : Bytes) : Prop :=
  ∃ (before after : List Bytes) (o params alg bits : Bytes), before.length = 6 ∧ (∀ x ∈ before, AnyTlv x) ∧ TheExtensions es after ∧
    Tlv 0x30 (before.flatten ++ (info ++ after.flatten)) tbs ∧
    Tlv 6 oid o ∧ (params = [] ∨ AnyTlv params) ∧ Tlv 0x30 (o ++ params) alg ∧ Tlv 3 (0 :: sig) bits ∧ Tlv 0x30 (tbs ++ (alg ++ bits)) b

/-- `SubjectPublicKeyInfo` of an RSA key (RFC 3279): `rsaEncryption`, NULL, and a bit string with `key`. -/
def RsaKeyInfo (key b : Bytes) : Prop :=
  ∃ o null alg bits, Tlv 6 [0x2a, 0x86, 0x48, 0x86, 0xf7, 0x0d, 1, 1, 1] o ∧ Tlv 5 [] null ∧ Tlv 0x30 (o ++ null) alg ∧
    Tlv 3 (0 :: key) bits ∧ Tlv 0x30 (alg ++ bits) b

/-- `RSAPublicKey` (RFC 8017 A.1.1). -/
def RsaPublicKey (n e : Nat) (b : Bytes) : Prop := ∃ wn we, DerInteger n wn ∧ DerInteger e we ∧ Tlv 0x30 (wn ++ we) b

/-- A key info of an elliptic curve or RSA key, the bit string of which is `key`. -/
def IssuerInfo (key b : Bytes) : Prop := (∃ oid curve, (oid, curve) ∈ curveContents ∧ KeyInfo curve key b) ∨ RsaKeyInfo key b

/-- `ecdsa-with-SHA256` (RFC 5758) and `sha256WithRSAEncryption` (RFC 4055). -/
def ecdsaSha256 : Bytes := [0x2a, 0x86, 0x48, 0xce, 0x3d, 4, 3, 2]
def rsaSha256 : Bytes := [0x2a, 0x86, 0x48, 0x86, 0xf7, 0x0d, 1, 1, 0x0b]

/-- The DER `DigestInfo` of a SHA-256 hash (RFC 8017 9.2, note 1). -/
def sha256Info (h : Bytes) : Bytes :=
  [0x30, 0x31, 0x30, 0x0d, 0x06, 0x09, 0x60, 0x86, 0x48, 0x01, 0x65, 0x03, 0x04, 0x02, 0x01, 0x05, 0x00, 0x04, 0x20] ++ h

/-- RSASSA-PKCS1-v1_5 with SHA-256 (RFC 8017 8.2.2, 9.2). -/
def SignedRsa (C : Crypto) (n e : Nat) (m s : Bytes) : Prop :=
  ∃ (k ps : Nat) (em : Bytes), Octets n k ∧ em.length = k ∧ 8 ≤ ps ∧
    em = [0x00, 0x01] ++ (List.replicate ps 0xff ++ (0x00 :: sha256Info (C.sha256 m))) ∧
    s.length = k ∧ natOf s < n ∧ natOf s ^ e % n = natOf em

section
variable {E : Type} [AddCommGroup E]

/-- `sig` is a signature of `tbs` by the key with the bit string `key`, with the algorithm named by `oid`. -/
def SignedWith (C : Crypto) (c : EcDomain E) (supported : (n e : Nat) → Prop) (oid key tbs sig : Bytes) : Prop :=
  (oid = ecdsaSha256 ∧ SignedAsn1 C c key tbs sig) ∨
  (oid = rsaSha256 ∧ ∃ n e, RsaPublicKey n e key ∧ supported n e ∧ SignedRsa C n e tbs sig)

end

end Ssh.Spec
