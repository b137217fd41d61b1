import Verif.Spec.Sign
import Verif.Spec.Piv

/-! # Elliptic curve keys in DER: RFC 5480, in certificates (RFC 5280) and requests (RFC 2986) -/

namespace Ssh.Spec

/-- A DER object: tag, length, contents. -/
def Tlv (tag : UInt8) (content b : Bytes) : Prop := ∃ l, DerLength content.length l ∧ b = tag :: (l ++ content)

/-- Some DER object. -/
def AnyTlv (b : Bytes) : Prop := ∃ tag content, Tlv tag content b

/-- The contents of the object identifiers of P-256 and P-384 in DER, with their texts. -/
def curveContents : List (String × Bytes) :=
  [("1.2.840.10045.3.1.7", [0x2a, 0x86, 0x48, 0xce, 0x3d, 3, 1, 7]), ("1.3.132.0.34", [0x2b, 0x81, 4, 0, 0x22])]

/-- `SubjectPublicKeyInfo` of an elliptic curve key: `id-ecPublicKey`, the curve, and a bit string with the point, all bits of
which count. -/
def KeyInfo (curve point b : Bytes) : Prop :=
  ∃ o1 o2 alg bits, Tlv 6 [0x2a, 0x86, 0x48, 0xce, 0x3d, 2, 1] o1 ∧ Tlv 6 curve o2 ∧ Tlv 0x30 (o1 ++ o2) alg ∧
    Tlv 3 (0 :: point) bits ∧ Tlv 0x30 (alg ++ bits) b

/-- An extension, not marked critical or marked. -/
def ExtensionDer (oid value b : Bytes) : Prop :=
  ∃ o v, Tlv 6 oid o ∧ Tlv 4 value v ∧ (Tlv 0x30 (o ++ v) b ∨ ∃ critical, AnyTlv critical ∧ Tlv 0x30 (o ++ (critical ++ v)) b)

/-- The extensions of a certificate, or none. -/
def ExtensionsDer (parts : List Bytes) : Prop :=
  parts = [] ∨ ∃ (exts : List Bytes) (inner outer : Bytes), parts = [outer] ∧ (∀ x ∈ exts, ∃ oid value, ExtensionDer oid value x) ∧
    Tlv 0x30 exts.flatten inner ∧ Tlv 0xa3 inner outer

/-- A certificate of version 3 with the key `info`: `before` are version, serial number, algorithm, issuer, validity and subject. -/
def CertificateDer (info b : Bytes) : Prop :=
  ∃ (before after : List Bytes) (tbs alg sig : Bytes), before.length = 6 ∧ (∀ x ∈ before, AnyTlv x) ∧ ExtensionsDer after ∧
    Tlv 0x30 (before.flatten ++ (info ++ after.flatten)) tbs ∧ AnyTlv alg ∧ AnyTlv sig ∧ Tlv 0x30 (tbs ++ (alg ++ sig)) b

/-- A certification request with the key `info`. -/
def RequestDer (info b : Bytes) : Prop :=
  ∃ version subject attributes part alg sig, AnyTlv version ∧ AnyTlv subject ∧ AnyTlv attributes ∧
    Tlv 0x30 (version ++ (subject ++ (info ++ attributes))) part ∧ AnyTlv alg ∧ AnyTlv sig ∧ Tlv 0x30 (part ++ (alg ++ sig)) b

end Ssh.Spec
