import Verif.Spec.Curves
import Verif.Spec.Fido

/-! # Attestations signed with ECDSA on P-256 and SHA-256 (FIPS 186-5) -/

namespace Ssh.Spec

section
variable {E : Type} [AddCommGroup E]

/-- `sig` is the DER of two numbers that are a valid signature of `m` for the public point written `key`. -/
def SignedAsn1 (C : Crypto) (c : EcDomain E) (key m sig : Bytes) : Prop :=
  ∃ Q r s cr cs, c.decode key = some Q ∧ DerPositive r cr ∧ DerPositive s cs ∧ DerPair cr cs sig ∧
    EcdsaValid c Q (natOf (C.sha256 m)) r s

/-- The primitive that verifies signatures in DER accepts exactly the valid ones. -/
def VerifiesAsn1 (C : Crypto) (c : EcDomain E) : Prop :=
  ∀ key m sig, C.ecdsaAsn1Verify key m sig = true ↔ SignedAsn1 C c key m sig

end

/-- A certificate that the root signed. -/
def SignedBy (X : X509Env) (rootPem : String) (cert : Bytes) (i : X509Cert) : Prop :=
  ∃ root, X.parsePem rootPem = some root ∧ X.parseDer cert = some i ∧ X.verify i root.spki = true

end Ssh.Spec
