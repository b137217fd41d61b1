import Verif.Spec.Piv

/-!
# Which defect of X.509 keys and PIV attestations is reported as which error
-/

namespace Ssh.Spec

/-! ## Keys in X.509 -/

/-- A key info that gives no SSH key. -/
inductive KeyInfoFault (i : Spki) : Err → Prop where
  | rsa : i.algorithm = "1.2.840.113549.1.1.1" → KeyInfoFault i .unsupported
  /-- neither RSA nor an elliptic curve key with a named curve -/
  | other : i.algorithm ≠ "1.2.840.113549.1.1.1" → (∀ oid, ¬ EcInfo i oid) → KeyInfoFault i .parsingError
  | curve (oid : String) : EcInfo i oid → oid ∉ ecOids.map Prod.fst → KeyInfoFault i .keyTypeMismatch

/-- A parsed certificate or request (its key info, if it could be read) that gives no SSH key. -/
inductive ParsedFault : Option Spki → Err → Prop where
  | unreadable : ParsedFault none .parsingError
  | key (i : Spki) (e : Err) : KeyInfoFault i e → ParsedFault (some i) e

/-- A DER key that gives no SSH key. -/
inductive DerFault : Option DerObj → Err → Prop where
  | unreadable : DerFault none .parsingError
  | form (o : DerObj) : (∀ oid point, ¬ EcDer oid point o) → DerFault (some o) .parsingError
  | curve (o : DerObj) (oid : String) (point : Bytes) : EcDer oid point o → oid ∉ ecOids.map Prod.fst → DerFault (some o) .keyTypeMismatch

/-! ## Attestations -/

/-- Extensions that do not describe a key: the first unreadable one is a serial number, or all are readable and firmware, serial
number or policies are not there. -/
def ExtensionFault (X : X509Env) (es : List (String × Bytes)) : Prop :=
  (∃ pre e post, es = pre ++ e :: post ∧ (∀ x ∈ pre, SerialReadable X x ∧ PolicyReadable x) ∧ ¬ SerialReadable X e) ∨
  ((∀ x ∈ es, SerialReadable X x ∧ PolicyReadable x) ∧
    (es.filterMap pivFirmware = [] ∨ es.filterMap (pivSerial X) = [] ∨ es.filterMap pivPolicies = []))

/-- Defects of an attestation, given the parsed root, intermediate and client certificate. -/
inductive AttestFault (X : X509Env) : Option X509Cert → Option X509Cert → Option X509Cert → Err → Prop where
  | intermediate (r : X509Cert) (c : Option X509Cert) : AttestFault X (some r) none c .parsingError
  | client (r i : X509Cert) : AttestFault X (some r) (some i) none .parsingError
  | signature (r i c : X509Cert) : ¬ (X.verify i r.spki = true ∧ X.verify c i.spki = true) →
      AttestFault X (some r) (some i) (some c) .invalidSignature
  | key (r i c : X509Cert) (e : Err) : X.verify i r.spki = true → X.verify c i.spki = true → KeyInfoFault c.spki e →
      AttestFault X (some r) (some i) (some c) .parsingError
  | extensions (r i c : X509Cert) : X.verify i r.spki = true → X.verify c i.spki = true → (∀ e, ¬ KeyInfoFault c.spki e) →
      ExtensionFault X c.extensions → AttestFault X (some r) (some i) (some c) .parsingError

end Ssh.Spec
