import Verif.Spec.Fido

/-! # What is wrong with authenticator data -/

namespace Ssh.Spec

/-- `b` begins with something of this form. -/
def Begins (P : Bytes → Prop) (b : Bytes) : Prop := ∃ w r, P w ∧ b = w ++ r

/-- `b` does not begin with an entry of a COSE key, and the error for that. -/
inductive BadEntry (b : Bytes) : Err → Prop where
  | label : (¬ ∃ v, Begins (CborInt v) b) → BadEntry b .parsingError
  | curve (a r : Bytes) : CborInt (-1) a → b = a ++ r → (¬ ∃ v, Begins (CborInt v) r) →
      BadEntry b (.fidoError (.cborFormat "Could not read integer for key -1 (parameters)"))
  | keyType (a r : Bytes) : CborInt 1 a → b = a ++ r → (¬ ∃ v, Begins (CborInt v) r) →
      BadEntry b (.fidoError (.cborFormat "Could not read integer for key 1 (key_type): Could not parse the data provided"))
  | algorithm (a r : Bytes) : CborInt 3 a → b = a ++ r → (¬ ∃ v, Begins (CborInt v) r) →
      BadEntry b (.fidoError (.cborFormat "Could not read integer for key 3 (algorithm)"))
  | coordinate (l : Int) (a r : Bytes) : l = -2 ∨ l = -3 → CborInt l a → b = a ++ r → (¬ ∃ v, Begins (CborBytes v) r) →
      BadEntry b (.fidoError (.cborFormat "Could not bytes for key -2|-3 (key)"))
  | other (l : Int) (a r : Bytes) : l ∉ [1, 3, -1, -2, -3] → CborInt l a → b = a ++ r → r.head? ≠ some 0xf7 →
      BadEntry b (.fidoError (.cborElse l))

/-- `b` does not begin with a COSE key, and the error for that. -/
inductive BadCose (b : Bytes) : Err → Prop where
  | map : (¬ ∃ n, Begins (CborHead 5 n) b) → BadCose b (.fidoError (.cborFormat "Refusing to read indefinite map"))
  | long (n : Nat) : Begins (CborHead 5 n) b → 256 < n → BadCose b (.fidoError (.cborFormat "Map is too long"))
  | entry (n : Nat) (h w r : Bytes) (fs : List CoseField) (e : Err) : n ≤ 256 → CborHead 5 n h → fs.length < n → CoseFields fs w →
      b = h ++ w ++ r → BadEntry r e → BadCose b e

/-- The length of the credential id, by the two bytes at position 53. -/
def credentialLength (raw : Bytes) : Nat := natOf ((raw.drop 53).take 2)

/-- What is wrong with authenticator data: the field that is cut short, no credential, or what is wrong with the key. -/
inductive BadAuthData (raw : Bytes) : Err → Prop where
  | rpid : raw.length < 32 → BadAuthData raw (.fidoError (.cborFormat "Could not read RPID"))
  | flags : raw.length = 32 → BadAuthData raw (.fidoError (.cborFormat "Could not read flags"))
  | count : 33 ≤ raw.length → raw.length < 37 → BadAuthData raw (.fidoError (.cborFormat "Could not read sign count"))
  | aaguid : 37 ≤ raw.length → raw.length < 53 → BadAuthData raw (.fidoError (.cborFormat "Could not read AAGUID"))
  | length : 53 ≤ raw.length → raw.length < 55 → BadAuthData raw (.fidoError (.cborFormat "Could not read credential length"))
  | credential : 55 ≤ raw.length → raw.length < 55 + credentialLength raw →
      BadAuthData raw (.fidoError (.cborFormat "Could not read credential ID"))
  | noKey (f : UInt8) : 55 + credentialLength raw ≤ raw.length → raw[32]? = some f → f.toNat.testBit 6 = false →
      BadAuthData raw .parsingError
  | key (f : UInt8) (e : Err) : 55 + credentialLength raw ≤ raw.length → raw[32]? = some f → f.toNat.testBit 6 = true →
      BadCose (raw.drop (55 + credentialLength raw)) e → BadAuthData raw e

/-- Why an attestation is refused, in the order of the checks. -/
inductive BadAttestation (X : X509Env) (C : Crypto) (rootPem : String) (authData sig challenge cert : Bytes) (alg : Int) : Err → Prop where
  | eddsa : alg = -8 → BadAttestation X C rootPem authData sig challenge cert alg .unsupported
  | algorithm : alg ∉ [-7, -8] → BadAttestation X C rootPem authData sig challenge cert alg .invalidFormat
  | certificates : alg = -7 → X.parsePem rootPem = none ∨ X.parseDer cert = none →
      BadAttestation X C rootPem authData sig challenge cert alg .parsingError
  | chain (root i : X509Cert) : alg = -7 → X.parsePem rootPem = some root → X.parseDer cert = some i → X.verify i root.spki = false →
      BadAttestation X C rootPem authData sig challenge cert alg .invalidSignature
  | signature (root i : X509Cert) : alg = -7 → X.parsePem rootPem = some root → X.parseDer cert = some i → X.verify i root.spki = true →
      C.ecdsaAsn1Verify i.spki.keyData (authData ++ challenge) sig = false →
      BadAttestation X C rootPem authData sig challenge cert alg .invalidSignature
  | data (i : X509Cert) (e : Err) : alg = -7 → Attested X C rootPem cert authData challenge sig i → BadAuthData authData e →
      BadAttestation X C rootPem authData sig challenge cert alg e
  | extension (i : X509Cert) (a : AuthData) (fs : List CoseField) (junk : Bytes) : alg = -7 →
      Attested X C rootPem cert authData challenge sig i → AuthDataIs authData a fs junk → ¬ ExtensionsDecode X i.extensions →
      BadAttestation X C rootPem authData sig challenge cert alg .parsingError

end Ssh.Spec
