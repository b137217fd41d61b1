import Verif.Model.PubKey

/-! # src/x509/mod.rs, with the X.509/DER parsers as parameters -/

namespace Ssh

/-- A parsed `SubjectPublicKeyInfo`: algorithm OID (dotted), the algorithm parameters (absent;
present but not an OID; an OID), the subject public key bits, and the DER it came from. -/
structure Spki where
  algorithm : String
  parameters : Option (Option String)
  keyData : Bytes
  raw : Bytes
deriving DecidableEq, Repr

/-- A parsed X.509 certificate: subject key info, extensions (OID and value) in order, and the DER
it came from. -/
structure X509Cert where
  spki : Spki
  extensions : List (String × Bytes)
  raw : Bytes
deriving DecidableEq, Repr

/-- A parsed DER object, as far as src/x509/mod.rs:29-74 looks at it. -/
inductive DerObj where
  | seq (items : List DerObj)
  | oid (s : String)
  | bitString (data : Bytes)
  | other
deriving Repr

/-- `as_sequence`. -/
def DerObj.asSeq : DerObj → Option (List DerObj)
  | .seq l => some l
  | _ => none

/-- `as_oid` and `to_id_string`. -/
def DerObj.asOid : DerObj → Option String
  | .oid s => some s
  | _ => none

/-- `as_bitstring`. -/
def DerObj.asBitString : DerObj → Option Bytes
  | .bitString d => some d
  | _ => none

/-- Crates `x509_parser` and `der_parser`, as arbitrary functions. -/
structure X509Env where
  /-- `parse_x509_pem` then `Pem::parse_x509` -/
  parsePem : String → Option X509Cert
  /-- `parse_x509_certificate` / `X509Certificate::from_der` -/
  parseDer : Bytes → Option X509Cert
  /-- `X509CertificationRequest::from_der`, its `subject_pki` -/
  parseCsr : Bytes → Option Spki
  /-- `cert.verify_signature(Some(key)).is_ok()` -/
  verify : (cert : X509Cert) → (key : Spki) → Bool
  /-- contents of `parse_der_octetstring` -/
  octetString : Bytes → Option Bytes
  /-- data of `parse_ber_bitstring` -/
  bitString : Bytes → Option Bytes
  /-- contents of `parse_der_integer` -/
  integer : Bytes → Option Bytes
  /-- `parse_der_sequence` -/
  derSequence : Bytes → Option DerObj

/-- `KeyType::from_name(..).unwrap()`. -/
def keyTypeUnwrap (name : String) : Res KeyType :=
  match KeyType.fromName name with
  | .ok k => .ok k
  | _ => .panic

/-- `Curve::from_identifier(..).unwrap()`. -/
def curveUnwrap (id : String) : Res Curve :=
  match Curve.fromIdentifier id with
  | .ok k => .ok k
  | _ => .panic

/-- src/x509/mod.rs:49-73 and 116-148: an ECDSA key for a curve OID. -/
def ecdsaKeyOfOid (oid : String) (data : Bytes) : Res PublicKey :=
  if oid = "1.2.840.10045.3.1.7" then do
    let kt ← keyTypeUnwrap "ecdsa-sha2-nistp256"
    let curve ← curveUnwrap "nistp256"
    return ⟨kt, .ecdsa curve data none, none⟩
  else if oid = "1.3.132.0.34" then do
    let kt ← keyTypeUnwrap "ecdsa-sha2-nistp384"
    let curve ← curveUnwrap "nistp384"
    return ⟨kt, .ecdsa curve data none, none⟩
  else .err .keyTypeMismatch

/-- src/x509/mod.rs:29-74 `der_encoding_to_ssh_public_key`. -/
def derEncodingToSshPublicKey (X : X509Env) (key : Bytes) : Res PublicKey := do
  let parsed ← Res.ofOption .parsingError (X.derSequence key)
  let parsed ← Res.ofOption .parsingError parsed.asSeq
  if parsed.length ≠ 2 then .err .parsingError
  else do
    let p0 ← index parsed 0
    let oids ← Res.ofOption .parsingError p0.asSeq
    if oids.length ≠ 2 then .err .parsingError
    else do
      let o0 ← index oids 0
      let typeOid ← Res.ofOption .parsingError o0.asOid
      let o1 ← index oids 1
      let sizeOid ← Res.ofOption .parsingError o1.asOid
      if typeOid ≠ "1.2.840.10045.2.1" then .err .parsingError
      else do
        let p1 ← index parsed 1
        let data ← Res.ofOption .parsingError p1.asBitString
        ecdsaKeyOfOid sizeOid data

/-- src/x509/mod.rs:99-152 `convert_x509_pki_to_pubkey`. -/
def convertPki (pki : Spki) : Res PublicKey :=
  if pki.algorithm = "1.2.840.113549.1.1.1" then .err .unsupported
  else if pki.algorithm = "1.2.840.10045.2.1" then do
    let params ← Res.ofOption .parsingError pki.parameters
    let oid ← Res.ofOption .parsingError params
    ecdsaKeyOfOid oid pki.keyData
  else .err .parsingError

/-- src/x509/mod.rs:78-85 `extract_ssh_pubkey_from_x509_certificate`. -/
def pubkeyFromX509Certificate (X : X509Env) (cert : Bytes) : Res PublicKey :=
  match X.parseDer cert with
  | some c => convertPki c.spki
  | none => .err .parsingError

/-- src/x509/mod.rs:89-97 `extract_ssh_pubkey_from_x509_csr`. -/
def pubkeyFromX509Csr (X : X509Env) (csr : Bytes) : Res PublicKey :=
  match X.parseCsr csr with
  | some pki => convertPki pki
  | none => .err .parsingError

end Ssh
