import Verif.Model.Basic

/-! # The variants of the error type -/

namespace Ssh.Spec

/-- The variants of `Error` (src/error.rs:4-52) without their contents. -/
inductive Variant where
  | io | decode | utf8 | certType | format | eof | notCertificate | mismatch | signature | allowedSigner | allowedSigners
  | signing | encrypted | encryptionNotSupported | keyType | curve | parsing | fido | unsupported
deriving DecidableEq, Repr

/-- The variant of an error. -/
def variant : Err → Variant
  | .io => .io
  | .decode => .decode
  | .utf8Error => .utf8
  | .invalidCertType _ => .certType
  | .invalidFormat => .format
  | .unexpectedEof => .eof
  | .notCertificate => .notCertificate
  | .keyTypeMismatch => .mismatch
  | .invalidSignature => .signature
  | .invalidAllowedSigner _ => .allowedSigner
  | .invalidAllowedSigners _ _ => .allowedSigners
  | .signingError => .signing
  | .encryptedPrivateKey => .encrypted
  | .encryptedPrivateKeyNotSupported => .encryptionNotSupported
  | .unknownKeyType _ => .keyType
  | .unknownCurve _ => .curve
  | .parsingError => .parsing
  | .fidoError _ => .fido
  | .unsupported => .unsupported

/-- The variants of the errors that `f` returns are exactly those listed. -/
def ErrorsOf {ι α : Type} (f : ι → Res α) (l : List Variant) : Prop :=
  ∀ v, (∃ i e, f i = .err e ∧ variant e = v) ↔ v ∈ l

end Ssh.Spec
