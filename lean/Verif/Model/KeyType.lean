import Verif.Model.Basic

/-! # src/ssh/keytype.rs -/

namespace Ssh

/-- src/ssh/keytype.rs:9-27 `KeyTypeKind`. -/
inductive KeyTypeKind where
  | rsa | ed25519 | ecdsa | rsaCert | ed25519Cert | ecdsaCert
deriving DecidableEq, Repr

/-- src/ssh/keytype.rs:31-49 `KeyType`. -/
structure KeyType where
  name : String
  plain : String
  shortName : String
  isCert : Bool
  isSk : Bool
  kind : KeyTypeKind
deriving DecidableEq, Repr

/-- src/ssh/keytype.rs:53-62 `CurveKind`. -/
inductive CurveKind where
  | nistp256 | nistp384 | nistp521
deriving DecidableEq, Repr

/-- src/ssh/keytype.rs:66-73 `Curve`. -/
structure Curve where
  kind : CurveKind
  identifier : String
deriving DecidableEq, Repr

/-- src/ssh/keytype.rs:84-102 `Curve::from_identifier`. -/
def Curve.fromIdentifier (id : String) : Res Curve :=
  if id = "nistp256" then .ok ⟨.nistp256, "nistp256"⟩
  else if id = "nistp384" then .ok ⟨.nistp384, "nistp384"⟩
  else if id = "nistp521" then .ok ⟨.nistp521, "nistp521"⟩
  else .err (.unknownCurve id)

namespace KeyType

/-- src/ssh/keytype.rs:114-248 `KeyType::from_name`.  The Rust `match` on string literals is
written as a chain of equality tests in the same order. -/
def fromName (name : String) : Res KeyType :=
  if name = "ssh-rsa" then
    .ok ⟨"ssh-rsa", "ssh-rsa", "RSA", false, false, .rsa⟩
  else if name = "rsa-sha2-256" then
    .ok ⟨"rsa-sha2-256", "ssh-rsa", "RSA", false, false, .rsa⟩
  else if name = "rsa-sha2-512" then
    .ok ⟨"rsa-sha2-512", "ssh-rsa", "RSA", false, false, .rsa⟩
  else if name = "ssh-rsa-cert-v01@openssh.com" then
    .ok ⟨"ssh-rsa-cert-v01@openssh.com", "ssh-rsa", "RSA-CERT", true, false, .rsaCert⟩
  else if name = "ecdsa-sha2-nistp256" then
    .ok ⟨"ecdsa-sha2-nistp256", "ecdsa-sha2-nistp256", "ECDSA", false, false, .ecdsa⟩
  else if name = "ecdsa-sha2-nistp384" then
    .ok ⟨"ecdsa-sha2-nistp384", "ecdsa-sha2-nistp384", "ECDSA", false, false, .ecdsa⟩
  else if name = "ecdsa-sha2-nistp521" then
    .ok ⟨"ecdsa-sha2-nistp521", "ecdsa-sha2-nistp521", "ECDSA", false, false, .ecdsa⟩
  else if name = "ecdsa-sha2-nistp256-cert-v01@openssh.com" then
    .ok ⟨"ecdsa-sha2-nistp256-cert-v01@openssh.com", "ecdsa-sha2-nistp256", "ECDSA-CERT", true,
      false, .ecdsaCert⟩
  else if name = "ecdsa-sha2-nistp384-cert-v01@openssh.com" then
    .ok ⟨"ecdsa-sha2-nistp384-cert-v01@openssh.com", "ecdsa-sha2-nistp384", "ECDSA-CERT", true,
      false, .ecdsaCert⟩
  else if name = "ecdsa-sha2-nistp521-cert-v01@openssh.com" then
    .ok ⟨"ecdsa-sha2-nistp521-cert-v01@openssh.com", "ecdsa-sha2-nistp521", "ECDSA-CERT", true,
      false, .ecdsaCert⟩
  else if name = "ssh-ed25519" then
    .ok ⟨"ssh-ed25519", "ssh-ed25519", "ED25519", false, false, .ed25519⟩
  else if name = "ssh-ed25519-cert-v01@openssh.com" then
    .ok ⟨"ssh-ed25519-cert-v01@openssh.com", "ssh-ed25519", "ED25519-CERT", true, false,
      .ed25519Cert⟩
  else if name = "sk-ssh-ed25519@openssh.com" then
    .ok ⟨"sk-ssh-ed25519@openssh.com", "sk-ssh-ed25519@openssh.com", "ED25519-SK", false, true,
      .ed25519⟩
  else if name = "sk-ssh-ed25519-cert-v01@openssh.com" then
    .ok ⟨"sk-ssh-ed25519-cert-v01@openssh.com", "sk-ssh-ed25519@openssh.com", "ED25519-SK-CERT",
      true, true, .ed25519⟩
  else if name = "sk-ecdsa-sha2-nistp256@openssh.com" then
    .ok ⟨"sk-ecdsa-sha2-nistp256@openssh.com", "sk-ecdsa-sha2-nistp256@openssh.com", "ECDSA-SK",
      false, true, .ecdsa⟩
  else if name = "sk-ecdsa-sha2-nistp256-cert-v01@openssh.com" then
    .ok ⟨"sk-ecdsa-sha2-nistp256-cert-v01@openssh.com", "sk-ecdsa-sha2-nistp256@openssh.com",
      "ECDSA-SK", true, true, .ecdsa⟩
  else .err (.unknownKeyType name)

/-- src/ssh/keytype.rs:252-261 `as_cert_name`.  `plain` is always an ASCII literal, so the byte
slice `plain[..len - 12]` is the list of characters without the last 12; it panics if `plain` is
shorter than 12. -/
def asCertName (kt : KeyType) : Res String :=
  if !kt.isSk then .ok (kt.plain ++ "-cert-v01@openssh.com")
  else do
    let n ← subNat kt.plain.toList.length 12
    let p ← slice kt.plain.toList 0 n
    return String.ofList p ++ "-cert-v01@openssh.com"

/-- src/ssh/keytype.rs:265-267 `as_pubkey_name`. -/
def asPubkeyName (kt : KeyType) : String := kt.plain

end KeyType
end Ssh
