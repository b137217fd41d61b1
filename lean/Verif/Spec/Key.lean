import Verif.Spec.Wire
import Verif.Model.PublicKey

/-!
# SSH key types and public keys (RFC 4253 6.6, RFC 5656 3.1, RFC 8709, PROTOCOL.certkeys,
PROTOCOL.u2f), independent of the parsing and printing code

Only the data types `KeyType`, `Curve` and `PublicKey` of the model are used.
-/

namespace Ssh.Spec

/-- The three families of keys. -/
inductive Family where
  | rsa | ecdsa | ed25519
deriving DecidableEq, Repr

/-- Family of a key type kind. -/
def family : KeyTypeKind → Family
  | .rsa | .rsaCert => .rsa
  | .ecdsa | .ecdsaCert => .ecdsa
  | .ed25519 | .ed25519Cert => .ed25519

/-- The supported key types. -/
def keyTypes : List KeyType := [
  ⟨"ssh-rsa", "ssh-rsa", "RSA", false, false, .rsa⟩,
  ⟨"rsa-sha2-256", "ssh-rsa", "RSA", false, false, .rsa⟩,
  ⟨"rsa-sha2-512", "ssh-rsa", "RSA", false, false, .rsa⟩,
  ⟨"ssh-rsa-cert-v01@openssh.com", "ssh-rsa", "RSA-CERT", true, false, .rsaCert⟩,
  ⟨"ecdsa-sha2-nistp256", "ecdsa-sha2-nistp256", "ECDSA", false, false, .ecdsa⟩,
  ⟨"ecdsa-sha2-nistp384", "ecdsa-sha2-nistp384", "ECDSA", false, false, .ecdsa⟩,
  ⟨"ecdsa-sha2-nistp521", "ecdsa-sha2-nistp521", "ECDSA", false, false, .ecdsa⟩,
  ⟨"ecdsa-sha2-nistp256-cert-v01@openssh.com", "ecdsa-sha2-nistp256", "ECDSA-CERT", true, false, .ecdsaCert⟩,
  ⟨"ecdsa-sha2-nistp384-cert-v01@openssh.com", "ecdsa-sha2-nistp384", "ECDSA-CERT", true, false, .ecdsaCert⟩,
  ⟨"ecdsa-sha2-nistp521-cert-v01@openssh.com", "ecdsa-sha2-nistp521", "ECDSA-CERT", true, false, .ecdsaCert⟩,
  ⟨"ssh-ed25519", "ssh-ed25519", "ED25519", false, false, .ed25519⟩,
  ⟨"ssh-ed25519-cert-v01@openssh.com", "ssh-ed25519", "ED25519-CERT", true, false, .ed25519Cert⟩,
  ⟨"sk-ssh-ed25519@openssh.com", "sk-ssh-ed25519@openssh.com", "ED25519-SK", false, true, .ed25519⟩,
  ⟨"sk-ssh-ed25519-cert-v01@openssh.com", "sk-ssh-ed25519@openssh.com", "ED25519-SK-CERT", true, true, .ed25519⟩,
  ⟨"sk-ecdsa-sha2-nistp256@openssh.com", "sk-ecdsa-sha2-nistp256@openssh.com", "ECDSA-SK", false, true, .ecdsa⟩,
  ⟨"sk-ecdsa-sha2-nistp256-cert-v01@openssh.com", "sk-ecdsa-sha2-nistp256@openssh.com", "ECDSA-SK", true, true, .ecdsa⟩]

/-- The supported curves. -/
def curves : List Curve :=
  [⟨.nistp256, "nistp256"⟩, ⟨.nistp384, "nistp384"⟩, ⟨.nistp521, "nistp521"⟩]

/-- The application string is present exactly for hardware key types. -/
def Application (sk : Bool) (app : Option String) (w : Bytes) : Prop :=
  match sk, app with
  | true, some s => Text s w
  | false, none => w = []
  | _, _ => False

/-- The fields of a public key of type `kt`, after the type name. -/
def KeyMaterial (kt : KeyType) : PublicKeyKind → Bytes → Prop
  | .rsa e n, w => family kt.kind = .rsa ∧ ∃ w1 w2, w = w1 ++ w2 ∧ Mpint e w1 ∧ Mpint n w2
  | .ecdsa c k app, w => family kt.kind = .ecdsa ∧ c ∈ curves ∧
      ∃ w1 w2 w3, w = w1 ++ (w2 ++ w3) ∧ Text c.identifier w1 ∧ Frame k w2 ∧ Application kt.isSk app w3
  | .ed25519 k app, w => family kt.kind = .ed25519 ∧
      ∃ w1 w2, w = w1 ++ w2 ∧ Frame k w1 ∧ Application kt.isSk app w2

/-- The wire encoding of a public key under the type name it carries: type name, then the fields. -/
def KeyBlob (k : PublicKey) (w : Bytes) : Prop :=
  k.keyType ∈ keyTypes ∧
    ∃ w1 w2, w = w1 ++ w2 ∧ Text k.keyType.name w1 ∧ KeyMaterial k.keyType k.kind w2

/-- An integer in shortest form whose mpint payload (one more byte if the top bit is set) is shorter
than `2^32` bytes. -/
def FitsMpint (v : Bytes) : Prop :=
  Shortest v ∧ v.length + (if 0x80 ≤ v.headD 0 then 1 else 0) < 4294967296

/-- An application string is given exactly for hardware key types. -/
def AppOk (sk : Bool) : Option String → Prop
  | some s => sk = true ∧ s.utf8ByteSize < 4294967296
  | none => sk = false

/-- A well-formed public key: known type, fields of that type, integers in shortest form, sizes
below `2^32`. -/
def WellFormedKey (k : PublicKey) : Prop :=
  k.keyType ∈ keyTypes ∧
  match k.kind with
  | .rsa e n => family k.keyType.kind = .rsa ∧ FitsMpint e ∧ FitsMpint n
  | .ecdsa c key app => family k.keyType.kind = .ecdsa ∧ c ∈ curves ∧ key.length < 4294967296 ∧
      AppOk k.keyType.isSk app
  | .ed25519 key app => family k.keyType.kind = .ed25519 ∧ key.length < 4294967296 ∧
      AppOk k.keyType.isSk app

end Ssh.Spec
