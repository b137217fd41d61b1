import Verif.Spec.Cert
import Verif.Spec.SshSig

/-!
# One secret used for certificates, messages and a security key

Stated with the data types, the wire grammar and the external primitives only.
-/

namespace Ssh.Spec

/-- What an authenticator signs for a message (PROTOCOL.u2f): hash of the application, flags byte,
counter, hash of the message. -/
def assertionData (C : Crypto) (app : String) (flags : UInt8) (counter : UInt32) (msg : Bytes) : Bytes :=
  C.sha256 app.toByteArray.data.toList ++ [flags] ++ u32 counter.toNat ++ C.sha256 msg

/-- The public key `k` is the elliptic curve key `key`, with the application `app`. -/
def KeyIs (key : Bytes) (app : Option String) (k : PublicKey) : Prop :=
  k.kind = .ed25519 key app ∨ ∃ c, k.kind = .ecdsa c key app

/-- An elliptic curve primitive accepts the signature `s` of `m` under `key`. -/
def Passes (C : Crypto) (key m s : Bytes) : Prop :=
  C.ed25519Verify key m s = true ∨ ∃ alg, C.ecdsaVerify alg key m s = true

/-- Everything the holder of one secret ever signed: certificates given by their signed part, messages
with namespace and hash, and assertions of an authenticator. -/
structure Uses where
  certificate : Bytes → Prop
  message : String → HashAlgorithm → Bytes → Prop
  assertion : String → UInt8 → UInt32 → Bytes → Prop

/-- The blob `sig` is no forgery: a signature it carries is accepted under `key` only for what the holder signed. -/
def OnlyThese (C : Crypto) (key : Bytes) (S : Uses) (sig : Bytes) : Prop :=
  ∀ m s, Carries sig s → Passes C key m s →
    S.certificate m ∨ (∃ ns h msg, S.message ns h msg ∧ m = signedData C ns h msg) ∨
    ∃ app flags counter msg, S.assertion app flags counter msg ∧ m = assertionData C app flags counter msg

/-- The hash of an application that begins like the data signed for a message. -/
def Unlucky (C : Crypto) (app : String) : Prop := magic <+: C.sha256 app.toByteArray.data.toList

end Ssh.Spec
