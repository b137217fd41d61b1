import Verif.Model.KeyType

/-! # The data types of src/ssh/pubkey.rs -/

namespace Ssh

/-- src/ssh/pubkey.rs:17-62 `PublicKeyKind` with `RsaPublicKey`, `EcdsaPublicKey` and
`Ed25519PublicKey` inlined as constructor arguments. -/
inductive PublicKeyKind where
  | rsa (e n : Bytes)
  | ecdsa (curve : Curve) (key : Bytes) (skApplication : Option String)
  | ed25519 (key : Bytes) (skApplication : Option String)
deriving DecidableEq, Repr

/-- src/ssh/pubkey.rs:66-75 `PublicKey` (equality is the derived one: comment included). -/
structure PublicKey where
  keyType : KeyType
  kind : PublicKeyKind
  comment : Option String
deriving DecidableEq, Repr

end Ssh
