import Verif.Model.PrivKey

/-! # What a debugging text discloses -/

namespace Ssh.Spec

/-- A list of bytes as people write it: decimal numbers with commas between, in brackets. -/
def byteText (b : Bytes) : List Char := ['['] ++ [',', ' '].intercalate (b.map fun x => (toString x.toNat).toList) ++ [']']

/-- A text occurs in another. -/
def Within (part whole : List Char) : Prop := ∃ before behind, whole = before ++ part ++ behind

/-- The bytes of a private key that have to stay secret (of a hardware key: its handle). -/
inductive Secret : PrivateKeyKind → Bytes → Prop where
  | exponent (k : RsaPrivateKey) : Secret (.rsa k) k.d
  | coefficient (k : RsaPrivateKey) : Secret (.rsa k) k.coefficient
  | p (k : RsaPrivateKey) : Secret (.rsa k) k.p
  | q (k : RsaPrivateKey) : Secret (.rsa k) k.q
  | exp (k : RsaPrivateKey) (x : Bytes) : k.exp = some x → Secret (.rsa k) x
  | exq (k : RsaPrivateKey) (x : Bytes) : k.exq = some x → Secret (.rsa k) x
  | ecdsa (c : Curve) (key : Bytes) : Secret (.ecdsa c key) key
  | ed25519 (key : Bytes) : Secret (.ed25519 key) key
  | ecdsaHandle (k : SkPrivateKey) : Secret (.ecdsaSk k) k.handle
  | ed25519Handle (k : SkPrivateKey) : Secret (.ed25519Sk k) k.handle

/-- The PIN kept in a key. -/
inductive Pin : PrivateKeyKind → String → Prop where
  | ecdsa (k : SkPrivateKey) (p : String) : k.pin = some p → Pin (.ecdsaSk k) p
  | ed25519 (k : SkPrivateKey) (p : String) : k.pin = some p → Pin (.ed25519Sk k) p

end Ssh.Spec
