import Verif.Model.Cert
import Verif.Model.PubKey
import Verif.Model.PrivKey

/-! # Text shown to people: `Display` of key types, roles, certificates (`{:#}`) and private keys, and `Drop` -/

namespace Ssh

/-- src/ssh/keytype.rs:270-274 `Display for KeyType`. -/
def KeyType.display (kt : KeyType) : List Char := kt.name.toList

/-- src/ssh/cert.rs:37-44 `Display for CertType`. -/
def CertType.display : CertType → List Char
  | .user => "user certificate".toList
  | .host => "host certificate".toList

/-- `{}` of a `u64`: decimal digits. -/
def u64Display (n : UInt64) : List Char := (Nat.repr n.toNat).toList

namespace Certificate

/-- src/ssh/cert.rs:553-560: the validity line. -/
def prettyValidity (c : Certificate) : List Char :=
  if c.validBefore = 0xFFFFFFFFFFFFFFFF ∧ c.validAfter = 0 then "Valid: forever\n".toList
  else "Valid between: ".toList ++ u64Display c.validAfter ++ " and ".toList ++ u64Display c.validBefore ++ ['\n']

/-- src/ssh/cert.rs:562-569: the principals. -/
def prettyPrincipals (c : Certificate) : List Char :=
  if c.principals.isEmpty then "Principals: (none)\n".toList
  else "Principals\n".toList ++ c.principals.flatMap fun p => '\t' :: p.toList ++ ['\n']

/-- src/ssh/cert.rs:571-578: the critical options. -/
def prettyCritical (c : Certificate) : List Char :=
  if c.criticalOptions.isEmpty then "Critical Options: (none)\n".toList
  else "Critical Options:\n".toList ++ c.criticalOptions.flatMap fun kv => '\t' :: kv.1.toList ++ ' ' :: kv.2.toList ++ ['\n']

/-- src/ssh/cert.rs:580-587: the names of the extensions (their values are not shown). -/
def prettyExtensions (c : Certificate) : List Char :=
  if c.extensions.isEmpty then "Extensions: (none)\n".toList
  else "Extensions:\n".toList ++ c.extensions.flatMap fun kv => '\t' :: kv.1.toList ++ ['\n']

/-- src/ssh/cert.rs:535-590 `Display` in alternate form (`{:#}`).  Fingerprints panic where encoding the key does. -/
def displayAlternate (C : Crypto) (c : Certificate) : Res (List Char) := do
  let fk ← c.key.fingerprintWith C .sha256
  let fc ← c.signatureKey.fingerprintWith C .sha256
  return "Type: ".toList ++ c.keyType.display ++ ' ' :: c.certType.display ++ ['\n'] ++
    "Public Key: ".toList ++ c.keyType.shortName.toList ++ ' ' :: fk.kind.display.toList ++ ':' :: fk.hash ++ ['\n'] ++
    "Signing CA: ".toList ++ c.signatureKey.keyType.shortName.toList ++ ' ' :: fc.kind.display.toList ++ ':' :: fc.hash ++
      " (using ".toList ++ c.signatureKey.keyType.display ++ ")\n".toList ++
    "Key ID: \"".toList ++ c.keyId.toList ++ "\"\n".toList ++
    "Serial: ".toList ++ u64Display c.serial ++ ['\n'] ++
    c.prettyValidity ++ c.prettyPrincipals ++ c.prettyCritical ++ c.prettyExtensions

end Certificate

namespace PrivateKey

/-- src/ssh/privkey.rs:731-735 `Display for PrivateKey`. -/
def display (C : Crypto) (k : PrivateKey) : Res (List Char) := do
  let f ← k.pubkey.fingerprintWith C .sha256
  return f.display ++ ' ' :: k.comment.toList

/-- The derived `Zeroize` of `EcdsaSkPrivateKey` and `Ed25519SkPrivateKey` (src/ssh/privkey.rs:78-126): `Vec` and
`String` are overwritten and emptied, integers become 0, options `None`. -/
def SkPrivateKey.zeroize (_ : SkPrivateKey) : SkPrivateKey :=
  { flags := 0, handle := [], reserved := [], pin := none, devicePath := none }

/-- The derived `Zeroize` of `PrivateKeyKind` (src/ssh/privkey.rs:40-145): the variant stays, its fields are wiped.
`Curve` keeps its identifier (`#[zeroize(skip)]`, src/ssh/keytype.rs:65-73) and its kind (a variant without fields). -/
def zeroizeKind : PrivateKeyKind → PrivateKeyKind
  | .rsa _ => .rsa { n := [], e := [], d := [], coefficient := [], p := [], q := [], exp := none, exq := none }
  | .ecdsa curve _ => .ecdsa curve []
  | .ecdsaSk k => .ecdsaSk (SkPrivateKey.zeroize k)
  | .ed25519 _ => .ed25519 []
  | .ed25519Sk k => .ed25519Sk (SkPrivateKey.zeroize k)

/-- src/ssh/privkey.rs:737-741 `Drop for PrivateKey`: the value as it is when its memory is given back (the contents of
the structure and of the vectors it still owns; copies made elsewhere are not modelled). -/
def drop (k : PrivateKey) : PrivateKey := { k with kind := zeroizeKind k.kind }

end PrivateKey
end Ssh
