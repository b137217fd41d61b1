import Verif.Model.Cert
import Verif.Model.PrivKey
import Verif.Model.Fido
import Verif.Model.Piv

/-! # The derived `Debug` of keys and certificates

`#[derive(Debug)]` writes the name of a type and all its fields in the order of their declaration (`{:?}`, not `{:#?}`).
Which characters `core` escapes by their number is decided by tables of Unicode; they are an argument, `hexed`. -/

namespace Ssh.Debug

/-- `core`: `Debug for str`, one character. -/
def char (hexed : Char → Bool) (c : Char) : List Char :=
  if c = '\x00' then "\\0".toList
  else if c = '\t' then "\\t".toList
  else if c = '\r' then "\\r".toList
  else if c = '\n' then "\\n".toList
  else if c = '"' then "\\\"".toList
  else if c = '\\' then "\\\\".toList
  else if hexed c then "\\u{".toList ++ Nat.toDigits 16 c.toNat ++ "}".toList
  else [c]

/-- `core`: `Debug for str`. -/
def str (hexed : Char → Bool) (s : String) : List Char := '"' :: s.toList.flatMap (char hexed) ++ ['"']

/-- `core`: `Debug` of the unsigned integers. -/
def nat (n : Nat) : List Char := (toString n).toList

/-- `core`: `Debug` of `u8`. -/
def byte (b : UInt8) : List Char := nat b.toNat

/-- `core`: `Debug for bool`. -/
def bool (b : Bool) : List Char := if b then "true".toList else "false".toList

/-- What follows the first entry of a list or map. -/
def more (f : α → List Char) : List α → List Char
  | [] => []
  | x :: l => ", ".toList ++ f x ++ more f l

/-- The entries of a list or map. -/
def entries (f : α → List Char) : List α → List Char
  | [] => []
  | x :: l => f x ++ more f l

/-- `alloc`: `Debug for Vec`. -/
def vec (f : α → List Char) (l : List α) : List Char := "[".toList ++ entries f l ++ "]".toList

/-- `core`: `Debug for Option`. -/
def option (f : α → List Char) : Option α → List Char
  | none => "None".toList
  | some x => "Some(".toList ++ f x ++ ")".toList

/-- `std`: `Debug for HashMap`, in the order of iteration. -/
def map (hexed : Char → Bool) (m : StrMap) : List Char :=
  "{".toList ++ entries (fun kv => str hexed kv.1 ++ ": ".toList ++ str hexed kv.2) m ++ "}".toList

/-- The bytes of a `Vec<u8>`. -/
def bytes (b : Bytes) : List Char := vec byte b

/-- src/ssh/keytype.rs:8-27. -/
def keyTypeKind : KeyTypeKind → List Char
  | .rsa => "Rsa".toList
  | .ed25519 => "Ed25519".toList
  | .ecdsa => "Ecdsa".toList
  | .rsaCert => "RsaCert".toList
  | .ed25519Cert => "Ed25519Cert".toList
  | .ecdsaCert => "EcdsaCert".toList

/-- src/ssh/keytype.rs:30-49. -/
def keyType (hexed : Char → Bool) (t : KeyType) : List Char :=
  "KeyType { name: ".toList ++ str hexed t.name ++ ", short_name: ".toList ++ str hexed t.shortName ++
    ", is_cert: ".toList ++ bool t.isCert ++ ", is_sk: ".toList ++ bool t.isSk ++ ", kind: ".toList ++ keyTypeKind t.kind ++
    ", plain: ".toList ++ str hexed t.plain ++ " }".toList

/-- src/ssh/keytype.rs:52-62. -/
def curveKind : CurveKind → List Char
  | .nistp256 => "Nistp256".toList
  | .nistp384 => "Nistp384".toList
  | .nistp521 => "Nistp521".toList

/-- src/ssh/keytype.rs:65-73. -/
def curve (hexed : Char → Bool) (c : Curve) : List Char :=
  "Curve { kind: ".toList ++ curveKind c.kind ++ ", identifier: ".toList ++ str hexed c.identifier ++ " }".toList

/-- src/ssh/pubkey.rs:16-62. -/
def publicKeyKind (hexed : Char → Bool) : PublicKeyKind → List Char
  | .rsa e n => "Rsa(RsaPublicKey { e: ".toList ++ bytes e ++ ", n: ".toList ++ bytes n ++ " })".toList
  | .ecdsa c key app => "Ecdsa(EcdsaPublicKey { curve: ".toList ++ curve hexed c ++ ", key: ".toList ++ bytes key ++
      ", sk_application: ".toList ++ option (str hexed) app ++ " })".toList
  | .ed25519 key app => "Ed25519(Ed25519PublicKey { key: ".toList ++ bytes key ++ ", sk_application: ".toList ++
      option (str hexed) app ++ " })".toList

/-- src/ssh/pubkey.rs:65-75. -/
def publicKey (hexed : Char → Bool) (k : PublicKey) : List Char :=
  "PublicKey { key_type: ".toList ++ keyType hexed k.keyType ++ ", kind: ".toList ++ publicKeyKind hexed k.kind ++
    ", comment: ".toList ++ option (str hexed) k.comment ++ " }".toList

/-- src/ssh/privkey.rs:40-65. -/
def rsaPrivateKey (k : RsaPrivateKey) : List Char :=
  "RsaPrivateKey { n: ".toList ++ bytes k.n ++ ", e: ".toList ++ bytes k.e ++ ", d: ".toList ++ bytes k.d ++
    ", coefficient: ".toList ++ bytes k.coefficient ++ ", p: ".toList ++ bytes k.p ++ ", q: ".toList ++ bytes k.q ++
    ", exp: ".toList ++ option bytes k.exp ++ ", exq: ".toList ++ option bytes k.exq ++ " }".toList

/-- src/ssh/privkey.rs:78-97 and 107-126, behind the name of the type. -/
def skPrivateKey (hexed : Char → Bool) (k : SkPrivateKey) : List Char :=
  " { flags: ".toList ++ byte k.flags ++ ", handle: ".toList ++ bytes k.handle ++ ", reserved: ".toList ++ bytes k.reserved ++
    ", pin: ".toList ++ option (str hexed) k.pin ++ ", device_path: ".toList ++ option (str hexed) k.devicePath ++ " }".toList

/-- src/ssh/privkey.rs:68-75, 100-104 and 129-145. -/
def privateKeyKind (hexed : Char → Bool) : PrivateKeyKind → List Char
  | .rsa k => "Rsa(".toList ++ rsaPrivateKey k ++ ")".toList
  | .ecdsa c key => "Ecdsa(EcdsaPrivateKey { curve: ".toList ++ curve hexed c ++ ", key: ".toList ++ bytes key ++ " })".toList
  | .ecdsaSk k => "EcdsaSk(EcdsaSkPrivateKey".toList ++ skPrivateKey hexed k ++ ")".toList
  | .ed25519 key => "Ed25519(Ed25519PrivateKey { key: ".toList ++ bytes key ++ " })".toList
  | .ed25519Sk k => "Ed25519Sk(Ed25519SkPrivateKey".toList ++ skPrivateKey hexed k ++ ")".toList

/-- src/ssh/privkey.rs:148-167. -/
def privateKey (hexed : Char → Bool) (k : PrivateKey) : List Char :=
  "PrivateKey { key_type: ".toList ++ keyType hexed k.keyType ++ ", kind: ".toList ++ privateKeyKind hexed k.kind ++
    ", pubkey: ".toList ++ publicKey hexed k.pubkey ++ ", magic: ".toList ++ nat k.magic.toNat ++ ", comment: ".toList ++
    str hexed k.comment ++ " }".toList

/-- src/ssh/cert.rs:16-25. -/
def certType : CertType → List Char
  | .user => "User".toList
  | .host => "Host".toList

/-- src/ssh/cert.rs:60-111. -/
def certificate (hexed : Char → Bool) (c : Certificate) : List Char :=
  "Certificate { key_type: ".toList ++ keyType hexed c.keyType ++ ", nonce: ".toList ++ bytes c.nonce ++
    ", key: ".toList ++ publicKey hexed c.key ++ ", serial: ".toList ++ nat c.serial.toNat ++
    ", cert_type: ".toList ++ certType c.certType ++ ", key_id: ".toList ++ str hexed c.keyId ++
    ", principals: ".toList ++ vec (str hexed) c.principals ++ ", valid_after: ".toList ++ nat c.validAfter.toNat ++
    ", valid_before: ".toList ++ nat c.validBefore.toNat ++ ", critical_options: ".toList ++ map hexed c.criticalOptions ++
    ", extensions: ".toList ++ map hexed c.extensions ++ ", reserved: ".toList ++ bytes c.reserved ++
    ", signature_key: ".toList ++ publicKey hexed c.signatureKey ++ ", signature: ".toList ++ bytes c.signature ++
    ", comment: ".toList ++ option (str hexed) c.comment ++ ", serialized: ".toList ++ bytes c.serialized ++ " }".toList

/-- `Debug` of `i32`. -/
def int (n : Int) : List Char := (toString n).toList

/-- src/fido/generate/mod.rs:16-29. -/
def attestation (a : U2FAttestation) : List Char :=
  "U2FAttestation { auth_data: ".toList ++ bytes a.authData ++ ", auth_data_sig: ".toList ++ bytes a.authDataSig ++
    ", intermediate: ".toList ++ bytes a.intermediate ++ ", challenge: ".toList ++ bytes a.challenge ++ ", alg: ".toList ++
    int a.alg ++ " }".toList

/-- src/fido/generate/mod.rs:32-39. -/
def fidoSshKey (hexed : Char → Bool) (k : FidoSshKey) : List Char :=
  "FIDOSSHKey { private_key: ".toList ++ privateKey hexed k.privateKey ++ ", attestation: ".toList ++
    attestation k.attestation ++ " }".toList

/-- src/yubikey/piv/mod.rs:51-55 `Debug for Yubikey`: the serial number of the token, not its secrets (`yk` is not shown). -/
def yubikey (D : YkDev σ) (conn : Nat) : List Char := "YubiKey: ".toList ++ nat (D.serial conn).toNat ++ ['\n']

end Ssh.Debug
