import Verif.Spec.SshSig
import Verif.Model.PrivKey

/-!
# Private key files (OpenSSH PROTOCOL.key), independent of the parsing and printing code

Only the data types of the model are used (and, for the armor, line splitting and base64).
-/

namespace Ssh.Spec

/-- `x` is the number `n` in shortest big-endian form, `[0]` for zero. -/
def NumBytes (n : Nat) (x : Bytes) : Prop := natOf x = n ∧ (x = [0] ∨ (x ≠ [] ∧ Shortest x))

/-- The stored CRT exponent of `d` for the prime `p`: `d mod (p - 1)`, if RSA signing is compiled in. -/
def CrtExponent (rsaSigning : Bool) (d p : Bytes) (x : Option Bytes) : Prop :=
  match rsaSigning, x with
  | false, none => True
  | true, some x => 1 < natOf p ∧ NumBytes (natOf d % (natOf p - 1)) x
  | _, _ => False

/-- Fields of a hardware key: flags, handle, reserved.  PIN and device path are not in the file. -/
def SkMaterial (s : SkPrivateKey) (w : Bytes) : Prop :=
  s.pin = none ∧ s.devicePath = none ∧
  ∃ w1 w2, w = [s.flags] ++ (w1 ++ w2) ∧ Frame s.handle w1 ∧ Frame s.reserved w2

/-- The fields of a private key of type `kt` after the type name; `pub` is the public half. -/
def PrivMaterial (rsaSigning : Bool) (kt : KeyType) (priv : PrivateKeyKind) (pub : PublicKeyKind) (w : Bytes) : Prop :=
  match priv with
  | .rsa r => kt.kind = .rsa ∧ pub = .rsa r.e r.n ∧ CrtExponent rsaSigning r.d r.p r.exp ∧
      CrtExponent rsaSigning r.d r.q r.exq ∧
      ∃ w1 w2 w3 w4 w5 w6, w = w1 ++ (w2 ++ (w3 ++ (w4 ++ (w5 ++ w6)))) ∧
        Mpint r.n w1 ∧ Mpint r.e w2 ∧ Mpint r.d w3 ∧ Mpint r.coefficient w4 ∧ Mpint r.p w5 ∧ Mpint r.q w6
  | .ecdsa c key => kt.kind = .ecdsa ∧ kt.isSk = false ∧ c ∈ curves ∧
      ∃ point w1 w2 w3, pub = .ecdsa c point none ∧ w = w1 ++ (w2 ++ w3) ∧
        Text c.identifier w1 ∧ Frame point w2 ∧ Frame key w3
  | .ecdsaSk s => kt.kind = .ecdsa ∧ kt.isSk = true ∧
      ∃ c point app w1 w2 w3 w4, c ∈ curves ∧ pub = .ecdsa c point (some app) ∧ w = w1 ++ (w2 ++ (w3 ++ w4)) ∧
        Text c.identifier w1 ∧ Frame point w2 ∧ Text app w3 ∧ SkMaterial s w4
  | .ed25519 key => kt.kind = .ed25519 ∧ kt.isSk = false ∧
      ∃ point w1 w2, pub = .ed25519 point none ∧ w = w1 ++ w2 ∧ Frame point w1 ∧ Frame key w2
  | .ed25519Sk s => kt.kind = .ed25519 ∧ kt.isSk = true ∧
      ∃ point app w1 w2 w3, pub = .ed25519 point (some app) ∧ w = w1 ++ (w2 ++ w3) ∧
        Frame point w1 ∧ Text app w2 ∧ SkMaterial s w3

/-- A private key with its type name and comment. -/
def PrivBlob (rsaSigning : Bool) (k : PrivateKey) (w : Bytes) : Prop :=
  k.keyType ∈ keyTypes ∧ k.pubkey.keyType = k.keyType ∧ k.pubkey.comment = none ∧
  ∃ w1 w2 w3, w = w1 ++ (w2 ++ w3) ∧ Text k.keyType.name w1 ∧
    PrivMaterial rsaSigning k.keyType k.kind k.pubkey.kind w2 ∧ Text k.comment w3

/-- The private section: the check integer twice, the key, and padding. -/
def PrivSection (rsaSigning : Bool) (k : PrivateKey) (pad w : Bytes) : Prop :=
  ∃ b, w = u32 k.magic.toNat ++ (u32 k.magic.toNat ++ (b ++ pad)) ∧ PrivBlob rsaSigning k b

/-- `openssh-key-v1` and a zero byte. -/
def preamble : Bytes := "openssh-key-v1".toUTF8.data.toList ++ [0]

/-- The container: cipher, key derivation function and its data, exactly one key, the public key, the
private section. -/
def KeyFile (cipher kdf : String) (kdfData pub sec w : Bytes) : Prop :=
  ∃ w1 w2 w3 w4 w5, w = preamble ++ (w1 ++ (w2 ++ (w3 ++ (u32 1 ++ (w4 ++ w5))))) ∧
    Text cipher w1 ∧ Text kdf w2 ∧ Frame kdfData w3 ∧ Frame pub w4 ∧ Frame sec w5

/-- `plain` is `enc` XOR the key stream. -/
def XorOf (stream : Nat → UInt8) (enc plain : Bytes) : Prop :=
  plain.length = enc.length ∧ ∀ i (h : i < enc.length), plain[i]? = some (enc[i] ^^^ stream i)

/-- Decryption with a passphrase: AES-256-CTR under the key and IV that bcrypt derives. -/
def PassDecrypts (C : Crypto) (pass : String) (kdfData sec plain : Bytes) : Prop :=
  ∃ salt rounds w rest key iv, kdfData = w ++ (u32 (UInt32.toNat rounds) ++ rest) ∧ Frame salt w ∧
    C.bcryptPbkdf pass salt rounds = some (key, iv) ∧ C.aesCtrOk key iv sec.length = true ∧
    XorOf (C.aesKeystream key iv) sec plain

/-- How the private section is obtained from the bytes in the file. -/
def Decrypts (F : Features) (C : Crypto) (cipher kdf : String) (pass : Option String)
    (kdfData sec plain : Bytes) : Prop :=
  (cipher = "none" ∧ kdf = "none" ∧ plain = sec) ∨
  (cipher = "aes256-ctr" ∧ kdf = "bcrypt" ∧ F.encryptedKeys = true ∧
    ∃ p, pass = some p ∧ PassDecrypts C p kdfData sec plain)

/-- A section holding an RSA key whose `p` or `q` is 0 or 1. -/
def DegenerateRsa (w : Bytes) : Prop :=
  ∃ (m : UInt32) (kt : KeyType) (n e d c p q : Bytes) (w0 w1 w2 w3 w4 w5 w6 rest : Bytes),
    w = u32 m.toNat ++ (u32 m.toNat ++ (w0 ++ (w1 ++ (w2 ++ (w3 ++ (w4 ++ (w5 ++ (w6 ++ rest)))))))) ∧
    kt ∈ keyTypes ∧ kt.kind = .rsa ∧ Text kt.name w0 ∧
    Mpint n w1 ∧ Mpint e w2 ∧ Mpint d w3 ∧ Mpint c w4 ∧ Mpint p w5 ∧ Mpint q w6 ∧ (natOf p ≤ 1 ∨ natOf q ≤ 1)

/-- What a key file keeps of a key: no PIN, no device path, an empty reserved field, and no comment on the
public half. -/
def stored (k : PrivateKey) : PrivateKey :=
  { k with
    kind := match k.kind with
      | .ecdsaSk s => .ecdsaSk { s with reserved := [], pin := none, devicePath := none }
      | .ed25519Sk s => .ed25519Sk { s with reserved := [], pin := none, devicePath := none }
      | other => other
    pubkey := { k.pubkey with comment := none } }

/-- A well-formed private key: known type, private and public half of that type and equal where they overlap,
integers in shortest form, CRT exponents consistent (if RSA signing is compiled in), field sizes below `2^32`. -/
def WellFormedPriv (rsaSigning : Bool) (k : PrivateKey) : Prop :=
  k.keyType ∈ keyTypes ∧ k.pubkey.keyType = k.keyType ∧ k.comment.utf8ByteSize < 4294967296 ∧
  match k.kind, k.pubkey.kind with
  | .rsa r, .rsa e n => k.keyType.kind = .rsa ∧ e = r.e ∧ n = r.n ∧ FitsMpint r.n ∧ FitsMpint r.e ∧ FitsMpint r.d ∧
      FitsMpint r.coefficient ∧ FitsMpint r.p ∧ FitsMpint r.q ∧
      CrtExponent rsaSigning r.d r.p r.exp ∧ CrtExponent rsaSigning r.d r.q r.exq
  | .ecdsa c key, .ecdsa c' point app => k.keyType.kind = .ecdsa ∧ c' = c ∧ c ∈ curves ∧
      key.length < 4294967296 ∧ point.length < 4294967296 ∧ k.keyType.isSk = false ∧ app = none
  | .ecdsaSk s, .ecdsa c point app => k.keyType.kind = .ecdsa ∧ c ∈ curves ∧
      s.handle.length < 4294967296 ∧ point.length < 4294967296 ∧ k.keyType.isSk = true ∧ app.isSome ∧
      AppOk true app
  | .ed25519 key, .ed25519 point app => k.keyType.kind = .ed25519 ∧
      key.length < 4294967296 ∧ point.length < 4294967296 ∧ k.keyType.isSk = false ∧ app = none
  | .ed25519Sk s, .ed25519 point app => k.keyType.kind = .ed25519 ∧
      s.handle.length < 4294967296 ∧ point.length < 4294967296 ∧ k.keyType.isSk = true ∧ app.isSome ∧
      AppOk true app
  | _, _ => False

/-- The padding OpenSSH prescribes after `n` bytes: 1, 2, 3, ... up to a multiple of 8, at most 7 bytes. -/
def StdPadding (n : Nat) (pad : Bytes) : Prop :=
  (n + pad.length) % 8 = 0 ∧ pad.length < 8 ∧ ∀ i (h : i < pad.length), pad[i].toNat = i + 1

/-- The canonical unencrypted file of a key: no KDF data, nothing after the public key, standard padding. -/
def CanonicalFile (rsaSigning : Bool) (k : PrivateKey) (w : Bytes) : Prop :=
  ∃ kb sec b pad, KeyFile "none" "none" [] kb sec w ∧ KeyBlob k.pubkey kb ∧ PrivBlob rsaSigning k b ∧
    sec = u32 k.magic.toNat ++ (u32 k.magic.toNat ++ (b ++ pad)) ∧ StdPadding (8 + b.length) pad

/-- No reserved bytes in a hardware key. -/
def NoReserved (k : PrivateKey) : Prop :=
  match k.kind with
  | .ecdsaSk s => s.reserved = []
  | .ed25519Sk s => s.reserved = []
  | _ => True

end Ssh.Spec
