import Verif.Spec.Written
import Verif.Spec.Sign
import Verif.Spec.Reasons

/-! # What signing returns, and what is made of it -/

namespace Ssh.Spec

/-- The fields of a hardware key. -/
def hardwareFields : PrivateKeyKind → Option SkPrivateKey
  | .ecdsaSk s => some s
  | .ed25519Sk s => some s
  | _ => none

/-- `blob` is the signature of `msg` which the private key `k` makes: the primitive of the key's kind, called with the secret
of the private half and the public key of the public half, answers with a signature, and `blob` is its SSH form.  For a
hardware key the authenticator answers, and its flags and counter follow. -/
inductive Signed (F : Features) (C : Crypto) (D : FidoDev) (k : PrivateKey) (msg : Bytes) : Bytes → Prop where
  | rsa {r : RsaPrivateKey} {dp dq der s blob : Bytes} : k.kind = .rsa r → F.rsaSigning = true →
      r.exp = some dp → r.exq = some dq →
      Pkcs1 (natOf r.n) (natOf r.e) (natOf r.d) (natOf r.p) (natOf r.q) (natOf dp) (natOf dq) (natOf r.coefficient) der →
      C.rsaSign der msg = some s → SshForm k.pubkey s blob → Signed F C D k msg blob
  | ecdsa {curve c : Curve} {key pub s blob : Bytes} {app : Option String} {alg : EcAlg} : k.kind = .ecdsa curve key →
      k.pubkey.kind = .ecdsa c pub app → ecAlg curve.kind = some alg → key ≠ [] →
      C.ecdsaSign alg (dropZero key) pub msg = some s → SshForm k.pubkey s blob → Signed F C D k msg blob
  | ed25519 {key pub s blob : Bytes} {app : Option String} : k.kind = .ed25519 key → k.pubkey.kind = .ed25519 pub app →
      32 ≤ key.length → C.ed25519Sign (key.take 32) pub msg = some s → SshForm k.pubkey s blob → Signed F C D k msg blob
  | hardware {s : SkPrivateKey} {app : String} {a : Assertion} {f : Bytes} : hardwareFields k.kind = some s →
      applicationOf k.pubkey = some app → deviceAnswer F C D s app msg = .ok (some a) → SshForm k.pubkey a.signature f →
      Signed F C D k msg (f ++ ([a.flags] ++ u32 a.counter.toNat))

/-- The authenticator of a hardware key ends with an error. -/
def DeviceError (F : Features) (C : Crypto) (D : FidoDev) (k : PrivateKey) (msg : Bytes) (e : Err) : Prop :=
  ∃ s app, hardwareFields k.kind = some s ∧ applicationOf k.pubkey = some app ∧ deviceAnswer F C D s app msg = .err e

/-- A certificate before anything is set: numbers 0, no texts, not signed. -/
def blankCert (t : KeyType) (nonce : Bytes) (serial : UInt64) (key ca : PublicKey) (role : CertType) : Certificate :=
  { keyType := t, nonce, key, serial, certType := role, keyId := "", principals := [], validAfter := 0, validBefore := 0,
    criticalOptions := [], extensions := [], reserved := List.replicate 8 0, signatureKey := ca, signature := [],
    comment := none, serialized := [] }

end Ssh.Spec
