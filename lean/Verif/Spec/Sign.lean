import Verif.Spec.Utils
import Verif.Model.PrivKey

/-! # What is assumed of signing primitives, and which private keys are consistent -/

namespace Ssh.Spec

/-- Bytes per integer of an ECDSA algorithm. -/
def ecWidth : EcAlg → Nat
  | .p256 => 32
  | .p384 => 48

/-- The ECDSA algorithm of a curve (none for P-521). -/
def ecAlg : CurveKind → Option EcAlg
  | .nistp256 => some .p256
  | .nistp384 => some .p384
  | .nistp521 => none

/-- A stored ECDSA secret without one leading zero byte. -/
def dropZero : Bytes → Bytes
  | [] => []
  | b :: t => if b = 0 then t else b :: t

/-- DER length bytes (X.690 8.1.3): below 128 one byte, otherwise the count of length bytes with the top bit set
followed by the shortest big-endian form.  (The count fits its seven bits for every length below 256^127.) -/
def DerLength (n : Nat) (w : Bytes) : Prop :=
  (n < 128 ∧ w = [UInt8.ofNat n]) ∨
  (128 ≤ n ∧ ∃ l, w = (UInt8.ofNat l.length ||| 0x80) :: l ∧ Shortest l ∧ natOf l = n)

/-- The content bytes of the DER `INTEGER` `n` (X.690 8.3): big-endian, first bit clear, no superfluous zero. -/
def DerUnsigned (n : Nat) (c : Bytes) : Prop :=
  natOf c = n ∧ (c = [0] ∨ (∃ b t, c = b :: t ∧ b ≠ 0 ∧ b < 0x80) ∨ ∃ b t, c = 0 :: b :: t ∧ 0x80 ≤ b)

/-- `w` is the DER `INTEGER` `n`. -/
def DerInteger (n : Nat) (w : Bytes) : Prop :=
  ∃ l c, w = [0x02] ++ (l ++ c) ∧ DerLength c.length l ∧ DerUnsigned n c

/-- `w` is the `RSAPrivateKey` of PKCS#1 (RFC 8017 A.1.2), version two-prime: modulus, public exponent, private
exponent, prime1, prime2, exponent1, exponent2, coefficient. -/
def Pkcs1 (n e d p q dp dq qinv : Nat) (w : Bytes) : Prop :=
  ∃ l v w1 w2 w3 w4 w5 w6 w7 w8,
    w = [0x30] ++ (l ++ (v ++ (w1 ++ (w2 ++ (w3 ++ (w4 ++ (w5 ++ (w6 ++ (w7 ++ w8))))))))) ∧
    DerLength (v ++ (w1 ++ (w2 ++ (w3 ++ (w4 ++ (w5 ++ (w6 ++ (w7 ++ w8)))))))).length l ∧
    DerInteger 0 v ∧ DerInteger n w1 ∧ DerInteger e w2 ∧ DerInteger d w3 ∧ DerInteger p w4 ∧ DerInteger q w5 ∧
    DerInteger dp w6 ∧ DerInteger dq w7 ∧ DerInteger qinv w8

/-- The primitives accept what they sign; ECDSA signatures are DER. -/
def SignsCorrectly (C : Crypto) : Prop :=
  (∀ seed pub m s, C.ed25519Sign seed pub m = some s →
    s.length < 4294967296 ∧ C.ed25519Verify pub m s = true) ∧
  (∀ n e d p q dp dq qinv der m s, Pkcs1 n e d p q dp dq qinv der → C.rsaSign der m = some s →
    s.length < 4294967296 ∧ ∀ nb eb, natOf nb = n → natOf eb = e → C.rsaVerify .sha512 nb eb m s = true) ∧
  (∀ alg secret pub m sig, C.ecdsaSign alg secret pub m = some sig →
    ∃ r s cr cs fr fs, r < 256 ^ ecWidth alg ∧ s < 256 ^ ecWidth alg ∧ DerPositive r cr ∧ DerPositive s cs ∧
      DerPair cr cs sig ∧ NatWidth (ecWidth alg) r fr ∧ NatWidth (ecWidth alg) s fs ∧
      C.ecdsaVerify alg pub m (fr ++ fs) = true)

/-- A private key kept in software whose public half has the same type and, for RSA, modulus and
exponent; the secret has the length its type requires. -/
def ConsistentKey (k : PrivateKey) : Prop :=
  k.pubkey.keyType ∈ keyTypes ∧
  match k.kind, k.pubkey.kind with
  | .rsa r, .rsa e n => k.pubkey.keyType.kind = .rsa ∧ natOf r.n = natOf n ∧ natOf r.e = natOf e ∧ r.exp.isSome ∧ r.exq.isSome
  | .ecdsa curve key, .ecdsa _ _ app => app = none ∧ curve ∈ curves ∧
      k.pubkey.keyType.name = "ecdsa-sha2-" ++ curve.identifier ∧ key ≠ []
  | .ed25519 key, .ed25519 _ app => app = none ∧ k.pubkey.keyType.name = "ssh-ed25519" ∧ 32 ≤ key.length
  | _, _ => False

/-- The message an authenticator signs for `msg` (PROTOCOL.u2f). -/
def authenticatorMessage (C : Crypto) (app : String) (flags : UInt8) (counter : UInt32) (msg : Bytes) : Bytes :=
  C.sha256 app.toByteArray.data.toList ++ [flags] ++ u32 counter.toNat ++ C.sha256 msg

/-- The assertion `a` is a correct answer for the hardware key `k`: its signature verifies under the key over the
authenticator's message with the flags and counter of the assertion.  P-256 signatures are DER. -/
def AssertionFor (C : Crypto) (k : PublicKey) (msg : Bytes) (a : Assertion) : Prop :=
  match k.kind with
  | .ed25519 key (some app) => a.signature.length < 4294967296 ∧
      C.ed25519Verify key (authenticatorMessage C app a.flags a.counter msg) a.signature = true
  | .ecdsa _ key (some app) => ∃ r s cr cs fr fs, DerPositive r cr ∧ DerPositive s cs ∧ DerPair cr cs a.signature ∧
      NatWidth 32 r fr ∧ NatWidth 32 s fs ∧
      C.ecdsaVerify .p256 key (authenticatorMessage C app a.flags a.counter msg) (fr ++ fs) = true
  | _ => False

/-- A hardware private key with its public half: known type, application present. -/
def HardwareKey (k : PrivateKey) (s : SkPrivateKey) (app : String) : Prop :=
  k.pubkey.keyType ∈ keyTypes ∧
  ((k.kind = .ed25519Sk s ∧ k.pubkey.keyType.name = "sk-ssh-ed25519@openssh.com" ∧
      ∃ key, k.pubkey.kind = .ed25519 key (some app)) ∨
   (k.kind = .ecdsaSk s ∧ k.pubkey.keyType.name = "sk-ecdsa-sha2-nistp256@openssh.com" ∧
      ∃ c key, k.pubkey.kind = .ecdsa c key (some app)))

/-- What the authenticator answers for a hardware key: it is asked for the application, message and handle of
the key.  `ok none` is a refusal, `panic` a failing transport. -/
def deviceAnswer (F : Features) (C : Crypto) (D : FidoDev) (s : SkPrivateKey) (app : String) (msg : Bytes) :
    Res (Option Assertion) :=
  match F.fido with
  | .none => .ok none
  | .ctapHid => .ok (D.ctapAssert app msg s.handle s.pin s.devicePath)
  | .mozilla => D.mozAssert (C.sha256 msg) app s.handle s.pin

/-- OpenSSH's layout of an Ed25519 key: the secret field is the 32-byte seed followed by the public key. -/
def OpenSshEd25519 (k : PrivateKey) : Prop :=
  ∃ seed pub, seed.length = 32 ∧ pub.length = 32 ∧ k.kind = .ed25519 (seed ++ pub) ∧ k.pubkey.kind = .ed25519 pub none

end Ssh.Spec
