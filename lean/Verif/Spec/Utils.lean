import Verif.Spec.Verify

/-! # DER form of ECDSA signatures (X.690, short-form lengths) -/

namespace Ssh.Spec

/-- `w` is the DER `SEQUENCE` of two `INTEGER`s with content bytes `r` and `s`. -/
def DerPair (r s w : Bytes) : Prop :=
  r.length + s.length + 4 < 128 ∧
  w = [0x30, UInt8.ofNat (r.length + s.length + 4)] ++ ([0x02, UInt8.ofNat r.length] ++ r) ++
    ([0x02, UInt8.ofNat s.length] ++ s)

/-- `c` is the DER content of the positive integer `n` (two's complement, shortest). -/
def DerPositive (n : Nat) (c : Bytes) : Prop := MpintPayload c ∧ natOf c = n ∧ n ≠ 0

/-- `f` is the number `n` written with exactly `len` bytes. -/
def NatWidth (len n : Nat) (f : Bytes) : Prop := f.length = len ∧ natOf f = n

/-- A string field. -/
def str (b : Bytes) : Bytes := u32 b.length ++ b

/-- A text field. -/
def text (s : String) : Bytes := str s.toByteArray.data.toList

/-- `w` is read as two `INTEGER`s with content bytes `r` and `s`: like `DerPair`, but the length of the sequence may be
anything, lengths up to 255 are written with one byte, and `s` is not empty. -/
def LooseDer (r s w : Bytes) : Prop :=
  ∃ l : UInt8, r.length < 256 ∧ s.length < 256 ∧ s ≠ [] ∧
    w = [0x30, l, 0x02, UInt8.ofNat r.length] ++ (r ++ ([0x02, UInt8.ofNat s.length] ++ s))

/-- The SSH form `blob` of what a signing primitive or device returned (`sig`) for a key: the label (the name of the key's
type; for RSA always rsa-sha2-512) and one string, which for ECDSA holds the two integers. -/
inductive SshForm (k : PublicKey) (sig : Bytes) : Bytes → Prop where
  | rsa (e n) : k.kind = .rsa e n → SshForm k sig (text "rsa-sha2-512" ++ str sig)
  | ed25519 (key app) : k.kind = .ed25519 key app → SshForm k sig (text k.keyType.name ++ str sig)
  | ecdsa (curve key app r s) : k.kind = .ecdsa curve key app → LooseDer r s sig →
      SshForm k sig (text k.keyType.name ++ str (str r ++ str s))

end Ssh.Spec
