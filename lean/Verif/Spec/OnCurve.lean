import Verif.Spec.Wire

/-! # Points on the curves of FIPS 186-5, in their uncompressed form (SEC 1 2.3.3) -/

namespace Ssh.Spec

/-- The field of P-256. -/
def fieldP256 : Nat := 2 ^ 256 - 2 ^ 224 + 2 ^ 192 + 2 ^ 96 - 1

/-- The field of P-384. -/
def fieldP384 : Nat := 2 ^ 384 - 2 ^ 128 - 2 ^ 96 + 2 ^ 32 - 1

/-- The last coefficient of P-256. -/
def lastP256 : Nat := 0x5ac635d8aa3a93e7b3ebbd55769886bc651d06b0cc53b0f63bce3c3e27d2604b

/-- The last coefficient of P-384. -/
def lastP384 : Nat := 0xb3312fa7e23ee7e4988e056be3f82d19181d9c6efe8141120314088f5013875ac656398d8a2ed19d2a85c8edd3ec2aef

/-- `key` is a byte 4 and two numbers of `len` bytes below `p` with `y² = x³ - 3x + b` modulo `p`. -/
def OnCurve (p b len : Nat) (key : Bytes) : Prop :=
  ∃ x y, key = 4 :: (x ++ y) ∧ x.length = len ∧ y.length = len ∧ natOf x < p ∧ natOf y < p ∧
    (natOf y ^ 2 + 3 * natOf x) % p = (natOf x ^ 3 + b) % p

end Ssh.Spec
