import Verif.Spec.Sign
import Verif.Model.Crypto

/-!
# RSA signatures as in RFC 8017

Nothing here is about the code: the numbers of an RSA key, RSASSA-PKCS1-v1_5 with SHA-512, and what it means for the arbitrary
functions in `Crypto` to compute it.
-/

namespace Ssh.Spec

/-- `p` is a prime number. -/
def IsPrime (p : Nat) : Prop := 2 ≤ p ∧ ∀ a, a ∣ p → a = 1 ∨ a = p

/-- The numbers of an RSA key with two odd primes (RFC 8017 3.1 and 3.2): the exponents undo each other modulo `p - 1` and
`q - 1`, and `qinv` is the inverse of `q` modulo `p`. -/
structure RsaNumbers (n e d p q qinv : Nat) : Prop where
  primeP : IsPrime p
  primeQ : IsPrime q
  oddP : 2 < p
  oddQ : 2 < q
  different : p ≠ q
  modulus : n = p * q
  inverseP : e * d % (p - 1) = 1
  inverseQ : e * d % (q - 1) = 1
  coefficient : q * qinv % p = 1

/-- RSASP1 with the Chinese remainder theorem (RFC 8017 5.2.1, step 2.b). -/
def rsasp1 (p q dp dq qinv m : Nat) : Nat :=
  let s1 : Nat := m ^ dp % p
  let s2 : Nat := m ^ dq % q
  s2 + q * (((s1 : Int) - s2) * qinv % p).toNat

/-- The DER `DigestInfo` of a SHA-512 hash (RFC 8017 9.2, note 1). -/
def sha512Info (h : Bytes) : Bytes :=
  [0x30, 0x51, 0x30, 0x0d, 0x06, 0x09, 0x60, 0x86, 0x48, 0x01, 0x65, 0x03, 0x04, 0x02, 0x03, 0x05, 0x00, 0x04, 0x40] ++ h

/-- EMSA-PKCS1-v1_5 (RFC 8017 9.2): `em` is the encoded message of length `k`. -/
def Emsa (C : Crypto) (m : Bytes) (k : Nat) (em : Bytes) : Prop :=
  em.length = k ∧ ∃ ps, 8 ≤ ps ∧ em = [0x00, 0x01] ++ (List.replicate ps 0xff ++ (0x00 :: sha512Info (C.sha512 m)))

/-- `k` is the number of bytes of `n`. -/
def Octets (n k : Nat) : Prop := 0 < k ∧ 256 ^ (k - 1) ≤ n ∧ n < 256 ^ k

/-- The signing primitive, unless it refuses the key, computes RSASSA-PKCS1-v1_5 (RFC 8017 8.2.1) with the numbers of the
PKCS#1 key (which fits in memory) by the Chinese remainder theorem; it does not refuse a correct key that it supports. -/
def SignsRsa (C : Crypto) (supported : (n e d p q : Nat) → Prop) : Prop :=
  ∀ n e d p q dp dq qinv der m, Pkcs1 n e d p q dp dq qinv der → der.length < 256 ^ 8 →
    (RsaNumbers n e d p q qinv → dp = d % (p - 1) → dq = d % (q - 1) → supported n e d p q → ∃ s, C.rsaSign der m = some s) ∧
    ∀ s, C.rsaSign der m = some s →
      ∃ k em, Octets n k ∧ Emsa C m k em ∧ NatWidth k (rsasp1 p q dp dq qinv (natOf em)) s

/-- The verifying primitive accepts exactly what RSASSA-PKCS1-v1_5 (RFC 8017 8.2.2) accepts, for the moduli and exponents it
supports. -/
def VerifiesRsa (C : Crypto) (supported : (n e : Nat) → Prop) : Prop :=
  ∀ nb eb m s, C.rsaVerify .sha512 nb eb m s = true ↔ supported (natOf nb) (natOf eb) ∧
    ∃ k em, Octets (natOf nb) k ∧ Emsa C m k em ∧ s.length = k ∧ natOf s < natOf nb ∧ natOf s ^ natOf eb % natOf nb = natOf em

/-- With every hash the verifying primitive accepts only strings as long as the modulus, of smaller numbers, whose power is a
number that the hash, the modulus and the message determine. -/
def PowersRsa (C : Crypto) : Prop :=
  ∃ em : RsaAlg → Nat → Bytes → Nat, ∀ alg nb eb m s, C.rsaVerify alg nb eb m s = true →
    Octets (natOf nb) s.length ∧ natOf s < natOf nb ∧ natOf s ^ natOf eb % natOf nb = em alg (natOf nb) m

end Ssh.Spec
