import Verif.Spec.Rsa
import Verif.Spec.Sign
import Mathlib.Algebra.Group.Defs

/-!
# ECDSA as in FIPS 186-5 and Ed25519 as in RFC 8032

Nothing here is about the code.  A curve is an arbitrary commutative group with a base point, coordinates and encodings; then
come keys, signatures and their verification, and what it means for the arbitrary functions in `Crypto` to compute them.
-/

namespace Ssh.Spec

/-- A curve for ECDSA: a base point of prime order, the first coordinate of a point as a number, and encodings of points, of
which a point may have several (or none, like the neutral element); `written` is the uncompressed one. -/
structure EcDomain (E : Type) [AddCommGroup E] where
  base : E
  order : Nat
  prime : IsPrime order
  cycle : order • base = 0
  nontrivial : base ≠ 0
  coordX : E → Nat
  written : E → Bytes
  decode : Bytes → Option E
  decode_written : ∀ P, P ≠ 0 → decode (written P) = some P

section
variable {E : Type} [AddCommGroup E]

/-- The number that is signed for a message: its hash, as long as the order of the base point. -/
def ecdsaHash (C : Crypto) : EcAlg → Bytes → Nat
  | .p256, m => natOf (C.sha256 m)
  | .p384, m => natOf (C.sha384 m)

/-- `(r, s)` is a signature of `e` by the secret `d` (FIPS 186-5 6.4.1), with some per-message secret `k`. -/
def EcdsaSignature (c : EcDomain E) (d e r s : Nat) : Prop :=
  ∃ k kinv, 0 < k ∧ k < c.order ∧ k * kinv % c.order = 1 ∧ r = c.coordX (k • c.base) % c.order ∧ r ≠ 0 ∧
    s = kinv * (e + r * d) % c.order ∧ s ≠ 0

/-- `(r, s)` is valid for `e` and the public point `Q` (FIPS 186-5 6.4.2). -/
def EcdsaValid (c : EcDomain E) (Q : E) (e r s : Nat) : Prop :=
  0 < r ∧ r < c.order ∧ 0 < s ∧ s < c.order ∧ ∃ w, s * w % c.order = 1 ∧
    (e * w % c.order) • c.base + (r * w % c.order) • Q ≠ 0 ∧
    c.coordX ((e * w % c.order) • c.base + (r * w % c.order) • Q) % c.order = r

/-- The signing primitive takes secrets written with the full number of bytes, from 1 to the order, that belong to the public
point; then it gives some signature in DER.  It refuses everything else. -/
def SignsEcdsa (C : Crypto) (alg : EcAlg) (c : EcDomain E) : Prop :=
  ∀ secret pub m,
    ((∃ d, NatWidth (ecWidth alg) d secret ∧ 0 < d ∧ d < c.order ∧ c.decode pub = some (d • c.base)) ↔
      ∃ sig, C.ecdsaSign alg secret pub m = some sig) ∧
    ∀ sig, C.ecdsaSign alg secret pub m = some sig →
      ∃ r s cr cs, EcdsaSignature c (natOf secret) (ecdsaHash C alg m) r s ∧ DerPositive r cr ∧ DerPositive s cs ∧ DerPair cr cs sig

/-- A stored secret and a public point belong together: the secret is written with the full number of bytes, or with a zero
byte in front of them. -/
def EcPair (alg : EcAlg) (c : EcDomain E) (secret pub : Bytes) : Prop :=
  ∃ d f, (secret = f ∧ secret.head? ≠ some 0 ∨ secret = 0 :: f) ∧ NatWidth (ecWidth alg) d f ∧ 0 < d ∧ d < c.order ∧
    c.decode pub = some (d • c.base)

/-- The verifying primitive accepts exactly the valid signatures, both numbers written with the full number of bytes. -/
def VerifiesEcdsa (C : Crypto) (alg : EcAlg) (c : EcDomain E) : Prop :=
  ∀ key m sig, C.ecdsaVerify alg key m sig = true ↔
    ∃ Q r s fr fs, c.decode key = some Q ∧ sig = fr ++ fs ∧ NatWidth (ecWidth alg) r fr ∧ NatWidth (ecWidth alg) s fs ∧
      EcdsaValid c Q (ecdsaHash C alg m) r s

/-- The blob `sig` carries these two numbers. -/
def CarriesNumbers (sig : Bytes) (r s : Nat) : Prop :=
  ∃ label w1 w2 tail x1 x2 junk rb sb, sig = w1 ++ (w2 ++ tail) ∧ Text label w1 ∧ Frame (x1 ++ (x2 ++ junk)) w2 ∧ Mpint rb x1 ∧ Mpint sb x2 ∧
    natOf rb = r ∧ natOf sb = s

/-- The curve of Ed25519: a base point of some order below `2 ^ 256`, and encodings of 32 bytes. -/
structure EdDomain (E : Type) [AddCommGroup E] where
  base : E
  order : Nat
  positive : 0 < order
  small : order < 2 ^ 256
  cycle : order • base = 0
  written : E → Bytes
  written_length : ∀ P, (written P).length = 32
  decode : Bytes → Option E
  decode_written : ∀ P, decode (written P) = some P

/-- Little-endian value. -/
def littleEndian (b : Bytes) : Nat := natOf b.reverse

/-- The secret number of a seed (RFC 8032 5.1.5): of the first 32 bytes of its hash the lowest three bits and the highest bit
are cleared and the second highest is set. -/
def edScalar (C : Crypto) (seed : Bytes) : Nat := 2 ^ 254 + littleEndian ((C.sha512 seed).take 32) % 2 ^ 254 / 8 * 8

/-- The public key of a seed. -/
def edPublic (C : Crypto) (c : EdDomain E) (seed : Bytes) : Bytes := c.written (edScalar C seed • c.base)

/-- `sig` is the signature of `m` by `seed` (RFC 8032 5.1.6). -/
def EdSignature (C : Crypto) (c : EdDomain E) (seed m sig : Bytes) : Prop :=
  let r := littleEndian (C.sha512 ((C.sha512 seed).drop 32 ++ m)) % c.order
  let R := c.written (r • c.base)
  let k := littleEndian (C.sha512 (R ++ (edPublic C c seed ++ m))) % c.order
  ∃ S, S.length = 32 ∧ littleEndian S = (r + k * edScalar C seed) % c.order ∧ sig = R ++ S

/-- `sig` is valid for `m` and the public key `key` (RFC 8032 5.1.7, without the cofactor, comparing encodings). -/
def EdValid (C : Crypto) (c : EdDomain E) (key m sig : Bytes) : Prop :=
  ∃ A R S, c.decode key = some A ∧ R.length = 32 ∧ S.length = 32 ∧ sig = R ++ S ∧ littleEndian S < c.order ∧
    R = c.written (littleEndian S • c.base - (littleEndian (C.sha512 (R ++ (key ++ m))) % c.order) • A)

/-- The signing primitive takes seeds of 32 bytes with the public key that belongs to them, and gives their signature. -/
def SignsEd25519 (C : Crypto) (c : EdDomain E) : Prop :=
  ∀ seed pub m sig, C.ed25519Sign seed pub m = some sig ↔
    seed.length = 32 ∧ pub = edPublic C c seed ∧ EdSignature C c seed m sig

/-- The verifying primitive accepts exactly the valid signatures. -/
def VerifiesEd25519 (C : Crypto) (c : EdDomain E) : Prop :=
  ∀ key m sig, C.ed25519Verify key m sig = true ↔ EdValid C c key m sig

/-- The public key is computed from seeds of 32 bytes. -/
def PublicEd25519 (C : Crypto) (c : EdDomain E) : Prop :=
  ∀ seed pub, C.ed25519Pub seed = some pub ↔ seed.length = 32 ∧ pub = edPublic C c seed

/-- An authenticator's answer is the signature of its message by the secret of the public key. -/
def MadeBy {E' : Type} [AddCommGroup E'] (C : Crypto) (c : EcDomain E) (c' : EdDomain E') (k : PublicKey) (msg : Bytes) (a : Assertion) : Prop :=
  match k.kind with
  | .ed25519 key (some app) => ∃ seed, key = edPublic C c' seed ∧
      EdSignature C c' seed (authenticatorMessage C app a.flags a.counter msg) a.signature
  | .ecdsa _ key (some app) => ∃ d r s cr cs, c.decode key = some (d • c.base) ∧
      EcdsaSignature c d (ecdsaHash C .p256 (authenticatorMessage C app a.flags a.counter msg)) r s ∧ DerPositive r cr ∧ DerPositive s cs ∧
      DerPair cr cs a.signature
  | _ => False

end

end Ssh.Spec
