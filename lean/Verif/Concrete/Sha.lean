import Verif.Model.Crypto

/-!
# SHA-1 and SHA-2, concretely

The model leaves cryptography arbitrary.  The modules in `Verif/Concrete` define one real instance in Lean, used to run the model
on the test vectors of the project (`Verif/Tests`) and as a concrete case in examples.  No property depends on them.  Everything is computed with `Nat`, which the kernel
does quickly; `force` keeps it from building up unevaluated terms.
-/

namespace Ssh.Concrete

/-- Evaluate a number before going on. -/
@[inline] def force {α : Type} (n : Nat) (f : Nat → α) : α :=
  match n with
  | 0 => f 0
  | n + 1 => f (n + 1)

/-- Big-endian value. -/
def toNat (b : Bytes) : Nat := b.foldl (fun a x => a * 256 + x.toNat) 0

/-- Parameters of a member of the SHA-2 family. -/
structure Sha2 where
  bits : Nat
  k : List Nat
  init : List Nat
  S0 : Nat × Nat × Nat
  S1 : Nat × Nat × Nat
  s0 : Nat × Nat × Nat
  s1 : Nat × Nat × Nat

def rotr (w x n : Nat) : Nat := (x >>> n) ||| ((x <<< (w - n)) % 2 ^ w)

def bigSigma (w : Nat) (r : Nat × Nat × Nat) (x : Nat) : Nat := rotr w x r.1 ^^^ rotr w x r.2.1 ^^^ rotr w x r.2.2
def smallSigma (w : Nat) (r : Nat × Nat × Nat) (x : Nat) : Nat := rotr w x r.1 ^^^ rotr w x r.2.1 ^^^ (x >>> r.2.2)

/-- One round per constant; `ws` are the sixteen next words of the message schedule. -/
def rounds (P : Sha2) : List Nat → List Nat → List Nat → List Nat
  | [], _, st => st
  | k :: ks, w0 :: ws, [a, b, c, d, e, f, g, h] =>
    let M := 2 ^ P.bits
    force ((h + bigSigma P.bits P.S1 e + ((e &&& f) ^^^ ((M - 1 - e) &&& g)) + k + w0) % M) fun t1 =>
    force ((bigSigma P.bits P.S0 a + ((a &&& b) ^^^ (a &&& c) ^^^ (b &&& c))) % M) fun t2 =>
    force ((d + t1) % M) fun e' =>
    force ((t1 + t2) % M) fun a' =>
    force ((smallSigma P.bits P.s1 (ws.getD 13 0) + ws.getD 8 0 + smallSigma P.bits P.s0 (ws.getD 0 0) + w0) % M) fun w' =>
    rounds P ks (ws ++ [w']) [a', a, b, c, e', e, f, g]
  | _, _, st => st

def addAll (M : Nat) : List Nat → List Nat → List Nat
  | x :: xs, y :: ys => force ((x + y) % M) fun z => z :: addAll M xs ys
  | _, _ => []

/-- The words of a block. -/
def words (n : Nat) : Nat → Bytes → List Nat
  | 0, _ => []
  | m + 1, b => force (toNat (b.take n)) fun x => x :: words n m (b.drop n)

def blocks (P : Sha2) : Nat → Bytes → List Nat → List Nat
  | 0, _, st => st
  | n + 1, b, st => blocks P n (b.drop (P.bits * 2)) (addAll (2 ^ P.bits) (rounds P P.k (words (P.bits / 8) 16 b) st) st)

def natBytes : Nat → Nat → Bytes
  | 0, _ => []
  | n + 1, x => UInt8.ofNat (x / 256 ^ n % 256) :: natBytes n x

def hash (P : Sha2) (m : Bytes) : Bytes :=
  let blk := P.bits * 2
  let l := m.length
  let zeros := (blk - (l + 1 + P.bits / 4) % blk) % blk
  let padded := m ++ 0x80 :: (List.replicate zeros 0 ++ natBytes (P.bits / 4) (8 * l))
  (blocks P (padded.length / blk) padded P.init).flatMap (natBytes (P.bits / 8))

def sha256P : Sha2 where
  bits := 32
  k := [
    0x428a2f98, 0x71374491, 0xb5c0fbcf, 0xe9b5dba5, 0x3956c25b, 0x59f111f1, 0x923f82a4, 0xab1c5ed5, 0xd807aa98, 0x12835b01,
    0x243185be, 0x550c7dc3, 0x72be5d74, 0x80deb1fe, 0x9bdc06a7, 0xc19bf174, 0xe49b69c1, 0xefbe4786, 0x0fc19dc6, 0x240ca1cc,
    0x2de92c6f, 0x4a7484aa, 0x5cb0a9dc, 0x76f988da, 0x983e5152, 0xa831c66d, 0xb00327c8, 0xbf597fc7, 0xc6e00bf3, 0xd5a79147,
    0x06ca6351, 0x14292967, 0x27b70a85, 0x2e1b2138, 0x4d2c6dfc, 0x53380d13, 0x650a7354, 0x766a0abb, 0x81c2c92e, 0x92722c85,
    0xa2bfe8a1, 0xa81a664b, 0xc24b8b70, 0xc76c51a3, 0xd192e819, 0xd6990624, 0xf40e3585, 0x106aa070, 0x19a4c116, 0x1e376c08,
    0x2748774c, 0x34b0bcb5, 0x391c0cb3, 0x4ed8aa4a, 0x5b9cca4f, 0x682e6ff3, 0x748f82ee, 0x78a5636f, 0x84c87814, 0x8cc70208,
    0x90befffa, 0xa4506ceb, 0xbef9a3f7, 0xc67178f2]
  init := [
    0x6a09e667, 0xbb67ae85, 0x3c6ef372, 0xa54ff53a, 0x510e527f, 0x9b05688c, 0x1f83d9ab, 0x5be0cd19]
  S0 := (2, 13, 22)
  S1 := (6, 11, 25)
  s0 := (7, 18, 3)
  s1 := (17, 19, 10)

def sha512P : Sha2 where
  bits := 64
  k := [
    0x428a2f98d728ae22, 0x7137449123ef65cd, 0xb5c0fbcfec4d3b2f, 0xe9b5dba58189dbbc, 0x3956c25bf348b538, 0x59f111f1b605d019,
    0x923f82a4af194f9b, 0xab1c5ed5da6d8118, 0xd807aa98a3030242, 0x12835b0145706fbe, 0x243185be4ee4b28c, 0x550c7dc3d5ffb4e2,
    0x72be5d74f27b896f, 0x80deb1fe3b1696b1, 0x9bdc06a725c71235, 0xc19bf174cf692694, 0xe49b69c19ef14ad2, 0xefbe4786384f25e3,
    0x0fc19dc68b8cd5b5, 0x240ca1cc77ac9c65, 0x2de92c6f592b0275, 0x4a7484aa6ea6e483, 0x5cb0a9dcbd41fbd4, 0x76f988da831153b5,
    0x983e5152ee66dfab, 0xa831c66d2db43210, 0xb00327c898fb213f, 0xbf597fc7beef0ee4, 0xc6e00bf33da88fc2, 0xd5a79147930aa725,
    0x06ca6351e003826f, 0x142929670a0e6e70, 0x27b70a8546d22ffc, 0x2e1b21385c26c926, 0x4d2c6dfc5ac42aed, 0x53380d139d95b3df,
    0x650a73548baf63de, 0x766a0abb3c77b2a8, 0x81c2c92e47edaee6, 0x92722c851482353b, 0xa2bfe8a14cf10364, 0xa81a664bbc423001,
    0xc24b8b70d0f89791, 0xc76c51a30654be30, 0xd192e819d6ef5218, 0xd69906245565a910, 0xf40e35855771202a, 0x106aa07032bbd1b8,
    0x19a4c116b8d2d0c8, 0x1e376c085141ab53, 0x2748774cdf8eeb99, 0x34b0bcb5e19b48a8, 0x391c0cb3c5c95a63, 0x4ed8aa4ae3418acb,
    0x5b9cca4f7763e373, 0x682e6ff3d6b2b8a3, 0x748f82ee5defb2fc, 0x78a5636f43172f60, 0x84c87814a1f0ab72, 0x8cc702081a6439ec,
    0x90befffa23631e28, 0xa4506cebde82bde9, 0xbef9a3f7b2c67915, 0xc67178f2e372532b, 0xca273eceea26619c, 0xd186b8c721c0c207,
    0xeada7dd6cde0eb1e, 0xf57d4f7fee6ed178, 0x06f067aa72176fba, 0x0a637dc5a2c898a6, 0x113f9804bef90dae, 0x1b710b35131c471b,
    0x28db77f523047d84, 0x32caab7b40c72493, 0x3c9ebe0a15c9bebc, 0x431d67c49c100d4c, 0x4cc5d4becb3e42b6, 0x597f299cfc657e2a,
    0x5fcb6fab3ad6faec, 0x6c44198c4a475817]
  init := [
    0x6a09e667f3bcc908, 0xbb67ae8584caa73b, 0x3c6ef372fe94f82b, 0xa54ff53a5f1d36f1, 0x510e527fade682d1, 0x9b05688c2b3e6c1f,
    0x1f83d9abfb41bd6b, 0x5be0cd19137e2179]
  S0 := (28, 34, 39)
  S1 := (14, 18, 41)
  s0 := (1, 8, 7)
  s1 := (19, 61, 6)

def sha384P : Sha2 := { sha512P with
  init := [
    0xcbbb9d5dc1059ed8, 0x629a292a367cd507, 0x9159015a3070dd17, 0x152fecd8f70e5939, 0x67332667ffc00b31, 0x8eb44a8768581511,
    0xdb0c2e0d64f98fa7, 0x47b5481dbefa4fa4] }

def sha256 (m : Bytes) : Bytes := hash sha256P m
def sha512 (m : Bytes) : Bytes := hash sha512P m
def sha384 (m : Bytes) : Bytes := (hash sha384P m).take 48

/-! ## SHA-1 -/

/-- The kind of round and its constant. -/
def sha1Rounds : List (Nat × Nat) :=
  List.replicate 20 (0, 0x5a827999) ++ List.replicate 20 (1, 0x6ed9eba1) ++ List.replicate 20 (2, 0x8f1bbcdc) ++
    List.replicate 20 (1, 0xca62c1d6)

def rotl32 (x n : Nat) : Nat := ((x <<< n) % 2 ^ 32) ||| (x >>> (32 - n))

def sha1Go : List (Nat × Nat) → List Nat → List Nat → List Nat
  | [], _, st => st
  | k :: ks, w0 :: ws, [a, b, c, d, e] =>
    let f := match k.1 with
      | 0 => (b &&& c) ||| ((2 ^ 32 - 1 - b) &&& d)
      | 1 => b ^^^ c ^^^ d
      | _ => (b &&& c) ||| (b &&& d) ||| (c &&& d)
    force ((rotl32 a 5 + f + e + k.2 + w0) % 2 ^ 32) fun a' =>
    force (rotl32 b 30) fun c' =>
    force (rotl32 (ws.getD 12 0 ^^^ ws.getD 7 0 ^^^ ws.getD 1 0 ^^^ w0) 1) fun w' =>
    sha1Go ks (ws ++ [w']) [a', a, c', c, d]
  | _, _, st => st

def sha1Blocks : Nat → Bytes → List Nat → List Nat
  | 0, _, st => st
  | n + 1, b, st => sha1Blocks n (b.drop 64) (addAll (2 ^ 32) (sha1Go sha1Rounds (words 4 16 b) st) st)

def sha1 (m : Bytes) : Bytes :=
  let padded := m ++ 0x80 :: (List.replicate ((64 - (m.length + 9) % 64) % 64) 0 ++ natBytes 8 (8 * m.length))
  (sha1Blocks (padded.length / 64) padded [0x67452301, 0xefcdab89, 0x98badcfe, 0x10325476, 0xc3d2e1f0]).flatMap (natBytes 4)

/-! ## Known answers -/

example : sha256 [97, 98, 99] = [186, 120, 22, 191, 143, 1, 207, 234, 65, 65, 64, 222, 93, 174, 34, 35, 176, 3, 97, 163, 150,
  23, 122, 156, 180, 16, 255, 97, 242, 0, 21, 173] := by decide +kernel
example : sha256 (List.replicate 150 1) = [167, 149, 192, 72, 242, 139, 196, 48, 127, 133, 153, 220, 81, 64, 254, 110, 151, 27,
  206, 106, 52, 160, 52, 155, 108, 24, 214, 203, 177, 151, 247, 95] := by decide +kernel
example : sha384 [97, 98, 99] = [203, 0, 117, 63, 69, 163, 94, 139, 181, 160, 61, 105, 154, 198, 80, 7, 39, 44, 50, 171, 14,
  222, 209, 99, 26, 139, 96, 90, 67, 255, 91, 237, 128, 134, 7, 43, 161, 231, 204, 35, 88, 186, 236, 161, 52, 200, 37, 167] :=
  by decide +kernel
example : sha512 [97, 98, 99] = [221, 175, 53, 161, 147, 97, 122, 186, 204, 65, 115, 73, 174, 32, 65, 49, 18, 230, 250, 78, 137,
  169, 126, 162, 10, 158, 238, 230, 75, 85, 211, 154, 33, 146, 153, 42, 39, 79, 193, 168, 54, 186, 60, 35, 163, 254, 235, 189,
  69, 77, 68, 35, 100, 60, 232, 14, 42, 154, 201, 79, 165, 76, 164, 159] := by decide +kernel
example : sha512 (List.replicate 150 1) = [205, 32, 201, 254, 85, 183, 92, 208, 102, 241, 50, 245, 24, 216, 196, 180, 93, 40,
  89, 212, 221, 2, 235, 198, 11, 110, 78, 228, 157, 159, 65, 191, 241, 229, 136, 216, 253, 126, 43, 87, 188, 51, 119, 248, 184,
  202, 236, 127, 187, 216, 185, 25, 172, 78, 235, 125, 125, 159, 237, 149, 216, 178, 34, 66] := by decide +kernel
example : sha1 [97, 98, 99] = [169, 153, 62, 54, 71, 6, 129, 106, 186, 62, 37, 113, 120, 80, 194, 108, 156, 208, 216, 157] := by
  decide +kernel
example : sha1 (List.replicate 150 1) = [120, 183, 113, 252, 106, 185, 147, 35, 29, 157, 47, 113, 84, 118, 134, 99, 234, 9, 36,
  23] := by decide +kernel

end Ssh.Concrete
