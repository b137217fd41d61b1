import Verif.Concrete.Sha

/-!
# bcrypt_pbkdf

The derivation of keys from passphrases that OpenSSH uses (bcrypt_pbkdf.c of OpenBSD, the crate `bcrypt-pbkdf` 0.6): Blowfish with
its constants from the digits of pi, bcrypt's expensive key schedule on SHA-512 values, and PBKDF2-like rounds whose output is
spread over the key.
-/

namespace Ssh.Concrete

/-- `2 ^ bits / x - 2 ^ bits / (3 x ^ 3) + …`, each term cut off: the arc tangent of `1 / x`. -/
def arctanInv (bits x : Nat) : Int := go (bits + 1) (2 ^ bits / x) 1 1 0
where
  go : Nat → Nat → Nat → Int → Int → Int
    | 0, _, _, _, s => s
    | fuel + 1, t, k, sign, s => if t = 0 then s else go fuel (t / (x * x)) (k + 2) (-sign) (s + sign * (t / k : Nat))

/-- The first `n` words of 32 bits of the fraction of pi (with 64 more bits in the computation). -/
def piWords (n : Nat) : Array UInt32 :=
  let bits := 32 * n + 64
  let fraction := (4 * (4 * arctanInv bits 5 - arctanInv bits 239)).toNat - 3 * 2 ^ bits
  (Array.range n).map fun i => UInt32.ofNat (fraction >>> (64 + 32 * (n - 1 - i)))

/-- The state of Blowfish: 18 round keys and four tables of 256 words, one behind the other. -/
structure Blowfish where
  p : Array UInt32
  s : Array UInt32

def blowfishInit : Blowfish :=
  let w := piWords 1042
  ⟨w.extract 0 18, w.extract 18 1042⟩

/-- The round function. -/
@[inline] def feistel (s : Array UInt32) (x : UInt32) : UInt32 :=
  ((s[(x >>> 24).toNat]! + s[256 + ((x >>> 16) &&& 255).toNat]!) ^^^ s[512 + ((x >>> 8) &&& 255).toNat]!) + s[768 + (x &&& 255).toNat]!

/-- Sixteen rounds, two at a time, and the last two keys. -/
def encipher (p s : Array UInt32) (l r : UInt32) : UInt32 × UInt32 := go 8 0 l r
where
  go : Nat → Nat → UInt32 → UInt32 → UInt32 × UInt32
    | 0, _, l, r => (r ^^^ p[17]!, l ^^^ p[16]!)
    | n + 1, i, l, r =>
      let l := l ^^^ p[i]!
      let r := r ^^^ feistel s l ^^^ p[i + 1]!
      go n (i + 2) (l ^^^ feistel s r) r

/-- The key schedule with a salt (whose words go round), as bcrypt extends it; all zero it is that of Blowfish. -/
def expandState (b : Blowfish) (salt key : Array UInt32) : Blowfish :=
  let p := (Array.range 18).foldl (fun p i => p.modify i (· ^^^ key[i % key.size]!)) b.p
  let (p, l, r) := fillP 9 0 p 0 0
  ⟨p, fillS p 512 0 b.s l r⟩
where
  word (i : Nat) : UInt32 := salt[i % salt.size]!
  fillP : Nat → Nat → Array UInt32 → UInt32 → UInt32 → Array UInt32 × UInt32 × UInt32
    | 0, _, p, l, r => (p, l, r)
    | n + 1, i, p, l, r =>
      let (l, r) := encipher p b.s (l ^^^ word i) (r ^^^ word (i + 1))
      fillP n (i + 2) ((p.set! i l).set! (i + 1) r) l r
  fillS (p : Array UInt32) : Nat → Nat → Array UInt32 → UInt32 → UInt32 → Array UInt32
    | 0, _, s, _, _ => s
    | n + 1, i, s, l, r =>
      let (l, r) := encipher p s (l ^^^ word (18 + i)) (r ^^^ word (18 + i + 1))
      fillS p n (i + 2) ((s.set! i l).set! (i + 1) r) l r

def bigWords : Bytes → List UInt32
  | a :: b :: c :: d :: t => (a.toUInt32 <<< 24 ||| b.toUInt32 <<< 16 ||| c.toUInt32 <<< 8 ||| d.toUInt32) :: bigWords t
  | _ => []

def littleBytes (x : UInt32) : Bytes := [x.toUInt8, (x >>> 8).toUInt8, (x >>> 16).toUInt8, (x >>> 24).toUInt8]

/-- The hash of bcrypt_pbkdf, of two SHA-512 values. -/
def bcryptHash (start : Blowfish) (pass salt : Bytes) : Bytes :=
  let pass := (bigWords pass).toArray
  let salt := (bigWords salt).toArray
  let b := schedule pass salt 64 (expandState start salt pass)
  (blocks b (bigWords "OxychromaticBlowfishSwatDynamite".toUTF8.data.toList)).flatMap littleBytes
where
  schedule (pass salt : Array UInt32) : Nat → Blowfish → Blowfish
    | 0, b => b
    | n + 1, b => schedule pass salt n (expandState (expandState b #[0] salt) #[0] pass)
  repeated (b : Blowfish) : Nat → UInt32 → UInt32 → List UInt32
    | 0, l, r => [l, r]
    | n + 1, l, r => let (l, r) := encipher b.p b.s l r; repeated b n l r
  blocks (b : Blowfish) : List UInt32 → List UInt32
    | l :: r :: t => repeated b 64 l r ++ blocks b t
    | _ => []

/-- One block of output: the sum of the hashes of all rounds. -/
def bcryptBlock (start : Blowfish) (pass salt : Bytes) (rounds count : Nat) : Bytes :=
  let first := bcryptHash start pass (sha512 (salt ++ [UInt8.ofNat (count >>> 24), UInt8.ofNat (count >>> 16), UInt8.ofNat (count >>> 8), UInt8.ofNat count]))
  go (rounds - 1) first first
where
  go : Nat → Bytes → Bytes → Bytes
    | 0, _, out => out
    | n + 1, last, out =>
      let next := bcryptHash start pass (sha512 last)
      go n next (List.zipWith (· ^^^ ·) out next)

/-- 48 bytes as privkey.rs:576-594 asks for them: two blocks whose bytes alternate; the first 32 are the key, the others the
initialization vector.  Refused are an empty passphrase, an empty salt and no rounds. -/
def bcryptPbkdf (pass : String) (salt : Bytes) (rounds : UInt32) : Option (Bytes × Bytes) :=
  if pass.isEmpty ∨ salt = [] ∨ rounds = 0 then none
  else
    let p := sha512 pass.toUTF8.data.toList
    let start := blowfishInit
    let a := bcryptBlock start p salt rounds.toNat 1
    let b := bcryptBlock start p salt rounds.toNat 2
    let out := (List.zip (a.take 24) (b.take 24)).flatMap fun (x, y) => [x, y]
    some (out.take 32, out.drop 32)

end Ssh.Concrete
