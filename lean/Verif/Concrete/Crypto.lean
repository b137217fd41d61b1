import Verif.Concrete.Bcrypt
import Verif.Concrete.Ec
import Verif.Model.PubKey

/-! # AES-256 in counter mode, RSA signing, and the instance of `Crypto` -/

namespace Ssh.Concrete

/-- Multiplication by `x` in the field of AES. -/
def xtime (a : Nat) : Nat := if a ≥ 128 then (2 * a) % 256 ^^^ 0x1b else 2 * a

/-- Multiplication in the field of AES, eight steps. -/
def gmul : Nat → Nat → Nat → Nat
  | 0, _, _ => 0
  | n + 1, a, b => (if b % 2 = 1 then a else 0) ^^^ gmul n (xtime a) (b / 2)

def rotl8 (x k : Nat) : Nat := (x <<< k) % 256 ||| x >>> (8 - k)

/-- The S-box from its definition: inverse (the 254th power), then the affine map. -/
def sboxOf (a : Nat) : Nat :=
  let a2 := gmul 8 a a
  let a3 := gmul 8 a2 a
  let a6 := gmul 8 a3 a3
  let a12 := gmul 8 a6 a6
  let a15 := gmul 8 a12 a3
  let a30 := gmul 8 a15 a15
  let a60 := gmul 8 a30 a30
  let a120 := gmul 8 a60 a60
  let a126 := gmul 8 a120 a6
  let a127 := gmul 8 a126 a
  let i := gmul 8 a127 a127
  i ^^^ rotl8 i 1 ^^^ rotl8 i 2 ^^^ rotl8 i 3 ^^^ rotl8 i 4 ^^^ 0x63

def sboxTable : Array Nat := (List.range 256).map sboxOf |>.toArray

def sbox (a : Nat) : Nat := sboxTable.getD a 0

/-- The sixty words of the key schedule, newest first. -/
def expandKey : Nat → Nat → Nat → List (List Nat) → List (List Nat)
  | 0, _, _, ws => ws
  | n + 1, i, rcon, ws =>
    let t := ws.getD 0 []
    let old := ws.getD 7 []
    if i % 8 = 0 then
      let t := (t.drop 1 ++ t.take 1).map sbox
      let t := [t.getD 0 0 ^^^ rcon, t.getD 1 0, t.getD 2 0, t.getD 3 0]
      expandKey n (i + 1) (xtime rcon) (List.zipWith (· ^^^ ·) old t :: ws)
    else if i % 8 = 4 then expandKey n (i + 1) rcon (List.zipWith (· ^^^ ·) old (t.map sbox) :: ws)
    else expandKey n (i + 1) rcon (List.zipWith (· ^^^ ·) old t :: ws)

/-- The fifteen round keys. -/
def roundKeys (key : Bytes) : List (List Nat) :=
  let k := key.map (·.toNat)
  let ws := (expandKey 52 8 1 ((List.range 8).map fun i => (k.drop (4 * i)).take 4).reverse).reverse
  (List.range 15).map fun r => ((ws.drop (4 * r)).take 4).flatten

def shiftRows (s : List Nat) : List Nat := (List.range 16).map fun i => s.getD ((i + 4 * (i % 4)) % 16) 0

def mixColumn (a b c d : Nat) : List Nat :=
  [xtime a ^^^ (xtime b ^^^ b) ^^^ c ^^^ d, a ^^^ xtime b ^^^ (xtime c ^^^ c) ^^^ d,
    a ^^^ b ^^^ xtime c ^^^ (xtime d ^^^ d), (xtime a ^^^ a) ^^^ b ^^^ c ^^^ xtime d]

def mixColumns : List Nat → List Nat
  | a :: b :: c :: d :: rest => mixColumn a b c d ++ mixColumns rest
  | _ => []

def aesRounds : List (List Nat) → List Nat → List Nat
  | [], s => s
  | [k], s => List.zipWith (· ^^^ ·) (shiftRows (s.map sbox)) k
  | k :: ks, s => aesRounds ks (List.zipWith (· ^^^ ·) (mixColumns (shiftRows (s.map sbox))) k)

def aesBlock (key block : Bytes) : Bytes :=
  match roundKeys key with
  | [] => []
  | k :: ks => (aesRounds ks (List.zipWith (· ^^^ ·) (block.map (·.toNat)) k)).map UInt8.ofNat

/-- Byte `i` of the key stream with a big-endian counter of 128 bits. -/
def aesKeystream (key iv : Bytes) (i : Nat) : UInt8 :=
  (aesBlock key (natBytes 16 ((toNat iv + i / 16) % 2 ^ 128))).getD (i % 16) 0

/-- FIPS 197, C.3. -/
def fipsKey : Bytes := (List.range 32).map UInt8.ofNat
#guard aesBlock fipsKey ((List.range 16).map fun i => UInt8.ofNat (17 * i)) == natBytes 16 0x8ea2b7ca516745bfeafc49904b496089

/-! ## DER -/

/-- The tag, the contents and what follows. -/
def derNext (b : Bytes) : Option (UInt8 × Bytes × Bytes) :=
  match b with
  | tag :: l :: rest =>
    if l < 0x80 then
      if rest.length < l.toNat then none else some (tag, rest.take l.toNat, rest.drop l.toNat)
    else
      let k := l.toNat - 0x80
      let n := toNat (rest.take k)
      let rest := rest.drop k
      if k = 0 ∨ k > 8 ∨ rest.length < n then none else some (tag, rest.take n, rest.drop n)
  | _ => none

/-- Consecutive objects. -/
def derAll : Nat → Bytes → Option (List (UInt8 × Bytes))
  | 0, _ => none
  | _, [] => some []
  | n + 1, b => do
    let (t, c, rest) ← derNext b
    let tl ← derAll n rest
    return (t, c) :: tl

def derSeq (b : Bytes) : Option (List (UInt8 × Bytes)) := do
  let (t, c, _) ← derNext b
  if t ≠ 0x30 then none else derAll (c.length + 1) c

/-- Signing with the modulus, primes, exponents and coefficient of an `RSAPrivateKey`, PKCS 1 version 1.5 with SHA-512, by the
Chinese remainder theorem. -/
def rsaSign (der msg : Bytes) : Option Bytes :=
  match derSeq der with
  | some [_, n, _, _, p, q, dp, dq, qinv] =>
    force (toNat n.2) fun n =>
    force (toNat p.2) fun p =>
    force (toNat q.2) fun q =>
    let len := (n.log2 + 8) / 8
    if len < 94 ∨ p < 2 ∨ q < 2 then none
    else
      force (toNat (rsaPadded len .sha512 msg)) fun m =>
      force (powMod m (toNat dp.2) p) fun s1 =>
      force (powMod m (toNat dq.2) q) fun s2 =>
      force (s2 + q * ((s1 + p - s2 % p) * toNat qinv.2 % p)) fun s =>
      if s < 256 ^ len then some (natBytes len s) else none
  | _ => none

/-- All primitives computed.  The table holds keys derived from passphrases beforehand (with the empty one they are all computed). -/
def realCrypto (table : List ((String × Bytes × UInt32) × (Bytes × Bytes))) : Crypto where
  sha256 := sha256
  sha384 := sha384
  sha512 := sha512
  ecdsaVerify alg key msg sig := match alg with
    | .p256 => ecdsaVerify p256 key msg sig
    | .p384 => ecdsaVerify p384 key msg sig
  ed25519Verify := ed25519Verify
  rsaVerify := rsaVerify
  ecdsaAsn1Verify := ecdsaAsn1Verify
  ecdsaSign alg secret pub msg := match alg with
    | .p256 => ecdsaSign p256 secret pub msg
    | .p384 => ecdsaSign p384 secret pub msg
  ed25519Sign := ed25519Sign
  ed25519Pub := ed25519Pub
  rsaSign := rsaSign
  bcryptPbkdf pass salt rounds := (table.lookup (pass, salt, rounds)).or (bcryptPbkdf pass salt rounds)
  aesKeystream := aesKeystream
  aesCtrOk _ _ _ := true

end Ssh.Concrete
