import Verif.Concrete.Sha

/-! # Ed25519, ECDSA and RSA, concretely -/

namespace Ssh.Concrete

/-- `b ^ e % m`, for exponents of at most `n` bits. -/
def powGo (b e m : Nat) : Nat → Nat → Nat
  | 0, acc => acc
  | n + 1, acc => force (if e.testBit n then acc * acc % m * b % m else acc * acc % m) fun acc => powGo b e m n acc

def powMod (b e m : Nat) : Nat := powGo b e m (e.log2 + 1) 1

/-- Little-endian value. -/
def leNat (b : Bytes) : Nat := toNat b.reverse

def leBytes (n x : Nat) : Bytes := (natBytes n x).reverse

/-! ## Ed25519 -/

def edP : Nat := 2 ^ 255 - 19
def edL : Nat := 2 ^ 252 + 27742317777372353535851937790883648493
def edD : Nat := 37095705934669439343138083508754565189542113879843219016388785533085940283555

/-- Extended coordinates. -/
structure EdPoint where
  x : Nat
  y : Nat
  z : Nat
  t : Nat

def EdPoint.mk' (x y z t : Nat) : EdPoint :=
  force x fun x => force y fun y => force z fun z => force t fun t => ⟨x, y, z, t⟩

def EdPoint.seq {α : Type} (p : EdPoint) (f : EdPoint → α) : α :=
  match p with
  | ⟨x, y, z, t⟩ => force x fun x => force y fun y => force z fun z => force t fun t => f ⟨x, y, z, t⟩

def edAdd : EdPoint → EdPoint → EdPoint
  | ⟨x1, y1, z1, t1⟩, ⟨x2, y2, z2, t2⟩ =>
    force ((y1 + edP - x1) * (y2 + edP - x2) % edP) fun a =>
    force ((y1 + x1) * (y2 + x2) % edP) fun b =>
    force (2 * edD * t1 * t2 % edP) fun c =>
    force (2 * z1 * z2 % edP) fun d =>
    let e := b + edP - a
    let f := d + edP - c
    let g := d + c
    let h := b + a
    EdPoint.mk' (e * f % edP) (g * h % edP) (f * g % edP) (e * h % edP)

def edBase : EdPoint :=
  ⟨15112221349535400772501151409588531511454012693041857206046113283949847762202,
    46316835694926478169428394003475163141307993866256225615783033603165251855960, 1,
    46827403850823179245072216630277197565144205554125654976674165829533817101731⟩

/-- `[s]p + [h]q`, for scalars of at most `n` bits. -/
def edMul (s h : Nat) (p q pq : EdPoint) : Nat → EdPoint → EdPoint
  | 0, acc => acc
  | n + 1, acc =>
    let acc := edAdd acc acc
    let acc := match s.testBit n, h.testBit n with
      | true, true => edAdd acc pq
      | true, false => edAdd acc p
      | false, true => edAdd acc q
      | false, false => acc
    acc.seq fun acc => edMul s h p q pq n acc

def edEncode (p : EdPoint) : Bytes :=
  force (powMod p.z (edP - 2) edP) fun zi =>
  force (p.x * zi % edP) fun x =>
  force (p.y * zi % edP) fun y => leBytes 32 (y + (x % 2) * 2 ^ 255)

/-- The point with the given encoding, negated. -/
def edDecodeNeg (b : Bytes) : Option EdPoint :=
  force (leNat b % 2 ^ 255) fun y =>
  let sign := leNat b / 2 ^ 255 % 2
  force ((y * y + edP - 1) % edP) fun u =>
  force ((edD * y % edP * y + 1) % edP) fun v =>
  force (u * powMod v 3 edP % edP * powMod (u * powMod v 7 edP % edP) ((edP - 5) / 8) edP % edP) fun x =>
  force (v * x % edP * x % edP) fun vx2 =>
  force (if vx2 = u then x else x * powMod 2 ((edP - 1) / 4) edP % edP) fun x =>
  if v * x % edP * x % edP ≠ u then none
  else if x = 0 ∧ sign = 1 then none
  else
    force (if x % 2 = sign then (edP - x) % edP else x) fun x =>
    force (x * y % edP) fun t => some ⟨x, y, 1, t⟩

def edZero : EdPoint := ⟨0, 1, 1, 0⟩

def ed25519Verify (key msg sig : Bytes) : Bool :=
  if key.length ≠ 32 ∨ sig.length ≠ 64 then false
  else
    force (leNat (sig.drop 32)) fun s =>
    if s ≥ edL then false
    else
      match edDecodeNeg key with
      | none => false
      | some a =>
        force (leNat (sha512 (sig.take 32 ++ key ++ msg)) % edL) fun h =>
        edEncode (edMul s h edBase a (edAdd edBase a) 253 edZero) == sig.take 32

/-- The secret scalar and the other half of the hash of a seed. -/
def edSecret (seed : Bytes) : Nat × Bytes :=
  let h := sha512 seed
  (leNat (h.take 32) % 2 ^ 254 / 8 * 8 + 2 ^ 254, h.drop 32)

def edMulBase (s : Nat) : EdPoint := edMul s 0 edBase edZero edBase 256 edZero

def ed25519Pub (seed : Bytes) : Option Bytes :=
  if seed.length ≠ 32 then none else some (edEncode (edMulBase (edSecret seed).1))

def ed25519Sign (seed pub msg : Bytes) : Option Bytes :=
  if ed25519Pub seed ≠ some pub then none
  else
    let a := edSecret seed
    force (leNat (sha512 (a.2 ++ msg)) % edL) fun r =>
    let R := edEncode (edMulBase r)
    force (leNat (sha512 (R ++ pub ++ msg)) % edL) fun h =>
    some (R ++ leBytes 32 ((r + h * a.1) % edL))

/-! ## ECDSA -/

/-- A curve `y² = x³ - 3x + b` over the field with `p` elements, with a generator of order `n`. -/
structure EcCurve where
  p : Nat
  b : Nat
  n : Nat
  gx : Nat
  gy : Nat
  len : Nat
  digest : Bytes → Bytes

def p256 : EcCurve where
  p := 0xffffffff00000001000000000000000000000000ffffffffffffffffffffffff
  b := 0x5ac635d8aa3a93e7b3ebbd55769886bc651d06b0cc53b0f63bce3c3e27d2604b
  n := 0xffffffff00000000ffffffffffffffffbce6faada7179e84f3b9cac2fc632551
  gx := 0x6b17d1f2e12c4247f8bce6e563a440f277037d812deb33a0f4a13945d898c296
  gy := 0x4fe342e2fe1a7f9b8ee7eb4a7c0f9e162bce33576b315ececbb6406837bf51f5
  len := 32
  digest := sha256

def p384 : EcCurve where
  p := 0xfffffffffffffffffffffffffffffffffffffffffffffffffffffffffffffffeffffffff0000000000000000ffffffff
  b := 0xb3312fa7e23ee7e4988e056be3f82d19181d9c6efe8141120314088f5013875ac656398d8a2ed19d2a85c8edd3ec2aef
  n := 0xffffffffffffffffffffffffffffffffffffffffffffffffc7634d81f4372ddf581a0db248b0a77aecec196accc52973
  gx := 0xaa87ca22be8b05378eb1c71ef320ad746e1d3b628ba79b9859f741e082542a385502f25dbf55296c3a545e3872760ab7
  gy := 0x3617de4a96262c6f5d9e98bf9292dc29f8f41dbd289a147ce9da3113b5f0b8c00a60b1ce1d7e819d7a431d7c90ea0e5f
  len := 48
  digest := sha384

/-- Jacobian coordinates; `z = 0` is the point at infinity. -/
structure EcPoint where
  x : Nat
  y : Nat
  z : Nat

def EcPoint.seq {α : Type} (p : EcPoint) (f : EcPoint → α) : α :=
  match p with
  | ⟨x, y, z⟩ => force x fun x => force y fun y => force z fun z => f ⟨x, y, z⟩

def ecDouble (p : Nat) : EcPoint → EcPoint
  | ⟨x, y, z⟩ =>
    force (z * z % p) fun d =>
    force (y * y % p) fun g =>
    force (x * g % p) fun b =>
    force (3 * ((x + p - d) * (x + d)) % p) fun a =>
    force ((a * a + 8 * (p - b)) % p) fun x3 =>
    force ((a * (4 * b + p - x3) + 8 * (p - g * g % p)) % p) fun y3 =>
    force (2 * y * z % p) fun z3 => ⟨x3, y3, z3⟩

def ecAdd (p : Nat) : EcPoint → EcPoint → EcPoint
  | ⟨x1, y1, z1⟩, ⟨x2, y2, z2⟩ =>
    if z1 = 0 then ⟨x2, y2, z2⟩
    else if z2 = 0 then ⟨x1, y1, z1⟩
    else
      force (z1 * z1 % p) fun z11 =>
      force (z2 * z2 % p) fun z22 =>
      force (x1 * z22 % p) fun u1 =>
      force (x2 * z11 % p) fun u2 =>
      force (y1 * z2 % p * z22 % p) fun s1 =>
      force (y2 * z1 % p * z11 % p) fun s2 =>
      if u1 = u2 then
        if s1 = s2 then ecDouble p ⟨x1, y1, z1⟩ else ⟨1, 1, 0⟩
      else
        force ((u2 + p - u1) % p) fun h =>
        force ((s2 + p - s1) % p) fun r =>
        force (h * h % p) fun hh =>
        force (h * hh % p) fun hhh =>
        force (u1 * hh % p) fun v =>
        force ((r * r + (p - hhh) + 2 * (p - v)) % p) fun x3 =>
        force ((r * (v + p - x3) + (p - s1 * hhh % p)) % p) fun y3 =>
        force (z1 * z2 % p * h % p) fun z3 => ⟨x3, y3, z3⟩

/-- `[s]P + [h]Q`, for scalars of at most `n` bits. -/
def ecMul (p s h : Nat) (P Q PQ : EcPoint) : Nat → EcPoint → EcPoint
  | 0, acc => acc
  | n + 1, acc =>
    let acc := ecDouble p acc
    let acc := match s.testBit n, h.testBit n with
      | true, true => ecAdd p acc PQ
      | true, false => ecAdd p acc P
      | false, true => ecAdd p acc Q
      | false, false => acc
    acc.seq fun acc => ecMul p s h P Q PQ n acc

/-- The affine `x` coordinate. -/
def ecX (p : Nat) (P : EcPoint) : Nat := P.x * powMod (P.z * P.z % p) (p - 2) p % p

/-- An uncompressed point on the curve. -/
def ecDecode (c : EcCurve) (b : Bytes) : Option EcPoint :=
  match b with
  | 4 :: b =>
    if b.length ≠ 2 * c.len then none
    else
      force (toNat (b.take c.len)) fun x =>
      force (toNat (b.drop c.len)) fun y =>
      if x < c.p ∧ y < c.p ∧ y * y % c.p = (x * x % c.p * x + 3 * (c.p - x) + c.b) % c.p then some ⟨x, y, 1⟩ else none
  | _ => none

/-- The digest of a message as a number. -/
def ecDigest (c : EcCurve) (msg : Bytes) : Nat := toNat (c.digest msg) % c.n

def ecVerify (c : EcCurve) (key msg : Bytes) (r s : Nat) : Bool :=
  match ecDecode c key with
  | none => false
  | some q =>
    if r = 0 ∨ r ≥ c.n ∨ s = 0 ∨ s ≥ c.n then false
    else
      force (powMod s (c.n - 2) c.n) fun w =>
      force (ecDigest c msg * w % c.n) fun u1 =>
      force (r * w % c.n) fun u2 =>
      let g : EcPoint := ⟨c.gx, c.gy, 1⟩
      (ecMul c.p u1 u2 g q (ecAdd c.p g q) (8 * c.len) ⟨1, 1, 0⟩).seq fun P =>
        P.z ≠ 0 ∧ ecX c.p P % c.n = r

def ecdsaVerify (c : EcCurve) (key msg sig : Bytes) : Bool :=
  if sig.length ≠ 2 * c.len then false
  else ecVerify c key msg (toNat (sig.take c.len)) (toNat (sig.drop c.len))

/-- Whether these are the content bytes of a positive DER integer, in the shortest form. -/
def derPositive : Bytes → Bool
  | [] => false
  | [b] => b ≠ 0 ∧ b < 0x80
  | b :: b' :: _ => (b ≠ 0 ∧ b < 0x80) ∨ (b = 0 ∧ 0x80 ≤ b')

/-- The two numbers of a DER encoded signature with short lengths. -/
def derSig (b : Bytes) : Option (Nat × Nat) :=
  match b with
  | 0x30 :: t :: 2 :: l :: rest =>
    match rest.drop l.toNat with
    | 2 :: m :: rest' =>
      if t < 128 ∧ t.toNat = l.toNat + m.toNat + 4 ∧ rest'.length = m.toNat ∧ derPositive (rest.take l.toNat) ∧ derPositive rest' then
        some (toNat (rest.take l.toNat), toNat rest')
      else none
    | _ => none
  | _ => none

def ecdsaAsn1Verify (key msg sig : Bytes) : Bool :=
  match derSig sig with
  | none => false
  | some (r, s) => ecVerify p256 key msg r s

/-- DER of a positive integer. -/
def derInt (n len : Nat) : Bytes :=
  let b := (natBytes len n).dropWhile (· == 0)
  let b := if b.headD 0 ≥ 0x80 then 0 :: b else b
  2 :: UInt8.ofNat b.length :: b

/-- The affine `y` coordinate. -/
def ecY (p : Nat) (P : EcPoint) : Nat := P.y * powMod (P.z * (P.z * P.z % p) % p) (p - 2) p % p

/-- `[k]G`. -/
def ecMulBase (c : EcCurve) (k : Nat) : EcPoint :=
  ecMul c.p k 0 ⟨c.gx, c.gy, 1⟩ ⟨1, 1, 0⟩ ⟨c.gx, c.gy, 1⟩ (8 * c.len) ⟨1, 1, 0⟩

/-- The two numbers of the signature of `e` by `d` with the number `k`; neither may be zero. -/
def ecSignWith (c : EcCurve) (d e k : Nat) : Option (Nat × Nat) :=
  (ecMulBase c k).seq fun K =>
  force (ecX c.p K % c.n) fun r =>
  force (powMod k (c.n - 2) c.n * ((e + r * d) % c.n) % c.n) fun s =>
  if r = 0 ∨ s = 0 then none else some (r, s)

/-- Signing, with a number derived from key and message in place of a random one, or 1 or 2 if that is no use. -/
def ecdsaSign (c : EcCurve) (secret pub msg : Bytes) : Option Bytes :=
  force (toNat secret) fun d =>
  if secret.length ≠ c.len ∨ d = 0 ∨ d ≥ c.n then none
  else
    match ecDecode c pub with
    | none => none
    | some q =>
      (ecMulBase c d).seq fun D =>
      if ecX c.p D ≠ q.x ∨ ecY c.p D ≠ q.y then none
      else
        force (ecDigest c msg) fun e =>
        force (toNat (c.digest (secret ++ c.digest msg)) % (c.n - 1) + 1) fun k =>
        match (ecSignWith c d e k).or ((ecSignWith c d e 1).or (ecSignWith c d e 2)) with
        | none => none
        | some (r, s) =>
          let body := derInt r c.len ++ derInt s c.len
          some (0x30 :: UInt8.ofNat body.length :: body)

/-! ## RSA, PKCS 1 version 1.5 -/

def sha1Info : Bytes := [0x30, 0x21, 0x30, 9, 6, 5, 0x2b, 0x0e, 3, 2, 0x1a, 5, 0, 4, 0x14]
def sha256Info : Bytes := [0x30, 0x31, 0x30, 0x0d, 6, 9, 0x60, 0x86, 0x48, 1, 0x65, 3, 4, 2, 1, 5, 0, 4, 0x20]
def sha512Info : Bytes := [0x30, 0x51, 0x30, 0x0d, 6, 9, 0x60, 0x86, 0x48, 1, 0x65, 3, 4, 2, 3, 5, 0, 4, 0x40]

def rsaInfo : RsaAlg → Bytes → Bytes
  | .sha1, m => sha1Info ++ sha1 m
  | .sha256, m => sha256Info ++ sha256 m
  | .sha512, m => sha512Info ++ sha512 m

def rsaPadded (len : Nat) (alg : RsaAlg) (msg : Bytes) : Bytes :=
  let d := rsaInfo alg msg
  0 :: 1 :: (List.replicate (len - 3 - d.length) 0xff ++ 0 :: d)

def rsaVerify (alg : RsaAlg) (n e msg sig : Bytes) : Bool :=
  force (toNat n) fun N =>
  force (toNat sig) fun S =>
  let len := (N.log2 + 8) / 8
  if len < 256 ∨ len > 1024 ∨ sig.length ≠ len ∨ S ≥ N ∨ toNat e < 3 ∨ toNat e ≥ 2 ^ 33 then false
  else force (powMod S (toNat e) N) fun m => m == toNat (rsaPadded len alg msg)

/-! ## Known answers: RFC 8032, 7.1, test 3, and RFC 6979, A.2.5 and A.2.6 -/

def rfcSeed : Bytes :=
  natBytes 32 0xc5aa8df43f9f837bedb7442f31dcb7b166d38535076f094b85ce3a2e0b4458f7
def rfcPub : Bytes :=
  natBytes 32 0xfc51cd8e6218a1a38da47ed00230f0580816ed13ba3303ac5deb911548908025
def rfcSig : Bytes :=
  natBytes 64 0x6291d657deec24024827e69c3abe01a30ce548a284743a445e3680d7db5ac3ac18ff9b538d16f290ae67f760984dc6594a7c15e9716ed28dc027beceea1ec40a
def rfcK256 : Bytes :=
  4 :: (natBytes 32 0x60FED4BA255A9D31C961EB74C6356D68C049B8923B61FA6CE669622E60F29FB6 ++
    natBytes 32 0x7903FE1008B8BC99A41AE9E95628BC64F2F1B20C2D7E9F5177A3C294D4462299)
def rfcS256 : Bytes :=
  natBytes 32 0xEFD48B2AACB6A8FD1140DD9CD45E81D69D2C877B56AAF991C34D0EA84EAF3716 ++
    natBytes 32 0xF7CB1C942D657C41D436C7A1B6E29F65F3E900DBB9AFF4064DC4AB2F843ACDA8
def rfcK384 : Bytes :=
  4 :: (natBytes 48 0xEC3A4E415B4E19A4568618029F427FA5DA9A8BC4AE92E02E06AAE5286B300C64DEF8F0EA9055866064A254515480BC13 ++
    natBytes 48 0x8015D9B72D7D57244EA8EF9AC0C621896708A59367F9DFB9F54CA84B3F1C9DB1288B231C3AE0D4FE7344FD2533264720)
def rfcS384 : Bytes :=
  natBytes 48 0x94EDBB92A5ECB8AAD4736E56C691916B3F88140666CE9FA73D64C4EA95AD133C81A648152E44ACF96E36DD1E80FABE46 ++
    natBytes 48 0x99EF4AEB15F178CEA1FE40DB2603138F130E740A19624526203B6351D0A3A94FA329C145786E679E7B82C71A38628AC8

example : ed25519Pub rfcSeed = some rfcPub := by decide +kernel
example : ed25519Sign rfcSeed rfcPub [0xaf, 0x82] = some rfcSig := by decide +kernel
example : ed25519Verify rfcPub [0xaf, 0x82] rfcSig = true := by decide +kernel
example : ed25519Verify rfcPub [0xaf, 0x83] rfcSig = false := by decide +kernel
example : ecdsaVerify p256 rfcK256 (strBytes "sample") rfcS256 = true := by decide +kernel
example : ecdsaVerify p256 rfcK256 (strBytes "sampld") rfcS256 = false := by decide +kernel
example : ecdsaVerify p384 rfcK384 (strBytes "sample") rfcS384 = true := by decide +kernel

end Ssh.Concrete
