import Verif.Model.Basic

/-!
# Rust standard library text functions and base64 used by the crate

All text functions work on `List Char` (the `chars()` of a `str`).
-/

namespace Ssh

/-- `char::is_whitespace`: the Unicode property White_Space. -/
def isWs (c : Char) : Bool :=
  let n := c.toNat
  (9 ≤ n && n ≤ 13) || n == 0x20 || n == 0x85 || n == 0xA0 || n == 0x1680 ||
  (0x2000 ≤ n && n ≤ 0x200A) || n == 0x2028 || n == 0x2029 || n == 0x202F || n == 0x205F ||
  n == 0x3000

/-- `str::split(pred)` for a char predicate: always at least one piece. -/
def splitOn (p : Char → Bool) : List Char → List (List Char)
  | [] => [[]]
  | c :: cs =>
    if p c then [] :: splitOn p cs
    else match splitOn p cs with
      | [] => [[c]]
      | x :: xs => (c :: x) :: xs

/-- `str::split_whitespace` (= `split(char::is_whitespace).filter(|s| !s.is_empty())`). -/
def splitWhitespace (s : List Char) : List (List Char) :=
  (splitOn isWs s).filter (fun x => !x.isEmpty)

/-- `str::split_inclusive('\n')`. -/
def splitInclusiveNl : List Char → List (List Char)
  | [] => []
  | c :: cs =>
    if c = '\n' then ['\n'] :: splitInclusiveNl cs
    else match splitInclusiveNl cs with
      | [] => [[c]]
      | x :: xs => (c :: x) :: xs

/-- `str::strip_suffix(c)`, returning the unchanged string when the suffix is absent. -/
def stripSuffix (c : Char) (l : List Char) : List Char :=
  if l.getLast? = some c then l.dropLast else l

/-- The per-line map of `str::lines`: strip `\n`, and only then one `\r`. -/
def stripNl (l : List Char) : List Char :=
  if l.getLast? = some '\n' then stripSuffix '\r' l.dropLast else l

/-- `str::lines`. -/
def lines (s : List Char) : List (List Char) := (splitInclusiveNl s).map stripNl

/-- `str::trim_start_matches` for a predicate. -/
def trimStart (p : Char → Bool) (s : List Char) : List Char := s.dropWhile p

/-- `str::trim_end_matches` for a predicate. -/
def trimEnd (p : Char → Bool) (s : List Char) : List Char := (s.reverse.dropWhile p).reverse

/-- `str::trim_matches` for a predicate (`str::trim` for `isWs`). -/
def trimMatches (p : Char → Bool) (s : List Char) : List Char := trimEnd p (trimStart p s)

/-- `str::split_once(c)`. -/
def splitOnce (c : Char) : List Char → Option (List Char × List Char)
  | [] => none
  | x :: xs => if x = c then some ([], xs) else (splitOnce c xs).map fun (a, b) => (x :: a, b)

/-- The base64 standard alphabet (crate `base64` 0.13, `STANDARD`). -/
def b64Alphabet : List Char :=
  "ABCDEFGHIJKLMNOPQRSTUVWXYZabcdefghijklmnopqrstuvwxyz0123456789+/".toList

/-- Symbol of a 6-bit value. -/
def b64Char (n : Nat) : Char := b64Alphabet.getD n 'A'

/-- 6-bit value of a symbol. -/
def b64Val (c : Char) : Option Nat := b64Alphabet.findIdx? (· == c)

/-- `base64::encode` (STANDARD, with padding). -/
def b64Encode : Bytes → List Char
  | [] => []
  | [a] =>
    let n := a.toNat * 16
    [b64Char (n / 64), b64Char (n % 64), '=', '=']
  | [a, b] =>
    let n := (a.toNat * 256 + b.toNat) * 4
    [b64Char (n / 4096), b64Char (n / 64 % 64), b64Char (n % 64), '=']
  | a :: b :: c :: rest =>
    let n := (a.toNat * 256 + b.toNat) * 256 + c.toNat
    b64Char (n / 262144) :: b64Char (n / 4096 % 64) :: b64Char (n / 64 % 64) :: b64Char (n % 64) ::
      b64Encode rest

/-- Final group of two symbols: one byte, the low four bits must be zero. -/
def b64Dec2 (a b : Char) : Option Bytes := do
  let x ← b64Val a
  let y ← b64Val b
  let n := x * 64 + y
  if n % 16 = 0 then some [UInt8.ofNat (n / 16)] else none

/-- Final group of three symbols: two bytes, the low two bits must be zero. -/
def b64Dec3 (a b c : Char) : Option Bytes := do
  let x ← b64Val a
  let y ← b64Val b
  let z ← b64Val c
  let n := (x * 64 + y) * 64 + z
  if n % 4 = 0 then some [UInt8.ofNat (n / 1024), UInt8.ofNat (n / 4)] else none

/-- `base64::decode` (crate base64 0.13, STANDARD).  That version accepts missing or partial
padding (`"Zg"`, `"Zg="`, `"Zg=="`), rejects padding in the first two places of a group, symbols
after padding, a length of 1 modulo 4, foreign symbols, and non-zero trailing bits. -/
def b64Decode : List Char → Option Bytes
  | [] => some []
  | [_] => none
  | [a, b] => b64Dec2 a b
  | [a, b, c] => if c = '=' then b64Dec2 a b else b64Dec3 a b c
  | [a, b, c, d] =>
    if d = '=' then (if c = '=' then b64Dec2 a b else b64Dec3 a b c)
    else do
      let x ← b64Val a
      let y ← b64Val b
      let z ← b64Val c
      let t ← b64Val d
      let n := ((x * 64 + y) * 64 + z) * 64 + t
      some [UInt8.ofNat (n / 65536), UInt8.ofNat (n / 256), UInt8.ofNat n]
  | a :: b :: c :: d :: rest => do
    let x ← b64Val a
    let y ← b64Val b
    let z ← b64Val c
    let t ← b64Val d
    let n := ((x * 64 + y) * 64 + z) * 64 + t
    let tl ← b64Decode rest
    some (UInt8.ofNat (n / 65536) :: UInt8.ofNat (n / 256) :: UInt8.ofNat n :: tl)

end Ssh
