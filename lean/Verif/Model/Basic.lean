/-!
# Basic types of the model

Common to every module: byte strings, the outcome type (`Result` plus an explicit panic), the
error enumeration, and the checked slice/index/subtraction primitives whose failure is a Rust panic.
-/

namespace Ssh

/-- `Vec<u8>` / `&[u8]`. -/
abbrev Bytes := List UInt8

/-- src/ssh/allowed_signer.rs:12-35 `AllowedSignerParsingError`. -/
inductive ASErr where
  | invalidQuotes
  | missingPrincipals
  | invalidPrincipals
  | missingKey
  | duplicateOptions (s : String)
  | invalidOption (s : String)
  | invalidKey
  | invalidTimestamp
  | invalidTimestamps
  | unexpectedEnd
deriving DecidableEq, Repr

/-- src/fido/mod.rs:6-20 `fido::Error`.
Simplification: `cborElse x` is `CborFormat` with the one text that ends in a text of crate `minicbor`,
"We got something else {x} and threw error {e}" (src/fido/parsing.rs:188-192); that end is dropped. -/
inductive FidoErr where
  | invalidPin (attempts : Option UInt8)
  | pinRequired
  | keyLocked
  | keyBlocked
  | cborFormat (s : String)
  | cborElse (key : Int)
  | unknown (s : String)
deriving DecidableEq, Repr

/-- src/error.rs:4-52 `Error`.
Simplification: payloads that come from external crates (`io::Error`, `base64::DecodeError`,
`FromUtf8Error`) are dropped. -/
inductive Err where
  | io
  | decode
  | utf8Error
  | invalidCertType (n : UInt32)
  | invalidFormat
  | unexpectedEof
  | notCertificate
  | keyTypeMismatch
  | invalidSignature
  | invalidAllowedSigner (e : ASErr)
  | invalidAllowedSigners (e : ASErr) (line : Nat)
  | signingError
  | encryptedPrivateKey
  | encryptedPrivateKeyNotSupported
  | unknownKeyType (s : String)
  | unknownCurve (s : String)
  | parsingError
  | fidoError (e : FidoErr)
  | unsupported
deriving DecidableEq, Repr

/-- Outcome of a Rust function returning `Result<_, Error>`: a value, an error value, or a panic
(an `unwrap` of `None`, an out-of-range slice or index, an arithmetic underflow). -/
inductive Res (α : Type) where
  | ok (a : α)
  | err (e : Err)
  | panic
deriving DecidableEq, Repr

namespace Res

/-- Rust's `?` (and sequencing after a call that may panic). -/
@[inline] def bind {α β : Type} : Res α → (α → Res β) → Res β
  | ok a, f => f a
  | err e, _ => err e
  | panic, _ => panic

instance : Monad Res where
  pure := ok
  bind := Res.bind

@[simp] theorem pure_eq {α : Type} (a : α) : (pure a : Res α) = ok a := rfl
@[simp] theorem ok_bind {α β : Type} (a : α) (f : α → Res β) : (ok a >>= f) = f a := rfl
@[simp] theorem err_bind {α β : Type} (e : Err) (f : α → Res β) : (err e >>= f) = err e := rfl
@[simp] theorem panic_bind {α β : Type} (f : α → Res β) : ((panic : Res α) >>= f) = panic := rfl

instance : LawfulMonad Res := LawfulMonad.mk'
  (id_map := by intro α x; cases x <;> rfl)
  (pure_bind := by intro α β x f; rfl)
  (bind_assoc := by intro α β γ x f g; cases x <;> rfl)

/-- `Result::map_err`. -/
def mapErr {α : Type} (f : Err → Err) : Res α → Res α
  | ok a => ok a
  | err e => err (f e)
  | panic => panic

/-- `map_err` of a `Result` of another crate, of whose error only the text matters. -/
def ofExcept {α : Type} (f : String → Err) : Except String α → Res α
  | .ok a => ok a
  | .error e => err (f e)

/-- `Option::ok_or`. -/
def ofOption {α : Type} (e : Err) : Option α → Res α
  | some a => ok a
  | none => err e

/-- `Option::unwrap` / `Option::expect`. -/
def unwrap {α : Type} : Option α → Res α
  | some a => ok a
  | none => panic

end Res

/-- Rust slice `&l[a..b]`: panics unless `a ≤ b ≤ l.len()`. -/
def slice {α : Type} (l : List α) (a b : Nat) : Res (List α) :=
  if a ≤ b ∧ b ≤ l.length then .ok ((l.drop a).take (b - a)) else .panic

/-- Rust slice `&l[a..]`: panics unless `a ≤ l.len()`. -/
def sliceFrom {α : Type} (l : List α) (a : Nat) : Res (List α) :=
  if a ≤ l.length then .ok (l.drop a) else .panic

/-- Rust index `l[i]`: panics unless `i < l.len()`. -/
def index {α : Type} (l : List α) (i : Nat) : Res α := Res.unwrap l[i]?

/-- usize subtraction `a - b`: panics (debug) on underflow. -/
def subNat (a b : Nat) : Res Nat := if b ≤ a then .ok (a - b) else .panic

/-- Big-endian bytes of the low `k` bytes of `n` (`to_be_bytes` of a `k`-byte integer, `n as uK`
being the reduction modulo `256^k`). -/
def beBytes : Nat → Nat → Bytes
  | 0, _ => []
  | k + 1, n => beBytes k (n / 256) ++ [UInt8.ofNat n]

/-- `from_be_bytes` (unsigned big-endian value). -/
def beNat (bs : Bytes) : Nat := bs.foldl (fun acc b => acc * 256 + b.toNat) 0

/-- `str::as_bytes`: the UTF-8 bytes of a string.  A Lean `String` is by definition a byte array
together with a proof that it is valid UTF-8, exactly like a Rust `String`. -/
def strBytes (s : String) : Bytes := s.toByteArray.data.toList

/-- `String::from_utf8`. -/
def fromUtf8 (b : Bytes) : Option String :=
  if h : (ByteArray.mk b.toArray).IsValidUTF8 then some ⟨⟨b.toArray⟩, h⟩ else none

end Ssh
