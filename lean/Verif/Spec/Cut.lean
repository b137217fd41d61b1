import Verif.Spec.Wire
import Verif.Model.PrivKey

/-!
# Blobs made of parts, and the error for a blob that ends too early

Independent of the reader: a blob is a list of parts one after the other.  Only data types of the model are used.
-/

namespace Ssh.Spec

/-- The four shapes of a part. -/
inductive PartKind where
  | string | uint32 | uint64 | bare
deriving DecidableEq, Repr

/-- A part of a blob: a `string` (length and contents), an integer, or bare bytes. -/
inductive Part where
  | string (b : Bytes)
  | uint32 (n : Nat)
  | uint64 (n : Nat)
  | bare (b : Bytes)
deriving DecidableEq, Repr

/-- Shape of a part. -/
def Part.kind : Part → PartKind
  | .string _ => .string
  | .uint32 _ => .uint32
  | .uint64 _ => .uint64
  | .bare _ => .bare

/-- The bytes of a part. -/
def Part.bytes : Part → Bytes
  | .string b => u32 b.length ++ b
  | .uint32 n => u32 n
  | .uint64 n => u64 n
  | .bare b => b

/-- Lengths and integers fit into their fields. -/
def Part.Fits : Part → Prop
  | .string b => b.length < 2 ^ 32
  | .uint32 n => n < 2 ^ 32
  | .uint64 n => n < 2 ^ 64
  | .bare _ => True

/-- The bytes of parts one after the other. -/
def partBytes : List Part → Bytes
  | [] => []
  | p :: ps => p.bytes ++ partBytes ps

/-- What is said about a blob of the given parts that ends after `n` bytes: that input is missing, if it ends between
two parts or within bare bytes; that the format is invalid, if it ends within a string or an integer. -/
def cutError : List Part → Nat → Err
  | [], _ => .unexpectedEof
  | p :: ps, n =>
    if n = 0 then .unexpectedEof
    else if n < p.bytes.length then (if p.kind = .bare then .unexpectedEof else .invalidFormat)
    else cutError ps (n - p.bytes.length)

/-- The parts of a public key after its type name. -/
def keyParts : PublicKeyKind → List PartKind
  | .rsa _ _ => [.string, .string]
  | .ecdsa _ _ none => [.string, .string]
  | .ecdsa _ _ (some _) => [.string, .string, .string]
  | .ed25519 _ none => [.string]
  | .ed25519 _ (some _) => [.string, .string]

/-- The parts of a private key after its type name. -/
def privParts : PrivateKeyKind → List PartKind
  | .rsa _ => [.string, .string, .string, .string, .string, .string]
  | .ecdsa _ _ => [.string, .string, .string]
  | .ecdsaSk _ => [.string, .string, .string, .bare, .string, .string]
  | .ed25519 _ => [.string, .string]
  | .ed25519Sk _ => [.string, .string, .bare, .string, .string]

/-- `blob` starts with parts of the given kinds; cut within them, `parse` fails with `cutError`; cut behind them, it
returns `v`. -/
def CutBehaviour {α : Type} (parse : Bytes → Res α) (blob : Bytes) (v : Nat → α) (kinds : List PartKind) : Prop :=
  ∃ ps rest, ps.map Part.kind = kinds ∧ (∀ p ∈ ps, p.Fits) ∧ blob = partBytes ps ++ rest ∧
    ∀ n, (n < (partBytes ps).length → parse (blob.take n) = .err (cutError ps n)) ∧
      ((partBytes ps).length ≤ n → parse (blob.take n) = .ok (v n))

end Ssh.Spec
