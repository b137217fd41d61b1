import Verif.Model.Basic

/-!
# SSH wire format (RFC 4251 section 5), independent of the model's reader and writer
-/

namespace Ssh.Spec

/-- The natural number denoted by big-endian digits to base 256. -/
def natOf : Bytes → Nat
  | [] => 0
  | b :: bs => b.toNat * 256 ^ bs.length + natOf bs

/-- `uint32`: four bytes, most significant first. -/
def u32 (n : Nat) : Bytes :=
  [UInt8.ofNat (n / 16777216), UInt8.ofNat (n / 65536), UInt8.ofNat (n / 256), UInt8.ofNat n]

/-- `uint64`: eight bytes, most significant first. -/
def u64 (n : Nat) : Bytes := u32 (n / 4294967296) ++ u32 n

/-- `string`: `w` is the 4-byte length of `b` followed by `b`. -/
def Frame (b w : Bytes) : Prop := b.length < 4294967296 ∧ w = u32 b.length ++ b

/-- A `string` holding UTF-8 text. -/
def Text (s : String) (w : Bytes) : Prop := Frame s.toByteArray.data.toList w

/-- The payload of the `mpint` of a non-negative number: two's complement without superfluous
leading bytes: empty, or starting with a byte in 1..0x7f, or with 0 followed by a byte ≥ 0x80. -/
inductive MpintPayload : Bytes → Prop where
  | zero : MpintPayload []
  | plain (b : UInt8) (bs : Bytes) (h0 : b ≠ 0) (h1 : b < 0x80) : MpintPayload (b :: bs)
  | padded (b : UInt8) (bs : Bytes) (h : 0x80 ≤ b) : MpintPayload (0 :: b :: bs)

/-- A big-endian magnitude without leading zero bytes. -/
def Shortest (v : Bytes) : Prop := v.head? ≠ some 0

/-- `w` is the `mpint` encoding of the magnitude `v` (shortest form): a `string` whose payload is
canonical and denotes the same number. -/
def Mpint (v w : Bytes) : Prop :=
  Shortest v ∧ ∃ p, Frame p w ∧ MpintPayload p ∧ natOf p = natOf v

/-- The bytes of `buf` from position `pos` on start with `w`. -/
def StartsAt (buf : Bytes) (pos : Nat) (w : Bytes) : Prop :=
  ∃ pre suf, buf = pre ++ w ++ suf ∧ pre.length = pos

end Ssh.Spec
