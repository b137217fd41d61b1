import Verif.Model.Basic

/-! # White space, words, lines and base64 (Unicode White_Space, RFC 4648 section 4) -/

namespace Ssh.Spec

/-- The code points with the Unicode property White_Space. -/
def whiteSpace : List Nat :=
  [0x09, 0x0A, 0x0B, 0x0C, 0x0D, 0x20, 0x85, 0xA0, 0x1680, 0x2000, 0x2001, 0x2002, 0x2003, 0x2004, 0x2005, 0x2006, 0x2007,
   0x2008, 0x2009, 0x200A, 0x2028, 0x2029, 0x202F, 0x205F, 0x3000]

def White (c : Char) : Prop := c.toNat ∈ whiteSpace

/-- A non-empty text without white space. -/
def TextWord (w : List Char) : Prop := w ≠ [] ∧ ∀ c ∈ w, ¬ White c

/-- The words of a text, in order. -/
inductive TextWords : List Char → List (List Char) → Prop where
  | nil : TextWords [] []
  | blank (c s ws) : White c → TextWords s ws → TextWords (c :: s) ws
  | last (w) : TextWord w → TextWords w [w]
  | word (w c s ws) : TextWord w → White c → TextWords s ws → TextWords (w ++ c :: s) (w :: ws)

/-- The pieces of a text between the separators; some may be empty. -/
inductive Pieces (sep : Char) : List Char → List (List Char) → Prop where
  | last (l) : sep ∉ l → Pieces sep l [l]
  | more (l s ps) : sep ∉ l → Pieces sep s ps → Pieces sep (l ++ sep :: s) (l :: ps)

/-- The lines of a text, each ended by LF or CR LF; the last one may lack it. -/
inductive FileLines : List Char → List (List Char) → Prop where
  | nil : FileLines [] []
  | last (l) : '\n' ∉ l → l ≠ [] → FileLines l [l]
  | lf (l s ls) : '\n' ∉ l → l.getLast? ≠ some '\r' → FileLines s ls → FileLines (l ++ '\n' :: s) (l :: ls)
  | crlf (l s ls) : '\n' ∉ l → FileLines s ls → FileLines (l ++ '\r' :: '\n' :: s) (l :: ls)

/-- The `n` low bits of a number, most significant first. -/
def bits : Nat → Nat → List Bool
  | 0, _ => []
  | n + 1, x => bits n (x / 2) ++ [x % 2 == 1]

/-- RFC 4648, table 1. -/
def symbol (n : Nat) : Char :=
  Char.ofNat (if n < 26 then 65 + n else if n < 52 then 97 + (n - 26) else if n < 62 then 48 + (n - 52) else if n = 62 then 43 else 47)

/-- `gs` are the groups of six bits of the bytes, the last one filled up with zeros. -/
def Sextets (b : Bytes) (gs : List Nat) : Prop :=
  (∀ g ∈ gs, g < 64) ∧
    ∃ z, z < 6 ∧ gs.flatMap (bits 6) = b.flatMap (fun x => bits 8 x.toNat) ++ List.replicate z false

/-- `s` is base64 of `b`, filled up with `=` to a multiple of four. -/
def Base64 (b : Bytes) (s : List Char) : Prop :=
  ∃ gs k, Sextets b gs ∧ s = gs.map symbol ++ List.replicate k '=' ∧ k < 4 ∧ s.length % 4 = 0

/-- `s` is base64 of `b`, from which some of the `=` may be missing. -/
def Base64Lax (b : Bytes) (s : List Char) : Prop := ∃ k, Base64 b (s ++ List.replicate k '=')

end Ssh.Spec
