import Verif.Spec.Wire

/-! # Lists of principals and of options inside a certificate (PROTOCOL.certkeys) -/

namespace Ssh.Spec

/-- The concatenation of the `string`s of a list of texts. -/
inductive Texts : List String → Bytes → Prop where
  | nil : Texts [] []
  | cons {s : String} {ss : List String} {w1 w2 : Bytes} (h : Text s w1) (t : Texts ss w2) :
      Texts (s :: ss) (w1 ++ w2)

/-- The data of one option: a `string` which is empty (value `""`), or itself starts with the
`string` of the value. -/
def OptionData (v : String) (w : Bytes) : Prop :=
  ∃ d, Frame d w ∧ ((d = [] ∧ v = "") ∨ ∃ w1 rest, d = w1 ++ rest ∧ Text v w1)

/-- A sequence of (name, data) pairs. -/
inductive OptionPairs : List (String × String) → Bytes → Prop where
  | nil : OptionPairs [] []
  | cons {n v : String} {l : List (String × String)} {w1 w2 w3 : Bytes} (hn : Text n w1)
      (hv : OptionData v w2) (t : OptionPairs l w3) : OptionPairs ((n, v) :: l) (w1 ++ w2 ++ w3)

/-- The value bound by the last pair with this name. -/
def lastValue : List (String × String) → String → Option String
  | [], _ => none
  | (n, v) :: l, k => match lastValue l k with
    | some v' => some v'
    | none => if n = k then some v else none

end Ssh.Spec
