import Verif.Spec.Reasons
import Verif.Model.Reader

/-! # Every outcome of reading one value -/

namespace Ssh.Spec

/-- Wherever the cursor stands, also behind the end: `p` returns `v` and moves behind `w` if the bytes from there on start
with a form `w` of `v`; it fails with `e` if those bytes deserve `e`; nothing else happens. -/
structure ReadsExactly {α : Type} (p : Rd α) (G : α → Bytes → Prop) (D : Fault) : Prop where
  value : ∀ buf pos v r', p ⟨buf, pos⟩ = (.ok v, r') ↔
    ∃ w tail, buf.drop pos = w ++ tail ∧ G v w ∧ r' = ⟨buf, pos + w.length⟩
  error : ∀ buf pos e, (p ⟨buf, pos⟩).1 = .err e ↔ D (buf.drop pos) e
  defined : ∀ r, (p r).1 ≠ .panic

/-- Bytes up to a zero byte, each read as the character of that number. -/
def ZeroEnded (s : String) (w : Bytes) : Prop :=
  ∃ b : Bytes, w = b ++ [0] ∧ 0 ∉ b ∧ s.toList = b.map fun x => Char.ofNat x.toNat

end Ssh.Spec
