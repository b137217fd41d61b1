import Verif.Model.Cert

/-! # What a person reads: lines, sections, standard extensions, order of options -/

namespace Ssh.Spec

/-- No line break inside. -/
def OneLine (s : String) : Prop := '\n' ∉ s.toList

/-- The texts a certificate shows contain no line break. -/
def OneLiners (c : Certificate) : Prop :=
  OneLine c.keyId ∧ (∀ p ∈ c.principals, OneLine p) ∧
  (∀ kv ∈ c.criticalOptions, OneLine kv.1 ∧ OneLine kv.2) ∧ (∀ kv ∈ c.extensions, OneLine kv.1)

/-- The extensions OpenSSH gives to a user certificate by default (ssh-keygen(1), `-O clear`). -/
def defaultExtensions : List String :=
  ["permit-X11-forwarding", "permit-agent-forwarding", "permit-port-forwarding", "permit-pty", "permit-user-rc"]

/-- Names in the order PROTOCOL.certkeys demands: "options must be lexically ordered by name if they appear in the
sequence. Each option may appear only once". -/
def NamesOrdered (l : List (String × String)) : Prop := (l.map (·.1)).Pairwise (· < ·)

end Ssh.Spec
