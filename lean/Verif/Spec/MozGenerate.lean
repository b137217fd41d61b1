import Verif.Model.MozGenerate
import Verif.Spec.Mozilla

/-! # The request for a FIDO key through the Mozilla backend -/

namespace Ssh.Spec
open Moz

/-- The request for a registration: the challenge is the random string itself, relying party, origin and user are the
application, an Ed25519 key is asked for and neither user verification nor a resident key. -/
structure RegistrationRequest (application : String) (pin : Option String) (challenge : Bytes) (q : MozRequest) : Prop where
  challenge : q.clientDataHash = challenge
  names : q.rpId = application ∧ q.origin = application ∧ q.userName = some application ∧
    q.userId = application.toByteArray.data.toList ∧ q.rpName = none ∧ q.userDisplayName = none
  ed25519 : q.algorithms = [-8] ∧ q.excluded = []
  policy : q.userVerification = .discouraged ∧ q.residentKey = .discouraged ∧ q.ctap1Fallback = false
  pin : q.pin = pin

/-- The first PIN problem reported. -/
def FirstProblem (statuses : List Status) (e : FidoErr) : Prop :=
  ∃ pre s post, statuses = pre ++ s :: post ∧ Means s e ∧ ∀ s ∈ pre, s = .other

end Ssh.Spec
