import Verif.Model.Fido
import Verif.Model.Mozilla

/-!
# `generate_new_ssh_key` of src/fido/generate/mozilla.rs:38-183 as a whole

The request, the threads (Model/Mozilla.lean) and what becomes of the answer (`mozGenerate`).
-/

namespace Ssh

/-- `UserVerificationRequirement` and `ResidentKeyRequirement` of crate `authenticator`. -/
inductive Requirement where
  | discouraged
  | preferred
  | required
deriving DecidableEq, Repr

/-- `RegisterArgs` of crate `authenticator`: the fields set by src/fido/generate/mozilla.rs:53-75 (no extensions). -/
structure MozRequest where
  clientDataHash : Bytes
  rpId : String
  rpName : Option String
  origin : String
  userId : Bytes
  userName : Option String
  userDisplayName : Option String
  /-- COSE numbers. -/
  algorithms : List Int
  excluded : List Bytes
  userVerification : Requirement
  residentKey : Requirement
  pin : Option String
  ctap1Fallback : Bool
deriving DecidableEq, Repr

/-- src/fido/generate/mozilla.rs:53-75; `COSEAlgorithm::EDDSA` is -8. -/
def mozRequest (application : String) (pin : Option String) (challenge : Bytes) : MozRequest where
  clientDataHash := challenge
  rpId := application
  rpName := none
  origin := application
  userId := strBytes application
  userName := some application
  userDisplayName := none
  algorithms := [-8]
  excluded := []
  userVerification := .discouraged
  residentKey := .discouraged
  pin
  ctap1Fallback := false

/-- The surroundings of the call: `AuthenticatorService::new`, the random bytes, and what `register` does with a request:
it is refused, or the statuses it is going to report and the outcome given to the callback (`none`: the callback is
dropped).  Errors of crate `authenticator` are their texts. -/
structure MozRegistrar where
  service : Except String Unit
  random : Option (Vector UInt8 32)
  register : MozRequest → Except String (List Moz.Status × Option (Except String MozAttestation))

/-- What the threads see of an outcome. -/
def Moz.seen (o : Except String MozAttestation) : Moz.Outcome := o.map fun _ => ()

/-- src/fido/generate/mozilla.rs:38-183 `generate_new_ssh_key`: the values the call can return, over all schedules of the
threads.  The device path (its last argument) is not used. -/
inductive MozGenerates (X : X509Env) (C : Crypto) (yubicoRoot application comment : String) (pin : Option String)
    (_path : Option String) (W : MozRegistrar) : Res FidoSshKey → Prop where
  /-- Lines 44-47. -/
  | noService (text : String) (h : W.service = .error text) :
      MozGenerates X C yubicoRoot application comment pin _path W (.err (.fidoError (.unknown text)))
  /-- Line 51: `unwrap`. -/
  | noRandom (h : W.service = .ok ()) (hr : W.random = none) :
      MozGenerates X C yubicoRoot application comment pin _path W .panic
  /-- Lines 85-87. -/
  | refused (c : Vector UInt8 32) (text : String) (h : W.service = .ok ()) (hr : W.random = some c)
      (hq : W.register (mozRequest application pin c.toList) = .error text) :
      MozGenerates X C yubicoRoot application comment pin _path W (.err (.fidoError (.unknown text)))
  /-- Lines 115-127. -/
  | failed (c : Vector UInt8 32) (statuses : List Moz.Status) (outcome : Option (Except String MozAttestation)) (t : Moz.State)
      (e : FidoErr) (h : W.service = .ok ()) (hr : W.random = some c)
      (hq : W.register (mozRequest application pin c.toList) = .ok (statuses, outcome))
      (ht : Moz.Reach (Moz.init statuses (outcome.map Moz.seen)) t) (hm : t.main = .failed e) :
      MozGenerates X C yubicoRoot application comment pin _path W (.err (.fidoError e))
  /-- Lines 119 and 129-182. -/
  | succeeded (c : Vector UInt8 32) (statuses : List Moz.Status) (att : MozAttestation) (t : Moz.State)
      (h : W.service = .ok ()) (hr : W.random = some c)
      (hq : W.register (mozRequest application pin c.toList) = .ok (statuses, some (.ok att)))
      (ht : Moz.Reach (Moz.init statuses (some (.ok ()))) t) (hm : t.main = .succeeded) :
      MozGenerates X C yubicoRoot application comment pin _path W
        (mozGenerate X C yubicoRoot application comment pin c.toList att)

end Ssh
