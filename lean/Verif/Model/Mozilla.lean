import Verif.Model.Basic

/-!
# The threads of `generate_new_ssh_key`, src/fido/generate/mozilla.rs:77-127

A transition system: the device manager (thread of crate `authenticator`), the watcher thread
(89-113) and the calling thread (115-127) run in any interleaving and communicate by three
channels.  A `recv` on an empty channel waits while a sender is alive and fails once all senders
are dropped (std::sync::mpsc).
-/

namespace Ssh.Moz

/-- `StatusUpdate` of crate `authenticator`, as far as the watcher distinguishes (lines 92-108): `PinUvError` of
`PinRequired`, `PinAuthBlocked`, `PinBlocked` and `InvalidPin`, and everything else. -/
inductive Status where
  | pinRequired
  | pinAuthBlocked
  | pinBlocked
  | invalidPin (attempts : Option UInt8)
  | other
deriving DecidableEq, Repr

/-- Lines 91-108: what the watcher sends for a status, if anything. -/
def Status.error : Status → Option FidoErr
  | .pinRequired => some .pinRequired
  | .pinAuthBlocked => some .keyLocked
  | .pinBlocked => some .keyBlocked
  | .invalidPin attempts => some (.invalidPin attempts)
  | .other => none

/-- What the callback is called with: registered, or an error of crate `authenticator`, by its text. -/
abbrev Outcome := Except String Unit

/-- What the manager thread still has to do: report statuses, at any time call the callback once with
the outcome (`none` = the manager ends without calling it), and in the end drop
its handles. -/
structure Manager where
  statuses : List Status
  outcome : Option Outcome

/-- The calling thread: waiting for the registration result (line 115), waiting for the watcher's
error (line 121, with the text of the registration's own error), or returned. -/
inductive Main where
  | waitRegister
  | waitError (text : String)
  | succeeded
  | failed (e : FidoErr)
deriving DecidableEq, Repr

/-- The whole state.  `managerTx`/`mainTx` are the two senders of the status channel: the clone
given to `register` (line 85) and `status_tx` itself, which the calling thread owns until it
returns (line 77).  The watcher owns the only error sender and drops it when it ends. -/
structure State where
  manager : Manager
  managerTx : Bool
  mainTx : Bool
  statusChan : List Status
  registerChan : Option Outcome
  watcherAlive : Bool
  errorChan : List FidoErr
  main : Main

/-- The state after line 113: nothing has been received yet.  `statuses` and `outcome` are what the
manager is going to do. -/
def init (statuses : List Status) (outcome : Option Outcome) : State :=
  { manager := ⟨statuses, outcome⟩, managerTx := true, mainTx := true, statusChan := [],
    registerChan := none, watcherAlive := true, errorChan := [], main := .waitRegister }

/-- One step of some thread. -/
inductive Step : State → State → Prop where
  /-- The manager reports a status. -/
  | report (s : State) (st : Status) (rest : List Status)
      (h : s.manager.statuses = st :: rest) :
      Step s { s with manager := { s.manager with statuses := rest },
                      statusChan := if s.watcherAlive then s.statusChan ++ [st] else s.statusChan }
  /-- The manager calls the callback (lines 81-83). -/
  | callback (s : State) (o : Outcome) (ho : s.manager.outcome = some o) :
      Step s { s with manager := { s.manager with outcome := none }, registerChan := some o }
  /-- The manager thread ends and drops its status sender. -/
  | managerEnd (s : State) (h : s.manager.statuses = []) (ho : s.manager.outcome = none)
      (ht : s.managerTx = true) : Step s { s with managerTx := false }
  /-- The watcher receives a PIN status, sends the error and ends (lines 92-107). -/
  | watchPin (s : State) (st : Status) (e : FidoErr) (rest : List Status) (ha : s.watcherAlive = true)
      (h : s.statusChan = st :: rest) (he : st.error = some e) :
      Step s { s with statusChan := [], watcherAlive := false, errorChan := s.errorChan ++ [e] }
  /-- The watcher ignores any other status (line 108). -/
  | watchOther (s : State) (st : Status) (rest : List Status) (ha : s.watcherAlive = true)
      (h : s.statusChan = st :: rest) (he : st.error = none) : Step s { s with statusChan := rest }
  /-- The watcher ends when the status channel is closed (lines 109-111). -/
  | watchClosed (s : State) (ha : s.watcherAlive = true) (h : s.statusChan = [])
      (h1 : s.managerTx = false) (h2 : s.mainTx = false) : Step s { s with watcherAlive := false }
  /-- The calling thread receives a successful registration (line 119) and goes on; from here on
  it needs no other thread. -/
  | mainOk (s : State) (hm : s.main = .waitRegister) (h : s.registerChan = some (.ok ())) :
      Step s { s with registerChan := none, main := .succeeded, mainTx := false }
  /-- The calling thread receives a failed registration and turns to the error channel
  (lines 120-121). -/
  | mainFailed (s : State) (text : String) (hm : s.main = .waitRegister) (h : s.registerChan = some (.error text)) :
      Step s { s with registerChan := none, main := .waitError text }
  /-- The callback was dropped without being called: `recv` fails (lines 115-117); the text is `RecvError`'s. -/
  | mainClosed (s : State) (hm : s.main = .waitRegister) (h : s.registerChan = none)
      (ho : s.manager.outcome = none) (ht : s.managerTx = false) :
      Step s { s with main := .failed (.unknown "receiving on a closed channel"), mainTx := false }
  /-- The watcher's error arrives (lines 121-122). -/
  | mainError (s : State) (text : String) (e : FidoErr) (rest : List FidoErr) (hm : s.main = .waitError text)
      (h : s.errorChan = e :: rest) :
      Step s { s with errorChan := rest, main := .failed e, mainTx := false }
  /-- The error channel is closed (lines 123-124). -/
  | mainUnknown (s : State) (text : String) (hm : s.main = .waitError text) (h : s.errorChan = [])
      (hw : s.watcherAlive = false) :
      Step s { s with main := .failed (.unknown text), mainTx := false }

/-- States reachable by any schedule. -/
inductive Reach : State → State → Prop where
  | refl (s : State) : Reach s s
  | tail {s t u : State} (h : Reach s t) (st : Step t u) : Reach s u

end Ssh.Moz
