import Verif.Model.Mozilla

/-! # How a registration with the Mozilla backend ends -/

namespace Ssh.Spec
open Moz

/-- What each PIN problem means to the caller: a PIN is needed, too many wrong PINs in a row (the token has to be plugged in
again), the token is blocked for good, or the PIN was wrong, with the attempts left. -/
inductive Means : Status → FidoErr → Prop where
  | needed : Means .pinRequired .pinRequired
  | locked : Means .pinAuthBlocked .keyLocked
  | blocked : Means .pinBlocked .keyBlocked
  | wrong (attempts : Option UInt8) : Means (.invalidPin attempts) (.invalidPin attempts)

/-- The first PIN problem among the reported statuses. -/
def firstPin : List Status → Option FidoErr
  | [] => none
  | .pinRequired :: _ => some .pinRequired
  | .pinAuthBlocked :: _ => some .keyLocked
  | .pinBlocked :: _ => some .keyBlocked
  | .invalidPin n :: _ => some (.invalidPin n)
  | .other :: rest => firstPin rest

/-- No thread can take a step any more. -/
def Stuck (s : State) : Prop := ∀ t, ¬ Step s t

/-- The call has returned. -/
def Returned : Main → Prop
  | .succeeded | .failed _ => True
  | .waitRegister | .waitError _ => False

/-- Where the calling thread ends up, given what the manager is going to report (`none`: it ends without calling the callback). -/
def finalMain : Option Outcome → Option FidoErr → Main
  | some (.ok _), _ => .succeeded
  | none, _ => .failed (.unknown "receiving on a closed channel")
  | some (.error _), some e => .failed e
  | some (.error text), none => .waitError text

/-- Runs of `n` steps. -/
inductive RunN : Nat → State → State → Prop where
  | zero (s : State) : RunN 0 s s
  | succ {n : Nat} {s t u : State} (h : RunN n s t) (st : Step t u) : RunN (n + 1) s u

end Ssh.Spec
