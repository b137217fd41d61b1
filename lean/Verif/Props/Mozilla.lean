import Verif.Lemmas.Mozilla

/-! # Properties of registration with the Mozilla backend (C68) -/

namespace Ssh
open Spec Moz

/-! ## C68 -/

/-- C68: whatever the schedule, only so many steps happen: 3 for each status and 6 more. -/
theorem C68_terminates (statuses : List Status) (outcome : Option Outcome) (n : Nat) (t : State) (h : RunN n (init statuses outcome) t) :
    n ≤ 3 * statuses.length + 6 := by
  have h := variant_run h
  have : variant (init statuses outcome) ≤ 3 * statuses.length + 6 := by
    cases outcome <;> simp [variant, init, rank]
  omega

/-- C68: when no thread can go on, the calling thread is where it should be: it has returned the outcome, or, if registration failed
and no PIN problem was reported, it waits. -/
theorem C68_outcome (statuses : List Status) (outcome : Option Outcome) (t : State) (h : Reach (init statuses outcome) t) (hs : Stuck t) :
    t.main = finalMain outcome (firstPin statuses) := by
  have hi := inv_reach h
  have h1 : t.manager.statuses = [] := by
    cases e : t.manager.statuses with
    | nil => rfl
    | cons a b => exact absurd (.report t a b e) (hs _)
  have h2 : t.manager.outcome = none := by
    cases e : t.manager.outcome with
    | none => rfl
    | some o => exact absurd (.callback t o e) (hs _)
  have h3 : t.managerTx = false := by
    cases e : t.managerTx with
    | false => rfl
    | true => exact absurd (.managerEnd t h1 h2 e) (hs _)
  cases hm : t.main with
  | waitRegister =>
    exfalso
    cases e : t.registerChan with
    | none => exact hs _ (.mainClosed t hm e h2 h3)
    | some o =>
      cases o with
      | ok => exact hs _ (.mainOk t hm e)
      | error x => exact hs _ (.mainFailed t x hm e)
  | waitError x =>
    rw [hi.err x hm]
    cases he : t.errorChan with
    | cons e rest => exact absurd (.mainError t x e rest hm he) (hs _)
    | nil =>
      cases hw : t.watcherAlive with
      | false => exact absurd (.mainUnknown t x hm he hw) (hs _)
      | true =>
        cases hc : t.statusChan with
        | cons st rest =>
          cases hst : st.error with
          | some e => exact absurd (.watchPin t st e rest hw hc hst) (hs _)
          | none => exact absurd (.watchOther t st rest hw hc hst) (hs _)
        | nil =>
          have := (hi.chan hw).2
          rw [hc, h1] at this
          rw [← this]
          rfl
  | succeeded => rw [hi.ok hm]; rfl
  | failed e =>
    rcases hi.fail e hm with ⟨x, rfl, h'⟩ | ⟨rfl, rfl⟩
    · rw [h']; rfl
    · rfl

/-- C68: a return before that is the same. -/
theorem C68_returned (statuses : List Status) (outcome : Option Outcome) (t : State) (h : Reach (init statuses outcome) t)
    (hr : Returned t.main) : t.main = finalMain outcome (firstPin statuses) := by
  have hi := inv_reach h
  cases hm : t.main with
  | waitRegister => rw [hm] at hr; exact hr.elim
  | waitError x => rw [hm] at hr; exact hr.elim
  | succeeded => rw [hi.ok hm]; rfl
  | failed e =>
    rcases hi.fail e hm with ⟨x, rfl, h'⟩ | ⟨rfl, rfl⟩
    · rw [h']; rfl
    · rfl

/-- C68, finding: if registration fails and no PIN problem was reported, the call never returns, under any schedule. -/
theorem C68_waits_forever (statuses : List Status) (hp : firstPin statuses = none) (text : String) (t : State)
    (h : Reach (init statuses (some (.error text))) t) : ¬ Returned t.main := by
  intro hr
  have := C68_returned statuses _ t h hr
  rw [hp] at this
  rw [this] at hr
  exact hr

/-- C68: the PIN problem found is the first one reported, and it is passed on as what it means. -/
theorem C68_first (statuses : List Status) (e : FidoErr) :
    firstPin statuses = some e ↔ ∃ pre s post, statuses = pre ++ s :: post ∧ Means s e ∧ ∀ s ∈ pre, s = .other := by
  constructor
  · induction statuses with
    | nil => nofun
    | cons s rest ih =>
      intro h
      rw [firstPin_cons] at h
      cases he : s.error with
      | some e' =>
        rw [he] at h
        cases h
        exact ⟨[], s, rest, rfl, means_iff.mpr he, nofun⟩
      | none =>
        rw [he] at h
        obtain ⟨pre, s', post, h1, hm, h2⟩ := ih h
        have hs : s = .other := by cases s <;> first | rfl | cases he
        refine ⟨s :: pre, s', post, by rw [h1]; rfl, hm, ?_⟩
        intro x hx
        rcases List.mem_cons.mp hx with rfl | hx
        · exact hs
        · exact h2 x hx
  · rintro ⟨pre, s, post, rfl, hm, h⟩
    induction pre with
    | nil => rw [List.nil_append, firstPin_cons, means_iff.mp hm]; rfl
    | cons x pre ih =>
      rw [h x List.mem_cons_self]
      exact ih fun x hx => h x (List.mem_cons_of_mem _ hx)

/-- A failed registration after a wrong PIN, run to the end. -/
example : ∃ t, Reach (init [.other, .invalidPin (some 2)] (some (.error "PIN error"))) t ∧ t.main = .failed (.invalidPin (some 2)) := by
  exact ⟨_, .tail (.tail (.tail (.tail (.tail (.tail (.tail (.refl _) (.report _ _ _ rfl)) (.report _ _ _ rfl)) (.callback _ _ rfl))
      (.mainFailed _ _ rfl rfl)) (.watchOther _ _ _ rfl rfl rfl)) (.watchPin _ _ _ _ rfl rfl rfl)) (.mainError _ _ _ _ rfl rfl), rfl⟩

/-- A failed registration without PIN problem (the device was unplugged, say) gets stuck. -/
example : ∃ t, Reach (init [.other] (some (.error "unplugged"))) t ∧ Stuck t ∧ t.main = .waitError "unplugged" := by
  refine ⟨_, .tail (.tail (.tail (.tail (.tail (.refl _) (.report _ _ _ rfl)) (.callback _ _ rfl))
      (.mainFailed _ _ rfl rfl)) (.watchOther _ _ _ rfl rfl rfl)) (.managerEnd _ rfl rfl rfl), ?_, rfl⟩
  intro u st
  cases st <;> contradiction

end Ssh
