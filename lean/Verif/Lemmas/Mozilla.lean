import Verif.Spec.Mozilla

/-! # Invariant and variant of the registration threads -/

namespace Ssh.Moz
open Spec

theorem firstPin_cons (st : Status) (rest : List Status) : firstPin (st :: rest) = st.error.or (firstPin rest) := by
  cases st <;> rfl

theorem means_iff {st : Status} {e : FidoErr} : Means st e ↔ st.error = some e := by
  constructor
  · rintro (_ | _ | _ | _) <;> rfl
  · intro h
    cases st <;> cases h
    · exact .needed
    · exact .locked
    · exact .blocked
    · exact .wrong _

structure Inv (st0 : List Status) (o0 : Option Outcome) (s : State) : Prop where
  chan : s.watcherAlive = true → s.errorChan = [] ∧ firstPin (s.statusChan ++ s.manager.statuses) = firstPin st0
  dead : s.watcherAlive = false → s.mainTx = false ∨ ∃ e, s.errorChan = [e] ∧ firstPin st0 = some e
  reg : s.main = .waitRegister → (s.manager.outcome = o0 ∧ s.registerChan = none) ∨ (s.manager.outcome = none ∧ o0 ≠ none ∧ s.registerChan = o0)
  err : ∀ x, s.main = .waitError x → o0 = some (.error x)
  ok : s.main = .succeeded → o0 = some (.ok ())
  fail : ∀ e, s.main = .failed e → (∃ x, o0 = some (.error x) ∧ firstPin st0 = some e) ∨ (o0 = none ∧ e = .unknown "receiving on a closed channel")
  errs : ∀ e ∈ s.errorChan, firstPin st0 = some e
  tx : s.mainTx = true ↔ s.main = .waitRegister ∨ ∃ x, s.main = .waitError x

theorem inv_init (st0 : List Status) (o0 : Option Outcome) : Inv st0 o0 (init st0 o0) where
  chan _ := ⟨rfl, rfl⟩
  dead h := by cases h
  reg _ := .inl ⟨rfl, rfl⟩
  err _ h := by cases h
  ok h := by cases h
  fail _ h := by cases h
  errs _ h := by cases h
  tx := by simp [init]

theorem inv_step {st0 : List Status} {o0 : Option Outcome} {s t : State} (h : Inv st0 o0 s) (st : Step s t) : Inv st0 o0 t := by
  cases st with
  | report st rest hs =>
    refine { h with chan := fun ha => ?_ }
    have ha : s.watcherAlive = true := ha
    refine ⟨(h.chan ha).1, ?_⟩
    have := (h.chan ha).2
    rw [hs] at this
    simpa [ha] using this
  | callback o ho =>
    refine { h with reg := fun hm => ?_ }
    rcases h.reg hm with ⟨e, _⟩ | ⟨e, _⟩
    · rw [ho] at e
      exact .inr ⟨rfl, by rw [← e]; nofun, e⟩
    · rw [ho] at e; cases e
  | managerEnd hs ho ht => exact { h with }
  | watchPin st e rest ha hc he =>
    have := h.chan ha
    rw [hc, List.cons_append, firstPin_cons, he, Option.some_or] at this
    refine { h with chan := nofun, dead := fun _ => .inr ⟨e, ?_, ?_⟩, errs := ?_ }
    · show s.errorChan ++ [e] = [e]
      rw [this.1]; rfl
    · exact this.2.symm
    · intro e' he
      have he : e' ∈ s.errorChan ++ [e] := he
      rw [this.1] at he
      simp only [List.nil_append, List.mem_singleton] at he
      subst he
      exact this.2.symm
  | watchOther st rest ha hc he =>
    refine { h with chan := fun _ => ?_ }
    have := h.chan ha
    rw [hc, List.cons_append, firstPin_cons, he, Option.none_or] at this
    exact this
  | watchClosed ha hc h1 h2 => exact { h with chan := nofun, dead := fun _ => .inl h2 }
  | mainOk hm hr =>
    refine { chan := h.chan, dead := fun _ => .inl rfl, reg := nofun, err := nofun, ok := fun _ => ?_, fail := nofun, errs := h.errs, tx := by simp }
    rcases h.reg hm with ⟨_, e⟩ | ⟨_, _, e⟩
    · rw [hr] at e; cases e
    · rw [← e, hr]
  | mainFailed x hm hr =>
    have ht := h.tx.mpr (.inl hm)
    refine { h with reg := nofun, err := fun y hy => ?_, ok := nofun, fail := nofun, tx := by simp [ht] }
    cases hy
    rcases h.reg hm with ⟨_, e⟩ | ⟨_, _, e⟩
    · rw [hr] at e; cases e
    · rw [← e, hr]
  | mainClosed hm hr ho ht =>
    refine { chan := h.chan, dead := fun _ => .inl rfl, reg := nofun, err := nofun, ok := nofun, fail := fun e he => ?_, errs := h.errs, tx := by simp }
    cases he
    rcases h.reg hm with ⟨e, _⟩ | ⟨_, h1, e⟩
    · exact .inr ⟨by rw [← e, ho], rfl⟩
    · rw [hr] at e; exact absurd e.symm h1
  | mainError x e rest hm he =>
    refine { chan := fun ha => ?_, dead := fun _ => .inl rfl, reg := nofun, err := nofun, ok := nofun, fail := fun e' he' => ?_, errs := fun e' he' => ?_, tx := by simp }
    · have := (h.chan ha).1
      rw [he] at this
      cases this
    · cases he'
      exact .inl ⟨x, h.err x hm, h.errs e (by rw [he]; exact List.mem_cons_self)⟩
    · exact h.errs e' (by rw [he]; exact List.mem_cons_of_mem _ he')
  | mainUnknown x hm he hw =>
    exfalso
    have ht := h.tx.mpr (.inr ⟨x, hm⟩)
    rcases h.dead hw with h' | ⟨e, h', _⟩
    · rw [ht] at h'; cases h'
    · rw [he] at h'; cases h'

theorem inv_reach {st0 : List Status} {o0 : Option Outcome} {s : State} (h : Reach (init st0 o0) s) : Inv st0 o0 s := by
  generalize hi : init st0 o0 = i at h
  induction h with
  | refl => subst hi; exact inv_init _ _
  | tail h st ih => exact inv_step ih st

def rank : Main → Nat
  | .waitRegister => 2
  | .waitError _ => 1
  | _ => 0

def variant (s : State) : Nat :=
  3 * s.manager.statuses.length + 2 * s.statusChan.length + s.manager.outcome.isSome.toNat + s.managerTx.toNat + s.watcherAlive.toNat +
    rank s.main

theorem variant_step {s t : State} (st : Step s t) : variant t < variant s := by
  cases st <;> simp_all [variant, rank]
  · split
    · simp only [List.length_append, List.length_singleton]
      omega
    · omega
  · omega

theorem variant_run {n : Nat} {s t : State} (h : RunN n s t) : variant t + n ≤ variant s := by
  induction h with
  | zero => exact Nat.le_refl _
  | succ h st ih =>
    have := variant_step st
    omega

end Ssh.Moz
