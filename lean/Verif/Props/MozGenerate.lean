import Verif.Spec.MozGenerate
import Verif.Props.Fido
import Verif.Props.Mozilla

/-! # C124: FIDO key generation through the Mozilla backend, from the call to its return -/

namespace Ssh
open Spec Moz

/-- Every run can be continued until no thread can go on. -/
theorem Moz.run_to_end {statuses : List Status} {outcome : Option Outcome} {s : State} (h : Reach (init statuses outcome) s) :
    ∃ t, Reach (init statuses outcome) t ∧ Stuck t := by
  generalize hn : variant s = n
  induction n using Nat.strongRecOn generalizing s with
  | _ n ih =>
    by_cases hs : Stuck s
    · exact ⟨s, h, hs⟩
    · obtain ⟨t, ht⟩ := Classical.not_forall.mp hs
      have ht := Classical.not_not.mp ht
      exact ih (variant t) (by rw [← hn]; exact variant_step ht) (.tail h ht) rfl

theorem request_iff {application : String} {pin : Option String} {challenge : Bytes} {q : MozRequest} :
    RegistrationRequest application pin challenge q ↔ q = mozRequest application pin challenge := by
  constructor
  · rintro ⟨h1, ⟨h2, h3, h4, h5, h6, h7⟩, ⟨h8, h9⟩, ⟨h10, h11, h12⟩, h13⟩
    cases q
    simp only at h1 h2 h3 h4 h5 h6 h7 h8 h9 h10 h11 h12 h13
    subst h1 h2 h3 h4 h5 h6 h7 h8 h9 h10 h11 h12 h13
    rfl
  · rintro rfl
    exact ⟨rfl, ⟨rfl, rfl, rfl, rfl, rfl, rfl⟩, ⟨rfl, rfl⟩, ⟨rfl, rfl, rfl⟩, rfl⟩

/-- C124: what the call returns, over all schedules: nothing else, and each of these. -/
theorem C124_returns (X : X509Env) (C : Crypto) (yubicoRoot application comment : String) (pin path : Option String)
    (W : MozRegistrar) (r : Res FidoSshKey) :
    MozGenerates X C yubicoRoot application comment pin path W r ↔
      (∃ text, W.service = .error text ∧ r = .err (.fidoError (.unknown text))) ∨
      W.service = .ok () ∧ W.random = none ∧ r = .panic ∨
      ∃ c q, W.service = .ok () ∧ W.random = some c ∧ RegistrationRequest application pin c.toList q ∧
        ((∃ text, W.register q = .error text ∧ r = .err (.fidoError (.unknown text))) ∨
         ∃ statuses outcome, W.register q = .ok (statuses, outcome) ∧
          (outcome = none ∧ r = .err (.fidoError (.unknown "receiving on a closed channel")) ∨
           (∃ text e, outcome = some (.error text) ∧ FirstProblem statuses e ∧ r = .err (.fidoError e)) ∨
           ∃ att, outcome = some (.ok att) ∧ r = mozGenerate X C yubicoRoot application comment pin c.toList att)) := by
  constructor
  · intro h
    cases h with
    | noService x h => exact .inl ⟨x, h, rfl⟩
    | noRandom h hr => exact .inr (.inl ⟨h, hr, rfl⟩)
    | refused c x h hr hq => exact .inr (.inr ⟨c, _, h, hr, request_iff.mpr rfl, .inl ⟨x, hq, rfl⟩⟩)
    | failed c statuses outcome t e h hr hq ht hm =>
      refine .inr (.inr ⟨c, _, h, hr, request_iff.mpr rfl, .inr ⟨statuses, outcome, hq, ?_⟩⟩)
      rcases (inv_reach ht).fail e hm with ⟨x, ho, he⟩ | ⟨ho, rfl⟩
      · cases outcome with
        | none => cases ho
        | some o =>
          cases o with
          | ok a => cases ho
          | error y => exact .inr (.inl ⟨y, e, rfl, (C68_first _ _).mp he, rfl⟩)
      · cases outcome with
        | none => exact .inl ⟨rfl, rfl⟩
        | some o => cases ho
    | succeeded c statuses att t h hr hq ht hm =>
      exact .inr (.inr ⟨c, _, h, hr, request_iff.mpr rfl, .inr ⟨statuses, _, hq, .inr (.inr ⟨att, rfl, rfl⟩)⟩⟩)
  · rintro (⟨x, h, rfl⟩ | ⟨h, hr, rfl⟩ | ⟨c, q, h, hr, hq', ⟨x, hq, rfl⟩ | ⟨statuses, outcome, hq, hc⟩⟩)
    · exact .noService x h
    · exact .noRandom h hr
    · cases request_iff.mp hq'
      exact .refused c x h hr hq
    · cases request_iff.mp hq'
      obtain ⟨t, ht, hs⟩ := run_to_end (.refl (init statuses (outcome.map Moz.seen)))
      have hm := C68_outcome _ _ _ ht hs
      rcases hc with ⟨rfl, rfl⟩ | ⟨x, e, rfl, he, rfl⟩ | ⟨att, rfl, rfl⟩
      · exact .failed c statuses _ t _ h hr hq ht hm
      · have he := (C68_first _ _).mpr he
        refine .failed c statuses _ t _ h hr hq ht ?_
        rw [hm, he]
        rfl
      · exact .succeeded c statuses att t h hr hq ht hm

/-- C124: the schedule does not matter: at most one value is returned. -/
theorem C124_deterministic (X : X509Env) (C : Crypto) (yubicoRoot application comment : String) (pin path : Option String)
    (W : MozRegistrar) (r r' : Res FidoSshKey) (h : MozGenerates X C yubicoRoot application comment pin path W r)
    (h' : MozGenerates X C yubicoRoot application comment pin path W r') : r = r' := by
  rw [C124_returns] at h h'
  rcases h with ⟨x, a, rfl⟩ | ⟨a, b, rfl⟩ | ⟨c, q, a, b, hq, h⟩ <;>
    rcases h' with ⟨x', a', rfl⟩ | ⟨a', b', rfl⟩ | ⟨c', q', a', b', hq', h'⟩ <;> rw [a] at a' <;> cases a' <;>
    first | rfl | (rw [b] at b'; cases b'; done) | skip
  rw [b] at b'
  cases b'
  cases request_iff.mp hq
  cases request_iff.mp hq'
  rcases h with ⟨x, e, rfl⟩ | ⟨s, o, e, h⟩ <;> rcases h' with ⟨x', e', rfl⟩ | ⟨s', o', e', h'⟩ <;> rw [e] at e' <;> cases e'
  · rfl
  rcases h with ⟨rfl, rfl⟩ | ⟨x, p, rfl, hp, rfl⟩ | ⟨a, rfl, rfl⟩ <;> rcases h' with ⟨e, rfl⟩ | ⟨x', p', e, hp', rfl⟩ | ⟨a', e, rfl⟩ <;>
    cases e <;> try rfl
  have hp := (C68_first _ _).mpr hp
  rw [(C68_first _ _).mpr hp'] at hp
  cases hp
  rfl

/-- C124, finding: the call never returns exactly when the registration fails and no PIN problem was reported, as when the
token is taken out or the time has run out. -/
theorem C124_never (X : X509Env) (C : Crypto) (yubicoRoot application comment : String) (pin path : Option String)
    (W : MozRegistrar) :
    (∀ r, ¬ MozGenerates X C yubicoRoot application comment pin path W r) ↔
      ∃ c q statuses text, W.service = .ok () ∧ W.random = some c ∧ RegistrationRequest application pin c.toList q ∧
        W.register q = .ok (statuses, some (.error text)) ∧ ∀ s ∈ statuses, s = .other := by
  constructor
  · intro h
    have h : ∀ r, ¬ _ := fun r hr => h r ((C124_returns ..).mpr hr)
    cases hs : W.service with
    | error x => exact absurd (.inl ⟨x, hs, rfl⟩) (h _)
    | ok u =>
      cases hr : W.random with
      | none => exact absurd (.inr (.inl ⟨hs, hr, rfl⟩)) (h _)
      | some c =>
        have hq := request_iff.mpr (rfl : mozRequest application pin c.toList = _)
        cases hg : W.register (mozRequest application pin c.toList) with
        | error x => exact absurd (.inr (.inr ⟨c, _, hs, hr, hq, .inl ⟨x, hg, rfl⟩⟩)) (h _)
        | ok so =>
          obtain ⟨statuses, o⟩ := so
          cases o with
          | none => exact absurd (.inr (.inr ⟨c, _, hs, hr, hq, .inr ⟨_, _, hg, .inl ⟨rfl, rfl⟩⟩⟩)) (h _)
          | some o =>
            cases o with
            | ok a => exact absurd (.inr (.inr ⟨c, _, hs, hr, hq, .inr ⟨_, _, hg, .inr (.inr ⟨a, rfl, rfl⟩)⟩⟩)) (h _)
            | error x =>
              refine ⟨c, _, statuses, x, rfl, rfl, hq, hg, ?_⟩
              have hn : firstPin statuses = none := by
                cases hf : firstPin statuses with
                | none => rfl
                | some e =>
                  exact absurd (.inr (.inr ⟨c, _, hs, hr, hq, .inr ⟨_, _, hg,
                    .inr (.inl ⟨x, e, rfl, (C68_first _ _).mp hf, rfl⟩)⟩⟩)) (h _)
              clear hg
              induction statuses with
              | nil => nofun
              | cons s rest ih =>
                cases s <;> first | (cases hn; done) | skip
                intro s hs
                rcases List.mem_cons.mp hs with rfl | hs
                · rfl
                · exact ih hn s hs
  · rintro ⟨c, q, statuses, x, hs, hr, hq, hg, ho⟩ r h
    rw [C124_returns, hs, hr] at h
    rcases h with ⟨_, e, _⟩ | ⟨_, e, _⟩ | ⟨c', q', _, e, hq', h⟩
    · cases e
    · cases e
    · cases e
      cases request_iff.mp hq
      cases request_iff.mp hq'
      rw [hg] at h
      rcases h with ⟨_, e, _⟩ | ⟨s', o, e, h⟩
      · cases e
      · cases e
        rcases h with ⟨e, _⟩ | ⟨_, _, e, ⟨pre, s, post, hp, hm, _⟩, _⟩ | ⟨a, e, _⟩
        · cases e
        · have := ho s (by rw [hp]; simp)
          subst this
          cases hm
        · cases e

/-- C124: a key that is returned was attested in answer to this request: the challenge signed is the one drawn for it, and the PIN
stays with the key.  The device path given is not used: no other device is addressed. -/
theorem C124_key (X : X509Env) (C : Crypto) (yubicoRoot application comment : String) (pin path : Option String)
    (W : MozRegistrar) (k : FidoSshKey) (h : MozGenerates X C yubicoRoot application comment pin path W (.ok k)) :
    ∃ c q statuses att i v, W.random = some c ∧ RegistrationRequest application pin c.toList q ∧
      W.register q = .ok (statuses, some (.ok att)) ∧
      k.attestation.challenge = c.toList ∧ k.attestation.authData = att.authData ∧
      Attested X C yubicoRoot k.attestation.intermediate att.authData c.toList k.attestation.authDataSig i ∧
      AuthData.parse att.authData = .ok v ∧ AttestedKey v application k.privateKey.pubkey ∧
      k.privateKey.kind = .ed25519Sk ⟨v.flags, v.credentialId, [], pin, none⟩ ∧ k.privateKey.comment = comment ∧
      ∀ path', MozGenerates X C yubicoRoot application comment pin path' W (.ok k) := by
  have h' := h
  rw [C124_returns] at h
  have hp : ∀ path', MozGenerates X C yubicoRoot application comment pin path' W (.ok k) := by
    intro path'
    rw [C124_returns] at h' ⊢
    exact h'
  rcases h with ⟨_, _, e⟩ | ⟨_, _, e⟩ | ⟨c, q, hs, hr, hq, ⟨_, _, e⟩ | ⟨statuses, outcome, hg, ⟨_, e⟩ | ⟨_, _, _, _, e⟩ | ⟨att, rfl, e⟩⟩⟩ <;>
    first | (cases e; done) | skip
  obtain ⟨sig, certs, cert, alg, v, i, h1, h2, h3, h4, h5, h6, h7, h8, h9, h10, h11, h12, h13, h14⟩ := (C70_mozilla ..).mp e.symm
  refine ⟨c, q, statuses, att, i, v.authData, hr, hq, hg, ?_, ?_, ?_, h5, h9, h14, h13, hp⟩
  · rw [h8]
  · rw [h8]
  · rw [h8]
    exact h4

/-- A service that answers the request it expects, after a status, with an attestation over the challenge drawn. -/
def sampleRegistrar : MozRegistrar where
  service := .ok ()
  random := some (Vector.replicate 32 7)
  register q := if q = mozRequest "ssh:" (some "1234") (List.replicate 32 7) then
      .ok ([.other], some (.ok ⟨sampleAuthData, some ([9], [[2]], -7)⟩))
    else .error "unknown request"

def sampleMozC : Crypto :=
  { laxCrypto with ecdsaAsn1Verify := fun k m s => k = [4] ∧ m = sampleAuthData ++ List.replicate 32 7 ∧ s = [9] }

example : ∃ k, MozGenerates sampleFidoX sampleMozC "" "ssh:" "me" (some "1234") (some "/dev/hidraw0") sampleRegistrar (.ok k) ∧
    k.privateKey.kind = .ed25519Sk ⟨0x45, [10, 11, 12], [], some "1234", none⟩ := by
  have h : mozGenerate sampleFidoX sampleMozC "" "ssh:" "me" (some "1234") (List.replicate 32 7)
      ⟨sampleAuthData, some ([9], [[2]], -7)⟩ = .ok ⟨⟨⟨"sk-ssh-ed25519@openssh.com", "sk-ssh-ed25519@openssh.com", "ED25519-SK", false, true, .ed25519⟩,
      .ed25519Sk ⟨0x45, [10, 11, 12], [], some "1234", none⟩,
      ⟨⟨"sk-ssh-ed25519@openssh.com", "sk-ssh-ed25519@openssh.com", "ED25519-SK", false, true, .ed25519⟩,
        .ed25519 (List.replicate 32 9) (some "ssh:"), none⟩, 0, "me"⟩,
    ⟨sampleAuthData, [9], [2], List.replicate 32 7, -7⟩⟩ := by decide +kernel
  refine ⟨_, (C124_returns ..).mpr (.inr (.inr ⟨_, _, rfl, rfl, request_iff.mpr rfl, .inr ⟨[.other],
    some (.ok ⟨sampleAuthData, some ([9], [[2]], -7)⟩), by rfl, .inr (.inr ⟨_, rfl, h.symm⟩)⟩⟩)), rfl⟩

/-- A wrong PIN is reported, a removed token is waited for. -/
example : MozGenerates sampleFidoX sampleMozC "" "ssh:" "me" none none
      { sampleRegistrar with register := fun _ => .ok ([.other, .invalidPin (some 2)], some (.error "PIN error")) }
      (.err (.fidoError (.invalidPin (some 2)))) ∧
    ∀ r, ¬ MozGenerates sampleFidoX sampleMozC "" "ssh:" "me" none none
      { sampleRegistrar with register := fun _ => .ok ([.other], some (.error "unplugged")) } r := by
  constructor
  · exact (C124_returns ..).mpr (.inr (.inr ⟨_, _, rfl, rfl, request_iff.mpr rfl, .inr ⟨_, _, rfl, .inr (.inl ⟨_, _, rfl,
      ⟨[.other], _, [], rfl, .wrong _, by simp⟩, rfl⟩)⟩⟩))
  · exact (C124_never ..).mpr ⟨_, _, [.other], _, rfl, rfl, request_iff.mpr rfl, rfl, by simp⟩

end Ssh
