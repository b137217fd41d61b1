import Verif.Spec.TokenDialog
import Verif.Lemmas.Token
import Verif.Props.PivReasons

/-! # Dialogs of composed methods -/

namespace Ssh
open Spec

variable {σ α β : Type}

theorem answered_det {D : YkDev σ} {s a b : σ} {e : YkEvent} (h1 : Answered D s e a) (h2 : Answered D s e b) : a = b := by
  cases e <;> exact (Prod.mk.inj (Eq.trans (Eq.symm h1) h2)).2

theorem Spec.Run.det {D : YkDev σ} {s a b : σ} {ev : List YkEvent} (h1 : Run D s ev a) (h2 : Run D s ev b) : a = b := by
  induction h1 with
  | nil => cases h2; rfl
  | cons h _ ih =>
    cases h2 with
    | cons h' h2 =>
      cases answered_det h h'
      exact ih h2

theorem Spec.Run.split {D : YkDev σ} {a b : List YkEvent} : ∀ {s s2 : σ}, Run D s (a ++ b) s2 → ∃ s1, Run D s a s1 ∧ Run D s1 b s2 := by
  induction a with
  | nil => intro s s2 h; exact ⟨s, .nil _, h⟩
  | cons e a ih =>
    intro s s2 h
    cases h with
    | cons h h2 =>
      obtain ⟨s1, h3, h4⟩ := ih h2
      exact ⟨s1, .cons h h3, h4⟩

/-- The dialog of `m >>= f`. -/
inductive BindDialog (R : List YkEvent → YkRes α → Prop) (S : α → List YkEvent → YkRes β → Prop) : List YkEvent → YkRes β → Prop where
  | ok (a b : List YkEvent) (x : α) (r : YkRes β) : R a (.ok x) → S x b r → BindDialog R S (a ++ b) r
  | err (a : List YkEvent) (e : YkErr) : R a (.err e) → BindDialog R S a (.err e)
  | panic (a : List YkEvent) : R a .panic → BindDialog R S a .panic

theorem hasDialog_mk {D : YkDev σ} {m : Yk σ α} {R : List YkEvent → YkRes α → Prop}
    (h1 : ∀ s, ∃ ev r s', DoesTo D m s ev r s' ∧ R ev r) (h2 : ∀ s s' ev r, Run D s ev s' → R ev r → DoesTo D m s ev r s') : HasDialog D m R := by
  refine ⟨fun s => ?_, fun s ev r => ⟨fun h => ?_, ?_⟩⟩
  · obtain ⟨ev, r, s', h, _⟩ := h1 s
    exact ⟨ev, r, h.does⟩
  · obtain ⟨ev', r', s', h', hR⟩ := h1 s
    obtain ⟨rfl, rfl⟩ := h.det h'.does
    exact ⟨⟨s', h'.1⟩, hR⟩
  · rintro ⟨⟨s', h⟩, hR⟩
    exact (h2 s s' ev r h hR).does

theorem Spec.HasDialog.to {D : YkDev σ} {m : Yk σ α} {R : List YkEvent → YkRes α → Prop} (h : HasDialog D m R) (s : σ) :
    ∃ ev r s', DoesTo D m s ev r s' ∧ R ev r := by
  obtain ⟨ev, r, hd⟩ := h.total s
  obtain ⟨s', h1⟩ := id hd
  exact ⟨ev, r, s', h1, ((h.exact s ev r).mp hd).2⟩

theorem Spec.HasDialog.run {D : YkDev σ} {m : Yk σ α} {R : List YkEvent → YkRes α → Prop} (h : HasDialog D m R) {s s' : σ}
    {ev : List YkEvent} {r : YkRes α} (hr : Run D s ev s') (hR : R ev r) : DoesTo D m s ev r s' := by
  obtain ⟨s1, h1⟩ := (h.exact s ev r).mpr ⟨⟨s', hr⟩, hR⟩
  cases hr.det h1.1
  exact h1

theorem Spec.HasDialog.congr {D : YkDev σ} {m : Yk σ α} {R S : List YkEvent → YkRes α → Prop} (h : HasDialog D m R)
    (e : ∀ ev r, R ev r ↔ S ev r) : HasDialog D m S :=
  ⟨h.total, fun s ev r => by rw [h.exact, e]⟩

theorem dialog_pure {D : YkDev σ} (a : α) : HasDialog D (Pure.pure a : Yk σ α) (fun ev r => ev = [] ∧ r = .ok a) :=
  hasDialog_mk (fun s => ⟨_, _, s, DoesTo.pure a, rfl, rfl⟩)
    (fun s s' ev r h ⟨e, e'⟩ => by subst e e'; cases h; exact DoesTo.pure a)

theorem dialog_fail {D : YkDev σ} (e : YkErr) : HasDialog D (Yk.fail e : Yk σ α) (fun ev r => ev = [] ∧ r = .err e) :=
  hasDialog_mk (fun s => ⟨_, _, s, DoesTo.fail e, rfl, rfl⟩)
    (fun s s' ev r h ⟨e, e'⟩ => by subst e e'; cases h; exact DoesTo.fail _)

theorem dialog_crash {D : YkDev σ} : HasDialog D (Yk.crash : Yk σ α) (fun ev r => ev = [] ∧ r = .panic) :=
  hasDialog_mk (fun s => ⟨_, _, s, DoesTo.crash, rfl, rfl⟩)
    (fun s s' ev r h ⟨e, e'⟩ => by subst e e'; cases h; exact DoesTo.crash)

theorem run_one_iff {D : YkDev σ} {s s' : σ} {e : YkEvent} : Run D s [e] s' ↔ Answered D s e s' := by
  refine ⟨fun h => ?_, run_one⟩
  cases h with
  | cons h1 h2 => cases h2; exact h1

theorem dialog_ask {D : YkDev σ} {f : σ → Option α × σ} {ev : Option α → YkEvent} (h : ∀ s o s', Answered D s (ev o) s' ↔ f s = (o, s')) :
    HasDialog D (Yk.ask f ev) (fun l r => ∃ o, l = [ev o] ∧ r = answer o) := by
  refine hasDialog_mk (fun s => ⟨_, _, _, DoesTo.ask (o := (f s).1) (s1 := (f s).2) rfl ((h _ _ _).mpr rfl), _, rfl, rfl⟩) ?_
  rintro s s' _ _ hr ⟨o, rfl, rfl⟩
  have ha := run_one_iff.mp hr
  exact DoesTo.ask ((h _ _ _).mp ha) ha

theorem dialog_tell {D : YkDev σ} {f : σ → Bool × σ} {ev : Bool → YkEvent} (h : ∀ s o s', Answered D s (ev o) s' ↔ f s = (o, s')) :
    HasDialog D (Yk.tell f ev) (fun l r => ∃ o, l = [ev o] ∧ r = if o then .ok () else .err .internal) := by
  refine hasDialog_mk (fun s => ⟨_, _, _, DoesTo.tell (o := (f s).1) (s1 := (f s).2) rfl ((h _ _ _).mpr rfl), _, rfl, rfl⟩) ?_
  rintro s s' _ _ hr ⟨o, rfl, rfl⟩
  have ha := run_one_iff.mp hr
  exact DoesTo.tell ((h _ _ _).mp ha) ha

theorem dialog_bind {D : YkDev σ} {m : Yk σ α} {f : α → Yk σ β} {R : List YkEvent → YkRes α → Prop}
    {S : α → List YkEvent → YkRes β → Prop} (h1 : HasDialog D m R) (h2 : ∀ a, HasDialog D (f a) (S a)) :
    HasDialog D (m >>= f) (BindDialog R S) := by
  refine hasDialog_mk (fun s => ?_) ?_
  · obtain ⟨ev, r, s1, hd, hR⟩ := h1.to s
    cases r with
    | err e => exact ⟨_, _, _, hd.bind_err, .err _ _ hR⟩
    | panic => exact ⟨_, _, _, hd.bind_panic, .panic _ hR⟩
    | ok a =>
      obtain ⟨ev', r', s2, hd', hS⟩ := (h2 a).to s1
      exact ⟨_, _, _, hd.bind hd', .ok _ _ _ _ hR hS⟩
  · intro s s' ev r hr hB
    cases hB with
    | err a e h => exact (h1.run hr h).bind_err
    | panic a h => exact (h1.run hr h).bind_panic
    | ok a b x r hR hS =>
      obtain ⟨s1, r1, r2⟩ := hr.split
      exact (h1.run r1 hR).bind ((h2 x).run r2 hS)

theorem dialog_mapErr {D : YkDev σ} {m : Yk σ α} {R : List YkEvent → YkRes α → Prop} (h : HasDialog D m R) (e : YkErr) :
    HasDialog D (Yk.mapErr m e) (fun ev r => ∃ r', R ev r' ∧ r = mapErrRes e r') := by
  refine hasDialog_mk (fun s => ?_) ?_
  · obtain ⟨ev, r, s1, hd, hR⟩ := h.to s
    exact ⟨_, _, _, hd.mapErr, _, hR, rfl⟩
  · rintro s s' ev _ hr ⟨r', hR, rfl⟩
    exact (h.run hr hR).mapErr

theorem dialog_unwrap {D : YkDev σ} {m : Yk σ α} {R : List YkEvent → YkRes α → Prop} (h : HasDialog D m R) :
    HasDialog D (Yk.unwrap m) (fun ev r => ∃ r', R ev r' ∧ r = unwrapRes r') := by
  refine hasDialog_mk (fun s => ?_) ?_
  · obtain ⟨ev, r, s1, hd, hR⟩ := h.to s
    exact ⟨_, _, _, hd.unwrap, _, hR, rfl⟩
  · rintro s s' ev _ hr ⟨r', hR, rfl⟩
    exact (h.run hr hR).unwrap

/-! ## The methods -/

theorem new_dialog (D : YkDev σ) : HasDialog D (Yk.new D) NewDialog := by
  refine (dialog_ask (ev := .openFirst) fun _ _ _ => Iff.rfl).congr fun ev r => ⟨?_, ?_⟩
  · rintro ⟨o, rfl, rfl⟩
    cases o with
    | none => exact .none
    | some i => exact .ok i
  · rintro (_ | i) <;> exact ⟨_, rfl, rfl⟩

theorem open_dialog (D : YkDev σ) (n : UInt32) : HasDialog D (Yk.openSerial D n) (OpenDialog n) := by
  refine (dialog_mapErr (dialog_ask (ev := .openSerial n) fun _ _ _ => Iff.rfl) .noSuchYubikey).congr fun ev r => ⟨?_, ?_⟩
  · rintro ⟨_, ⟨o, rfl, rfl⟩, rfl⟩
    cases o with
    | none => exact .none
    | some i => exact .ok i
  · rintro (_ | i) <;> exact ⟨_, ⟨_, rfl, rfl⟩, rfl⟩

theorem reconnect_dialog (D : YkDev σ) (conn : Nat) : HasDialog D (Yk.reconnect D conn) (ReconnectDialog conn (D.serial conn)) := by
  have ht : HasDialog D (Yk.tell (D.reconnect conn) (.reconnect conn)) _ := dialog_tell fun _ _ _ => Iff.rfl
  have ho := open_dialog D (D.serial conn)
  have h1 : ∀ {s s1 ev}, DoesTo D (Yk.tell (D.reconnect conn) (.reconnect conn)) s ev (.ok ()) s1 →
      DoesTo D (Yk.reconnect D conn) s ev (.ok conn) s1 := by
    intro s s1 ev h
    refine ⟨h.1, fun tr => ?_⟩
    unfold Yk.reconnect
    rw [h.2 tr]
  have h2 : ∀ {s s1 s2 ev ev' e r}, DoesTo D (Yk.tell (D.reconnect conn) (.reconnect conn)) s ev (.err e) s1 →
      DoesTo D (Yk.openSerial D (D.serial conn)) s1 ev' r s2 → DoesTo D (Yk.reconnect D conn) s (ev ++ ev') r s2 := by
    intro s s1 s2 ev ev' e r h h'
    refine ⟨h.1.append h'.1, fun tr => ?_⟩
    unfold Yk.reconnect
    rw [h.2 tr]
    dsimp only
    rw [h'.2, List.append_assoc]
  refine hasDialog_mk (fun s => ?_) ?_
  · obtain ⟨ev, r, s1, hd, o, rfl, rfl⟩ := ht.to s
    cases o with
    | true => exact ⟨_, _, _, h1 hd, .same⟩
    | false =>
      obtain ⟨ev', r', s2, hd', hR⟩ := ho.to s1
      refine ⟨_, _, _, h2 hd hd', ?_⟩
      cases hR with
      | none => exact .none
      | ok i => exact .ok i
  · intro s s' ev r hr hR
    cases hR with
    | same => exact h1 (ht.run hr ⟨true, rfl, rfl⟩)
    | none =>
      obtain ⟨s1, r1, r2⟩ := Run.split (a := [_]) hr
      exact h2 (ht.run r1 ⟨false, rfl, rfl⟩) (ho.run r2 .none)
    | ok i =>
      obtain ⟨s1, r1, r2⟩ := Run.split (a := [_]) hr
      exact h2 (ht.run r1 ⟨false, rfl, rfl⟩) (ho.run r2 (.ok i))

theorem unlock_dialog (D : YkDev σ) (conn : Nat) (pin mgm : Bytes) :
    HasDialog D (Yk.unlock D conn pin mgm) (UnlockDialog conn pin mgm (D.mgmKey mgm)) := by
  unfold Yk.unlock
  cases D.mgmKey mgm with
  | true =>
    simp only [if_true]
    refine (dialog_bind (dialog_tell (ev := .verifyPin conn pin) fun _ _ _ => Iff.rfl)
      fun _ => dialog_tell (ev := .authenticate conn mgm) fun _ _ _ => Iff.rfl).congr fun ev r => ⟨?_, ?_⟩
    · rintro (⟨_, _, x, _, ⟨o, rfl, h⟩, ⟨o', rfl, rfl⟩⟩ | ⟨_, e, ⟨o, rfl, h⟩⟩ | ⟨_, ⟨o, rfl, h⟩⟩)
      · cases o with
        | false => cases h
        | true =>
          cases o' with
          | true => exact .ok rfl
          | false => exact .key rfl
      · cases o with
        | true => cases h
        | false => cases h; exact .pin
      · cases o <;> cases h
    · rintro (_ | h | _ | _)
      · exact .err _ _ ⟨false, rfl, rfl⟩
      · cases h
      · exact .ok [_] [_] () _ ⟨true, rfl, rfl⟩ ⟨false, rfl, rfl⟩
      · exact .ok [_] [_] () _ ⟨true, rfl, rfl⟩ ⟨true, rfl, rfl⟩
  | false =>
    simp only [Bool.false_eq_true, if_false]
    refine (dialog_bind (dialog_tell (ev := .verifyPin conn pin) fun _ _ _ => Iff.rfl)
      fun _ => dialog_fail .invalidManagementKey).congr fun ev r => ⟨?_, ?_⟩
    · rintro (⟨_, _, x, _, ⟨o, rfl, h⟩, ⟨rfl, rfl⟩⟩ | ⟨_, e, ⟨o, rfl, h⟩⟩ | ⟨_, ⟨o, rfl, h⟩⟩)
      · cases o with
        | false => cases h
        | true => exact .form rfl
      · cases o with
        | true => cases h
        | false => cases h; exact .pin
      · cases o <;> cases h
    · rintro (_ | _ | h | h)
      · exact .err _ _ ⟨false, rfl, rfl⟩
      · exact .ok [_] [] () _ ⟨true, rfl, rfl⟩ ⟨rfl, rfl⟩
      · cases h
      · cases h

theorem read_dialog (D : YkDev σ) (conn slot : Nat) (f : SlotCert → α) :
    HasDialog D (Yk.readCert D conn slot >>= fun c => Pure.pure (f c)) (ReadDialog conn slot f) := by
  refine (dialog_bind (dialog_ask (ev := .read conn slot) fun _ _ _ => Iff.rfl) fun c => dialog_pure (f c)).congr fun ev r => ⟨?_, ?_⟩
  · rintro (⟨_, _, x, _, ⟨o, rfl, h⟩, ⟨rfl, rfl⟩⟩ | ⟨_, e, ⟨o, rfl, h⟩⟩ | ⟨_, ⟨o, rfl, h⟩⟩)
    · cases o with
      | none => cases h
      | some c => cases h; exact .ok x
    · cases o with
      | none => cases h; exact .none
      | some c => cases h
    · cases o <;> cases h
  · rintro (_ | c)
    · exact .err _ _ ⟨none, rfl, rfl⟩
    · exact .ok [_] [] c _ ⟨some c, rfl, rfl⟩ ⟨rfl, rfl⟩

theorem write_dialog (D : YkDev σ) (conn slot : Nat) (data : Bytes) :
    HasDialog D (Yk.writeCertificate D conn slot data) (WriteDialog conn slot data (D.certBytes data)) := by
  unfold Yk.writeCertificate
  cases D.certBytes data with
  | true =>
    simp only [if_true]
    refine (dialog_tell (ev := .write conn slot data) fun _ _ _ => Iff.rfl).congr fun ev r => ⟨?_, ?_⟩
    · rintro ⟨o, rfl, rfl⟩
      cases o with
      | true => exact .ok rfl
      | false => exact .failed rfl
    · rintro (h | _ | _)
      · cases h
      · exact ⟨false, rfl, rfl⟩
      · exact ⟨true, rfl, rfl⟩
  | false =>
    simp only [Bool.false_eq_true, if_false]
    refine (dialog_fail .internal).congr fun ev r => ⟨?_, ?_⟩
    · rintro ⟨rfl, rfl⟩; exact .unreadable rfl
    · rintro (_ | h | h)
      · exact ⟨rfl, rfl⟩
      · cases h
      · cases h

theorem attest_dialog (D : YkDev σ) (conn slot : Nat) : HasDialog D (Yk.fetchAttestation D conn slot) (AttestDialog conn slot) := by
  refine (dialog_ask (ev := .attest conn slot) fun _ _ _ => Iff.rfl).congr fun ev r => ⟨?_, ?_⟩
  · rintro ⟨o, rfl, rfl⟩
    cases o with
    | none => exact .none
    | some i => exact .ok i
  · rintro (_ | i) <;> exact ⟨_, rfl, rfl⟩

theorem sign_dialog (C : Crypto) (D : YkDev σ) (conn : Nat) (data : Bytes) (alg : AlgId) (slot : Nat) :
    HasDialog D (Yk.signData C D conn data alg slot) (SignDialog C conn data alg slot) := by
  refine hasDialog_mk (fun s => ?_) ?_
  · rcases signData_does C D conn data alg slot s with ⟨s', h⟩ | ⟨c, s', h1, h⟩ | ⟨c, a, s', h1, h⟩
    · exact ⟨_, _, _, h, .empty⟩
    · exact ⟨_, _, _, h, .wrong c h1⟩
    · refine ⟨_, _, _, h, ?_⟩
      cases a with
      | none => exact .failed c h1
      | some sig => exact .ok c sig h1
  · intro s s' ev r hr hR
    have same : ∀ {o o' : Option SlotCert} {l l' : List YkEvent} {s1 s2 : σ}, Run D s (.read conn slot o :: l) s1 →
        Run D s (.read conn slot o' :: l') s2 → o = o' := by
      intro o o' l l' s1 s2 h h'
      cases h with
      | cons h _ =>
      cases h' with
      | cons h' _ => exact (Prod.mk.inj (Eq.trans (Eq.symm h) h')).1
    have same2 : ∀ {o : Option SlotCert} {d : Bytes} {a a' : Option Bytes} {s1 s2 : σ},
        Run D s [.read conn slot o, .sign conn d alg slot a] s1 → Run D s [.read conn slot o, .sign conn d alg slot a'] s2 → a = a' := by
      intro o d a a' s1 s2 h h'
      cases h with
      | cons h hh =>
      cases h' with
      | cons h' hh' =>
      cases answered_det h h'
      cases hh with
      | cons h _ =>
      cases hh' with
      | cons h' _ => exact (Prod.mk.inj (Eq.trans (Eq.symm h) h')).1
    rcases signData_does C D conn data alg slot s with ⟨s1, h⟩ | ⟨c, s1, h1, h⟩ | ⟨c, a, s1, h1, h⟩
    · cases hR with
      | empty => cases hr.det h.1; exact h
      | wrong c' => cases same hr h.1
      | failed c' => cases same hr h.1
      | ok c' => cases same hr h.1
    · cases hR with
      | empty => cases same hr h.1
      | wrong c' => cases same hr h.1; cases hr.det h.1; exact h
      | failed c' h2 => cases same hr h.1; exact absurd h2 h1
      | ok c' _ h2 => cases same hr h.1; exact absurd h2 h1
    · cases hR with
      | empty => cases same hr h.1
      | wrong c' h2 => cases same hr h.1; exact absurd h1 h2
      | failed c' h2 => cases same hr h.1; cases same2 hr h.1; cases hr.det h.1; exact h
      | ok c' _ h2 => cases same hr h.1; cases same2 hr h.1; cases hr.det h.1; exact h

theorem slotFault_iff {X : X509Env} {c : SlotCert} {e : YkErr} : SlotFault X c e ↔ pubkeyRes X c.bytes = .err e := by
  have h1 : pubkeyRes X c.bytes = .err e ↔ ∃ x, ParsedFault ((X.parseDer c.bytes).map (·.spki)) x ∧ e = pubkeyErr x := by
    unfold pubkeyRes
    simp only [← C129_certificate]
    cases pubkeyFromX509Certificate X c.bytes with
    | ok k => exact ⟨nofun, nofun⟩
    | panic => exact ⟨nofun, nofun⟩
    | err x =>
      dsimp only
      exact ⟨fun h => by cases h; exact ⟨x, rfl, rfl⟩, fun ⟨_, h, h'⟩ => by cases h; rw [h']⟩
  rw [h1]
  constructor
  · rintro (h | ⟨i, h, hk⟩ | ⟨i, h, hk⟩ | ⟨i, h, hk⟩)
    · exact ⟨_, by rw [h]; exact .unreadable, rfl⟩
    · exact ⟨_, by rw [h]; exact .key _ _ hk, rfl⟩
    · exact ⟨_, by rw [h]; exact .key _ _ hk, rfl⟩
    · exact ⟨_, by rw [h]; exact .key _ _ hk, rfl⟩
  · rintro ⟨x, h, rfl⟩
    cases hp : X.parseDer c.bytes with
    | none => rw [hp] at h; cases h; exact .unreadable hp
    | some i =>
      rw [hp] at h
      cases h with
      | key _ _ hk =>
        cases id hk with
        | rsa => exact .rsa i hp hk
        | other => exact .other i hp hk
        | curve => exact .curve i hp hk

theorem pubkey_dialog (X : X509Env) (D : YkDev σ) (conn slot : Nat) : HasDialog D (Yk.fetchPubkey X D conn slot) (PubkeyDialog X conn slot) := by
  refine hasDialog_mk (fun s => ⟨_, _, _, fetchPubkey_does X D conn slot s, ?_⟩) ?_
  · cases (D.read conn slot s).1 with
    | none => exact .none
    | some c =>
      dsimp only
      cases hk : pubkeyRes X c.bytes with
      | panic => exact absurd hk (pubkeyRes_noPanic X c.bytes)
      | err e => exact .fault c e (slotFault_iff.mpr hk)
      | ok k => exact .ok c k (slotKey_iff.mpr (pubkeyRes_ok.mp hk))
  · intro s s' ev r hr hR
    have h := fetchPubkey_does X D conn slot s
    cases hR with
    | none =>
      have ha : D.read conn slot s = _ := run_one_iff.mp hr
      rw [ha] at h
      exact h
    | fault c e he =>
      have ha : D.read conn slot s = _ := run_one_iff.mp hr
      rw [ha] at h
      dsimp only at h
      rw [slotFault_iff.mp he] at h
      exact h
    | ok c k hk =>
      have ha : D.read conn slot s = _ := run_one_iff.mp hr
      rw [ha] at h
      dsimp only at h
      rw [pubkeyRes_ok.mpr (slotKey_iff.mp hk)] at h
      exact h

theorem pubkeyDialog_noPanic {X : X509Env} {conn slot : Nat} {ev : List YkEvent} : ¬ PubkeyDialog X conn slot ev .panic := nofun

theorem provision_dialog (X : X509Env) (D : YkDev σ) (conn slot : Nat) (cn : String) (alg : AlgId) (touch : TouchPolicy) (pin : PinPolicy) :
    HasDialog D (Yk.provision X D conn slot cn alg touch pin) (ProvisionDialog X conn slot cn alg touch pin) := by
  refine (dialog_bind (dialog_ask (ev := .generate conn slot alg pin touch) fun _ _ _ => Iff.rfl) fun key =>
    dialog_bind (dialog_tell (ev := .selfSign conn slot cn key) fun _ _ _ => Iff.rfl) fun _ => pubkey_dialog X D conn slot).congr
      fun ev r => ⟨?_, ?_⟩
  · rintro (⟨_, _, x, _, ⟨o, rfl, h⟩, hb⟩ | ⟨_, e, ⟨o, rfl, h⟩⟩ | ⟨_, ⟨o, rfl, h⟩⟩)
    · cases o with
      | none => cases h
      | some key =>
        cases h
        rcases hb with ⟨_, _, _, _, ⟨o, rfl, h⟩, hp⟩ | ⟨_, e, ⟨o, rfl, h⟩⟩ | ⟨_, ⟨o, rfl, h⟩⟩
        · cases o with
          | false => cases h
          | true => exact .read _ _ _ hp
        · cases o with
          | true => cases h
          | false => cases h; exact .store _
        · cases o <;> cases h
    · cases o with
      | none => cases h; exact .generate
      | some c => cases h
    · cases o <;> cases h
  · rintro (_ | key | ⟨key, ev, r, h⟩)
    · exact .err _ _ ⟨none, rfl, rfl⟩
    · exact .ok [_] [_] key _ ⟨some key, rfl, rfl⟩ (.err _ _ ⟨false, rfl, rfl⟩)
    · exact .ok [_] (_ :: ev) key _ ⟨some key, rfl, rfl⟩ (.ok [_] ev () _ ⟨true, rfl, rfl⟩ h)

theorem pubkeyDialog_alg {X : X509Env} {conn slot : Nat} {ev : List YkEvent} {k : PublicKey} (h : PubkeyDialog X conn slot ev (.ok k)) :
    ∃ curve point, k.kind = .ecdsa curve point none ∧ ((curve = ⟨.nistp256, "nistp256"⟩ ∧ keyAlg k = some .eccP256) ∨
      (curve = ⟨.nistp384, "nistp384"⟩ ∧ keyAlg k = some .eccP384)) := by
  cases h with
  | ok c _ h => exact slotKey_alg h

theorem keyType_dialog (X : X509Env) (D : YkDev σ) (conn slot : Nat) :
    HasDialog D (Yk.getSshKeyType X D conn slot) (KeyTypeDialog X conn slot) := by
  have hp := pubkey_dialog X D conn slot
  have hok : ∀ {s s1 ev k alg}, PubkeyDialog X conn slot ev (.ok k) → DoesTo D (Yk.fetchPubkey X D conn slot) s ev (.ok k) s1 →
      keyAlg k = some alg → DoesTo D (Yk.getSshKeyType X D conn slot) s ev (.ok alg) s1 := by
    intro s s1 ev k alg hR hd ha
    unfold Yk.getSshKeyType
    refine (hd.bind (b := []) (s2 := s1) ?_).congr (List.append_nil _)
    obtain ⟨curve, point, hkk, ⟨rfl, ha'⟩ | ⟨rfl, ha'⟩⟩ := pubkeyDialog_alg hR
    · rw [ha] at ha'
      cases ha'
      rw [hkk]
      exact DoesTo.pure _
    · rw [ha] at ha'
      cases ha'
      rw [hkk]
      exact DoesTo.pure _
  refine hasDialog_mk (fun s => ?_) ?_
  · obtain ⟨ev, r, s1, hd, hR⟩ := hp.to s
    cases r with
    | panic => exact absurd hR pubkeyDialog_noPanic
    | err e => exact ⟨_, _, _, hd.bind_err, .err _ _ hR⟩
    | ok k =>
      obtain ⟨_, _, _, ⟨_, ha⟩ | ⟨_, ha⟩⟩ := pubkeyDialog_alg hR <;> exact ⟨_, _, _, hok hR hd ha, .ok _ _ _ hR ha⟩
  · intro s s' ev r hr hR
    cases hR with
    | err e h => exact (hp.run hr h).bind_err
    | ok k alg h ha => exact hok h (hp.run hr h) ha

theorem signDialog_noPanic {C : Crypto} {conn : Nat} {data : Bytes} {alg : AlgId} {slot : Nat} {ev : List YkEvent} :
    ¬ SignDialog C conn data alg slot ev .panic := nofun

theorem signer_dialog (X : X509Env) (C : Crypto) (D : YkDev σ) (conn : Nat) (buf : Bytes) (slot : Nat) :
    HasDialog D (Yk.sshCertSigner X C D conn buf slot) (SignerDialog X C conn buf slot) := by
  have hf : ∀ (k : PublicKey) (sig : Bytes), HasDialog D
      (match formatSignatureForSsh k sig with
       | .ok (some x) => Pure.pure x
       | .panic => Yk.crash
       | _ => Yk.fail .parsingError : Yk σ Bytes)
      (fun ev r => ev = [] ∧ ((∃ blob, SshForm k sig blob ∧ r = .ok blob) ∨ ((∀ blob, ¬ SshForm k sig blob) ∧ r = .err .parsingError))) := by
    intro k sig
    simp only [← sshForm_iff]
    obtain ⟨o, ho⟩ := formatSignature_cases k sig
    rw [ho]
    cases o with
    | some x =>
      refine (dialog_pure x).congr fun ev r => ⟨?_, ?_⟩
      · rintro ⟨rfl, rfl⟩; exact ⟨rfl, .inl ⟨x, rfl, rfl⟩⟩
      · rintro ⟨rfl, ⟨b, h, rfl⟩ | ⟨h, _⟩⟩
        · cases h; exact ⟨rfl, rfl⟩
        · exact absurd rfl (h x)
    | none =>
      refine (dialog_fail .parsingError).congr fun ev r => ⟨?_, ?_⟩
      · rintro ⟨rfl, rfl⟩; exact ⟨rfl, .inr ⟨nofun, rfl⟩⟩
      · rintro ⟨rfl, ⟨b, h, rfl⟩ | ⟨h, rfl⟩⟩
        · cases h
        · exact ⟨rfl, rfl⟩
  refine (dialog_bind (dialog_mapErr (keyType_dialog X D conn slot) .unsupported) fun alg =>
    dialog_bind (sign_dialog C D conn buf alg slot) fun sig =>
    dialog_bind (pubkey_dialog X D conn slot) fun k => hf k sig).congr fun ev r => ⟨?_, ?_⟩
  · rintro (⟨ev1, _, alg, _, ⟨r1, h1, e1⟩, hb⟩ | ⟨ev1, e, ⟨r1, h1, e1⟩⟩ | ⟨ev1, ⟨r1, h1, e1⟩⟩)
    · cases r1 with
      | err _ => cases e1
      | panic => cases e1
      | ok alg' =>
        cases e1
        rcases hb with ⟨ev2, _, sig, _, h2, hb⟩ | ⟨ev2, e, h2⟩ | ⟨ev2, h2⟩
        · rcases hb with ⟨ev3, _, k, _, h3, rfl, ⟨blob, hs, rfl⟩ | ⟨hs, rfl⟩⟩ | ⟨ev3, e, h3⟩ | ⟨ev3, h3⟩
          · rw [List.append_nil, ← List.append_assoc]
            exact .ok _ _ _ _ _ _ _ h1 h2 h3 hs
          · rw [List.append_nil, ← List.append_assoc]
            exact .form _ _ _ _ _ _ h1 h2 h3 hs
          · rw [← List.append_assoc]
            exact .pubkey _ _ _ _ _ _ h1 h2 h3
          · exact absurd h3 pubkeyDialog_noPanic
        · exact .sign _ _ _ _ h1 h2
        · exact absurd h2 signDialog_noPanic
    · cases r1 with
      | err e' => cases e1; exact .keyType _ _ h1
      | panic => cases e1
      | ok alg' => cases e1
    · cases r1 with
      | err _ => cases e1
      | panic => cases h1
      | ok alg' => cases e1
  · rintro (⟨_, e, h1⟩ | ⟨ev1, ev2, alg, e, h1, h2⟩ | ⟨ev1, ev2, ev3, alg, sig, e, h1, h2, h3⟩ | ⟨ev1, ev2, ev3, alg, sig, k, h1, h2, h3, hs⟩ |
      ⟨ev1, ev2, ev3, alg, sig, k, blob, h1, h2, h3, hs⟩)
    · exact .err _ _ ⟨_, h1, rfl⟩
    · exact .ok _ _ _ _ ⟨_, h1, rfl⟩ (.err _ _ h2)
    · rw [List.append_assoc]
      exact .ok _ _ _ _ ⟨_, h1, rfl⟩ (.ok _ _ _ _ h2 (.err _ _ h3))
    · rw [List.append_assoc, ← List.append_nil ev3]
      exact .ok _ _ _ _ ⟨_, h1, rfl⟩ (.ok _ _ _ _ h2 (.ok _ _ _ _ h3 ⟨rfl, .inr ⟨hs, rfl⟩⟩))
    · rw [List.append_assoc, ← List.append_nil ev3]
      exact .ok _ _ _ _ ⟨_, h1, rfl⟩ (.ok _ _ _ _ h2 (.ok _ _ _ _ h3 ⟨rfl, .inl ⟨blob, hs, rfl⟩⟩))

/-! ## Certificate requests -/

/-- The dialog of `CSRSigner::new`. -/
inductive NewSignerDialog (n : UInt32) (slot : Nat) : List YkEvent → YkRes Yk.CsrSigner → Prop where
  | gone : NewSignerDialog n slot [.openSerial n none] .panic
  | emptied (i : Nat) : NewSignerDialog n slot [.openSerial n (some i), .read i slot none] .panic
  | rsa (i : Nat) (c : SlotCert) : c.pki = .rsa → NewSignerDialog n slot [.openSerial n (some i), .read i slot (some c)] .panic
  | ok (i : Nat) (c : SlotCert) (p : Bytes) : pkiPoint c.pki = some p →
      NewSignerDialog n slot [.openSerial n (some i), .read i slot (some c)] (.ok ⟨slot, n, p, algOf c.pki⟩)

theorem newSigner_dialog (D : YkDev σ) (n : UInt32) (slot : Nat) : HasDialog D (Yk.csrSignerNew D n slot) (NewSignerDialog n slot) := by
  have hm : ∀ pki : Pki, HasDialog D (match pki with
      | .rsa => Yk.crash
      | .ecP256 k => Pure.pure ⟨slot, n, k, .eccP256⟩
      | .ecP384 k => Pure.pure ⟨slot, n, k, .eccP384⟩ : Yk σ Yk.CsrSigner)
      (fun ev r => ev = [] ∧ ((pki = .rsa ∧ r = .panic) ∨ ∃ p, pkiPoint pki = some p ∧ r = .ok ⟨slot, n, p, algOf pki⟩)) := by
    intro pki
    cases pki with
    | rsa => exact dialog_crash.congr fun ev r => ⟨fun ⟨h, h'⟩ => ⟨h, .inl ⟨rfl, h'⟩⟩, fun ⟨h, h'⟩ => ⟨h, by
        rcases h' with ⟨_, h'⟩ | ⟨p, hp, _⟩
        · exact h'
        · cases hp⟩⟩
    | ecP256 k => exact (dialog_pure _).congr fun ev r => ⟨fun ⟨h, h'⟩ => ⟨h, .inr ⟨k, rfl, h'⟩⟩, fun ⟨h, h'⟩ => ⟨h, by
        rcases h' with ⟨h, _⟩ | ⟨p, hp, h'⟩
        · cases h
        · cases hp; exact h'⟩⟩
    | ecP384 k => exact (dialog_pure _).congr fun ev r => ⟨fun ⟨h, h'⟩ => ⟨h, .inr ⟨k, rfl, h'⟩⟩, fun ⟨h, h'⟩ => ⟨h, by
        rcases h' with ⟨h, _⟩ | ⟨p, hp, h'⟩
        · cases h
        · cases hp; exact h'⟩⟩
  unfold Yk.csrSignerNew
  refine (dialog_bind (dialog_unwrap (open_dialog D n)) fun i => dialog_bind (dialog_unwrap (read_dialog D i slot SlotCert.pki)) fun pki =>
    hm pki).congr fun ev r => ⟨?_, ?_⟩
  · rintro (⟨ev1, _, i, _, ⟨r1, h1, e1⟩, hb⟩ | ⟨ev1, e, ⟨r1, h1, e1⟩⟩ | ⟨ev1, ⟨r1, h1, e1⟩⟩)
    · cases h1 with
      | none => cases e1
      | ok j =>
        cases e1
        rcases hb with ⟨ev2, _, pki, _, ⟨r2, h2, e2⟩, rfl, hb⟩ | ⟨ev2, e, ⟨r2, h2, e2⟩⟩ | ⟨ev2, ⟨r2, h2, e2⟩⟩
        · cases h2 with
          | none => cases e2
          | ok c =>
            cases e2
            rcases hb with ⟨hc, rfl⟩ | ⟨p, hp, rfl⟩
            · exact .rsa _ _ hc
            · exact .ok _ _ _ hp
        · cases h2 <;> cases e2
        · cases h2 with
          | none => exact .emptied _
          | ok c => cases e2
    · cases h1 <;> cases e1
    · cases h1 with
      | none => exact .gone
      | ok i => cases e1
  · rintro (_ | i | ⟨i, c, hc⟩ | ⟨i, c, p, hp⟩)
    · exact .panic _ ⟨_, .none, rfl⟩
    · exact .ok [_] [_] i _ ⟨_, .ok i, rfl⟩ (.panic _ ⟨_, .none, rfl⟩)
    · exact .ok [_] [_] i _ ⟨_, .ok i, rfl⟩ (.ok [_] [] c.pki _ ⟨_, .ok c, rfl⟩ ⟨rfl, .inl ⟨hc, rfl⟩⟩)
    · exact .ok [_] [_] i _ ⟨_, .ok i, rfl⟩ (.ok [_] [] c.pki _ ⟨_, .ok c, rfl⟩ ⟨rfl, .inr ⟨p, hp, rfl⟩⟩)

/-- The dialog of `CSRSigner::sign`. -/
inductive CsrSignDialog (C : Crypto) (g : Yk.CsrSigner) (m : Bytes) : List YkEvent → YkRes Bytes → Prop where
  | reopen : CsrSignDialog C g m [.openSerial g.serial none] (.err .internal)
  | sign (j : Nat) (ev : List YkEvent) (e : YkErr) : SignDialog C j m g.algorithm g.slot ev (.err e) →
      CsrSignDialog C g m (.openSerial g.serial (some j) :: ev) (.err .internal)
  | ok (j : Nat) (ev : List YkEvent) (sig : Bytes) : SignDialog C j m g.algorithm g.slot ev (.ok sig) →
      CsrSignDialog C g m (.openSerial g.serial (some j) :: ev) (.ok sig)

theorem csrSign_dialog (C : Crypto) (D : YkDev σ) (g : Yk.CsrSigner) (m : Bytes) : HasDialog D (Yk.csrSign C D g m) (CsrSignDialog C g m) := by
  unfold Yk.csrSign
  refine (dialog_bind (dialog_mapErr (open_dialog D g.serial) .internal) fun j =>
    dialog_mapErr (sign_dialog C D j m g.algorithm g.slot) .internal).congr fun ev r => ⟨?_, ?_⟩
  · rintro (⟨ev1, _, i, _, ⟨r1, h1, e1⟩, ⟨r2, h2, rfl⟩⟩ | ⟨ev1, e, ⟨r1, h1, e1⟩⟩ | ⟨ev1, ⟨r1, h1, e1⟩⟩)
    · cases h1 with
      | none => cases e1
      | ok j =>
        cases e1
        cases r2 with
        | ok sig => exact .ok _ _ _ h2
        | err e => exact .sign _ _ _ h2
        | panic => exact absurd h2 signDialog_noPanic
    · cases h1 with
      | none => cases e1; exact .reopen
      | ok j => cases e1
    · cases h1 <;> cases e1
  · rintro (_ | ⟨j, ev, e, h⟩ | ⟨j, ev, sig, h⟩)
    · exact .err _ _ ⟨_, .none, rfl⟩
    · exact .ok [_] ev j _ ⟨_, .ok j, rfl⟩ ⟨_, h, rfl⟩
    · exact .ok [_] ev j _ ⟨_, .ok j, rfl⟩ ⟨_, h, rfl⟩

theorem pkiPoint_some {p : Pki} (h : p ≠ .rsa) : ∃ x, pkiPoint p = some x := by
  cases p with
  | rsa => exact absurd rfl h
  | ecP256 k => exact ⟨k, rfl⟩
  | ecP384 k => exact ⟨k, rfl⟩

theorem pkiPoint_ne {p : Pki} {x : Bytes} (h : pkiPoint p = some x) : p ≠ .rsa := by
  rintro rfl; cases h

theorem csr_dialog (C : Crypto) (G : Rcgen) (D : YkDev σ) (conn slot : Nat) (cn : String) :
    HasDialog D (Yk.generateCsr C G D conn slot cn) (CsrDialog C G conn slot (D.serial conn) cn) := by
  have hm : ∀ pki : Pki, HasDialog D (match pki with
      | .ecP256 _ => Pure.pure .eccP256
      | .ecP384 _ => Pure.pure .eccP384
      | .rsa => Yk.fail .unsupported : Yk σ AlgId)
      (fun ev r => ev = [] ∧ ((pki = .rsa ∧ r = .err .unsupported) ∨ (pki ≠ .rsa ∧ r = .ok (algOf pki)))) := by
    intro pki
    cases pki with
    | rsa => exact (dialog_fail _).congr fun ev r => by simp
    | ecP256 k => exact (dialog_pure _).congr fun ev r => by simp [algOf]
    | ecP384 k => exact (dialog_pure _).congr fun ev r => by simp [algOf]
  have ha : ∀ (g : Yk.CsrSigner), HasDialog D (Yk.csrAlgorithm g : Yk σ AlgId)
      (fun ev r => ev = [] ∧ r = if g.algorithm = .eccP256 ∨ g.algorithm = .eccP384 then .ok g.algorithm else .panic) := by
    rintro ⟨_, _, _, a⟩
    cases a with
    | rsa1024 => exact dialog_crash.congr fun ev r => by simp
    | rsa2048 => exact dialog_crash.congr fun ev r => by simp
    | eccP256 => exact (dialog_pure _).congr fun ev r => by simp
    | eccP384 => exact (dialog_pure _).congr fun ev r => by simp
  have ht : ∀ (g : Yk.CsrSigner) (alg pa : AlgId), HasDialog D
      (if pa ≠ alg then Yk.fail .internal
       else
        match G.tbs cn alg g.publicKey with
        | none => Yk.fail .internal
        | some tbs => Yk.csrSign C D g tbs >>= fun sig => Pure.pure (G.finish tbs alg sig) : Yk σ Bytes)
      (fun ev r => (pa ≠ alg ∧ ev = [] ∧ r = .err .internal) ∨ (pa = alg ∧ G.tbs cn alg g.publicKey = none ∧ ev = [] ∧ r = .err .internal) ∨
        (pa = alg ∧ ∃ t, G.tbs cn alg g.publicKey = some t ∧ ((∃ e, CsrSignDialog C g t ev (.err e) ∧ r = .err .internal) ∨
          ∃ sig, CsrSignDialog C g t ev (.ok sig) ∧ r = .ok (G.finish t alg sig)))) := by
    intro g alg pa
    by_cases h : pa = alg
    · rw [if_neg (not_not_intro h)]
      cases ht : G.tbs cn alg g.publicKey with
      | none => exact (dialog_fail _).congr fun ev r => by simp [h]
      | some t =>
        refine (dialog_bind (csrSign_dialog C D g t) fun sig => dialog_pure _).congr fun ev r => ⟨?_, ?_⟩
        · rintro (⟨ev1, _, sig, _, h1, rfl, rfl⟩ | ⟨ev1, e, h1⟩ | ⟨ev1, h1⟩)
          · rw [List.append_nil]
            exact .inr (.inr ⟨h, t, rfl, .inr ⟨sig, h1, rfl⟩⟩)
          · refine .inr (.inr ⟨h, t, rfl, .inl ⟨e, h1, ?_⟩⟩)
            cases h1 <;> rfl
          · cases h1
        · rintro (⟨h', _⟩ | ⟨_, h', _⟩ | ⟨_, t', h', ⟨e, h1, rfl⟩ | ⟨sig, h1, rfl⟩⟩)
          · exact absurd h h'
          · cases h'
          · cases h'
            have : e = .internal := by cases h1 <;> rfl
            rw [← this]
            exact .err _ _ h1
          · cases h'
            rw [← List.append_nil ev]
            exact .ok _ _ _ _ h1 ⟨rfl, rfl⟩
    · rw [if_pos h]
      exact (dialog_fail _).congr fun ev r => by simp [h]
  have hcomp := dialog_bind (read_dialog D conn slot SlotCert.pki) fun pki => dialog_bind (hm pki) fun alg =>
    dialog_bind (newSigner_dialog D (D.serial conn) slot) fun g => dialog_bind (ha g) fun pa => ht g alg pa
  unfold Yk.generateCsr
  refine HasDialog.congr hcomp fun ev r => ⟨?_, ?_⟩
  · rintro (⟨ev1, _, pki, _, h1, hb⟩ | ⟨ev1, e, h1⟩ | ⟨ev1, h1⟩)
    · cases h1 with
      | ok c =>
        rcases hb with ⟨_, _, alg, _, ⟨rfl, h2⟩, hb⟩ | ⟨_, e, ⟨rfl, h2⟩⟩ | ⟨_, ⟨rfl, h2⟩⟩
        · rcases h2 with ⟨_, h2⟩ | ⟨hc, h2⟩
          · cases h2
          cases h2
          rcases hb with ⟨_, _, g, _, h3, hb⟩ | ⟨_, e, h3⟩ | ⟨_, h3⟩
          · cases h3 with
            | ok i c' p hp =>
              have hpa : algOf c'.pki = .eccP256 ∨ algOf c'.pki = .eccP384 := by
                cases hc' : c'.pki with
                | rsa => rw [hc'] at hp; cases hp
                | ecP256 => exact .inl rfl
                | ecP384 => exact .inr rfl
              rcases hb with ⟨_, _, pa, _, ⟨rfl, h4⟩, hb⟩ | ⟨_, e, ⟨rfl, h4⟩⟩ | ⟨_, ⟨rfl, h4⟩⟩
              · rw [if_pos hpa] at h4
                cases h4
                rcases hb with ⟨hne, rfl, rfl⟩ | ⟨heq, hn, rfl, rfl⟩ | ⟨heq, t, ht, ⟨e, h5, rfl⟩ | ⟨sig, h5, rfl⟩⟩
                · exact .changed _ _ _ hc (pkiPoint_ne hp) hne
                · exact .request _ _ _ _ hc hp heq hn
                · cases h5 with
                  | reopen => exact .reopen _ _ _ _ _ hc hp heq ht
                  | sign j ev e h6 => exact .sign _ _ _ _ _ _ _ _ hc hp heq ht (heq ▸ h6)
                · cases h5 with
                  | ok j ev sig h6 => exact .ok _ _ _ _ _ _ _ _ hc hp heq ht (heq ▸ h6)
              · rw [if_pos hpa] at h4; cases h4
              · rw [if_pos hpa] at h4; cases h4
          · cases h3
          · cases h3 with
            | gone => exact .gone _ hc
            | emptied i => exact .emptied _ _ hc
            | rsa i c' hc' => exact .nowRsa _ _ _ hc hc'
        · rcases h2 with ⟨hc, h2⟩ | ⟨hc, h2⟩
          · cases h2; exact .rsa _ hc
          · cases h2
        · rcases h2 with ⟨hc, h2⟩ | ⟨hc, h2⟩ <;> cases h2
    · cases h1; exact .empty
    · cases h1
  · have go : ∀ (c : SlotCert) (ev : List YkEvent) (r : YkRes Bytes), c.pki ≠ .rsa →
        BindDialog (NewSignerDialog (D.serial conn) slot) (fun g => BindDialog
          (fun ev r => ev = [] ∧ r = if g.algorithm = .eccP256 ∨ g.algorithm = .eccP384 then .ok g.algorithm else .panic) fun pa =>
            (fun ev r => (pa ≠ algOf c.pki ∧ ev = [] ∧ r = .err .internal) ∨
              (pa = algOf c.pki ∧ G.tbs cn (algOf c.pki) g.publicKey = none ∧ ev = [] ∧ r = .err .internal) ∨
              (pa = algOf c.pki ∧ ∃ t, G.tbs cn (algOf c.pki) g.publicKey = some t ∧
                ((∃ e, CsrSignDialog C g t ev (.err e) ∧ r = .err .internal) ∨
                  ∃ sig, CsrSignDialog C g t ev (.ok sig) ∧ r = .ok (G.finish t (algOf c.pki) sig))))) ev r →
        BindDialog (ReadDialog conn slot SlotCert.pki) (fun pki => BindDialog
          (fun ev r => ev = [] ∧ ((pki = .rsa ∧ r = .err .unsupported) ∨ (pki ≠ .rsa ∧ r = .ok (algOf pki)))) fun alg =>
            BindDialog (NewSignerDialog (D.serial conn) slot) (fun g => BindDialog
          (fun ev r => ev = [] ∧ r = if g.algorithm = .eccP256 ∨ g.algorithm = .eccP384 then .ok g.algorithm else .panic) fun pa =>
            (fun ev r => (pa ≠ alg ∧ ev = [] ∧ r = .err .internal) ∨
              (pa = alg ∧ G.tbs cn alg g.publicKey = none ∧ ev = [] ∧ r = .err .internal) ∨
              (pa = alg ∧ ∃ t, G.tbs cn alg g.publicKey = some t ∧
                ((∃ e, CsrSignDialog C g t ev (.err e) ∧ r = .err .internal) ∨
                  ∃ sig, CsrSignDialog C g t ev (.ok sig) ∧ r = .ok (G.finish t alg sig)))))) (.read conn slot (some c) :: ev) r := by
      intro c ev r hc h
      exact .ok [_] ev c.pki _ (.ok c) (.ok [] ev (algOf c.pki) _ ⟨rfl, .inr ⟨hc, rfl⟩⟩ h)
    have hal : ∀ {p : Pki} {x : Bytes}, pkiPoint p = some x → YkRes.ok (algOf p) =
        if algOf p = .eccP256 ∨ algOf p = .eccP384 then .ok (algOf p) else .panic := by
      intro p x hp
      cases p with
      | rsa => cases hp
      | ecP256 k => rfl
      | ecP384 k => rfl
    rintro (_ | ⟨c, hc⟩ | ⟨c, hc⟩ | ⟨c, i, hc⟩ | ⟨c, c', i, hc, hc'⟩ | ⟨c, c', i, hc, hc', hne⟩ | ⟨c, c', i, p, hc, hp, heq, hn⟩ |
      ⟨c, c', i, p, t, hc, hp, heq, ht⟩ | ⟨c, c', i, j, p, t, ev, e, hc, hp, heq, ht, hs⟩ | ⟨c, c', i, j, p, t, sig, ev, hc, hp, heq, ht, hs⟩)
    · exact .err _ _ .none
    · exact .ok [_] [] c.pki _ (.ok c) (.err _ _ ⟨rfl, .inl ⟨hc, rfl⟩⟩)
    · exact go c _ _ hc (.panic _ .gone)
    · exact go c _ _ hc (.panic _ (.emptied i))
    · exact go c _ _ hc (.panic _ (.rsa i c' hc'))
    · obtain ⟨p, hp⟩ := pkiPoint_some hc'
      exact go c _ _ hc (.ok [_, _] [] _ _ (.ok i c' p hp) (.ok [] [] _ _ ⟨rfl, hal hp⟩ (.inl ⟨hne, rfl, rfl⟩)))
    · exact go c _ _ hc (.ok [_, _] [] _ _ (.ok i c' p hp) (.ok [] [] _ _ ⟨rfl, hal hp⟩ (.inr (.inl ⟨heq, hn, rfl, rfl⟩))))
    · exact go c _ _ hc (.ok [_, _] [_] _ _ (.ok i c' p hp) (.ok [] [_] _ _ ⟨rfl, hal hp⟩
        (.inr (.inr ⟨heq, t, ht, .inl ⟨_, .reopen, rfl⟩⟩))))
    · exact go c _ _ hc (.ok [_, _] (_ :: ev) _ _ (.ok i c' p hp) (.ok [] (_ :: ev) _ _ ⟨rfl, hal hp⟩
        (.inr (.inr ⟨heq, t, ht, .inl ⟨_, .sign j ev e (heq ▸ hs), rfl⟩⟩))))
    · exact go c _ _ hc (.ok [_, _] (_ :: ev) _ _ (.ok i c' p hp) (.ok [] (_ :: ev) _ _ ⟨rfl, hal hp⟩
        (.inr (.inr ⟨heq, t, ht, .inr ⟨sig, .ok j ev sig (heq ▸ hs), rfl⟩⟩))))

end Ssh
