import Verif.Spec.PrivKey
import Verif.Lemmas.Sign
import Verif.Lemmas.Armor

/-! # Parsing private keys -/

namespace Ssh

open Spec Reader

/-! ## Numbers -/

theorem shortest_unique {a b : Bytes} (ha : Shortest a) (hb : Shortest b) (h : natOf a = natOf b) : a = b := by
  have h1 := mpintValue_ok.mpr ⟨ha, (mpintPayload_spec a).1, (mpintPayload_spec a).2⟩
  have h2 := mpintValue_ok.mpr ⟨hb, (mpintPayload_spec a).1, (mpintPayload_spec a).2.trans h⟩
  rw [h1] at h2
  exact Res.ok.inj h2

theorem numBytes_iff {n : Nat} {x : Bytes} : NumBytes n x ↔ x = natBytes n := by
  constructor
  · rintro ⟨h1, h2⟩
    by_cases hn : n = 0
    · have : natBytes n = [0] := by subst hn; unfold natBytes; rfl
      rw [this]
      rcases h2 with h2 | ⟨h2, h3⟩
      · exact h2
      · exact absurd (shortest_unique (a := x) (b := []) h3 (by simp [Shortest]) (by rw [h1, hn]; rfl)) h2
    · rcases h2 with h2 | ⟨h2, h3⟩
      · subst h2
        exact absurd h1.symm hn
      · exact shortest_unique h3 ((natBytes_spec n).2 hn) (h1.trans (natBytes_spec n).1.1.symm)
  · rintro rfl
    exact (natBytes_spec n).1

theorem readCrt_ok {F : Features} {d p : Bytes} {x : Option Bytes} :
    readCrt F d p = .ok x ↔ CrtExponent F.rsaSigning d p x := by
  unfold readCrt crtExponent
  simp only [beNat_eq_natOf]
  cases F.rsaSigning with
  | false => cases x <;> simp [CrtExponent]
  | true =>
    simp only [if_true]
    by_cases h1 : 1 ≤ natOf p
    · rw [subNat_ok h1]
      simp only [Res.ok_bind]
      by_cases h2 : natOf p - 1 = 0
      · rw [if_pos h2]
        cases x with
        | none => simp [CrtExponent]
        | some x => simp [CrtExponent]; omega
      · rw [if_neg h2]
        cases x with
        | none => simp [CrtExponent]
        | some x =>
          simp only [CrtExponent, numBytes_iff, Res.pure_eq, Res.ok_bind, Res.ok.injEq, Option.some.injEq]
          exact ⟨fun h => ⟨by omega, h.symm⟩, fun h => h.2.symm⟩
    · have : subNat (natOf p) 1 = .panic := by simp [subNat]; omega
      rw [this]
      cases x with
      | none => simp [CrtExponent]
      | some x => simp [CrtExponent]; omega

theorem readCrt_panic {F : Features} {d p : Bytes} :
    readCrt F d p = .panic ↔ F.rsaSigning = true ∧ natOf p ≤ 1 := by
  unfold readCrt crtExponent
  simp only [beNat_eq_natOf]
  cases F.rsaSigning with
  | false => simp
  | true =>
    simp only [if_true, true_and]
    by_cases h1 : 1 ≤ natOf p
    · rw [subNat_ok h1]
      simp only [Res.ok_bind]
      by_cases h2 : natOf p - 1 = 0
      · rw [if_pos h2]
        simp; omega
      · rw [if_neg h2]
        simp; omega
    · have : subNat (natOf p) 1 = .panic := by simp [subNat]; omega
      rw [this]
      simp; omega

/-! ## Panics of a parser -/

/-- `p` panics exactly when the unread part starts with a word of `P`. -/
def PanicsAt {α : Type} (p : Rd α) (P : Bytes → Prop) : Prop :=
  ∀ r, (p r).1 = .panic ↔ ∃ w, P w ∧ At r w

theorem PanicsAt.never {α : Type} {p : Rd α} (h : ∀ r, (p r).1 ≠ .panic) : PanicsAt p (fun _ => False) :=
  fun r => ⟨fun e => absurd e (h r), fun ⟨_, e, _⟩ => e.elim⟩

theorem PanicsAt.congr {α : Type} {p : Rd α} {P Q : Bytes → Prop} (h : PanicsAt p P) (e : ∀ w, P w ↔ Q w) :
    PanicsAt p Q := by
  intro r
  rw [h]
  simp only [e]

theorem PanicsAt.lift {α : Type} (x : Res α) : PanicsAt (Rd.lift x) (fun w => x = .panic ∧ w = []) := by
  intro r
  constructor
  · intro h; exact ⟨[], ⟨h, rfl⟩, at_nil r⟩
  · rintro ⟨_, ⟨h, _⟩, _⟩; exact h

theorem PanicsAt.bind {α β : Type} {m : Rd α} {f : α → Rd β} {G : α → Bytes → Prop} {P : α → Bytes → Prop}
    {Q : Bytes → Prop} (hq : PanicsAt m Q) (hm : Parses m G) (hf : ∀ a, PanicsAt (f a) (P a)) :
    PanicsAt (m >>= f) (fun w => Q w ∨ ∃ a w1 w2, w = w1 ++ w2 ∧ G a w1 ∧ P a w2) := by
  intro r
  rw [Rd.bind_panic, hq r]
  constructor
  · rintro (⟨w, h, ha⟩ | ⟨a, r', h1, h2⟩)
    · exact ⟨w, .inl h, ha⟩
    · obtain ⟨w1, g1, a1, rfl⟩ := (hm _ _ _).mp h1
      obtain ⟨w2, g2, a2⟩ := (hf a _).mp h2
      exact ⟨w1 ++ w2, .inr ⟨a, w1, w2, rfl, g1, g2⟩, at_append.mpr ⟨a1, a2⟩⟩
  · rintro ⟨w, h | ⟨a, w1, w2, rfl, g1, g2⟩, ha⟩
    · exact .inl ⟨w, h, ha⟩
    · obtain ⟨a1, a2⟩ := at_append.mp ha
      exact .inr ⟨a, adv r w1, (hm _ _ _).mpr ⟨w1, g1, a1, rfl⟩, (hf a _).mpr ⟨w2, g2, a2⟩⟩

/-- Sequence after a parser that never panics. -/
theorem PanicsAt.seq {α β : Type} {m : Rd α} {f : α → Rd β} {G : α → Bytes → Prop} {P : α → Bytes → Prop}
    (hn : ∀ r, (m r).1 ≠ .panic) (hm : Parses m G) (hf : ∀ a, PanicsAt (f a) (P a)) :
    PanicsAt (m >>= f) (fun w => ∃ a w1 w2, w = w1 ++ w2 ∧ G a w1 ∧ P a w2) :=
  (PanicsAt.bind (PanicsAt.never hn) hm hf).congr (by simp)

/-! ## Key material -/

theorem readSk_parses : Parses PrivateKey.readSk SkMaterial := by
  unfold PrivateKey.readSk
  refine (Parses.bind (readRawBytes_parses (by decide)) fun fl => Parses.bind (Parses.lift _) fun flags =>
    Parses.bind readBytes_parses fun handle => Parses.bind readBytes_parses fun res => Parses.pure _).congr ?_
  intro s w
  constructor
  · intro h
    obtain ⟨fl, w1, _, q1, ⟨h1, l1⟩, h⟩ := h
    obtain ⟨flags, w2, _, q2, ⟨h2, e2⟩, h⟩ := h
    obtain ⟨handle, w3, _, q3, h3, h⟩ := h
    obtain ⟨res, w4, _, q4, h4, e5, e6⟩ := h
    subst h1
    have := (index_zero l1).mp h2
    subst this
    subst e6 q4 q3 e2 q2 q1 e5
    exact ⟨rfl, rfl, w3, w4, by simp, h3, h4⟩
  · rintro ⟨h1, h2, w3, w4, rfl, h3, h4⟩
    refine ⟨[s.flags], [s.flags], _, rfl, ⟨rfl, rfl⟩, s.flags, [], _, rfl, ⟨rfl, rfl⟩, s.handle, w3, _, rfl, h3, s.reserved,
      w4, [], by simp, h4, ?_, rfl⟩
    cases s
    simp only at h1 h2
    subst h1 h2
    rfl

theorem readSk_noPanic (r : Reader) : (PrivateKey.readSk r).1 ≠ .panic := by
  unfold PrivateKey.readSk
  have : ∀ r, (((readRawBytes 1) >>= fun fl => Rd.lift (index fl 0)) r).1 ≠ .panic := by
    intro r
    rw [Ne, Rd.bind_panic]
    rintro (h | ⟨a, r', h1, h2⟩)
    · exact readRawBytes_noPanic _ _ h
    · obtain ⟨w, ⟨rfl, hl⟩, _, _⟩ := (readRawBytes_parses (by decide) _ _ _).mp h1
      simp only [Rd.lift_eq] at h2
      rw [index_ok (by omega)] at h2
      cases h2
  have e : PrivateKey.readSk = (((readRawBytes 1) >>= fun fl => Rd.lift (index fl 0)) >>= fun flags =>
      readBytes >>= fun handle => readBytes >>= fun reserved =>
      Pure.pure { flags, handle, reserved, pin := none, devicePath := none }) := by
    rw [Rd.bind_assoc]
    rfl
  intro h
  have h' : (PrivateKey.readSk r).1 = .panic := h
  rw [e] at h'
  exact Rd.noPanic_bind this (fun _ => Rd.noPanic_bind readBytes_noPanic fun _ =>
    Rd.noPanic_bind readBytes_noPanic fun _ => Rd.noPanic_pure _) r h'

/-- The fields of an RSA key with degenerate factors. -/
def BadRsa (w : Bytes) : Prop :=
  ∃ (n e d c p q : Bytes) (w1 w2 w3 w4 w5 w6 : Bytes),
    w = w1 ++ (w2 ++ (w3 ++ (w4 ++ (w5 ++ w6)))) ∧
    Mpint n w1 ∧ Mpint e w2 ∧ Mpint d w3 ∧ Mpint c w4 ∧ Mpint p w5 ∧ Mpint q w6 ∧ (natOf p ≤ 1 ∨ natOf q ≤ 1)

theorem crt_unique {b : Bool} {d p : Bytes} : 1 < natOf p → ∃ x, CrtExponent b d p x := by
  intro h
  cases b
  · exact ⟨none, trivial⟩
  · exact ⟨some _, h, numBytes_iff.mpr rfl⟩

theorem privKind_parses (F : Features) (kt : KeyType) :
    Parses (PrivateKey.readKind F kt) (fun v w => PrivMaterial F.rsaSigning kt v.1 v.2 w) := by
  unfold PrivateKey.readKind
  cases hk : kt.kind with
  | rsa =>
    refine (Parses.bind readPositiveMpint_parses fun n => Parses.bind readPositiveMpint_parses fun e =>
      Parses.bind readPositiveMpint_parses fun d => Parses.bind readPositiveMpint_parses fun c =>
      Parses.bind readPositiveMpint_parses fun p => Parses.bind readPositiveMpint_parses fun q =>
      Parses.bind (Parses.lift _) fun exp => Parses.bind (Parses.lift _) fun exq => Parses.pure _).congr ?_
    rintro ⟨v1, v2⟩ w
    constructor
    · intro h
      obtain ⟨n, w1, _, q1, h1, h⟩ := h
      obtain ⟨e, w2, _, q2, h2, h⟩ := h
      obtain ⟨d, w3, _, q3, h3, h⟩ := h
      obtain ⟨c, w4, _, q4, h4, h⟩ := h
      obtain ⟨p, w5, _, q5, h5, h⟩ := h
      obtain ⟨q, w6, _, q6, h6, h⟩ := h
      obtain ⟨exp, w7, _, q7, ⟨h7, e7⟩, h⟩ := h
      obtain ⟨exq, w8, _, q8, ⟨h8, e8⟩, h9, e9⟩ := h
      simp only [Prod.mk.injEq] at h9
      obtain ⟨rfl, rfl⟩ := h9
      subst e9 e8 q8 e7 q7 q6 q5 q4 q3 q2 q1
      exact ⟨hk, rfl, readCrt_ok.mp h7, readCrt_ok.mp h8, w1, w2, w3, w4, w5, w6, by simp, h1, h2, h3, h4, h5, h6⟩
    · intro h
      cases v1 with
      | rsa r =>
        obtain ⟨_, h0, hp, hq, w1, w2, w3, w4, w5, w6, q1, h1, h2, h3, h4, h5, h6⟩ := h
        dsimp only at h0
        subst h0 q1
        refine ⟨_, w1, _, rfl, h1, _, w2, _, rfl, h2, _, w3, _, rfl, h3, _, w4, _, rfl, h4, _, w5, _, rfl, h5, _, w6, [],
          by simp, h6, r.exp, [], _, rfl, ⟨readCrt_ok.mpr hp, rfl⟩, r.exq, [], _, rfl, ⟨readCrt_ok.mpr hq, rfl⟩, rfl, rfl⟩
      | ecdsa c key => exact absurd (hk.symm.trans h.1) (by decide)
      | ecdsaSk s => exact absurd (hk.symm.trans h.1) (by decide)
      | ed25519 key => exact absurd (hk.symm.trans h.1) (by decide)
      | ed25519Sk s => exact absurd (hk.symm.trans h.1) (by decide)
  | ecdsa =>
    cases hs : kt.isSk with
    | true =>
      simp only [if_true]
      refine (Parses.bind readString_parses fun id => Parses.bind (Parses.lift _) fun c =>
        Parses.bind readBytes_parses fun pt => Parses.bind readString_parses fun app =>
        Parses.bind readSk_parses fun s => Parses.pure _).congr ?_
      rintro ⟨v1, v2⟩ w
      constructor
      · intro h
        obtain ⟨id, w1, _, q1, h1, h⟩ := h
        obtain ⟨c, w2, _, q2, ⟨h2, e2⟩, h⟩ := h
        obtain ⟨pt, w3, _, q3, h3, h⟩ := h
        obtain ⟨app, w4, _, q4, h4, h⟩ := h
        obtain ⟨s, w5, _, q5, h5, h6, e6⟩ := h
        simp only [Prod.mk.injEq] at h6
        obtain ⟨rfl, rfl⟩ := h6
        obtain ⟨hc, rfl⟩ := fromIdentifier_ok.mp h2
        subst e6 q5 q4 q3 e2 q2 q1
        exact ⟨hk, hs, c, pt, app, w1, w3, w4, w5, hc, rfl, by simp, h1, h3, h4, h5⟩
      · intro h
        cases v1 with
        | ecdsaSk s =>
          obtain ⟨_, _, c, pt, app, w1, w2, w3, w4, hc, h0, q1, h1, h2, h3, h4⟩ := h
          dsimp only at h0
          subst h0 q1
          exact ⟨_, w1, _, rfl, h1, c, [], _, rfl, ⟨fromIdentifier_ok.mpr ⟨hc, rfl⟩, rfl⟩, pt, w2, _, rfl, h2, app, w3, _,
            rfl, h3, s, w4, [], by simp, h4, rfl, rfl⟩
        | ecdsa c key => exact absurd (hs.symm.trans h.2.1) (by decide)
        | rsa c => exact absurd (hk.symm.trans h.1) (by decide)
        | ed25519 key => exact absurd (hk.symm.trans h.1) (by decide)
        | ed25519Sk s => exact absurd (hk.symm.trans h.1) (by decide)
    | false =>
      simp only [Bool.false_eq_true, if_false]
      refine (Parses.bind readString_parses fun id => Parses.bind (Parses.lift _) fun c =>
        Parses.bind readBytes_parses fun pt => Parses.bind readBytes_parses fun s => Parses.pure _).congr ?_
      rintro ⟨v1, v2⟩ w
      constructor
      · intro h
        obtain ⟨id, w1, _, q1, h1, h⟩ := h
        obtain ⟨c, w2, _, q2, ⟨h2, e2⟩, h⟩ := h
        obtain ⟨pt, w3, _, q3, h3, h⟩ := h
        obtain ⟨s, w5, _, q5, h5, h6, e6⟩ := h
        simp only [Prod.mk.injEq] at h6
        obtain ⟨rfl, rfl⟩ := h6
        obtain ⟨hc, rfl⟩ := fromIdentifier_ok.mp h2
        subst e6 q5 q3 e2 q2 q1
        exact ⟨hk, hs, hc, pt, w1, w3, w5, rfl, by simp, h1, h3, h5⟩
      · intro h
        cases v1 with
        | ecdsa c key =>
          obtain ⟨_, _, hc, pt, w1, w2, w3, h0, q1, h1, h2, h3⟩ := h
          dsimp only at h0
          subst h0 q1
          exact ⟨_, w1, _, rfl, h1, c, [], _, rfl, ⟨fromIdentifier_ok.mpr ⟨hc, rfl⟩, rfl⟩, pt, w2, _, rfl, h2, key, w3, [],
            by simp, h3, rfl, rfl⟩
        | ecdsaSk s => exact absurd (hs.symm.trans h.2.1) (by decide)
        | rsa c => exact absurd (hk.symm.trans h.1) (by decide)
        | ed25519 key => exact absurd (hk.symm.trans h.1) (by decide)
        | ed25519Sk s => exact absurd (hk.symm.trans h.1) (by decide)
  | ed25519 =>
    cases hs : kt.isSk with
    | true =>
      simp only [if_true]
      refine (Parses.bind readBytes_parses fun pt => Parses.bind readString_parses fun app =>
        Parses.bind readSk_parses fun s => Parses.pure _).congr ?_
      rintro ⟨v1, v2⟩ w
      constructor
      · intro h
        obtain ⟨pt, w3, _, q3, h3, h⟩ := h
        obtain ⟨app, w4, _, q4, h4, h⟩ := h
        obtain ⟨s, w5, _, q5, h5, h6, e6⟩ := h
        simp only [Prod.mk.injEq] at h6
        obtain ⟨rfl, rfl⟩ := h6
        subst e6 q5 q4 q3
        exact ⟨hk, hs, pt, app, w3, w4, w5, rfl, by simp, h3, h4, h5⟩
      · intro h
        cases v1 with
        | ed25519Sk s =>
          obtain ⟨_, _, pt, app, w2, w3, w4, h0, q1, h2, h3, h4⟩ := h
          dsimp only at h0
          subst h0 q1
          exact ⟨pt, w2, _, rfl, h2, app, w3, _, rfl, h3, s, w4, [], by simp, h4, rfl, rfl⟩
        | ed25519 key => exact absurd (hs.symm.trans h.2.1) (by decide)
        | rsa c => exact absurd (hk.symm.trans h.1) (by decide)
        | ecdsa c key => exact absurd (hk.symm.trans h.1) (by decide)
        | ecdsaSk s => exact absurd (hk.symm.trans h.1) (by decide)
    | false =>
      simp only [Bool.false_eq_true, if_false]
      refine (Parses.bind readBytes_parses fun pt => Parses.bind readBytes_parses fun s => Parses.pure _).congr ?_
      rintro ⟨v1, v2⟩ w
      constructor
      · intro h
        obtain ⟨pt, w3, _, q3, h3, h⟩ := h
        obtain ⟨s, w5, _, q5, h5, h6, e6⟩ := h
        simp only [Prod.mk.injEq] at h6
        obtain ⟨rfl, rfl⟩ := h6
        subst e6 q5 q3
        exact ⟨hk, hs, pt, w3, w5, rfl, by simp, h3, h5⟩
      · intro h
        cases v1 with
        | ed25519 key =>
          obtain ⟨_, _, pt, w2, w3, h0, q1, h2, h3⟩ := h
          dsimp only at h0
          subst h0 q1
          exact ⟨pt, w2, _, rfl, h2, key, w3, [], by simp, h3, rfl, rfl⟩
        | ed25519Sk s => exact absurd (hs.symm.trans h.2.1) (by decide)
        | rsa c => exact absurd (hk.symm.trans h.1) (by decide)
        | ecdsa c key => exact absurd (hk.symm.trans h.1) (by decide)
        | ecdsaSk s => exact absurd (hk.symm.trans h.1) (by decide)
  | _ =>
    refine (Parses.err _).congr ?_
    rintro ⟨v1, v2⟩ w
    refine Iff.intro False.elim fun h => ?_
    cases v1 <;> exact absurd (hk.symm.trans h.1) (by decide)

theorem privKind_panics (F : Features) (kt : KeyType) :
    PanicsAt (PrivateKey.readKind F kt) (fun w => F.rsaSigning = true ∧ kt.kind = .rsa ∧ BadRsa w) := by
  unfold PrivateKey.readKind
  cases hk : kt.kind with
  | rsa =>
    refine (PanicsAt.seq readPositiveMpint_noPanic readPositiveMpint_parses fun n =>
      PanicsAt.seq readPositiveMpint_noPanic readPositiveMpint_parses fun e =>
      PanicsAt.seq readPositiveMpint_noPanic readPositiveMpint_parses fun d =>
      PanicsAt.seq readPositiveMpint_noPanic readPositiveMpint_parses fun c =>
      PanicsAt.seq readPositiveMpint_noPanic readPositiveMpint_parses fun p =>
      PanicsAt.seq readPositiveMpint_noPanic readPositiveMpint_parses fun q =>
      PanicsAt.bind (PanicsAt.lift _) (Parses.lift _) fun exp =>
      PanicsAt.bind (PanicsAt.lift _) (Parses.lift _) fun exq => PanicsAt.never (Rd.noPanic_pure _)).congr ?_
    intro w
    constructor
    · intro h
      obtain ⟨n, w1, _, q1, h1, h⟩ := h
      obtain ⟨e, w2, _, q2, h2, h⟩ := h
      obtain ⟨d, w3, _, q3, h3, h⟩ := h
      obtain ⟨c, w4, _, q4, h4, h⟩ := h
      obtain ⟨p, w5, _, q5, h5, h⟩ := h
      obtain ⟨q, w6, _, q6, h6, h⟩ := h
      rcases h with ⟨h7, e7⟩ | ⟨exp, w7, _, q7, ⟨h7, e7⟩, ⟨h8, e8⟩ | ⟨_, _, _, _, _, h⟩⟩
      · subst e7 q6 q5 q4 q3 q2 q1
        exact ⟨(readCrt_panic.mp h7).1, rfl, n, e, d, c, p, q, w1, w2, w3, w4, w5, w6, by simp, h1, h2, h3, h4, h5, h6,
          .inl (readCrt_panic.mp h7).2⟩
      · subst e8 e7 q7 q6 q5 q4 q3 q2 q1
        exact ⟨(readCrt_panic.mp h8).1, rfl, n, e, d, c, p, q, w1, w2, w3, w4, w5, w6, by simp, h1, h2, h3, h4, h5, h6,
          .inr (readCrt_panic.mp h8).2⟩
      · exact h.elim
    · rintro ⟨hF, _, n, e, d, c, p, q, w1, w2, w3, w4, w5, w6, rfl, h1, h2, h3, h4, h5, h6, h7⟩
      refine ⟨n, w1, _, rfl, h1, e, w2, _, rfl, h2, d, w3, _, rfl, h3, c, w4, _, rfl, h4, p, w5, _, rfl, h5, q, w6, [],
        by simp, h6, ?_⟩
      by_cases hp : natOf p ≤ 1
      · exact .inl ⟨readCrt_panic.mpr ⟨hF, hp⟩, rfl⟩
      · have hq : natOf q ≤ 1 := h7.resolve_left hp
        obtain ⟨x, hx⟩ := crt_unique (b := F.rsaSigning) (d := d) (Nat.lt_of_not_le hp)
        exact .inr ⟨x, [], [], rfl, ⟨readCrt_ok.mpr hx, rfl⟩, .inl ⟨readCrt_panic.mpr ⟨hF, hq⟩, rfl⟩⟩
  | ecdsa =>
    refine (PanicsAt.never (Rd.noPanic_bind readString_noPanic fun id =>
      Rd.noPanic_bind (Rd.noPanic_lift (fromIdentifier_noPanic _)) fun c => Rd.noPanic_bind readBytes_noPanic fun pt => ?_)).congr
      (by simp)
    split
    · exact Rd.noPanic_bind readString_noPanic fun _ => Rd.noPanic_bind readSk_noPanic fun _ => Rd.noPanic_pure _
    · exact Rd.noPanic_bind readBytes_noPanic fun _ => Rd.noPanic_pure _
  | ed25519 =>
    refine (PanicsAt.never (Rd.noPanic_bind readBytes_noPanic fun pt => ?_)).congr (by simp)
    split
    · exact Rd.noPanic_bind readString_noPanic fun _ => Rd.noPanic_bind readSk_noPanic fun _ => Rd.noPanic_pure _
    · exact Rd.noPanic_bind readBytes_noPanic fun _ => Rd.noPanic_pure _
  | _ => exact (PanicsAt.never (Rd.noPanic_lift (by simp))).congr (by simp)

theorem readPrivateKey_parses (F : Features) :
    Parses (PrivateKey.readPrivateKey F) (fun k w => k.magic = 0 ∧ PrivBlob F.rsaSigning k w) := by
  unfold PrivateKey.readPrivateKey
  refine (Parses.bind readString_parses fun name => Parses.bind (Parses.lift _) fun kt =>
    Parses.bind (privKind_parses F kt) fun kp => Parses.bind readString_parses fun comment => Parses.pure _).congr ?_
  intro k w
  constructor
  · intro h
    obtain ⟨name, w1, _, q1, h1, h⟩ := h
    obtain ⟨kt, w2, _, q2, ⟨h2, e2⟩, h⟩ := h
    obtain ⟨kp, w3, _, q3, h3, h⟩ := h
    obtain ⟨comment, w4, _, q4, h4, h5, e5⟩ := h
    obtain ⟨hm, rfl⟩ := fromName_ok.mp h2
    subst e5 q4 q3 e2 q2 q1 h5
    exact ⟨rfl, hm, rfl, rfl, w1, w3, w4, by simp, h1, h3, h4⟩
  · rintro ⟨h0, hm, hp, hc, w1, w2, w3, rfl, h1, h2, h3⟩
    refine ⟨_, w1, _, rfl, h1, k.keyType, [], _, rfl, ⟨fromName_ok.mpr ⟨hm, rfl⟩, rfl⟩, (k.kind, k.pubkey.kind), w2, _, rfl, h2,
      k.comment, w3, [], by simp, h3, ?_, rfl⟩
    obtain ⟨kt, kd, ⟨pt, pk, pc⟩, m, c⟩ := k
    simp only at h0 hp hc
    subst h0 hp hc
    rfl

theorem readPrivateKey_panics (F : Features) :
    PanicsAt (PrivateKey.readPrivateKey F) (fun w => F.rsaSigning = true ∧ ∃ kt w0 w', kt ∈ keyTypes ∧ kt.kind = .rsa ∧
      Text kt.name w0 ∧ BadRsa w' ∧ w = w0 ++ w') := by
  unfold PrivateKey.readPrivateKey
  refine (PanicsAt.seq readString_noPanic readString_parses fun name =>
    PanicsAt.seq (Rd.noPanic_lift (fromName_noPanic _)) (Parses.lift _) fun kt =>
    PanicsAt.bind (privKind_panics F kt) (privKind_parses F kt) fun kp =>
    PanicsAt.never (Rd.noPanic_bind readString_noPanic fun _ => Rd.noPanic_pure _)).congr ?_
  intro w
  constructor
  · intro h
    obtain ⟨name, w1, _, q1, h1, h⟩ := h
    obtain ⟨kt, w2, w', q2, ⟨h2, e2⟩, h⟩ := h
    rcases h with ⟨hF, hk, hb⟩ | ⟨_, _, _, _, _, h⟩
    · obtain ⟨hm, rfl⟩ := fromName_ok.mp h2
      subst e2 q2 q1
      exact ⟨hF, kt, w1, _, hm, hk, h1, hb, by simp⟩
    · exact h.elim
  · rintro ⟨hF, kt, w0, w', hm, hk, h0, hb, rfl⟩
    exact ⟨_, w0, _, rfl, h0, kt, [], w', by simp, ⟨fromName_ok.mpr ⟨hm, rfl⟩, rfl⟩, .inl ⟨hF, hk, hb⟩⟩

/-! ## The private section -/

theorem privBlob_magic {b : Bool} {k : PrivateKey} {w : Bytes} (m : UInt32) :
    PrivBlob b { k with magic := m } w ↔ PrivBlob b k w := Iff.rfl

theorem openSection_ok {F : Features} {pubkey : PublicKey} {sec : Bytes} {k : PrivateKey} :
    PrivateKey.openSection F pubkey sec = .ok k ↔ k.pubkey = pubkey ∧ ∃ pad, PrivSection F.rsaSigning k pad sec := by
  unfold PrivateKey.openSection
  rw [(Parses.bind readU32_parses fun m1 => Parses.bind readU32_parses fun m2 =>
    Parses.ite (fun _ => Parses.err _) fun _ => Parses.bind (readPrivateKey_parses F) fun k =>
    Parses.ite (fun _ => Parses.err _) fun _ => Parses.pure _).new]
  constructor
  · intro h
    obtain ⟨w, pad, q0, m1, w1, _, q1, h1, m2, w2, _, q2, h2, h⟩ := h
    rcases h with ⟨_, h⟩ | ⟨hm, k', w3, _, q3, ⟨hk0, hk⟩, ⟨_, h⟩ | ⟨hp, h, e⟩⟩
    · exact h.elim
    · exact h.elim
    · have hm : m1 = m2 := Decidable.not_not.mp hm
      have hp := Decidable.not_not.mp hp
      subst hm h1 h2 e q3 q2 q1 q0 h
      exact ⟨hp, pad, w3, by simp, hk⟩
  · rintro ⟨hp, pad, b, rfl, hb⟩
    refine ⟨u32 k.magic.toNat ++ (u32 k.magic.toNat ++ b), pad, by simp, k.magic, _, _, rfl, rfl, k.magic, _, _, rfl, rfl,
      .inr ⟨by simp, { k with magic := 0 }, b, [], by simp, ⟨rfl, hb⟩, .inr ⟨by simpa using hp, rfl, rfl⟩⟩⟩

theorem PanicsAt.new {α : Type} {p : Rd α} {P : Bytes → Prop} (h : PanicsAt p P) {buf : Bytes} :
    (p (Reader.new buf)).1 = .panic ↔ ∃ w rest, buf = w ++ rest ∧ P w := by
  rw [h]
  constructor
  · rintro ⟨w, hP, ha⟩
    obtain ⟨rest, hr⟩ := at_new.mp ha
    exact ⟨w, rest, hr, hP⟩
  · rintro ⟨w, rest, hr, hP⟩
    exact ⟨w, hP, at_new.mpr ⟨rest, hr⟩⟩

theorem PanicsAt.ite {α : Type} {c : Prop} [Decidable c] {p q : Rd α} {G H : Bytes → Prop}
    (hp : c → PanicsAt p G) (hq : ¬ c → PanicsAt q H) :
    PanicsAt (if c then p else q) (fun w => (c ∧ G w) ∨ (¬ c ∧ H w)) := by
  by_cases h : c
  · simp only [h, if_true]
    exact (hp h).congr (by simp)
  · simp only [h, if_false]
    exact (hq h).congr (by simp)

theorem PanicsAt.err {α : Type} (e : Err) : PanicsAt (Rd.lift (.err e) : Rd α) (fun _ => False) :=
  PanicsAt.never (Rd.noPanic_lift (by simp))

theorem openSection_panic {F : Features} {pubkey : PublicKey} {sec : Bytes} :
    PrivateKey.openSection F pubkey sec = .panic ↔ F.rsaSigning = true ∧ DegenerateRsa sec := by
  unfold PrivateKey.openSection
  rw [(PanicsAt.seq readU32_noPanic readU32_parses fun m1 => PanicsAt.seq readU32_noPanic readU32_parses fun m2 =>
    PanicsAt.ite (fun _ => PanicsAt.err _) fun _ => PanicsAt.bind (readPrivateKey_panics F) (readPrivateKey_parses F) fun k =>
    PanicsAt.ite (fun _ => PanicsAt.err _) fun _ => PanicsAt.never (Rd.noPanic_pure _)).new]
  constructor
  · intro h
    obtain ⟨w, pad, q0, m1, w1, _, q1, h1, m2, w2, _, q2, h2, h⟩ := h
    rcases h with ⟨_, h⟩ | ⟨hm, ⟨hF, kt, w0, w', hk1, hk2, h0, hb, q3⟩ | ⟨_, _, _, _, _, ⟨_, h⟩ | ⟨_, h⟩⟩⟩
    · exact h.elim
    · have hm : m1 = m2 := Decidable.not_not.mp hm
      subst hm
      obtain ⟨n, e, d, c, p, q, v1, v2, v3, v4, v5, v6, q4, b1, b2, b3, b4, b5, b6, b7⟩ := hb
      subst q4 q3 h1 h2 q2 q1 q0
      exact ⟨hF, m1, kt, n, e, d, c, p, q, w0, v1, v2, v3, v4, v5, v6, pad, by simp, hk1, hk2, h0, b1, b2, b3, b4, b5, b6, b7⟩
    · exact h.elim
    · exact h.elim
  · rintro ⟨hF, m, kt, n, e, d, c, p, q, w0, v1, v2, v3, v4, v5, v6, pad, rfl, hk1, hk2, h0, b1, b2, b3, b4, b5, b6, b7⟩
    exact ⟨u32 m.toNat ++ (u32 m.toNat ++ (w0 ++ (v1 ++ (v2 ++ (v3 ++ (v4 ++ (v5 ++ v6))))))), pad, by simp, m, _, _, rfl, rfl,
      m, _, _, rfl, rfl, .inr ⟨by simp, .inl ⟨hF, kt, w0, _, hk1, hk2, h0,
        ⟨n, e, d, c, p, q, v1, v2, v3, v4, v5, v6, rfl, b1, b2, b3, b4, b5, b6, b7⟩, rfl⟩⟩⟩

theorem xorOf_iff {ks : Nat → UInt8} {enc plain : Bytes} : XorOf ks enc plain ↔ plain = PrivateKey.xorStream ks enc := by
  unfold XorOf PrivateKey.xorStream
  constructor
  · rintro ⟨h1, h2⟩
    apply List.ext_getElem? 
    intro i
    by_cases h : i < enc.length
    · rw [h2 i h]
      simp [h]
    · rw [List.getElem?_eq_none (by omega), List.getElem?_eq_none (by simp; omega)]
  · rintro rfl
    refine ⟨by simp, fun i h => by simp [h]⟩

theorem decryptSection_ok {F : Features} {C : Crypto} {cipher kdf : String} {pass : Option String}
    {kdfData sec plain : Bytes} :
    PrivateKey.decryptSection F C cipher kdf pass kdfData sec = .ok plain ↔
      Decrypts F C cipher kdf pass kdfData sec plain := by
  unfold PrivateKey.decryptSection Decrypts
  by_cases h1 : cipher = "none" ∧ kdf = "none"
  · rw [if_pos h1]
    obtain ⟨rfl, rfl⟩ := h1
    constructor
    · intro h; exact .inl ⟨rfl, rfl, (Res.ok.inj h).symm⟩
    · rintro (⟨_, _, rfl⟩ | ⟨h, _⟩)
      · rfl
      · exact absurd h (by decide)
  · rw [if_neg h1]
    by_cases h2 : cipher = "aes256-ctr" ∧ kdf = "bcrypt"
    · rw [if_pos h2]
      obtain ⟨rfl, rfl⟩ := h2
      cases pass with
      | none => simp
      | some p =>
        dsimp only
        by_cases hF : F.encryptedKeys = true
        · rw [if_pos hF]
          have hr : ∀ sr, ((do
              let salt ← Reader.readBytes
              let rounds ← Reader.readU32
              return (salt, rounds) : Rd (Bytes × UInt32)) (Reader.new kdfData)).1 = .ok sr ↔
              ∃ w rest, kdfData = w ++ (u32 sr.2.toNat ++ rest) ∧ Frame sr.1 w := by
            intro sr
            rw [(Parses.bind readBytes_parses fun salt => Parses.bind readU32_parses fun rounds => Parses.pure _).new]
            constructor
            · intro h
              obtain ⟨w, rest, q0, salt, w1, _, q1, h1, rounds, w2, _, q2, h2, h3, e3⟩ := h
              subst h3 e3 q2 q1 q0 h2
              exact ⟨w1, rest, by simp, h1⟩
            · rintro ⟨w, rest, rfl, h⟩
              exact ⟨w ++ u32 sr.2.toNat, rest, by simp, sr.1, w, _, rfl, h, sr.2, _, [], by simp, rfl, rfl, rfl⟩
          constructor
          · intro h
            split at h
            · rename_i salt rounds hsr
              obtain ⟨w, rest, q, hf⟩ := (hr _).mp hsr
              split at h
              · rename_i key iv hk
                split at h
                · rename_i ha
                  exact .inr ⟨rfl, rfl, hF, p, rfl, salt, rounds, w, rest, key, iv, q, hf, hk, ha,
                    xorOf_iff.mpr (Res.ok.inj h).symm⟩
                · cases h
              · cases h
            · cases h
            · cases h
          · rintro (⟨h, _⟩ | ⟨_, _, _, p', hp, salt, rounds, w, rest, key, iv, q, hf, hk, ha, hx⟩)
            · exact absurd h (by decide)
            · cases hp
              rw [(hr (salt, rounds)).mpr ⟨w, rest, q, hf⟩]
              dsimp only
              rw [hk]
              dsimp only
              rw [if_pos ha, xorOf_iff.mp hx]
        · rw [if_neg hF]
          simp [hF]
    · rw [if_neg h2]
      constructor
      · intro h; cases h
      · rintro (⟨h3, h4, _⟩ | ⟨h3, h4, _⟩)
        · exact absurd ⟨h3, h4⟩ h1
        · exact absurd ⟨h3, h4⟩ h2

theorem decryptSection_noPanic {F : Features} {C : Crypto} {cipher kdf : String} {pass : Option String}
    {kdfData sec : Bytes} : PrivateKey.decryptSection F C cipher kdf pass kdfData sec ≠ .panic := by
  unfold PrivateKey.decryptSection
  have hr : ((do
      let salt ← Reader.readBytes
      let rounds ← Reader.readU32
      return (salt, rounds) : Rd (Bytes × UInt32)) (Reader.new kdfData)).1 ≠ .panic :=
    Rd.noPanic_bind readBytes_noPanic (fun _ => Rd.noPanic_bind readU32_noPanic fun _ => Rd.noPanic_pure _) _
  split
  · simp
  · split
    · split
      · split
        · split
          · split
            · split <;> simp
            · simp
          · simp
          · rename_i h; exact absurd h hr
        · simp
      · simp
    · simp

/-! ## The container -/

/-- A frame whose payload is read as raw bytes and passed on.  (`readRawBytes 0` fails at the end of the buffer, so
the empty payload must not be accepted anyway.) -/
theorem framed_parses {α : Type} (g : Bytes → Res α) (h0 : ∀ v, g [] ≠ .ok v) :
    Parses (do let len ← Reader.readU32
               let rem ← Reader.readRawBytes len.toNat
               Rd.lift (g rem)) (fun v w => ∃ sec, Frame sec w ∧ g sec = .ok v) := by
  intro r v r'
  rw [Rd.bind_ok]
  constructor
  · rintro ⟨len, r1, h1, h2⟩
    obtain ⟨w1, rfl, a1, rfl⟩ := (readU32_parses _ _ _).mp h1
    obtain ⟨rem, r2, h3, h4⟩ := Rd.bind_ok.mp h2
    simp only [Rd.lift_eq, Prod.mk.injEq] at h4
    obtain ⟨h4, rfl⟩ := h4
    by_cases hl : 0 < len.toNat
    · obtain ⟨w2, ⟨rfl, hw⟩, a2, rfl⟩ := (readRawBytes_parses hl _ _ _).mp h3
      refine ⟨u32 len.toNat ++ rem, ⟨rem, ?_, h4⟩, at_append.mpr ⟨a1, a2⟩, (adv_append _ _ _).symm⟩
      exact ⟨by rw [hw]; exact len.toNat_lt, by rw [hw]⟩
    · have : rem = [] := by
        have hz : len.toNat = 0 := by omega
        rw [hz, readRawBytes_eq] at h3
        split at h3
        · simp at h3
        · simp only [List.take_zero, Prod.mk.injEq, Res.ok.injEq] at h3
          exact h3.1.symm
      subst this
      exact absurd h4 (h0 v)
  · rintro ⟨w, ⟨sec, ⟨hl, rfl⟩, hg⟩, ha, rfl⟩
    have hne : 0 < sec.length := by
      cases sec with
      | nil => exact absurd hg (h0 v)
      | cons => simp
    obtain ⟨a1, a2⟩ := at_append.mp ha
    have e : (UInt32.ofNat sec.length).toNat = sec.length := by simp; omega
    refine ⟨UInt32.ofNat sec.length, adv r (u32 sec.length), (readU32_parses _ _ _).mpr ⟨_, rfl, by rw [e]; exact a1, by rw [e]⟩, ?_⟩
    rw [Rd.bind_ok]
    exact ⟨sec, adv (adv r (u32 sec.length)) sec, (readRawBytes_parses (by omega) _ _ _).mpr ⟨sec, ⟨rfl, e.symm⟩, a2, rfl⟩,
      by simp [hg, adv_append]⟩

theorem framed_panics {α : Type} (g : Bytes → Res α) (h0 : g [] ≠ .panic) :
    PanicsAt (do let len ← Reader.readU32
                 let rem ← Reader.readRawBytes len.toNat
                 Rd.lift (g rem)) (fun w => ∃ sec, Frame sec w ∧ g sec = .panic) := by
  intro r
  rw [Rd.bind_panic]
  constructor
  · rintro (h | ⟨len, r1, h1, h2⟩)
    · exact absurd h (readU32_noPanic _)
    · obtain ⟨w1, rfl, a1, rfl⟩ := (readU32_parses _ _ _).mp h1
      rcases Rd.bind_panic.mp h2 with h | ⟨rem, r2, h3, h4⟩
      · exact absurd h (readRawBytes_noPanic _ _)
      · simp only [Rd.lift_eq] at h4
        by_cases hl : 0 < len.toNat
        · obtain ⟨w2, ⟨rfl, hw⟩, a2, rfl⟩ := (readRawBytes_parses hl _ _ _).mp h3
          refine ⟨u32 len.toNat ++ rem, ⟨rem, ?_, h4⟩, at_append.mpr ⟨a1, a2⟩⟩
          exact ⟨by rw [hw]; exact len.toNat_lt, by rw [hw]⟩
        · have : rem = [] := by
            have hz : len.toNat = 0 := by omega
            rw [hz, readRawBytes_eq] at h3
            split at h3
            · simp at h3
            · simp only [List.take_zero, Prod.mk.injEq, Res.ok.injEq] at h3
              exact h3.1.symm
          subst this
          exact absurd h4 h0
  · rintro ⟨w, ⟨sec, ⟨hl, rfl⟩, hg⟩, ha⟩
    have hne : 0 < sec.length := by
      cases sec with
      | nil => exact absurd hg h0
      | cons => simp
    obtain ⟨a1, a2⟩ := at_append.mp ha
    have e : (UInt32.ofNat sec.length).toNat = sec.length := by simp; omega
    refine .inr ⟨UInt32.ofNat sec.length, adv r (u32 sec.length), (readU32_parses _ _ _).mpr ⟨_, rfl, by rw [e]; exact a1, by rw [e]⟩, ?_⟩
    rw [Rd.bind_panic]
    exact .inr ⟨sec, adv (adv r (u32 sec.length)) sec, (readRawBytes_parses (by omega) _ _ _).mpr ⟨sec, ⟨rfl, e.symm⟩, a2, rfl⟩,
      by simp [hg]⟩

theorem Rd.lift_bind {α β : Type} (x : Res α) (f : α → Res β) : (Rd.lift x >>= fun a => Rd.lift (f a)) = Rd.lift (x >>= f) := by
  funext r
  cases x <;> rfl

/-- The private section after the container has been read. -/
def openEncrypted (F : Features) (C : Crypto) (pass : Option String) (cipher kdf : String) (kdfData : Bytes)
    (pubkey : PublicKey) (sec : Bytes) : Res PrivateKey :=
  PrivateKey.decryptSection F C cipher kdf pass kdfData sec >>= PrivateKey.openSection F pubkey

theorem bind_ok_iff {α β : Type} {x : Res α} {f : α → Res β} {b : β} : x >>= f = .ok b ↔ ∃ a, x = .ok a ∧ f a = .ok b := by
  cases x <;> simp

theorem bind_panic_iff {α β : Type} {x : Res α} {f : α → Res β} :
    x >>= f = .panic ↔ x = .panic ∨ ∃ a, x = .ok a ∧ f a = .panic := by
  cases x <;> simp

theorem openEncrypted_ok {F : Features} {C : Crypto} {pass : Option String} {cipher kdf : String} {kdfData : Bytes}
    {pubkey : PublicKey} {sec : Bytes} {k : PrivateKey} :
    openEncrypted F C pass cipher kdf kdfData pubkey sec = .ok k ↔
      ∃ plain pad, Decrypts F C cipher kdf pass kdfData sec plain ∧ k.pubkey = pubkey ∧
        PrivSection F.rsaSigning k pad plain := by
  unfold openEncrypted
  rw [bind_ok_iff]
  simp only [decryptSection_ok, openSection_ok]
  constructor
  · rintro ⟨plain, h1, h2, pad, h3⟩; exact ⟨plain, pad, h1, h2, h3⟩
  · rintro ⟨plain, pad, h1, h2, h3⟩; exact ⟨plain, h1, h2, pad, h3⟩

theorem openEncrypted_panic {F : Features} {C : Crypto} {pass : Option String} {cipher kdf : String} {kdfData : Bytes}
    {pubkey : PublicKey} {sec : Bytes} :
    openEncrypted F C pass cipher kdf kdfData pubkey sec = .panic ↔
      ∃ plain, Decrypts F C cipher kdf pass kdfData sec plain ∧ F.rsaSigning = true ∧ DegenerateRsa plain := by
  unfold openEncrypted
  rw [bind_panic_iff]
  simp only [decryptSection_ok, openSection_panic, decryptSection_noPanic, false_or]

theorem decrypts_nil {F : Features} {C : Crypto} {pass : Option String} {cipher kdf : String} {kdfData plain : Bytes}
    (h : Decrypts F C cipher kdf pass kdfData [] plain) : plain = [] := by
  rcases h with ⟨_, _, h⟩ | ⟨_, _, _, p, _, _, _, _, _, _, _, _, _, _, _, h⟩
  · exact h
  · exact List.length_eq_zero_iff.mp h.1

theorem u32_ne_nil (n : Nat) (l : Bytes) : ([] : Bytes) ≠ u32 n ++ l := by
  intro h
  have := congrArg List.length h
  simp [u32] at this

theorem openEncrypted_nil_ok {F : Features} {C : Crypto} {pass : Option String} {cipher kdf : String} {kdfData : Bytes}
    {pubkey : PublicKey} {k : PrivateKey} : openEncrypted F C pass cipher kdf kdfData pubkey [] ≠ .ok k := by
  intro h
  obtain ⟨plain, pad, hd, _, b, e, _⟩ := openEncrypted_ok.mp h
  rw [decrypts_nil hd] at e
  exact u32_ne_nil _ _ e

theorem openEncrypted_nil_panic {F : Features} {C : Crypto} {pass : Option String} {cipher kdf : String} {kdfData : Bytes}
    {pubkey : PublicKey} : openEncrypted F C pass cipher kdf kdfData pubkey [] ≠ .panic := by
  intro h
  obtain ⟨plain, hd, _, m, _, _, _, _, _, _, _, _, _, _, _, _, _, _, _, e, _⟩ := openEncrypted_panic.mp h
  rw [decrypts_nil hd] at e
  exact u32_ne_nil _ _ e

theorem fromReader_eq (F : Features) (C : Crypto) (pass : Option String) :
    PrivateKey.fromReader F C pass = (do
      let pre ← Reader.readCstring
      if pre ≠ "openssh-key-v1" then Rd.lift (.err .invalidFormat)
      else do
        let cipher ← Reader.readString
        let kdf ← Reader.readString
        let encData ← Reader.readBytes
        let count ← Reader.readU32
        if count ≠ 1 then Rd.lift (.err .invalidFormat)
        else do
          let pbuf ← Reader.readBytes
          let pubkey ← Rd.lift (PublicKey.fromBytes pbuf)
          let len ← Reader.readU32
          let rem ← Reader.readRawBytes len.toNat
          Rd.lift (openEncrypted F C pass cipher kdf encData pubkey rem)) := by
  unfold PrivateKey.fromReader openEncrypted
  simp only [Rd.lift_bind]

theorem cstr_preamble {w : Bytes} : CStr "openssh-key-v1" w ↔ w = preamble := by
  constructor
  · rintro ⟨b, _, rfl, h⟩
    have h2 : (b.map fun x => Char.ofNat x.toNat) = "openssh-key-v1".toList := by
      rw [h, String.toList_ofList]
    have h3 := congrArg (List.map fun c : Char => UInt8.ofNat c.toNat) h2
    rw [List.map_map] at h3
    have h4 : ((fun c : Char => UInt8.ofNat c.toNat) ∘ fun x : UInt8 => Char.ofNat x.toNat) = id := by
      funext x
      have hx := x.toNat_lt
      have ht : ∀ n < 256, (Char.ofNat n).toNat = n := by decide +kernel
      show UInt8.ofNat (Char.ofNat x.toNat).toNat = x
      rw [ht _ hx]
      simp
    rw [h4, List.map_id] at h3
    subst h3
    rfl
  · rintro rfl
    refine ⟨"openssh-key-v1".toUTF8.data.toList, by decide +kernel, rfl, by decide +kernel⟩

/-- A key file with the key it contains. -/
def KeyFileOf (F : Features) (C : Crypto) (pass : Option String) (k : PrivateKey) (w : Bytes) : Prop :=
  ∃ cipher kdf kdfData kb junk sec plain pad, KeyFile cipher kdf kdfData (kb ++ junk) sec w ∧ KeyBlob k.pubkey kb ∧
    Decrypts F C cipher kdf pass kdfData sec plain ∧ PrivSection F.rsaSigning k pad plain

theorem keyFile_parses (F : Features) (C : Crypto) (pass : Option String) :
    Parses (PrivateKey.fromReader F C pass) (KeyFileOf F C pass) := by
  rw [fromReader_eq]
  refine (Parses.bind readCstring_parses fun pre => Parses.ite (fun _ => Parses.err _) fun _ =>
    Parses.bind readString_parses fun cipher => Parses.bind readString_parses fun kdf =>
    Parses.bind readBytes_parses fun encData => Parses.bind readU32_parses fun count =>
    Parses.ite (fun _ => Parses.err _) fun _ => Parses.bind readBytes_parses fun pbuf =>
    Parses.bind (Parses.lift _) fun pubkey => framed_parses _ fun v => openEncrypted_nil_ok).congr ?_
  intro k w
  constructor
  · intro h
    obtain ⟨pre, w0, _, q0, h0, h⟩ := h
    rcases h with ⟨_, h⟩ | ⟨hpre, h⟩
    · exact h.elim
    obtain ⟨cipher, w1, _, q1, h1, h⟩ := h
    obtain ⟨kdf, w2, _, q2, h2, h⟩ := h
    obtain ⟨kdfData, w3, _, q3, h3, h⟩ := h
    obtain ⟨count, w4, _, q4, h4, h⟩ := h
    rcases h with ⟨_, h⟩ | ⟨hcount, h⟩
    · exact h.elim
    obtain ⟨pbuf, w5, _, q5, h5, h⟩ := h
    obtain ⟨pubkey, w6, _, q6, ⟨h6, e6⟩, sec, h7, h8⟩ := h
    have hpre := Decidable.not_not.mp hpre
    have hcount := Decidable.not_not.mp hcount
    obtain ⟨kb, junk, rfl, hkb, _⟩ := fromBytes_ok.mp h6
    obtain ⟨plain, pad, hd, hp, hs⟩ := openEncrypted_ok.mp h8
    rw [hpre, cstr_preamble] at h0
    rw [← hp] at hkb
    subst hcount h4 e6 q6 q5 q4 q3 q2 q1 q0 h0
    exact ⟨cipher, kdf, kdfData, kb, junk, sec, plain, pad, ⟨w1, w2, w3, w5, _, rfl, h1, h2, h3, h5, h7⟩, hkb, hd, hs⟩
  · rintro ⟨cipher, kdf, kdfData, kb, junk, sec, plain, pad, ⟨w1, w2, w3, w4, w5, rfl, h1, h2, h3, h4, h5⟩, hkb, hd, hs⟩
    refine ⟨_, preamble, _, rfl, cstr_preamble.mpr rfl, .inr ⟨by simp, cipher, w1, _, rfl, h1, kdf, w2, _, rfl, h2, kdfData, w3, _,
      rfl, h3, 1, u32 1, _, rfl, rfl, .inr ⟨by simp, kb ++ junk, w4, _, rfl, h4, k.pubkey, [], w5, rfl, ⟨?_, rfl⟩, sec, h5, ?_⟩⟩⟩
    · obtain ⟨b, _, hb⟩ := hs
      exact fromBytes_ok.mpr ⟨kb, junk, rfl, hkb, hb.2.2.1⟩
    · exact openEncrypted_ok.mpr ⟨plain, pad, hd, rfl, hs⟩

/-- A key file whose private section holds an RSA key with degenerate factors. -/
def DegenerateFile (F : Features) (C : Crypto) (pass : Option String) (w : Bytes) : Prop :=
  ∃ cipher kdf kdfData pk kb junk sec plain, KeyFile cipher kdf kdfData (kb ++ junk) sec w ∧ KeyBlob pk kb ∧ pk.comment = none ∧
    Decrypts F C cipher kdf pass kdfData sec plain ∧ DegenerateRsa plain

theorem keyFile_panics (F : Features) (C : Crypto) (pass : Option String) :
    PanicsAt (PrivateKey.fromReader F C pass) (fun w => F.rsaSigning = true ∧ DegenerateFile F C pass w) := by
  rw [fromReader_eq]
  refine (PanicsAt.seq readCstring_noPanic readCstring_parses fun pre => PanicsAt.ite (fun _ => PanicsAt.err _) fun _ =>
    PanicsAt.seq readString_noPanic readString_parses fun cipher => PanicsAt.seq readString_noPanic readString_parses fun kdf =>
    PanicsAt.seq readBytes_noPanic readBytes_parses fun encData => PanicsAt.seq readU32_noPanic readU32_parses fun count =>
    PanicsAt.ite (fun _ => PanicsAt.err _) fun _ => PanicsAt.seq readBytes_noPanic readBytes_parses fun pbuf =>
    PanicsAt.seq (Rd.noPanic_lift (fromBytes_noPanic _)) (Parses.lift _) fun pubkey =>
    framed_panics _ openEncrypted_nil_panic).congr ?_
  intro w
  constructor
  · intro h
    obtain ⟨pre, w0, _, q0, h0, h⟩ := h
    rcases h with ⟨_, h⟩ | ⟨hpre, h⟩
    · exact h.elim
    obtain ⟨cipher, w1, _, q1, h1, h⟩ := h
    obtain ⟨kdf, w2, _, q2, h2, h⟩ := h
    obtain ⟨kdfData, w3, _, q3, h3, h⟩ := h
    obtain ⟨count, w4, _, q4, h4, h⟩ := h
    rcases h with ⟨_, h⟩ | ⟨hcount, h⟩
    · exact h.elim
    obtain ⟨pbuf, w5, _, q5, h5, h⟩ := h
    obtain ⟨pubkey, w6, _, q6, ⟨h6, e6⟩, sec, h7, h8⟩ := h
    have hpre := Decidable.not_not.mp hpre
    have hcount := Decidable.not_not.mp hcount
    obtain ⟨kb, junk, rfl, hkb, hc⟩ := fromBytes_ok.mp h6
    obtain ⟨plain, hd, hF, hb⟩ := openEncrypted_panic.mp h8
    rw [hpre, cstr_preamble] at h0
    subst hcount h4 e6 q6 q5 q4 q3 q2 q1 q0 h0
    exact ⟨hF, cipher, kdf, kdfData, pubkey, kb, junk, sec, plain, ⟨w1, w2, w3, w5, _, rfl, h1, h2, h3, h5, h7⟩, hkb, hc, hd, hb⟩
  · rintro ⟨hF, cipher, kdf, kdfData, pk, kb, junk, sec, plain, ⟨w1, w2, w3, w4, w5, rfl, h1, h2, h3, h4, h5⟩, hkb, hc, hd, hs⟩
    refine ⟨_, preamble, _, rfl, cstr_preamble.mpr rfl, .inr ⟨by simp, cipher, w1, _, rfl, h1, kdf, w2, _, rfl, h2, kdfData, w3, _,
      rfl, h3, 1, u32 1, _, rfl, rfl, .inr ⟨by simp, kb ++ junk, w4, _, rfl, h4, pk, [], w5, rfl,
      ⟨fromBytes_ok.mpr ⟨kb, junk, rfl, hkb, hc⟩, rfl⟩, sec, h5, openEncrypted_panic.mpr ⟨plain, hd, hF, hs⟩⟩⟩⟩

end Ssh
