import Verif.Spec.Reasons
import Verif.Lemmas.Cert
import Verif.Lemmas.SshSig
import Verif.Lemmas.PrivKey

/-! # The error of a parser as a function of the unread bytes -/

namespace Ssh

open Spec Reader

/-- `p` fails with `e` exactly when the unread bytes have the fault `D`. -/
def Faults {α : Type} (p : Rd α) (D : Fault) : Prop :=
  ∀ r e, (p r).1 = .err e ↔ D (r.inner.drop r.offset) e

theorem Faults.congr {α : Type} {p : Rd α} {D D' : Fault} (h : Faults p D) (hD : ∀ rest e, D rest e ↔ D' rest e) :
    Faults p D' := fun r e => (h r e).trans (hD _ _)

theorem Faults.new {α : Type} {p : Rd α} {D : Fault} (h : Faults p D) {buf : Bytes} {e : Err} :
    (p (Reader.new buf)).1 = .err e ↔ D buf e := by
  rw [h]; simp [Reader.new]

theorem Faults.pure {α : Type} (a : α) : Faults (Pure.pure a : Rd α) noFault := by
  intro r e; simp [Rd.pure_eq, noFault]

theorem Faults.lift {α : Type} (x : Res α) : Faults (Rd.lift x) (fun _ e => x = .err e) := by
  intro r e; simp

theorem adv_of_at {r : Reader} {w rest : Bytes} (h : r.inner.drop r.offset = w ++ rest) :
    (adv r w).inner.drop (adv r w).offset = rest := by
  have := drop_adv (r := r) (w := w) ⟨rest, h⟩
  rw [h] at this
  exact (List.append_cancel_left this).symm

theorem Faults.bind {α β : Type} {p : Rd α} {f : α → Rd β} {D : Fault} {G : α → Bytes → Prop} {E : α → Fault}
    (hD : Faults p D) (hG : Parses p G) (hE : ∀ a, Faults (f a) (E a)) : Faults (p >>= f) (field D G E) := by
  intro r e
  unfold field
  rw [← hD, Rd.bind_eq]
  rcases hp : p r with ⟨x, r'⟩
  cases x with
  | err e' =>
    simp only [Res.err.injEq]
    constructor
    · exact .inl
    · rintro (h | ⟨v, w, tail, hr, g, _⟩)
      · exact h
      · rw [(hG _ _ _).mpr ⟨w, g, ⟨tail, hr⟩, rfl⟩] at hp
        cases hp
  | panic =>
    constructor
    · intro h; cases h
    · rintro (h | ⟨v, w, tail, hr, g, _⟩)
      · cases h
      · rw [(hG _ _ _).mpr ⟨w, g, ⟨tail, hr⟩, rfl⟩] at hp
        cases hp
  | ok a =>
    simp only [hE a r' e, reduceCtorEq, false_or]
    constructor
    · intro h
      obtain ⟨w, g, ⟨tail, hr⟩, rfl⟩ := (hG _ _ _).mp hp
      rw [adv_of_at hr] at h
      exact ⟨a, w, tail, hr, g, h⟩
    · rintro ⟨v, w, tail, hr, g, h⟩
      rw [(hG _ _ _).mpr ⟨w, g, ⟨tail, hr⟩, rfl⟩] at hp
      cases hp
      rw [adv_of_at hr]
      exact h

/-- A computation on values already read. -/
theorem Faults.lift_bind {α β : Type} (x : Res α) {f : α → Rd β} {E : α → Fault} (hE : ∀ a, x = .ok a → Faults (f a) (E a)) :
    Faults (Rd.lift x >>= f) (fun rest e => x = .err e ∨ ∃ a, x = .ok a ∧ E a rest e) := by
  intro r e
  cases x with
  | ok a =>
    rw [Rd.bind_of_ok (a := a) (r' := r) (by simp), hE a rfl]
    simp
  | err e' =>
    rw [Rd.bind_of_err (e := e') (r' := r) (by simp)]
    simp
  | panic => simp [Rd.bind_eq]

theorem Faults.ite {α : Type} {c : Prop} [Decidable c] {p q : Rd α} {D E : Fault} (hp : c → Faults p D)
    (hq : ¬ c → Faults q E) : Faults (if c then p else q) (fun rest e => (c ∧ D rest e) ∨ (¬ c ∧ E rest e)) := by
  by_cases h : c
  · simp only [h, if_true]
    exact (hp h).congr (by simp)
  · simp only [h, if_false]
    exact (hq h).congr (by simp)

/-- `if c { return Err(e) }` where `c` is the negation of the condition. -/
theorem Faults.check {α : Type} {c P : Prop} [Decidable c] {e₀ : Err} {q : Rd α} {E : Fault} (hc : ¬ c ↔ P)
    (hq : Faults q E) : Faults (if c then Rd.lift (.err e₀) else q) (check P e₀ E) := by
  refine (Faults.ite (fun _ => Faults.lift _) (fun _ => hq)).congr ?_
  intro rest e
  unfold Spec.check
  rw [← hc, Decidable.not_not]
  simp only [Res.err.injEq, eq_comm]

/-- A `Result` that is not affected by what follows. -/
theorem Faults.inside {α β : Type} {x : Res α} {f : α → Rd β} {D : Fault} {b : Bytes} {E : Fault} (hn : x ≠ .panic)
    (hx : ∀ e, x = .err e ↔ D b e) (hE : ∀ a, Faults (f a) E) : Faults (Rd.lift x >>= f) (inside D b E) := by
  refine (Faults.lift_bind x fun a _ => hE a).congr ?_
  intro rest e
  unfold Spec.inside
  rw [← hx]
  simp only [← hx]
  cases x with
  | ok a => simp
  | err e' => simp
  | panic => exact absurd rfl hn

/-! ## Fields -/

theorem readBytes_faults : Faults readBytes StringFault := by
  intro r e
  rw [readBytes_eq]
  generalize hsl : r.inner.drop r.offset = sl
  have hlen : sl.length = r.inner.length - r.offset := by rw [← hsl]; simp
  have hnil : r.offset ≥ r.inner.length ↔ sl = [] := by
    rw [← List.length_eq_zero_iff]; omega
  by_cases h1 : sl = []
  · rw [if_pos (hnil.mpr h1)]
    subst h1
    simp only [Res.err.injEq, StringFault, true_and, ne_eq, not_true_eq_false, false_and, false_or]
    constructor
    · rintro rfl; exact .inl rfl
    · rintro (rfl | ⟨n, tail, _, h, _⟩)
      · rfl
      · exact absurd h (u32_ne_nil _ _)
  rw [if_neg (fun h => h1 (hnil.mp h))]
  by_cases h2 : sl.length < 4
  · rw [if_pos h2]
    simp only [Res.err.injEq, StringFault, h1, h2, false_and, false_or, ne_eq, not_false_eq_true, true_and]
    constructor
    · rintro rfl; exact .inl rfl
    · rintro (rfl | ⟨n, tail, _, h, _, rfl⟩) <;> rfl
  rw [if_neg h2]
  have hl4 : (sl.take 4).length = 4 := by simp; omega
  have hn := natOf_lt (sl.take 4)
  rw [hl4] at hn
  have hsplit : sl = u32 (natOf (sl.take 4)) ++ sl.drop 4 := by
    rw [u32_natOf hl4, List.take_append_drop]
  by_cases h3 : sl.length - 4 < natOf (sl.take 4)
  · rw [if_pos h3]
    simp only [Res.err.injEq, StringFault, h1, h2, false_and, and_false, false_or]
    constructor
    · rintro rfl
      exact ⟨_, _, by simpa using hn, hsplit, by simpa using h3, rfl⟩
    · rintro ⟨_, _, _, _, _, rfl⟩; rfl
  · rw [if_neg h3]
    simp only [reduceCtorEq, StringFault, h1, h2, false_and, and_false, false_or, false_iff]
    rintro ⟨n, tail, hn', h, ht, _⟩
    apply h3
    subst h
    rw [List.take_left' (by simp), u32_eq, natOf_beBytes, Nat.mod_eq_of_lt (by simpa using hn')]
    simpa using ht

theorem fromUtf8_none {b : Bytes} : fromUtf8 b = none ↔ ∀ s : String, s.toByteArray.data.toList ≠ b := by
  constructor
  · intro h s hs
    rw [fromUtf8_eq_some.mpr hs] at h
    cases h
  · intro h
    cases hb : fromUtf8 b with
    | none => rfl
    | some s => exact absurd (fromUtf8_eq_some.mp hb) (h s)

theorem readString_faults : Faults readString TextFault := by
  unfold readString
  refine (Faults.bind (E := fun b _ e => fromUtf8 b = none ∧ e = .utf8Error) readBytes_faults readBytes_parses ?_).congr ?_
  · intro b
    cases h : fromUtf8 b with
    | none => exact (Faults.lift _).congr fun _ e => by simp [eq_comm]
    | some s => exact (Faults.pure _).congr fun _ e => by simp [noFault]
  · intro rest e
    unfold field TextFault
    simp only [fromUtf8_none]

theorem mpintValue_err {p : Bytes} {e : Err} : mpintValue p = .err e ↔ ¬ MpintPayload p ∧ e = .invalidFormat := by
  have hcases : ∀ e, mpintValue p = .err e → e = .invalidFormat := by
    intro e
    unfold mpintValue
    split <;> (try split) <;> (try split) <;> simp [eq_comm]
  constructor
  · intro h
    refine ⟨fun hp => ?_, hcases e h⟩
    have : ∃ v, Shortest v ∧ natOf p = natOf v := by
      cases hp with
      | zero => exact ⟨[], by simp [Shortest], rfl⟩
      | plain b bs h0 h1 => exact ⟨b :: bs, by simpa [Shortest] using h0, rfl⟩
      | padded b bs hb =>
        refine ⟨b :: bs, ?_, by simp [natOf]⟩
        simp only [Shortest, List.head?_cons, ne_eq, Option.some.injEq]
        rintro rfl
        exact absurd hb (by decide)
    obtain ⟨v, h1, h2⟩ := this
    rw [mpintValue_ok.mpr ⟨h1, hp, h2⟩] at h
    cases h
  · rintro ⟨hp, rfl⟩
    cases hv : mpintValue p with
    | ok v => exact absurd (mpintValue_ok.mp hv).2.1 hp
    | panic => exact absurd hv (mpintValue_noPanic p)
    | err e => rw [hcases e hv]

theorem readPositiveMpint_faults : Faults readPositiveMpint MpintFault := by
  rw [readPositiveMpint_eq]
  refine (Faults.bind readBytes_faults readBytes_parses fun b => Faults.lift _).congr ?_
  intro rest e
  unfold field MpintFault
  simp only [mpintValue_err]

theorem drop_nil_iff {r : Reader} : r.offset ≥ r.inner.length ↔ r.inner.drop r.offset = [] := by
  rw [← List.length_eq_zero_iff]; simp; omega

theorem readU32_faults : Faults readU32 (WordFault 4) := by
  intro r e
  rw [readU32_eq, WordFault]
  by_cases h1 : r.offset ≥ r.inner.length
  · rw [if_pos h1]
    simp [drop_nil_iff.mp h1, eq_comm]
  · rw [if_neg h1]
    have hn : ¬ (r.inner.drop r.offset = []) := fun h => h1 (drop_nil_iff.mpr h)
    by_cases h2 : (r.inner.drop r.offset).length < 4
    · rw [if_pos h2]
      constructor
      · intro h; cases h; exact .inr ⟨hn, h2, rfl⟩
      · rintro (⟨h, _⟩ | ⟨_, _, rfl⟩)
        · exact absurd h hn
        · rfl
    · rw [if_neg h2]
      constructor
      · intro h; cases h
      · rintro (⟨h, _⟩ | ⟨_, h, _⟩)
        · exact absurd h hn
        · exact absurd h h2

theorem readU64_faults : Faults readU64 (WordFault 8) := by
  intro r e
  rw [readU64_eq, WordFault]
  by_cases h1 : r.offset ≥ r.inner.length
  · rw [if_pos h1]
    simp [drop_nil_iff.mp h1, eq_comm]
  · rw [if_neg h1]
    have hn : ¬ (r.inner.drop r.offset = []) := fun h => h1 (drop_nil_iff.mpr h)
    by_cases h2 : (r.inner.drop r.offset).length < 8
    · rw [if_pos h2]
      constructor
      · intro h; cases h; exact .inr ⟨hn, h2, rfl⟩
      · rintro (⟨h, _⟩ | ⟨_, _, rfl⟩)
        · exact absurd h hn
        · rfl
    · rw [if_neg h2]
      constructor
      · intro h; cases h
      · rintro (⟨h, _⟩ | ⟨_, h, _⟩)
        · exact absurd h hn
        · exact absurd h h2

theorem readRawBytes_faults {n : Nat} (hn : 0 < n) : Faults (readRawBytes n) (RawFault n) := by
  intro r e
  rw [readRawBytes_eq, RawFault]
  split
  · simp only [Res.err.injEq, List.length_drop, eq_comm]; simp; intro _; omega
  · simp only [reduceCtorEq, List.length_drop, false_iff]; omega

/-! ## Keys -/

theorem fromName_err {n : String} {e : Err} :
    KeyType.fromName n = .err e ↔ (∀ kt ∈ keyTypes, kt.name ≠ n) ∧ e = .unknownKeyType n := by
  constructor
  · intro h
    rcases fromName_cases n with ⟨kt, hk⟩ | hk
    · rw [hk] at h; cases h
    · refine ⟨fun kt hkt hn => ?_, ?_⟩
      · rw [fromName_ok.mpr ⟨hkt, hn⟩] at h; cases h
      · rw [hk] at h; cases h; rfl
  · rintro ⟨h, rfl⟩
    rcases fromName_cases n with ⟨kt, hk⟩ | hk
    · exact absurd (fromName_ok.mp hk).2 (h kt (fromName_ok.mp hk).1)
    · exact hk

theorem Faults.knownType {α : Type} (n : String) {f : KeyType → Rd α} {E : KeyType → Fault}
    (h : ∀ kt, kt ∈ keyTypes → kt.name = n → Faults (f kt) (E kt)) :
    Faults (Rd.lift (KeyType.fromName n) >>= f) (knownType n E) := by
  refine (Faults.lift_bind (E := E) _ fun kt hk => h kt (fromName_ok.mp hk).1 (fromName_ok.mp hk).2).congr ?_
  intro rest e
  unfold Spec.knownType
  simp only [fromName_err, fromName_ok, and_assoc]

theorem fromIdentifier_err {n : String} {e : Err} :
    Curve.fromIdentifier n = .err e ↔ ¬ (∃ c ∈ curves, c.identifier = n) ∧ e = .unknownCurve n := by
  cases h : Curve.fromIdentifier n with
  | ok c => 
    have := fromIdentifier_ok.mp h
    simp only [reduceCtorEq, false_iff]
    exact fun hh => hh.1 ⟨c, this⟩
  | panic => exact absurd h (fromIdentifier_noPanic n)
  | err e' =>
    have h1 : ¬ ∃ c ∈ curves, c.identifier = n := by
      rintro ⟨c, hc⟩
      rw [fromIdentifier_ok.mpr hc] at h
      cases h
    have h2 : e' = .unknownCurve n := by
      unfold Curve.fromIdentifier at h
      iterate 3
        split at h
        · cases h
      cases h; rfl
    subst h2
    constructor
    · intro h; cases h; exact ⟨h1, rfl⟩
    · rintro ⟨_, rfl⟩; rfl

theorem Faults.knownCurve {α : Type} (n : String) {f : Curve → Rd α} {E : Fault} (h : ∀ c, Faults (f c) E) :
    Faults (Rd.lift (Curve.fromIdentifier n) >>= f) (knownCurve n E) := by
  refine (Faults.lift_bind (E := fun _ => E) _ fun c _ => h c).congr ?_
  intro rest e
  unfold Spec.knownCurve Spec.check
  simp only [fromIdentifier_err, fromIdentifier_ok]
  constructor
  · rintro (h | ⟨c, h, h'⟩)
    · exact .inl h
    · exact .inr ⟨⟨c, h⟩, h'⟩
  · rintro (h | ⟨⟨c, h⟩, h'⟩)
    · exact .inl h
    · exact .inr ⟨c, h, h'⟩

/-- The last field of a record. -/
theorem Faults.last {α β : Type} {p : Rd α} {D : Fault} (h : Faults p D) (g : α → β) :
    Faults (p >>= fun a => Pure.pure (g a)) D := by
  intro r e
  rw [← h, Rd.bind_eq]
  rcases p r with ⟨x, r'⟩
  cases x <;> simp [Rd.pure_eq]

theorem readApplication_faults (sk : Bool) : Faults (PublicKey.readApplication sk) (ApplicationFault sk) := by
  unfold PublicKey.readApplication
  cases sk with
  | false =>
    simp only [Bool.false_eq_true, if_false]
    exact (Faults.pure _).congr (by simp [noFault, ApplicationFault])
  | true =>
    simp only [if_true]
    exact (readString_faults.last _).congr (by simp [ApplicationFault])

theorem readKind_faults (kt : KeyType) : Faults (PublicKey.readKind kt) (MaterialFault kt) := by
  have rsa : Faults (do
      let e ← readPositiveMpint
      let n ← readPositiveMpint
      return PublicKeyKind.rsa e n : Rd PublicKeyKind) (mpintField fun _ => MpintFault) :=
    Faults.bind readPositiveMpint_faults readPositiveMpint_parses fun _ => readPositiveMpint_faults.last _
  have ed : Faults (do
      let key ← readBytes
      let skApplication ← PublicKey.readApplication kt.isSk
      return PublicKeyKind.ed25519 key skApplication : Rd PublicKeyKind)
        (stringField fun _ => ApplicationFault kt.isSk) :=
    Faults.bind readBytes_faults readBytes_parses fun _ => (readApplication_faults _).last _
  have ec : Faults (do
      let identifier ← readString
      let curve ← Rd.lift (Curve.fromIdentifier identifier)
      let key ← readBytes
      let skApplication ← PublicKey.readApplication kt.isSk
      return PublicKeyKind.ecdsa curve key skApplication : Rd PublicKeyKind)
        (textField fun name => knownCurve name <| stringField fun _ => ApplicationFault kt.isSk) :=
    Faults.bind readString_faults readString_parses fun n => Faults.knownCurve n fun c =>
      Faults.bind readBytes_faults readBytes_parses fun _ => (readApplication_faults _).last _
  unfold PublicKey.readKind MaterialFault
  cases kt.kind with
  | rsa | rsaCert => exact rsa
  | ecdsa | ecdsaCert => exact ec
  | ed25519 | ed25519Cert => exact ed

theorem fromReader_faults (n : String) : Faults (PublicKey.fromReader n) (knownType n MaterialFault) := by
  unfold PublicKey.fromReader
  exact Faults.knownType n fun kt _ _ => (readKind_faults kt).last _

theorem fromBytes_err {data : Bytes} {e : Err} : PublicKey.fromBytes data = .err e ↔ KeyFault data e :=
  (Faults.bind readString_faults readString_parses fun n => fromReader_faults n).new

/-! ## Signatures -/

/-- One raw byte. -/
theorem readByte_parses : Parses (readRawBytes 1 >>= fun fl => Rd.lift (index fl 0)) (fun b w => w = [b]) := by
  refine (Parses.bind (readRawBytes_parses (by decide)) fun fl => Parses.lift _).congr ?_
  intro b w
  constructor
  · rintro ⟨fl, w1, w2, rfl, ⟨rfl, hl⟩, hi, rfl⟩
    rw [index_zero hl] at hi
    simpa using hi
  · rintro rfl
    exact ⟨[b], [b], [], by simp, ⟨rfl, rfl⟩, by simp [index, Res.unwrap], rfl⟩

theorem readByte_faults : Faults (readRawBytes 1 >>= fun fl => Rd.lift (index fl 0)) (RawFault 1) := by
  refine (Faults.bind (readRawBytes_faults (by decide)) (readRawBytes_parses (by decide)) fun fl => Faults.lift _).congr ?_
  intro rest e
  unfold field
  constructor
  · rintro (h | ⟨v, w, tail, _, ⟨rfl, hl⟩, hi⟩)
    · exact h
    · match v, hl with
      | [x], _ => simp [index, Res.unwrap] at hi
  · exact .inl

theorem readByte_bind_faults {α : Type} {f : UInt8 → Rd α} {E : UInt8 → Fault} (h : ∀ b, Faults (f b) (E b)) :
    Faults (readRawBytes 1 >>= fun fl => Rd.lift (index fl 0) >>= f) (byteField E) := by
  have := Faults.bind readByte_faults readByte_parses h
  rwa [Rd.bind_assoc] at this

theorem readSignedMessage_faults (C : Crypto) (app : Option String) (msg : Bytes) :
    Faults (readSignedMessage C app msg) (CounterFault app) := by
  unfold readSignedMessage
  cases app with
  | none => exact Faults.pure msg
  | some a => exact readByte_bind_faults fun b => readU32_faults.last _

theorem ringCheck_faults {α : Type} (b : Bool) (x : α) :
    Faults (Rd.lift (ringCheck b) >>= fun _ => Pure.pure x) (check (b = true) .invalidSignature noFault) := by
  refine (Faults.lift_bind (E := fun _ => noFault) _ fun _ _ => Faults.pure x).congr ?_
  intro rest e
  unfold ringCheck Spec.check noFault
  cases b <;> simp [eq_comm]

theorem ecdsaSigAlg_err {n : String} {e : Err} :
    ecdsaSigAlg n = .err e ↔ (∀ alg len, (n, alg, len) ∉ ecdsaLabels) ∧ e = .keyTypeMismatch := by
  cases h : ecdsaSigAlg n with
  | ok a =>
    have := ecdsaSigAlg_ok.mp (show ecdsaSigAlg n = .ok (a.1, a.2) from h)
    simp only [reduceCtorEq, false_iff]
    exact fun hh => hh.1 _ _ this
  | panic => exact absurd h (ecdsaSigAlg_noPanic n)
  | err e' =>
    have h1 : ∀ alg len, (n, alg, len) ∉ ecdsaLabels := by
      intro alg len hc
      rw [ecdsaSigAlg_ok.mpr hc] at h
      cases h
    have h2 : e' = .keyTypeMismatch := by
      unfold ecdsaSigAlg at h
      iterate 3
        split at h
        · cases h
      cases h; rfl
    subst h2
    constructor
    · intro h; cases h; exact ⟨h1, rfl⟩
    · rintro ⟨_, rfl⟩; rfl

theorem rsaSigAlg_err {n : String} {e : Err} :
    rsaSigAlg n = .err e ↔ (∀ alg, (n, alg) ∉ rsaLabels) ∧ e = .keyTypeMismatch := by
  cases h : rsaSigAlg n with
  | ok a =>
    have := rsaSigAlg_ok.mp h
    simp only [reduceCtorEq, false_iff]
    exact fun hh => hh.1 _ this
  | panic => exact absurd h (rsaSigAlg_noPanic n)
  | err e' =>
    have h1 : ∀ alg, (n, alg) ∉ rsaLabels := by
      intro alg hc
      rw [rsaSigAlg_ok.mpr hc] at h
      cases h
    have h2 : e' = .keyTypeMismatch := by
      unfold rsaSigAlg at h
      iterate 3
        split at h
        · cases h
      cases h; rfl
    subst h2
    constructor
    · intro h; cases h; exact ⟨h1, rfl⟩
    · rintro ⟨_, rfl⟩; rfl

theorem ed25519SigAlg_err {n : String} {e : Err} :
    ed25519SigAlg n = .err e ↔ n ∉ ed25519Labels ∧ e = .keyTypeMismatch := by
  cases h : ed25519SigAlg n with
  | ok a =>
    have := ed25519SigAlg_ok.mp h
    simp only [reduceCtorEq, false_iff]
    exact fun hh => hh.1 this
  | panic => exact absurd h (ed25519SigAlg_noPanic n)
  | err e' =>
    have h1 : n ∉ ed25519Labels := by
      intro hc
      rw [ed25519SigAlg_ok (u := ()) |>.mpr hc] at h
      cases h
    have h2 : e' = .keyTypeMismatch := by
      unfold ed25519SigAlg at h
      iterate 2
        split at h
        · cases h
      cases h; rfl
    subst h2
    constructor
    · intro h; cases h; exact ⟨h1, rfl⟩
    · rintro ⟨_, rfl⟩; rfl

theorem readFixedRS_faults (len : Nat) : Faults (readFixedRS len) (mpintField fun r => mpintField fun s =>
    check (r.length ≤ len ∧ s.length ≤ len) .invalidFormat noFault) := by
  unfold readFixedRS
  refine Faults.bind readPositiveMpint_faults readPositiveMpint_parses fun r =>
    Faults.bind readPositiveMpint_faults readPositiveMpint_parses fun s => ?_
  refine (Faults.ite (E := noFault) (fun _ => Faults.lift _) (fun h => ?_)).congr ?_
  · rw [subNat_ok (by omega), subNat_ok (by omega)]
    exact Faults.pure _
  · intro rest e
    unfold Spec.check noFault
    simp only [Res.err.injEq, and_false, or_false]
    constructor
    · rintro ⟨h, rfl⟩; exact ⟨by omega, rfl⟩
    · rintro ⟨h, rfl⟩; exact ⟨by omega, rfl⟩

theorem verifySignature_err {C : Crypto} {sig msg : Bytes} {k : PublicKey} {e : Err} :
    verifySignature C sig msg k = .err e ↔ SignatureFault C k msg sig e := by
  unfold verifySignature SignatureFault
  refine (Faults.bind readString_faults readString_parses fun label => Faults.knownType label fun kt _ hname =>
    Faults.check (by rw [Decidable.not_not, eq_comm]) ?_).new
  subst hname
  cases k.kind with
  | rsa e n =>
    refine (Faults.lift_bind (E := fun alg => stringField fun s => check (C.rsaVerify alg n e msg s = true) .invalidSignature noFault)
      _ fun alg _ => Faults.bind readBytes_faults readBytes_parses fun s => ringCheck_faults _ _).congr ?_
    intro rest e'
    simp only [rsaSigAlg_err, rsaSigAlg_ok]
  | ed25519 key app =>
    refine (Faults.lift_bind (E := fun _ => stringField fun s => field (CounterFault app) (PrimitiveMessage C app msg) fun m =>
        check (C.ed25519Verify key m s = true) .invalidSignature noFault)
      _ fun alg _ => Faults.bind readBytes_faults readBytes_parses fun s =>
        Faults.bind (readSignedMessage_faults C app msg) (readSignedMessage_parses C app msg) fun m => ringCheck_faults _ _).congr ?_
    intro rest e'
    simp only [ed25519SigAlg_err, ed25519SigAlg_ok, Spec.check, exists_const]
  | ecdsa c key app =>
    refine Faults.bind readBytes_faults readBytes_parses fun rs => ?_
    refine (Faults.lift_bind (E := fun al rest e => (readFixedRS al.2 (Reader.new rs)).1 = .err e ∨
        ∃ sig, (readFixedRS al.2 (Reader.new rs)).1 = .ok sig ∧
          (field (CounterFault app) (PrimitiveMessage C app msg) fun m =>
            check (C.ecdsaVerify al.1 key m sig = true) .invalidSignature noFault) rest e)
      _ fun al _ => Faults.lift_bind _ fun sig _ =>
        Faults.bind (readSignedMessage_faults C app msg) (readSignedMessage_parses C app msg) fun m => ringCheck_faults _ _).congr ?_
    intro rest e'
    simp only [ecdsaSigAlg_err, (readFixedRS_faults _).new, (readFixedRS_parses _).new]
    constructor
    · rintro (h | ⟨⟨alg, len⟩, h1, h2⟩)
      · exact .inl h
      · refine .inr ⟨alg, len, ecdsaSigAlg_ok.mp h1, ?_⟩
        rcases h2 with h2 | ⟨sig, ⟨_, junk, rfl, x1, x2, r, s, fr, fs, rfl, rfl, h3, h4, h5, h6⟩, h7⟩
        · exact .inl h2
        · exact .inr ⟨x1, x2, junk, r, s, fr, fs, by simp, h3, h4, h5, h6, h7⟩
    · rintro (h | ⟨alg, len, h1, h2⟩)
      · exact .inl h
      · refine .inr ⟨(alg, len), ecdsaSigAlg_ok.mpr h1, ?_⟩
        rcases h2 with h2 | ⟨x1, x2, junk, r, s, fr, fs, rfl, h3, h4, h5, h6, h7⟩
        · exact .inl h2
        · exact .inr ⟨_, ⟨x1 ++ x2, junk, by simp, x1, x2, r, s, fr, fs, rfl, rfl, h3, h4, h5, h6⟩, h7⟩

/-! ## Certificates -/

theorem textsFault_cons {s : String} {w tail : Bytes} {e : Err} (h : Text s w) :
    TextsFault (w ++ tail) e ↔ TextsFault tail e := by
  constructor
  · rintro ⟨l, v, t, hv, hl, ht, hf⟩
    cases hl with
    | nil =>
      exfalso
      simp only [List.nil_append] at hv
      subst hv
      have h1 := (readString_faults (Reader.new (w ++ tail)) e).mpr (by simpa [Reader.new] using hf)
      rw [(readString_parses (Reader.new (w ++ tail)) s _).mpr ⟨w, h, at_new.mpr ⟨_, rfl⟩, rfl⟩] at h1
      cases h1
    | @cons s' l' w1 w2 h' hl' =>
      rw [List.append_assoc] at hv
      obtain ⟨_, _, rfl⟩ := readString_parses.unique h h' hv
      exact ⟨l', w2, t, rfl, hl', ht, hf⟩
  · rintro ⟨l, v, t, rfl, hl, ht, hf⟩
    exact ⟨s :: l, w ++ v, t, by simp, .cons h hl, ht, hf⟩

theorem readPrincipalsLoop_err {fuel : Nat} {r : Reader} {items : List String} {e : Err}
    (hf : rem r < fuel) : readPrincipalsLoop fuel r items = .err e ↔ TextsFault (r.inner.drop r.offset) e := by
  induction fuel generalizing r items with
  | zero => omega
  | succ fuel ih =>
    unfold readPrincipalsLoop
    rcases hr : readString r with ⟨x, r'⟩
    cases x with
    | panic => exact absurd (congrArg Prod.fst hr) (readString_noPanic r)
    | ok s =>
      dsimp only
      obtain ⟨w, h, ha, rfl⟩ := (readString_parses _ _ _).mp hr
      have hw := List.length_pos_iff.mpr (text_ne_nil h)
      have hle := at_le_rem ha
      rw [ih (by rw [rem_adv]; omega), drop_adv ha, textsFault_cons h]
    | err e' =>
      have hfault := (readString_faults r e').mp (by rw [hr])
      by_cases he : e' = .unexpectedEof
      · subst he
        have hnil := drop_nil_iff.mp (readString_not_eof hr)
        rw [hnil]
        simp only [reduceCtorEq, false_iff]
        rintro ⟨l, w, tail, h, _, ht, _⟩
        exact ht (List.append_eq_nil_iff.mp h.symm).2
      · have hne : r.inner.drop r.offset ≠ [] := by
          intro h
          rw [readString_eof (drop_nil_iff.mpr h)] at hr
          cases hr
          exact he rfl
        suffices h : (Res.err e' : Res (List String)) = .err e ↔ TextsFault (r.inner.drop r.offset) e by
          cases e' <;> first | exact absurd rfl he | exact h
        constructor
        · intro h
          cases h
          exact ⟨[], [], _, rfl, .nil, hne, hfault⟩
        · rintro ⟨l, w, tail, h, hl, ht, hf'⟩
          cases hl with
          | nil =>
            simp only [List.nil_append] at h
            rw [← h] at hf'
            have := (readString_faults r e).mpr hf'
            rw [hr] at this
            cases this; rfl
          | cons h' hl' =>
            have := (readString_parses r _ _).mpr ⟨_, h', ⟨_, by rw [h, List.append_assoc]⟩, rfl⟩
            rw [hr] at this
            cases this

theorem readPrincipals_err {buf : Bytes} {e : Err} : readPrincipals buf = .err e ↔ TextsFault buf e := by
  unfold readPrincipals
  rw [readPrincipalsLoop_err (by simp [rem, Reader.new])]
  simp [Reader.new]

theorem readOptionValue_faults : Faults readOptionValue OptionFault := by
  unfold readOptionValue
  refine Faults.bind readBytes_faults readBytes_parses fun d => ?_
  refine (Faults.ite (fun _ => Faults.lift _) (fun _ => Faults.pure "")).congr ?_
  intro rest e
  rw [readString_faults.new]
  cases d <;> simp [noFault]

/-- An option: name and data. -/
def readOption : Rd (String × String) := do
  let name ← readString
  let value ← readOptionValue
  return (name, value)

theorem readOption_parses : Parses readOption (fun nv w => ∃ w1 w2, w = w1 ++ w2 ∧ Text nv.1 w1 ∧ OptionData nv.2 w2) := by
  unfold readOption
  refine (Parses.bind readString_parses fun n => Parses.bind readOptionValue_parses fun v => Parses.pure _).congr ?_
  intro nv w
  constructor
  · rintro ⟨n, w1, w2, rfl, h1, v, w3, w4, rfl, h2, rfl, rfl⟩
    exact ⟨w1, w3, by simp, h1, h2⟩
  · rintro ⟨w1, w2, rfl, h1, h2⟩
    exact ⟨nv.1, w1, w2, rfl, h1, nv.2, w2, [], by simp, h2, rfl, rfl⟩

theorem readOption_faults : Faults readOption (textField fun _ => OptionFault) :=
  Faults.bind readString_faults readString_parses fun _ => readOptionValue_faults.last _

theorem optionsFault_cons {n v : String} {w1 w2 tail : Bytes} {e : Err} (h1 : Text n w1) (h2 : OptionData v w2) :
    OptionsFault (w1 ++ w2 ++ tail) e ↔ OptionsFault tail e := by
  have hp : ∃ x1 x2, w1 ++ w2 = x1 ++ x2 ∧ Text (n, v).1 x1 ∧ OptionData (n, v).2 x2 := ⟨w1, w2, rfl, h1, h2⟩
  constructor
  · rintro ⟨l, x, t, hv, hl, ht, hf⟩
    cases hl with
    | nil =>
      exfalso
      simp only [List.nil_append] at hv
      subst hv
      have h1 := (readOption_faults (Reader.new (w1 ++ w2 ++ tail)) e).mpr (by simpa [Reader.new] using hf)
      rw [(readOption_parses (Reader.new (w1 ++ w2 ++ tail)) (n, v) _).mpr ⟨w1 ++ w2, hp, at_new.mpr ⟨_, rfl⟩, rfl⟩] at h1
      cases h1
    | @cons n' v' l' x1 x2 x3 h1' h2' hl' =>
      rw [List.append_assoc (x1 ++ x2)] at hv
      obtain ⟨_, _, rfl⟩ := readOption_parses.unique (v := (n, v)) (v' := (n', v')) hp ⟨x1, x2, rfl, h1', h2'⟩ hv
      exact ⟨l', x3, t, rfl, hl', ht, hf⟩
  · rintro ⟨l, x, t, rfl, hl, ht, hf⟩
    exact ⟨(n, v) :: l, w1 ++ w2 ++ x, t, by simp, .cons h1 h2 hl, ht, hf⟩

theorem optionsFault_stop {rest : Bytes} {e e' : Err} (h : (readOption (Reader.new rest)).1 = .err e') (hr : rest ≠ []) :
    OptionsFault rest e ↔ e = e' := by
  have hfault := readOption_faults.new.mp h
  constructor
  · rintro ⟨l, w, tail, rfl, hl, ht, hf'⟩
    cases hl with
    | nil =>
      have := readOption_faults.new.mpr hf'
      simp only [List.nil_append] at h
      rw [h] at this
      cases this; rfl
    | @cons n' v' l' x1 x2 x3 h1' h2' hl' =>
      have := (readOption_parses.new (v := (n', v')) (buf := x1 ++ x2 ++ x3 ++ tail)).mpr
        ⟨x1 ++ x2, x3 ++ tail, by simp, x1, x2, rfl, h1', h2'⟩
      rw [h] at this
      cases this
  · rintro rfl
    exact ⟨[], [], rest, rfl, .nil, hr, hfault⟩

theorem readOption_drop (r : Reader) : (readOption (Reader.new (r.inner.drop r.offset))).1 = (readOption r).1 := by
  cases h : (readOption r).1 with
  | err e => exact readOption_faults.new.mpr ((readOption_faults r e).mp h)
  | ok v =>
    obtain ⟨w, g, ⟨tail, ha⟩, _⟩ := (readOption_parses r v (readOption r).2).mp (by rw [← h])
    exact readOption_parses.new.mpr ⟨w, tail, ha, g⟩
  | panic =>
    exact absurd h (Rd.noPanic_bind readString_noPanic (fun _ => Rd.noPanic_bind readOptionValue_noPanic fun _ =>
      Rd.noPanic_pure _) r)

theorem readOptionsLoop_err {fuel : Nat} {r : Reader} {m : StrMap} {e : Err}
    (hf : rem r < fuel) : readOptionsLoop fuel r m = .err e ↔ OptionsFault (r.inner.drop r.offset) e := by
  induction fuel generalizing r m with
  | zero => omega
  | succ fuel ih =>
    unfold readOptionsLoop
    rcases hr : readString r with ⟨x, r'⟩
    cases x with
    | panic => exact absurd (congrArg Prod.fst hr) (readString_noPanic r)
    | ok n =>
      dsimp only
      obtain ⟨w, h, ha, rfl⟩ := (readString_parses _ _ _).mp hr
      have hw := List.length_pos_iff.mpr (text_ne_nil h)
      have hle := at_le_rem ha
      have hne : r.inner.drop r.offset ≠ [] := by
        rw [drop_adv ha]; simp [text_ne_nil h]
      rcases hv : readOptionValue (adv r w) with ⟨y, r''⟩
      cases y with
      | panic => exact absurd (congrArg Prod.fst hv) (readOptionValue_noPanic _)
      | ok v =>
        dsimp only
        obtain ⟨w2, h2, ha2, rfl⟩ := (readOptionValue_parses _ _ _).mp hv
        have hle2 := at_le_rem ha2
        rw [ih (by rw [rem_adv, rem_adv]; omega), drop_adv ha, drop_adv ha2, ← List.append_assoc, optionsFault_cons h h2]
      | err e' =>
        dsimp only
        rw [optionsFault_stop (e' := e') ?_ hne]
        · simp [eq_comm]
        · rw [readOption_drop]
          unfold readOption
          rw [Rd.bind_of_ok hr, Rd.bind_of_err hv]
    | err e' =>
      by_cases he : e' = .unexpectedEof
      · subst he
        have hnil := drop_nil_iff.mp (readString_not_eof hr)
        rw [hnil]
        simp only [reduceCtorEq, false_iff]
        rintro ⟨l, w, tail, h, _, ht, _⟩
        exact ht (List.append_eq_nil_iff.mp h.symm).2
      · have hne : r.inner.drop r.offset ≠ [] := by
          intro h
          rw [readString_eof (drop_nil_iff.mpr h)] at hr
          cases hr
          exact he rfl
        rw [optionsFault_stop (e' := e') ?_ hne]
        · cases e' <;> first | exact absurd rfl he | simp [eq_comm]
        · rw [readOption_drop]
          unfold readOption
          rw [Rd.bind_of_err hr]

theorem readOptions_err {buf : Bytes} {e : Err} : readOptions buf = .err e ↔ OptionsFault buf e := by
  unfold readOptions
  rw [readOptionsLoop_err (by simp [rem, Reader.new])]
  simp [Reader.new]

theorem readCertType_faults : Faults Certificate.readCertType (u32Field fun role =>
    check (role = 1 ∨ role = 2) (.invalidCertType role) noFault) := by
  unfold Certificate.readCertType
  refine Faults.bind readU32_faults readU32_parses fun n => ?_
  refine (Faults.ite (fun _ => Faults.pure _) (fun _ => Faults.ite (fun _ => Faults.pure _) (fun _ => Faults.lift _))).congr ?_
  intro rest e
  unfold Spec.check noFault
  by_cases h1 : n = 1
  · simp [h1]
  · by_cases h2 : n = 2 <;> simp [h1, h2, eq_comm]

theorem role_bind_faults {α : Type} {f : CertType → Rd α} {E : Fault} (h : ∀ t, Faults (f t) E) :
    Faults (Certificate.readCertType >>= f) (u32Field fun role => check (role = 1 ∨ role = 2) (.invalidCertType role) E) := by
  refine (Faults.bind (E := fun _ => E) readCertType_faults readCertType_parses h).congr ?_
  intro rest e
  unfold u32Field field Spec.check noFault
  constructor
  · rintro ((h | ⟨v, w, tail, rfl, hw, ⟨h1, h2⟩ | ⟨_, h⟩⟩) | ⟨t, w, tail, rfl, rfl, h⟩)
    · exact .inl h
    · exact .inr ⟨v, w, tail, rfl, hw, .inl ⟨h1, h2⟩⟩
    · exact h.elim
    · cases t with
      | user => exact .inr ⟨1, _, tail, rfl, rfl, .inr ⟨.inl rfl, h⟩⟩
      | host => exact .inr ⟨2, _, tail, rfl, rfl, .inr ⟨.inr rfl, h⟩⟩
  · rintro (h | ⟨v, w, tail, rfl, hw, ⟨h1, h2⟩ | ⟨hv, h⟩⟩)
    · exact .inl (.inl h)
    · exact .inl (.inr ⟨v, w, tail, rfl, hw, .inl ⟨h1, h2⟩⟩)
    · rcases hv with rfl | rfl
      · exact .inr ⟨.user, w, tail, rfl, hw, h⟩
      · exact .inr ⟨.host, w, tail, rfl, hw, h⟩

/-- The key of a certificate is read under the plain name of its type. -/
theorem certKey_faults {α : Type} {kt : KeyType} (hk : kt ∈ keyTypes) {f : PublicKey → Rd α} {E : Fault}
    (h : ∀ k, Faults (f k) E) : Faults (PublicKey.fromReader kt.asPubkeyName >>= f)
      (field (MaterialFault kt) (KeyMaterial kt) fun _ => E) := by
  obtain ⟨p, hp, h1, _, _, h3, h4⟩ := table_plain kt hk
  refine (Faults.bind (E := fun _ => E) (fromReader_faults _) (fromReader_parses _) h).congr ?_
  intro rest e
  have hname : kt.asPubkeyName = p.name := h1.symm
  have hD : ∀ rest e, knownType kt.asPubkeyName MaterialFault rest e ↔ MaterialFault kt rest e := by
    intro rest e
    have hm : MaterialFault p = MaterialFault kt := by unfold MaterialFault; rw [h3, h4]
    unfold Spec.knownType
    rw [hname]
    constructor
    · rintro (⟨h, _⟩ | ⟨q, hq, he, h⟩)
      · exact absurd rfl (h p hp)
      · rw [table_name_inj q hq p hp he, hm] at h; exact h
    · intro h
      exact .inr ⟨p, hp, rfl, hm ▸ h⟩
  unfold field
  rw [hD]
  constructor
  · rintro (h | ⟨k, w, tail, h, ⟨g1, g2, g3, g4⟩, h'⟩)
    · exact .inl h
    · have : k.keyType = p := table_name_inj _ g1 _ hp (g2.trans hname)
      rw [this] at g4
      exact .inr ⟨k.kind, w, tail, h, (KeyMaterial_congr h4 h3 _ _).mp g4, h'⟩
  · rintro (h | ⟨kd, w, tail, h, g, h'⟩)
    · exact .inl h
    · exact .inr ⟨⟨p, kd, none⟩, w, tail, h, ⟨hp, hname.symm, rfl, (KeyMaterial_congr h4 h3 _ _).mpr g⟩, h'⟩

theorem certBody_faults : Faults certBody CertBodyFault := by
  unfold certBody CertBodyFault
  refine Faults.bind readString_faults readString_parses fun n => Faults.knownType n fun kt hk _ =>
    Faults.check (by simp) ?_
  refine Faults.bind readBytes_faults readBytes_parses fun nonce => certKey_faults hk fun key => ?_
  refine Faults.bind readU64_faults readU64_parses fun serial => role_bind_faults fun role => ?_
  refine Faults.bind readString_faults readString_parses fun keyId => ?_
  refine Faults.bind readBytes_faults readBytes_parses fun pbuf =>
    Faults.inside (readPrincipals_fuel _) (fun _ => readPrincipals_err) fun ps => ?_
  refine Faults.bind readU64_faults readU64_parses fun va => Faults.bind readU64_faults readU64_parses fun vb => ?_
  refine Faults.bind readBytes_faults readBytes_parses fun cbuf =>
    Faults.inside (readOptions_fuel _) (fun _ => readOptions_err) fun co => ?_
  refine Faults.bind readBytes_faults readBytes_parses fun ebuf =>
    Faults.inside (readOptions_fuel _) (fun _ => readOptions_err) fun ex => ?_
  refine Faults.bind readBytes_faults readBytes_parses fun res => Faults.bind readBytes_faults readBytes_parses fun sbuf => ?_
  exact Faults.inside (fromBytes_noPanic _) (fun _ => fromBytes_err) fun k => Faults.pure _

theorem certFromBytes_err {C : Crypto} {data : Bytes} {e : Err} :
    Certificate.fromBytes C data = .err e ↔ CertFault C data e := by
  rw [certFromBytes_eq, Rd.bind_eq]
  unfold CertFault
  rcases hb : certBody (Reader.new data) with ⟨x, r'⟩
  cases x with
  | panic => exact absurd (congrArg Prod.fst hb) (certBody_noPanic _)
  | err e' =>
    have hf := certBody_faults.new.mp (congrArg Prod.fst hb)
    constructor
    · intro h; cases h; exact .inl hf
    · rintro (h | ⟨c, w, rest, rfl, hc, _⟩)
      · have := certBody_faults.new.mpr h
        rw [hb] at this
        exact this
      · obtain ⟨m, m', hx, _, _⟩ := certBody_exact hc
        have := certBody_parses.new.mpr ⟨w, rest, rfl, (bodyExact_update [] [] none).mpr hx, rfl, rfl, rfl⟩
        rw [hb] at this
        cases this
  | ok b =>
    dsimp only
    obtain ⟨w, ⟨hbody, _, _, _⟩, ha, rfl⟩ := (certBody_parses _ _ _).mp hb
    obtain ⟨rest, rfl⟩ := at_new.mp ha
    have hrest : (adv (Reader.new (w ++ rest)) w).inner.drop (adv (Reader.new (w ++ rest)) w).offset = rest :=
      adv_of_at (by simp [Reader.new])
    have hoff : (adv (Reader.new (w ++ rest)) w).offset = w.length := by simp [adv, Reader.new]
    have hwpos : 0 < w.length := List.length_pos_iff.mpr (bodyExact_ne_nil hbody)
    have htail : (certTail C (w ++ rest) b (adv (Reader.new (w ++ rest)) w)).1 = .err e ↔
        (stringField fun sig => inside (SignatureFault C b.signatureKey w) sig noFault) rest e := by
      unfold certTail
      rw [Rd.bind_of_ok (show getOffset (adv (Reader.new (w ++ rest)) w) =
        (.ok w.length, adv (Reader.new (w ++ rest)) w) by rw [← hoff]; rfl)]
      unfold stringField field Spec.inside noFault
      have hbytes := readBytes_faults (adv (Reader.new (w ++ rest)) w) e
      rw [hrest] at hbytes
      rw [← hbytes]
      rcases h3 : readBytes (adv (Reader.new (w ++ rest)) w) with ⟨y, r3⟩
      cases y with
      | panic => exact absurd (congrArg Prod.fst h3) (readBytes_noPanic _)
      | err e' =>
        rw [Rd.bind_of_err h3]
        constructor
        · intro h; cases h; exact .inl rfl
        · rintro (h | ⟨sig, ws, tail, hr, hs, _⟩)
          · cases h; rfl
          · rw [(readBytes_parses _ _ _).mpr ⟨ws, hs, ⟨tail, by rw [hrest, hr]⟩, rfl⟩] at h3
            cases h3
      | ok sig =>
        obtain ⟨ws, hs, ⟨tail, ha2⟩, rfl⟩ := (readBytes_parses _ _ _).mp h3
        rw [hrest] at ha2
        rw [Rd.bind_of_ok h3, Rd.bind_of_ok (show setOffset 0 _ = (.ok (), Reader.new (w ++ rest)) from rfl),
          Rd.bind_of_ok ((readRawBytes_parses hwpos _ _ _).mpr ⟨w, ⟨rfl, rfl⟩, at_new.mpr ⟨_, rfl⟩, rfl⟩)]
        simp only [reduceCtorEq, false_or, and_false, or_false]
        have hv : ∀ e, ((Rd.lift (verifySignature C sig w b.signatureKey) >>= fun _ => (Pure.pure
            { b with signature := sig, serialized := w ++ rest } : Rd Certificate)) (adv (Reader.new (w ++ rest)) w)).1 = .err e ↔
            verifySignature C sig w b.signatureKey = .err e := by
          intro e
          rw [Rd.bind_eq, Rd.lift_eq]
          cases verifySignature C sig w b.signatureKey <;> simp [Rd.pure_eq]
        rw [hv, verifySignature_err]
        constructor
        · intro h; exact ⟨sig, ws, tail, ha2, hs, h⟩
        · rintro ⟨sig', ws', tail', hr', hs', h⟩
          obtain ⟨rfl, _, _⟩ := readBytes_parses.unique hs hs' (ha2.symm.trans hr')
          exact h
    rw [htail]
    constructor
    · intro h
      exact .inr ⟨b, w, rest, rfl, hbody.certBody, h⟩
    · rintro (h | ⟨c, w', rest', hd, hc, h⟩)
      · have := certBody_faults.new.mpr h
        rw [hb] at this
        cases this
      · obtain ⟨m, m', hx, _, _⟩ := certBody_exact hc
        obtain ⟨rfl, rfl, hcert⟩ := bodyExact_unique hbody hx hd
        have : b.signatureKey = c.signatureKey := by
          injection hcert
        rw [this]
        exact h

/-! ## SSHSIG -/

theorem sigFromReader_faults : Faults SshSignature.fromReader SigFileFault := by
  unfold SshSignature.fromReader SigFileFault
  refine Faults.bind (readRawBytes_faults (by decide)) (readRawBytes_parses (by decide)) fun m =>
    Faults.check (by rw [Classical.not_not]; rfl) ?_
  refine Faults.bind readU32_faults readU32_parses fun v => Faults.check (by simp) ?_
  refine Faults.bind readBytes_faults readBytes_parses fun key =>
    Faults.inside (fromBytes_noPanic _) (fun _ => fromBytes_err) fun k => ?_
  refine Faults.bind readString_faults readString_parses fun ns => Faults.check (by simp [String.isEmpty_iff]) ?_
  refine Faults.bind readString_faults readString_parses fun res => Faults.bind readString_faults readString_parses fun h => ?_
  refine (Faults.lift_bind (E := fun _ => StringFault) _ fun a _ => readBytes_faults.last _).congr ?_
  intro rest e
  unfold Spec.check
  by_cases h1 : h = "sha256"
  · simp [h1, show ∃ a, "sha256" = hashName a from ⟨.sha256, rfl⟩]
  · by_cases h2 : h = "sha512"
    · simp [h2, show ∃ a, "sha512" = hashName a from ⟨.sha512, rfl⟩]
    · have : ¬ ∃ a, h = hashName a := by
        rintro ⟨a, rfl⟩
        cases a
        · exact h1 rfl
        · exact h2 rfl
      simp [h1, h2, this, eq_comm]

/-! ## Private keys -/

theorem err_iff {α : Type} {a b : Err} : (Res.err a : Res α) = .err b ↔ b = a := by
  constructor
  · intro h; cases h; rfl
  · rintro rfl; rfl

theorem Faults.then_none {α β : Type} {p : Rd α} {f : α → Rd β} {D : Fault} (h : Faults p D)
    (hf : ∀ a, Faults (f a) noFault) : Faults (p >>= f) D := by
  intro r e
  rw [← h, Rd.bind_eq]
  rcases p r with ⟨x, r'⟩
  cases x with
  | ok a => simpa [noFault] using (hf a r' e)
  | err e' => simp
  | panic => simp

theorem readSk_faults : Faults PrivateKey.readSk SkFault := by
  unfold PrivateKey.readSk SkFault
  exact readByte_bind_faults fun _ => Faults.bind readBytes_faults readBytes_parses fun _ => readBytes_faults.last _

theorem readCrt_err {F : Features} {d p : Bytes} {e : Err} : readCrt F d p ≠ .err e := by
  unfold readCrt crtExponent subNat
  split
  · split <;> simp <;> split <;> simp
  · simp

theorem Faults.skip {α β : Type} {x : Res α} {f : α → Rd β} (hx : ∀ e, x ≠ .err e) (hf : ∀ a, Faults (f a) noFault) :
    Faults (Rd.lift x >>= f) noFault :=
  ((Faults.lift x).then_none hf).congr fun _ e => by simp [hx e, noFault]

theorem privKind_faults (F : Features) (kt : KeyType) : Faults (PrivateKey.readKind F kt) (PrivMaterialFault kt) := by
  unfold PrivateKey.readKind PrivMaterialFault
  cases kt.kind with
  | rsa =>
    refine Faults.bind readPositiveMpint_faults readPositiveMpint_parses fun n =>
      Faults.bind readPositiveMpint_faults readPositiveMpint_parses fun e =>
      Faults.bind readPositiveMpint_faults readPositiveMpint_parses fun d =>
      Faults.bind readPositiveMpint_faults readPositiveMpint_parses fun c =>
      Faults.bind readPositiveMpint_faults readPositiveMpint_parses fun p =>
      readPositiveMpint_faults.then_none fun q => ?_
    exact Faults.skip (fun _ => readCrt_err) fun _ => Faults.skip (fun _ => readCrt_err) fun _ => Faults.pure _
  | ecdsa =>
    refine Faults.bind readString_faults readString_parses fun n => Faults.knownCurve n fun c =>
      Faults.bind readBytes_faults readBytes_parses fun pt => ?_
    cases kt.isSk with
    | false => exact readBytes_faults.last _
    | true => exact Faults.bind readString_faults readString_parses fun app => readSk_faults.last _
  | ed25519 =>
    refine Faults.bind readBytes_faults readBytes_parses fun pt => ?_
    cases kt.isSk with
    | false => exact readBytes_faults.last _
    | true => exact Faults.bind readString_faults readString_parses fun app => readSk_faults.last _
  | _ => exact (Faults.lift _).congr (fun _ _ => err_iff)

theorem readPrivateKey_faults (F : Features) : Faults (PrivateKey.readPrivateKey F) (PrivFault F.rsaSigning) := by
  unfold PrivateKey.readPrivateKey PrivFault
  exact Faults.bind readString_faults readString_parses fun n => Faults.knownType n fun kt _ _ =>
    Faults.bind (privKind_faults F kt) (privKind_parses F kt) fun kp => readString_faults.last _

theorem openSection_err {F : Features} {pub : PublicKey} {sec : Bytes} {e : Err} :
    PrivateKey.openSection F pub sec = .err e ↔ SectionFault F.rsaSigning pub sec e := by
  unfold PrivateKey.openSection SectionFault
  refine (Faults.bind readU32_faults readU32_parses fun m1 => Faults.bind readU32_faults readU32_parses fun m2 =>
    Faults.check (Classical.not_not) ?_).new
  refine (Faults.bind (readPrivateKey_faults F) (readPrivateKey_parses F) fun k =>
    Faults.check (P := k.pubkey = pub) (by simp) (Faults.pure _)).congr ?_
  intro rest e
  unfold field
  constructor
  · rintro (h | ⟨k, w, tail, h, ⟨_, hk⟩, hf⟩)
    · exact .inl h
    · exact .inr ⟨k, w, tail, h, hk, hf⟩
  · rintro (h | ⟨k, w, tail, h, hk, hf⟩)
    · exact .inl h
    · exact .inr ⟨{ k with magic := 0 }, w, tail, h, ⟨rfl, (privBlob_magic 0).mpr hk⟩, hf⟩

theorem decryptSection_err {F : Features} {C : Crypto} {cipher kdf : String} {pass : Option String}
    {kdfData sec : Bytes} {e : Err} : PrivateKey.decryptSection F C cipher kdf pass kdfData sec = .err e ↔
      DecryptFault F C cipher kdf pass kdfData sec e := by
  unfold PrivateKey.decryptSection DecryptFault
  by_cases h1 : cipher = "none" ∧ kdf = "none"
  · rw [if_pos h1]; simp [h1]
  rw [if_neg h1]
  by_cases h2 : cipher = "aes256-ctr" ∧ kdf = "bcrypt"
  · rw [if_pos h2]
    cases pass with
    | none =>
      dsimp only
      rw [err_iff]
      simp [h2]
    | some p =>
      have hP : ∀ e, (match ((do
            let salt ← Reader.readBytes
            let rounds ← Reader.readU32
            return (salt, rounds) : Rd (Bytes × UInt32)) (Reader.new kdfData)).1 with
        | .ok (salt, rounds) =>
          match C.bcryptPbkdf p salt rounds with
          | some (key, iv) =>
            if C.aesCtrOk key iv sec.length then .ok (PrivateKey.xorStream (C.aesKeystream key iv) sec)
            else .err .invalidFormat
          | none => .err .invalidFormat
        | .err e => .err e
        | .panic => .panic : Res Bytes) = .err e ↔
          (stringField fun salt => u32Field fun rounds =>
            check (∃ key iv, C.bcryptPbkdf p salt rounds = some (key, iv) ∧ C.aesCtrOk key iv sec.length = true)
              .invalidFormat noFault) kdfData e := by
        intro e
        let g : Bytes → UInt32 → Res Bytes := fun salt rounds => match C.bcryptPbkdf p salt rounds with
          | some (key, iv) =>
            if C.aesCtrOk key iv sec.length then .ok (PrivateKey.xorStream (C.aesKeystream key iv) sec)
            else .err .invalidFormat
          | none => .err .invalidFormat
        have hg : Faults (do
            let salt ← Reader.readBytes
            let rounds ← Reader.readU32
            Rd.lift (g salt rounds) : Rd Bytes) (stringField fun salt => u32Field fun rounds =>
              check (∃ key iv, C.bcryptPbkdf p salt rounds = some (key, iv) ∧ C.aesCtrOk key iv sec.length = true)
              .invalidFormat noFault) := by
          refine Faults.bind readBytes_faults readBytes_parses fun salt => Faults.bind readU32_faults readU32_parses fun rounds =>
            (Faults.lift _).congr ?_
          intro rest e
          unfold Spec.check noFault
          dsimp only [g]
          cases hb : C.bcryptPbkdf p salt rounds with
          | none => simp; exact eq_comm
          | some kv =>
            obtain ⟨key, iv⟩ := kv
            by_cases ha : C.aesCtrOk key iv sec.length = true
            · simp [ha]
            · simp [ha]; exact eq_comm
        rw [← hg.new]
        rw [Rd.bind_eq, Rd.bind_eq]
        rcases readBytes (Reader.new kdfData) with ⟨x, r1⟩
        cases x with
        | ok salt =>
          dsimp only
          rw [Rd.bind_eq, Rd.bind_eq]
          rcases readU32 r1 with ⟨y, r2⟩
          cases y with
          | ok rounds => simp [Rd.pure_eq, g]
          | err e => simp
          | panic => simp
        | err e => simp
        | panic => simp
      dsimp only
      by_cases hF : F.encryptedKeys = true
      · rw [if_pos hF]
        refine (hP e).trans ?_
        simp [h2, hF, Spec.check]
      · rw [if_neg hF, err_iff]
        simp [h2, hF, Spec.check]
  · rw [if_neg h2]
    have : ¬ (cipher = "aes256-ctr" ∧ kdf = "bcrypt") := h2
    constructor
    · intro h; cases h; exact ⟨h1, .inl ⟨h2, rfl⟩⟩
    · rintro ⟨_, ⟨_, rfl⟩ | ⟨a, b, _⟩⟩
      · rfl
      · exact absurd ⟨a, b⟩ h2

theorem openEncrypted_err {F : Features} {C : Crypto} {pass : Option String} {cipher kdf : String} {kdfData : Bytes}
    {pub : PublicKey} {sec : Bytes} {e : Err} : openEncrypted F C pass cipher kdf kdfData pub sec = .err e ↔
      DecryptFault F C cipher kdf pass kdfData sec e ∨
        ∃ plain, Decrypts F C cipher kdf pass kdfData sec plain ∧ SectionFault F.rsaSigning pub plain e := by
  unfold openEncrypted
  rw [← decryptSection_err]
  simp only [← decryptSection_ok, ← openSection_err]
  cases PrivateKey.decryptSection F C cipher kdf pass kdfData sec <;> simp

theorem sectionBytes_faults {α : Type} (n : Nat) {g : Bytes → Res α} {E : Bytes → Err → Prop}
    (hg : ∀ b e, g b = .err e ↔ E b e) : Faults (readRawBytes n >>= fun b => Rd.lift (g b)) (sectionBytes n E) := by
  intro r e
  have hlen : (r.inner.drop r.offset).length = r.inner.length - r.offset := by simp
  unfold sectionBytes
  rw [Rd.bind_eq, readRawBytes_eq]
  by_cases h : r.offset ≥ r.inner.length ∨ n > r.inner.length - r.offset
  · rw [if_pos h]
    have h' : r.inner.drop r.offset = [] ∨ (r.inner.drop r.offset).length < n := by
      rw [← drop_nil_iff, hlen]; exact h
    constructor
    · intro he; cases he; exact .inl ⟨h', rfl⟩
    · rintro (⟨_, rfl⟩ | ⟨hne, sec, tail, hd, hl, _⟩)
      · rfl
      · exfalso
        rcases h' with h' | h'
        · exact hne h'
        · rw [hd, List.length_append] at h'; omega
  · rw [if_neg h]
    have h' : ¬ (r.inner.drop r.offset = [] ∨ (r.inner.drop r.offset).length < n) := by
      rw [← drop_nil_iff, hlen]; exact h
    dsimp only [Rd.lift_eq]
    rw [hg]
    constructor
    · intro hE
      refine .inr ⟨fun hn => h' (.inl hn), _, (r.inner.drop r.offset).drop n, (List.take_append_drop n _).symm, ?_, hE⟩
      rw [List.length_take]
      have : ¬ (r.inner.drop r.offset).length < n := fun hn => h' (.inr hn)
      omega
    · rintro (⟨h'', _⟩ | ⟨_, sec, tail, hd, hl, hE⟩)
      · exact absurd h'' h'
      · rw [hd, ← hl, List.take_left]; exact hE

theorem cstr_of_zero {data : Bytes} (h : 0 ∈ data) : ∃ s w tail, data = w ++ tail ∧ CStr s w := by
  obtain ⟨a, b, rfl, hn⟩ := List.eq_append_cons_of_mem h
  exact ⟨_, a ++ [0], b, by simp, a, fun x hx hz => hn (hz ▸ hx), rfl, rfl⟩

theorem readCstring_faults : Faults readCstring (fun rest e => 0 ∉ rest ∧ e = .unexpectedEof) := by
  intro r e
  have hc := cstringLoop_cases r.inner r.offset []
  constructor
  · intro h
    refine ⟨fun hz => ?_, ?_⟩
    · obtain ⟨s, w, tail, hd, hs⟩ := cstr_of_zero hz
      rw [(readCstring_parses r s _).mpr ⟨w, hs, ⟨tail, hd⟩, rfl⟩] at h
      cases h
    · unfold readCstring at h
      rcases hc with ⟨x, hx⟩ | hx <;> rw [hx] at h <;> simp [commit] at h
      exact h.symm
  · rintro ⟨hz, rfl⟩
    rcases hc with ⟨⟨x, o⟩, hx⟩ | hx
    · have : readCstring r = (.ok x, { r with offset := o }) := by unfold readCstring; rw [hx]; rfl
      obtain ⟨w, ⟨b, _, rfl, _⟩, ⟨tail, ha⟩, _⟩ := (readCstring_parses _ _ _).mp this
      exact absurd (by rw [ha]; simp) hz
    · unfold readCstring; rw [hx]; rfl

theorem preamble_faults {α : Type} {p : Rd α} {E : Fault} (h : Faults p E) :
    Faults (readCstring >>= fun pre => if pre ≠ "openssh-key-v1" then Rd.lift (.err .invalidFormat) else p)
      (field PreambleFault (fun (_ : Unit) w => w = preamble) fun _ => E) := by
  refine (Faults.bind readCstring_faults readCstring_parses fun pre => Faults.check (P := pre = "openssh-key-v1")
    Classical.not_not h).congr ?_
  intro rest e
  unfold field PreambleFault Spec.check
  constructor
  · rintro (⟨h1, h2⟩ | ⟨pre, w, tail, rfl, hc, ⟨h1, h2⟩ | ⟨rfl, h2⟩⟩)
    · exact .inl (.inl ⟨h1, h2⟩)
    · refine .inl (.inr ⟨?_, ?_, h2⟩)
      · obtain ⟨b, _, rfl, _⟩ := hc; simp
      · intro t ht
        exact h1 (readCstring_parses.unique hc (cstr_preamble.mpr rfl) ht).1
    · exact .inr ⟨(), w, tail, rfl, cstr_preamble.mp hc, h2⟩
  · rintro ((⟨h1, h2⟩ | ⟨h1, h2, h3⟩) | ⟨_, w, tail, rfl, rfl, h2⟩)
    · exact .inl ⟨h1, h2⟩
    · obtain ⟨s, w, tail, rfl, hs⟩ := cstr_of_zero h1
      refine .inr ⟨s, w, tail, rfl, hs, .inl ⟨?_, h3⟩⟩
      rintro rfl
      rw [cstr_preamble] at hs
      subst hs
      exact h2 tail rfl
    · exact .inr ⟨_, preamble, tail, rfl, cstr_preamble.mpr rfl, .inr ⟨rfl, h2⟩⟩

theorem keyFile_faults (F : Features) (C : Crypto) (pass : Option String) :
    Faults (PrivateKey.fromReader F C pass) (KeyFileFault F C pass) := by
  rw [fromReader_eq]
  unfold KeyFileFault
  refine preamble_faults <| Faults.bind readString_faults readString_parses fun cipher =>
    Faults.bind readString_faults readString_parses fun kdf => Faults.bind readBytes_faults readBytes_parses fun kdfData =>
    Faults.bind readU32_faults readU32_parses fun count => Faults.check (by simp) <|
    Faults.bind readBytes_faults readBytes_parses fun pb => ?_
  refine (Faults.lift_bind _ fun pub _ => Faults.bind readU32_faults readU32_parses fun n =>
    sectionBytes_faults n.toNat fun sec e => openEncrypted_err).congr ?_
  intro rest e
  simp only [fromBytes_err, fromBytes_ok]
  constructor
  · rintro (h | ⟨pub, ⟨w, junk, h1, h2, h3⟩, h⟩)
    · exact .inl h
    · exact .inr ⟨pub, w, junk, h1, h2, h3, h⟩
  · rintro (h | ⟨pub, w, junk, h1, h2, h3, h⟩)
    · exact .inl h
    · exact .inr ⟨pub, ⟨w, junk, h1, h2, h3⟩, h⟩

/-! ## Texts -/

theorem res_bind_err {α β : Type} {x : Res α} {f : α → Res β} {e : Err} :
    (x >>= f) = .err e ↔ x = .err e ∨ ∃ a, x = .ok a ∧ f a = .err e := by
  cases x <;> simp

theorem b64Decode_none {s : List Char} : b64Decode s = none ↔ ∀ b, ¬ Base64Lax b s := by
  simp only [base64Lax_iff]
  cases b64Decode s <;> simp

theorem base64_err {α : Type} {s : List Char} {f : Bytes → Res α} {E : Fault} (hf : ∀ b e, f b = .err e ↔ E b e) {e : Err} :
    (Res.ofOption .decode (b64Decode s) >>= f) = .err e ↔ base64Field s E e := by
  unfold base64Field
  rw [← b64Decode_none]
  simp only [base64Lax_iff, ← hf]
  cases b64Decode s with
  | none =>
    constructor
    · intro h; cases h; exact .inl ⟨rfl, rfl⟩
    · rintro (⟨_, rfl⟩ | ⟨b, h, _⟩)
      · rfl
      · cases h
  | some b => simp [Res.ofOption]

theorem knownType_err {α : Type} {n : String} {f : KeyType → Res α} {E : KeyType → Err → Prop}
    (hf : ∀ kt e, kt ∈ keyTypes → kt.name = n → (f kt = .err e ↔ E kt e)) {e : Err} :
    (KeyType.fromName n >>= f) = .err e ↔ knownType n (fun kt _ e => E kt e) [] e := by
  rw [res_bind_err, fromName_err]
  unfold Spec.knownType
  constructor
  · rintro (h | ⟨kt, hk, h⟩)
    · exact .inl h
    · have := fromName_ok.mp hk
      exact .inr ⟨kt, this.1, this.2, (hf kt e this.1 this.2).mp h⟩
  · rintro (h | ⟨kt, h1, h2, h⟩)
    · exact .inl h
    · exact .inr ⟨kt, fromName_ok.mpr ⟨h1, h2⟩, (hf kt e h1 h2).mpr h⟩

theorem keyLine_err {line : List Char} {e : Err} : PublicKey.fromString line = .err e ↔ KeyLineFault line e := by
  have hw : ∀ ws, TextWords line ws ↔ ws = splitWhitespace line := fun ws => by rw [textWords_iff, eq_comm]
  unfold KeyLineFault PublicKey.fromString
  simp only [hw, exists_eq_left]
  cases splitWhitespace line with
  | nil => simp only [List.length_nil]; rw [err_iff]; simp
  | cons name tl =>
    cases tl with
    | nil => simp only [List.length_cons, List.length_nil]; rw [err_iff]; simp
    | cons data rest =>
      simp only [List.length_cons]
      have : ¬ rest.length + 1 + 1 < 2 := by omega
      simp only [this, false_and, false_or]
      rw [knownType_err (E := fun kt e => base64Field data
        (textField fun inner => check (inner = kt.name) .keyTypeMismatch (MaterialFault kt)) e)]
      · constructor
        · intro h; exact ⟨_, _, _, rfl, h⟩
        · rintro ⟨_, _, _, h, h'⟩; cases h; exact h'
      · intro kt e hm hk
        refine base64_err fun b e => ?_
        refine (Faults.bind readString_faults readString_parses fun inner => Faults.check ?_ ?_).new
        · rw [hk, Classical.not_not, eq_comm]
        · refine ((fromReader_faults _).last _).congr ?_
          intro rest e
          unfold Spec.knownType
          constructor
          · rintro (⟨h, _⟩ | ⟨t, ht, hn, h⟩)
            · exact absurd hk (h kt hm)
            · rw [table_name_inj t ht kt hm (hn.trans hk.symm)] at h; exact h
          · intro h; exact .inr ⟨kt, hm, hk, h⟩

theorem certLine_err {C : Crypto} {line : List Char} {e : Err} :
    Certificate.fromString C line = .err e ↔ CertLineFault C line e := by
  have hw : ∀ ws, TextWords line ws ↔ ws = splitWhitespace line := fun ws => by rw [textWords_iff, eq_comm]
  unfold CertLineFault Certificate.fromString
  simp only [hw, exists_eq_left]
  cases splitWhitespace line with
  | nil => dsimp only; rw [err_iff]; simp
  | cons name tail =>
    simp only [reduceCtorEq, false_and, false_or]
    rw [knownType_err (E := fun kt e => (tail = [] ∧ e = .invalidFormat) ∨
        ∃ data rest, tail = data :: rest ∧ base64Field data (fun blob e => CertFault C blob e ∨
          ∃ c w sig wsig junk, blob = w ++ (wsig ++ junk) ∧ CertBody c w ∧ Frame sig wsig ∧
            Accepts C c.signatureKey w sig ∧ c.keyType.kind ≠ kt.kind ∧ e = .keyTypeMismatch) e)]
    · constructor
      · intro h; exact ⟨_, _, rfl, h⟩
      · rintro ⟨_, _, h, h'⟩; cases h; exact h'
    · intro kt e _ _
      cases tail with
      | nil => dsimp only; rw [err_iff]; simp
      | cons data rest =>
        simp only [reduceCtorEq, false_and, false_or, List.cons.injEq]
        rw [base64_err (E := fun blob e => CertFault C blob e ∨
          ∃ c w sig wsig junk, blob = w ++ (wsig ++ junk) ∧ CertBody c w ∧ Frame sig wsig ∧
            Accepts C c.signatureKey w sig ∧ c.keyType.kind ≠ kt.kind ∧ e = .keyTypeMismatch)]
        · constructor
          · intro h; exact ⟨_, _, ⟨rfl, rfl⟩, h⟩
          · rintro ⟨_, _, ⟨rfl, rfl⟩, h⟩; exact h
        · intro b e
          rw [res_bind_err, certFromBytes_err]
          refine or_congr Iff.rfl ?_
          constructor
          · rintro ⟨c, hc, h⟩
            obtain ⟨w, wsig, junk, hb, hx, hf, ha, _, _⟩ := certFromBytes_ok.mp hc
            split at h
            · rename_i hne
              exact ⟨c, w, c.signature, wsig, junk, hb, hx.certBody, hf, ha, hne, err_iff.mp h⟩
            · cases h
          · rintro ⟨c, w, sig, wsig, junk, hb, hc, hf, ha, hne, rfl⟩
            obtain ⟨m, m', hx, _, _⟩ := certBody_exact hc
            refine ⟨{ c with criticalOptions := m, extensions := m', signature := sig, comment := none, serialized := b },
              certFromBytes_ok.mpr ⟨w, wsig, junk, hb, hx, hf, ha, rfl, rfl⟩, ?_⟩
            exact if_pos hne

theorem armor_err {α : Type} {header footer : String} {contents : List Char} {g : Bytes → Res α} {E : Fault} {e : Err}
    (hh : header.toList ≠ []) (hg : ∀ b e, g b = .err e ↔ E b e) :
    (dearmor header footer contents >>= g) = .err e ↔ ArmorFault header footer E contents e := by
  have hl : ∀ ls, FileLines contents ls ↔ lines contents = ls := fun _ => lines_iff
  unfold ArmorFault dearmor
  simp only [hl]
  by_cases h : (lines contents).head?.getD [] = header.toList
  · rw [if_neg (by simpa using h)]
    cases hc : lines contents with
    | nil => rw [hc] at h; exact absurd h.symm hh
    | cons l ls =>
      rw [hc] at h
      simp only [List.head?_cons, Option.getD_some] at h
      subst h
      simp only [List.tail_cons, List.cons.injEq, true_and]
      rcases armorBody_cases footer.toList ls [] with ⟨enc, he⟩ | he
      · obtain ⟨body, rest, hls, hn, henc⟩ := armorBody_ok.mp he
        simp only [List.nil_append] at henc
        subst henc
        rw [he]
        have : ((Res.ok body.flatten >>= fun enc => Res.ofOption .decode (b64Decode enc)) >>= g) =
          (Res.ofOption .decode (b64Decode body.flatten) >>= g) := rfl
        rw [this, base64_err hg]
        constructor
        · intro h; exact .inr ⟨body, rest, hls, hn, h⟩
        · rintro (⟨h, _⟩ | ⟨body', rest', hls', hn', h⟩)
          · exact absurd hls (h body rest)
          · have := armorBody_ok.mpr ⟨body', rest', hls', hn', (List.nil_append _).symm⟩
            rw [he] at this
            rw [Res.ok.inj this]
            exact h
      · rw [he]
        have hno : ∀ body rest, ls = body ++ footer.toList :: rest → False := by
          intro body rest hls
          have hm : footer.toList ∈ ls := by rw [hls]; simp
          obtain ⟨a, b, hab, hn⟩ := List.eq_append_cons_of_mem hm
          rw [armorBody_ok.mpr ⟨a, b, hab, hn, rfl⟩] at he
          cases he
        constructor
        · intro h; cases h; exact .inl ⟨fun body rest hls => hno body rest hls, rfl⟩
        · rintro (⟨_, rfl⟩ | ⟨body, rest, hls, _⟩)
          · rfl
          · exact (hno body rest hls).elim
  · rw [if_pos h]
    have hno : ∀ tl, lines contents ≠ header.toList :: tl := by
      intro tl ht
      rw [ht] at h
      exact h rfl
    constructor
    · intro h; cases h; exact .inl ⟨fun body rest => hno _, rfl⟩
    · rintro (⟨_, rfl⟩ | ⟨body, rest, hls, _⟩)
      · rfl
      · exact (hno _ hls).elim

end Ssh
