import Verif.Spec.Verify
import Verif.Lemmas.Key
import Verif.Model.Verify

/-! # Lemmas about `verify_signature` -/

namespace Ssh

open Spec Reader

theorem ringCheck_ok {b : Bool} {u : Unit} : ringCheck b = .ok u ↔ b = true := by
  unfold ringCheck; split <;> simp_all

theorem ringCheck_noPanic (b : Bool) : ringCheck b ≠ .panic := by
  unfold ringCheck; split <;> simp

theorem index_zero {b : UInt8} {v : Bytes} : v.length = 1 → (index v 0 = .ok b ↔ v = [b]) := by
  intro h
  match v, h with
  | [x], _ => simp [index, Res.unwrap]

theorem readSignedMessage_parses (C : Crypto) (app : Option String) (msg : Bytes) :
    Parses (readSignedMessage C app msg) (PrimitiveMessage C app msg) := by
  unfold readSignedMessage
  cases app with
  | none => exact Parses.pure msg
  | some a =>
    refine (Parses.bind (readRawBytes_parses (by omega)) fun fl => Parses.bind (Parses.lift _) fun flags =>
      Parses.bind readU32_parses fun counter => Parses.pure (skMessage C a flags counter msg)).congr ?_
    intro m w
    simp only [PrimitiveMessage]
    constructor
    · rintro ⟨fl, w1, w2, rfl, ⟨rfl, hl⟩, flags, w3, w4, rfl, ⟨hi, rfl⟩, counter, w5, w6, rfl, rfl, rfl, rfl⟩
      rw [index_zero hl] at hi
      subst hi
      refine ⟨flags, counter, by simp, ?_⟩
      simp [skMessage, u32_eq, strBytes]
    · rintro ⟨flags, counter, rfl, rfl⟩
      refine ⟨[flags], [flags], _, rfl, ⟨rfl, rfl⟩, flags, [], _, rfl, ⟨by simp [index, Res.unwrap], rfl⟩,
        counter, u32 counter.toNat, [], by rw [List.append_nil]; rfl, rfl, ?_, rfl⟩
      simp [skMessage, u32_eq, strBytes]

theorem readSignedMessage_noPanic (C : Crypto) (app : Option String) (msg : Bytes) (r : Reader) :
    (readSignedMessage C app msg r).1 ≠ .panic := by
  unfold readSignedMessage
  cases app with
  | none => exact Rd.noPanic_pure _ r
  | some a =>
    intro h
    rw [Rd.bind_panic] at h
    rcases h with h | ⟨fl, r1, h1, h⟩
    · exact readRawBytes_noPanic 1 r h
    · obtain ⟨w, ⟨rfl, hl⟩, _, _⟩ := (readRawBytes_parses (by omega) _ _ _).mp h1
      match fl, hl with
      | [x], _ =>
        exact Rd.noPanic_bind (Rd.noPanic_lift (by simp [index, Res.unwrap]))
          (fun _ => Rd.noPanic_bind readU32_noPanic fun _ => Rd.noPanic_pure _) r1 h

theorem fixedWidth_iff {len : Nat} {v f : Bytes} (hv : Shortest v) :
    FixedWidth len v f ↔ v.length ≤ len ∧ f = List.replicate (len - v.length) 0 ++ v := by
  have natOf_rep : ∀ n (l : Bytes), natOf (List.replicate n 0 ++ l) = natOf l := by
    intro n l
    induction n with
    | zero => simp
    | succ n ih => rw [List.replicate_succ, List.cons_append]; simp [natOf, ih]
  have shortest_le : ∀ v f : Bytes, Shortest v → natOf f = natOf v → v.length ≤ f.length := by
    intro v f hv h
    cases v with
    | nil => simp
    | cons b bs =>
      have hb : b ≠ 0 := by simpa [Shortest] using hv
      have hb' : 0 < b.toNat := by
        rcases Nat.eq_zero_or_pos b.toNat with h0 | h0
        · exact absurd (UInt8.toNat_inj.mp (by simpa using h0)) hb
        · exact h0
      have h1 : 256 ^ bs.length ≤ natOf (b :: bs) := by
        simp only [natOf]
        calc 256 ^ bs.length = 1 * 256 ^ bs.length := by simp
          _ ≤ b.toNat * 256 ^ bs.length := Nat.mul_le_mul_right _ hb'
          _ ≤ _ := Nat.le_add_right _ _
      have h2 := natOf_lt f
      have h3 : 256 ^ bs.length < 256 ^ f.length := by omega
      have := (Nat.pow_lt_pow_iff_right (by omega : 1 < 256)).mp h3
      simp; omega
  constructor
  · rintro ⟨h1, h2⟩
    have hle := shortest_le v f hv h2
    refine ⟨by omega, ?_⟩
    apply natOf_inj
    · simp; omega
    · rw [natOf_rep, h2]
  · rintro ⟨h1, rfl⟩
    exact ⟨by simp; omega, natOf_rep _ _⟩

theorem readFixedRS_parses (len : Nat) : Parses (readFixedRS len) (fun v w => ∃ x1 x2 r s fr fs,
    w = x1 ++ x2 ∧ v = fr ++ fs ∧ Mpint r x1 ∧ Mpint s x2 ∧ FixedWidth len r fr ∧ FixedWidth len s fs) := by
  unfold readFixedRS
  refine (Parses.bind readPositiveMpint_parses fun r => Parses.bind readPositiveMpint_parses fun s =>
    Parses.ite (fun _ => Parses.err _) (fun _ => Parses.bind (Parses.lift _) fun pr =>
      Parses.bind (Parses.lift _) fun ps => Parses.pure _)).congr ?_
  intro v w
  constructor
  · rintro ⟨r, w1, w2, rfl, h1, s, w3, w4, rfl, h2, ⟨_, h⟩ | ⟨h3, pr, a, b, rfl, ⟨h4, rfl⟩, ps, c, d, rfl,
      ⟨h5, rfl⟩, rfl, rfl⟩⟩
    · exact h.elim
    · have h3' : r.length ≤ len ∧ s.length ≤ len := by omega
      rw [subNat_ok h3'.1] at h4
      rw [subNat_ok h3'.2] at h5
      simp only [Res.ok.injEq] at h4 h5
      subst h4; subst h5
      exact ⟨w1, w3, r, s, _, _, by simp, rfl, h1, h2, (fixedWidth_iff h1.1).mpr ⟨h3'.1, rfl⟩,
        (fixedWidth_iff h2.1).mpr ⟨h3'.2, rfl⟩⟩
  · rintro ⟨x1, x2, r, s, fr, fs, rfl, rfl, h1, h2, h3, h4⟩
    obtain ⟨h3', rfl⟩ := (fixedWidth_iff h1.1).mp h3
    obtain ⟨h4', rfl⟩ := (fixedWidth_iff h2.1).mp h4
    exact ⟨r, x1, x2, rfl, h1, s, x2, [], by simp, h2, .inr ⟨by omega, _, [], [], rfl, ⟨subNat_ok h3', rfl⟩,
      _, [], [], rfl, ⟨subNat_ok h4', rfl⟩, rfl, rfl⟩⟩

theorem readFixedRS_noPanic (len : Nat) (r : Reader) : (readFixedRS len r).1 ≠ .panic := by
  unfold readFixedRS
  refine Rd.noPanic_bind readPositiveMpint_noPanic (fun x => Rd.noPanic_bind readPositiveMpint_noPanic
    fun y => ?_) r
  intro r
  split
  · simp
  · rw [subNat_ok (by omega), subNat_ok (by omega)]
    exact Rd.noPanic_bind (Rd.noPanic_lift (by simp)) (fun _ =>
      Rd.noPanic_bind (Rd.noPanic_lift (by simp)) fun _ => Rd.noPanic_pure _) r

theorem ecdsaSigAlg_ok {n : String} {a : EcAlg} {l : Nat} :
    ecdsaSigAlg n = .ok (a, l) ↔ (n, a, l) ∈ ecdsaLabels := by
  unfold ecdsaSigAlg ecdsaLabels
  constructor
  · intro h
    split at h
    · simp_all
    split at h
    · simp_all
    split at h
    · simp_all
    · cases h
  · intro h
    simp only [List.mem_cons, List.not_mem_nil, or_false, Prod.mk.injEq] at h
    rcases h with ⟨rfl, rfl, rfl⟩ | ⟨rfl, rfl, rfl⟩ | ⟨rfl, rfl, rfl⟩ <;> rfl

theorem rsaSigAlg_ok {n : String} {a : RsaAlg} : rsaSigAlg n = .ok a ↔ (n, a) ∈ rsaLabels := by
  unfold rsaSigAlg rsaLabels
  constructor
  · intro h
    split at h
    · simp_all
    split at h
    · simp_all
    split at h
    · simp_all
    · cases h
  · intro h
    simp only [List.mem_cons, List.not_mem_nil, or_false, Prod.mk.injEq] at h
    rcases h with ⟨rfl, rfl⟩ | ⟨rfl, rfl⟩ | ⟨rfl, rfl⟩ <;> rfl

theorem ed25519SigAlg_ok {n : String} {u : Unit} : ed25519SigAlg n = .ok u ↔ n ∈ ed25519Labels := by
  unfold ed25519SigAlg ed25519Labels
  constructor
  · intro h
    split at h
    · simp_all
    split at h
    · simp_all
    · cases h
  · intro h
    simp only [List.mem_cons, List.not_mem_nil, or_false] at h
    rcases h with rfl | rfl <;> rfl

/-- Kinds of the labels that select a primitive. -/
theorem label_kinds : (∀ x ∈ rsaLabels, ∃ t ∈ keyTypes, t.name = x.1 ∧ t.kind = .rsa) ∧
    (∀ x ∈ ecdsaLabels, ∃ t ∈ keyTypes, t.name = x.1 ∧ t.kind = .ecdsa) ∧
    (∀ x ∈ ed25519Labels, ∃ t ∈ keyTypes, t.name = x ∧ t.kind = .ed25519) := by decide +kernel

/-- Accepted signatures are exactly those of the specification. -/
theorem verifySignature_ok {C : Crypto} {sig msg b : Bytes} {k : PublicKey} :
    verifySignature C sig msg k = .ok b ↔ Accepts C k msg sig ∧ b = sig := by
  obtain ⟨hkr, hke, hkd⟩ := label_kinds
  unfold verifySignature Accepts
  have kind_of : ∀ {l : String} {kd : KeyTypeKind}, (∃ t ∈ keyTypes, t.name = l ∧ t.kind = kd) →
      ∀ t, KeyType.fromName l = .ok t → t.kind = kd ∧ t.name = l := by
    rintro l kd ⟨t, h1, h2, h3⟩ t' ht'
    rw [fromName_ok.mpr ⟨h1, h2⟩] at ht'
    cases ht'
    exact ⟨h3, h2⟩
  cases hk : k.kind with
  | rsa e n =>
    simp only
    have hP := Parses.bind readString_parses fun name => Parses.bind (Parses.lift (KeyType.fromName name))
      fun st => Parses.ite (c := k.keyType.kind ≠ st.kind) (fun _ => Parses.err .keyTypeMismatch) (fun _ =>
        Parses.bind (Parses.lift (rsaSigAlg st.name)) fun alg => Parses.bind readBytes_parses fun s =>
          Parses.bind (Parses.lift (ringCheck (C.rsaVerify alg n e msg s))) fun _ => Parses.pure sig)
    rw [hP.new]
    constructor
    · rintro ⟨w, rest, rfl, name, w1, w2, rfl, h1, st, a, b1, rfl, ⟨h2, rfl⟩, ⟨_, h⟩ | ⟨h3, alg, c, d, rfl,
        ⟨h4, rfl⟩, s, f, g, rfl, h5, u, p, q, rfl, ⟨h6, rfl⟩, rfl, rfl⟩⟩
      · exact h.elim
      · rw [rsaSigAlg_ok] at h4
        obtain ⟨h7, h8⟩ := fromName_ok.mp h2
        obtain ⟨h9, h10⟩ := kind_of (hkr _ h4) st (by rw [h8]; exact h2)
        rw [h8] at h4
        exact ⟨⟨name, w1, f, [], rest, by simp, h1, (by simpa using h3 : k.keyType.kind = st.kind).trans h9, rfl,
          alg, s, h4, h5, ringCheck_ok.mp h6⟩, rfl⟩
    · rintro ⟨⟨name, w1, w2, w3, rest, rfl, h1, h2, rfl, alg, s, h3, h4, h5⟩, rfl⟩
      obtain ⟨t, ht1, ht2, ht3⟩ := hkr _ h3
      refine ⟨w1 ++ w2, rest, by simp, name, w1, w2, rfl, h1, t, [], w2, rfl,
        ⟨fromName_ok.mpr ⟨ht1, ht2⟩, rfl⟩, .inr ⟨by simp [h2, ht3], alg, [], w2, rfl, ⟨?_, rfl⟩, s, w2, [], by simp,
          h4, (), [], [], rfl, ⟨ringCheck_ok.mpr h5, rfl⟩, rfl, rfl⟩⟩
      rw [ht2, rsaSigAlg_ok]; exact h3
  | ed25519 key app =>
    simp only
    have hP := Parses.bind readString_parses fun name => Parses.bind (Parses.lift (KeyType.fromName name))
      fun st => Parses.ite (c := k.keyType.kind ≠ st.kind) (fun _ => Parses.err .keyTypeMismatch) (fun _ =>
        Parses.bind (Parses.lift (ed25519SigAlg st.name)) fun _ => Parses.bind readBytes_parses fun s =>
          Parses.bind (readSignedMessage_parses C app msg) fun m =>
          Parses.bind (Parses.lift (ringCheck (C.ed25519Verify key m s))) fun _ => Parses.pure sig)
    rw [hP.new]
    constructor
    · rintro ⟨w, rest, rfl, name, w1, w2, rfl, h1, st, a, b1, rfl, ⟨h2, rfl⟩, ⟨_, h⟩ | ⟨h3, u, c, d, rfl,
        ⟨h4, rfl⟩, s, f, g, rfl, h5, m, x, y, rfl, hm, u', p, q, rfl, ⟨h6, rfl⟩, rfl, rfl⟩⟩
      · exact h.elim
      · rw [ed25519SigAlg_ok] at h4
        obtain ⟨h7, h8⟩ := fromName_ok.mp h2
        obtain ⟨h9, h10⟩ := kind_of (hkd _ h4) st (by rw [h8]; exact h2)
        rw [h8] at h4
        exact ⟨⟨name, w1, f, x, rest, by simp, h1, (by simpa using h3 : k.keyType.kind = st.kind).trans h9,
          s, m, h4, h5, hm, ringCheck_ok.mp h6⟩, rfl⟩
    · rintro ⟨⟨name, w1, w2, w3, rest, rfl, h1, h2, s, m, h3, h4, hm, h5⟩, rfl⟩
      obtain ⟨t, ht1, ht2, ht3⟩ := hkd _ h3
      refine ⟨w1 ++ (w2 ++ w3), rest, by simp, name, w1, _, rfl, h1, t, [], _, rfl,
        ⟨fromName_ok.mpr ⟨ht1, ht2⟩, rfl⟩, .inr ⟨by simp [h2, ht3], (), [], _, rfl, ⟨?_, rfl⟩, s, w2, w3, by simp,
          h4, m, w3, [], by simp, hm, (), [], [], rfl, ⟨ringCheck_ok.mpr h5, rfl⟩, rfl, rfl⟩⟩
      rw [ht2, ed25519SigAlg_ok]; exact h3
  | ecdsa cv key app =>
    simp only
    have hP := Parses.bind readString_parses fun name => Parses.bind (Parses.lift (KeyType.fromName name))
      fun st => Parses.ite (c := k.keyType.kind ≠ st.kind) (fun _ => Parses.err .keyTypeMismatch) (fun _ =>
        Parses.bind readBytes_parses fun inner =>
        Parses.bind (Parses.lift (ecdsaSigAlg st.name)) fun al =>
          Parses.bind (Parses.lift (readFixedRS al.2 (Reader.new inner)).1) fun sg =>
          Parses.bind (readSignedMessage_parses C app msg) fun m =>
          Parses.bind (Parses.lift (ringCheck (C.ecdsaVerify al.1 key m sg))) fun _ => Parses.pure sig)
    rw [hP.new]
    constructor
    · rintro ⟨w, rest, rfl, name, w1, w2, rfl, h1, st, a, b1, rfl, ⟨h2, rfl⟩, ⟨_, h⟩ | ⟨h3, inner, c, d, rfl, h5,
        ⟨alg, len⟩, i, j, rfl, ⟨h4, rfl⟩, sg, f, g, rfl, ⟨hsg, rfl⟩, m, x, y, rfl, hm, u', p, q, rfl, ⟨h6, rfl⟩, rfl, rfl⟩⟩
      · exact h.elim
      · rw [ecdsaSigAlg_ok] at h4
        obtain ⟨h7, h8⟩ := fromName_ok.mp h2
        obtain ⟨h9, h10⟩ := kind_of (hke _ h4) st (by rw [h8]; exact h2)
        rw [h8] at h4
        rw [(readFixedRS_parses len).new] at hsg
        obtain ⟨_, junk, rfl, x1, x2, rr, ss, fr, fs, rfl, rfl, hr1, hr2, hr3, hr4⟩ := hsg
        exact ⟨⟨name, w1, c, x, rest, by simp, h1, (by simpa using h3 : k.keyType.kind = st.kind).trans h9,
          alg, len, x1, x2, junk, rr, ss, fr, fs, m, h4, by simpa using h5, hr1, hr2, hr3, hr4, hm,
          ringCheck_ok.mp h6⟩, rfl⟩
    · rintro ⟨⟨name, w1, w2, w3, rest, rfl, h1, h2, alg, len, x1, x2, junk, rr, ss, fr, fs, m, h3, h4, hr1, hr2, hr3,
        hr4, hm, h5⟩, rfl⟩
      obtain ⟨t, ht1, ht2, ht3⟩ := hke _ h3
      refine ⟨w1 ++ (w2 ++ w3), rest, by simp, name, w1, _, rfl, h1, t, [], _, rfl,
        ⟨fromName_ok.mpr ⟨ht1, ht2⟩, rfl⟩, .inr ⟨by simp [h2, ht3], _, w2, w3, rfl, h4, (alg, len), [], w3, rfl,
          ⟨?_, rfl⟩, fr ++ fs, [], w3, rfl, ⟨?_, rfl⟩,
          m, w3, [], by simp, hm, (), [], [], rfl, ⟨ringCheck_ok.mpr h5, rfl⟩, rfl, rfl⟩⟩
      · rw [ht2, ecdsaSigAlg_ok]; exact h3
      · rw [(readFixedRS_parses len).new]
        exact ⟨x1 ++ x2, junk, by simp, x1, x2, rr, ss, fr, fs, rfl, rfl, hr1, hr2, hr3, hr4⟩

theorem ecdsaSigAlg_noPanic (n : String) : ecdsaSigAlg n ≠ .panic := by
  unfold ecdsaSigAlg; split <;> (try split) <;> (try split) <;> simp

theorem rsaSigAlg_noPanic (n : String) : rsaSigAlg n ≠ .panic := by
  unfold rsaSigAlg; split <;> (try split) <;> (try split) <;> simp

theorem ed25519SigAlg_noPanic (n : String) : ed25519SigAlg n ≠ .panic := by
  unfold ed25519SigAlg; split <;> (try split) <;> simp

theorem verifySignature_noPanic (C : Crypto) (sig msg : Bytes) (k : PublicKey) :
    verifySignature C sig msg k ≠ .panic := by
  unfold verifySignature
  refine Rd.noPanic_bind readString_noPanic (fun n => Rd.noPanic_bind (Rd.noPanic_lift (fromName_noPanic n))
    fun st => ?_) _
  intro r
  split
  · simp
  · cases k.kind with
    | rsa e n =>
      exact Rd.noPanic_bind (Rd.noPanic_lift (rsaSigAlg_noPanic _)) (fun _ => Rd.noPanic_bind readBytes_noPanic
        fun _ => Rd.noPanic_bind (Rd.noPanic_lift (ringCheck_noPanic _)) fun _ => Rd.noPanic_pure _) r
    | ed25519 key app =>
      exact Rd.noPanic_bind (Rd.noPanic_lift (ed25519SigAlg_noPanic _)) (fun _ => Rd.noPanic_bind readBytes_noPanic
        fun _ => Rd.noPanic_bind (readSignedMessage_noPanic C app msg) fun _ =>
          Rd.noPanic_bind (Rd.noPanic_lift (ringCheck_noPanic _)) fun _ => Rd.noPanic_pure _) r
    | ecdsa c key app =>
      exact Rd.noPanic_bind readBytes_noPanic (fun _ => Rd.noPanic_bind (Rd.noPanic_lift (ecdsaSigAlg_noPanic _))
        fun al => Rd.noPanic_bind (Rd.noPanic_lift (readFixedRS_noPanic _ _)) fun _ =>
        Rd.noPanic_bind (readSignedMessage_noPanic C app msg) fun _ =>
          Rd.noPanic_bind (Rd.noPanic_lift (ringCheck_noPanic _)) fun _ => Rd.noPanic_pure _) r

end Ssh
