import Verif.Concrete.EdOrder
import Verif.Props.Together
import Verif.Props.Malleable

/-! # C150: a second signature from a first one -/

namespace Ssh

open Spec

theorem mpint_short {v x : Bytes} (h : Mpint v x) (hl : v.length ≤ 48) : x.length ≤ 53 := by
  obtain ⟨rfl, a2, _⟩ := mpint_eq h
  have := mpintPayload_length a2
  simp only [frameMpint, frame, u32, List.length_append, List.length_cons, List.length_nil]
  rw [this]
  split <;> omega

section
variable {E : Type} [AddCommGroup E]

/-- Turning the sign of the second number turns the sign of the point. -/
theorem ecdsa_negated (c : EcDomain E) (hx : ∀ P, c.coordX (-P) = c.coordX P) {Q : E} (hQ : c.order • Q = 0) {e r s : Nat}
    (h : EcdsaValid c Q e r s) : EcdsaValid c Q e r (c.order - s) := by
  obtain ⟨h1, h2, h3, h4, w, hw, h5, h6⟩ := h
  have hn := isPrime_iff.mp c.prime
  have hpos := hn.pos
  have hone : 1 % c.order = 1 := Nat.mod_eq_of_lt hn.one_lt
  obtain ⟨v, hv⟩ := inverse_exists c.prime (show 0 < c.order - s by omega) (show c.order - s < c.order by omega)
  have hsum : v + w ≡ 0 [MOD c.order] := by
    have e1 : s * w ≡ 1 [MOD c.order] := by rw [Nat.ModEq, hw, hone]
    have e2 : (c.order - s) * v ≡ 1 [MOD c.order] := by rw [Nat.ModEq, hv, hone]
    have e3 : (c.order - s) * v + s * v ≡ 0 [MOD c.order] := by
      rw [← Nat.add_mul, Nat.sub_add_cancel (Nat.le_of_lt h4)]
      exact (Nat.modEq_zero_iff_dvd.mpr (Dvd.intro _ rfl))
    have e4 : 1 + s * v ≡ 0 [MOD c.order] := (e2.symm.add_right _).trans e3
    have e5 : w * (1 + s * v) ≡ w + v [MOD c.order] := by
      calc w * (1 + s * v) = w + (s * w) * v := by ring
        _ ≡ w + 1 * v [MOD c.order] := (e1.mul_right _).add_left _
        _ = w + v := by ring
    have e6 : w * (1 + s * v) ≡ w * 0 [MOD c.order] := e4.mul_left _
    rw [Nat.add_comm]
    exact e5.symm.trans e6
  have neg : ∀ (P : E), c.order • P = 0 → ∀ a, (a * v % c.order) • P = -((a * w % c.order) • P) := by
    intro P hP a
    rw [nsmul_mod hP, nsmul_mod hP, eq_neg_iff_add_eq_zero, ← add_nsmul, ← Nat.mul_add]
    have : a * (v + w) ≡ 0 [MOD c.order] := hsum.mul_left a
    rw [nsmul_modEq hP this, zero_nsmul]
  have hX : (e * v % c.order) • c.base + (r * v % c.order) • Q =
      -((e * w % c.order) • c.base + (r * w % c.order) • Q) := by
    rw [neg _ c.cycle, neg _ hQ, neg_add]
  refine ⟨h1, h2, by omega, by omega, v, hv, ?_, ?_⟩
  · rw [hX]
    exact neg_ne_zero.mpr h5
  · rw [hX, hx]
    exact h6

/-- C150 (finding): from every accepted ECDSA signature anyone makes another one, with the second number subtracted from the
order of the base point; it is a different number.  The primitives are those of FIPS 186-5 on any curve where a point and its
negative have the same first coordinate. -/
theorem C150_ecdsa (C : Crypto) (alg : EcAlg) (c : EcDomain E) (hv : VerifiesEcdsa C alg c) (hn : c.order ≤ 256 ^ ecWidth alg)
    (hodd : 2 < c.order) (hx : ∀ P, c.coordX (-P) = c.coordX P) (k : PublicKey) (cu : Curve) (key : Bytes) (app : Option String)
    (hk : k.kind = .ecdsa cu key app) (d : Nat) (hd : c.decode key = some (d • c.base)) (label : String) (w1 r x1 s x2 junk w2 tail msg b : Bytes)
    (hl : (label, alg, ecWidth alg) ∈ ecdsaLabels) (ht : Text label w1) (hr : Mpint r x1) (hs : Mpint s x2)
    (hf : Frame (x1 ++ (x2 ++ junk)) w2) (h : verifySignature C (w1 ++ (w2 ++ tail)) msg k = .ok b) :
    ∃ s' x2' w2', Mpint s' x2' ∧ Frame (x1 ++ x2') w2' ∧ natOf s' + natOf s = c.order ∧ natOf s' ≠ natOf s ∧ 0 < natOf s ∧
      verifySignature C (w1 ++ (w2' ++ tail)) msg k = .ok (w1 ++ (w2' ++ tail)) := by
  obtain ⟨⟨label', v1, v2, v3, rest, he, ht', hb⟩, _⟩ := verifySignature_ok.mp h
  obtain ⟨rfl, rfl, he1⟩ := Reader.readString_parses.unique ht ht' he
  rw [hk] at hb
  obtain ⟨g1, alg', len, y1, y2, jk, r', t, fr, fs, m, g2, g3, g4, g5, g6, g7, g8, g9⟩ := hb
  cases ecdsaLabels_unique _ hl _ g2 rfl
  obtain ⟨e1, rfl, e2⟩ := Reader.readBytes_parses.unique hf g3 he1
  obtain ⟨rfl, rfl, e3⟩ := Reader.readPositiveMpint_parses.unique hr g4 e1
  obtain ⟨rfl, rfl, _⟩ := Reader.readPositiveMpint_parses.unique hs g5 e3
  obtain ⟨Q, nr, ns, fr', fs', q1, q2, q3, q4, q5⟩ := (hv _ _ _).mp g9
  obtain ⟨rfl, rfl⟩ := List.append_inj q2 (g6.1.trans q3.1.symm)
  rw [hd] at q1
  cases q1
  have hr' : natOf r = nr := g6.2.symm.trans q3.2
  have hs' : natOf s = ns := g7.2.symm.trans q4.2
  have hneg := ecdsa_negated c hx (Q := d • c.base) (by rw [← mul_nsmul, mul_comm, mul_nsmul, c.cycle, nsmul_zero]) q5
  obtain ⟨p1, p2, p3, p4, _⟩ := q5
  have hlt : c.order - ns < 256 ^ ecWidth alg := by omega
  have hsp := natBytes_spec (c.order - ns)
  have hval : natOf (natBytes (c.order - ns)) = c.order - ns := hsp.1.1
  have hsh : Shortest (natBytes (c.order - ns)) := hsp.2 (by omega)
  have hw : ecWidth alg ≤ 48 := by cases alg <;> decide
  have hlen : (natBytes (c.order - ns)).length ≤ ecWidth alg := shortest_length hsh (by rw [hval]; exact hlt)
  have hlenr : r.length ≤ ecWidth alg := shortest_length hr.1 (by rw [hr']; omega)
  obtain ⟨x2', hx2⟩ := fitsMpint_mpint.mp ⟨hsh, by split <;> omega⟩
  have l1 := mpint_short hr (by omega)
  have l2 := mpint_short hx2 (by omega)
  have hfr : Frame (x1 ++ x2') (frame (x1 ++ x2')) := Frame.of (by rw [List.length_append]; omega)
  refine ⟨natBytes (c.order - ns), x2', _, hx2, hfr, by rw [hval, hs']; omega, ?_, by omega, ?_⟩
  · rw [hval, hs']
    intro e
    have hdvd : 2 ∣ c.order := ⟨ns, by omega⟩
    rcases c.prime.2 2 hdvd with h2 | h2 <;> omega
  · refine verifySignature_ok.mpr ⟨⟨label, w1, _, v3, rest, by rw [e2], ht, ?_⟩, rfl⟩
    rw [hk]
    refine ⟨g1, alg, ecWidth alg, x1, x2', [], r, natBytes (c.order - ns), fr, beBytes (ecWidth alg) (c.order - ns), m, hl,
      by rw [List.append_nil]; exact hfr, hr, hx2, g6, ⟨beBytes_length _ _, ?_⟩, g8, ?_⟩
    · rw [natOf_beBytes, hval, Nat.mod_eq_of_lt hlt]
    · exact (hv _ _ _).mpr ⟨_, nr, c.order - ns, fr, _, hd, rfl, q3, ⟨beBytes_length _ _, by
        rw [natOf_beBytes, Nat.mod_eq_of_lt hlt]⟩, hneg⟩

/-- C150: the same for every accepted blob, if the key is none on the other curve. -/
theorem C150_blob (C : Crypto) (alg : EcAlg) (c : EcDomain E) (hv : VerifiesEcdsa C alg c) (hn : c.order ≤ 256 ^ ecWidth alg)
    (hodd : 2 < c.order) (hx : ∀ P, c.coordX (-P) = c.coordX P) (k : PublicKey) (cu : Curve) (key : Bytes) (app : Option String)
    (hk : k.kind = .ecdsa cu key app) (d : Nat) (hd : c.decode key = some (d • c.base))
    (hone : ∀ alg' m s, C.ecdsaVerify alg' key m s = true → alg' = alg) (sig msg b : Bytes) (h : verifySignature C sig msg k = .ok b) :
    ∃ r s s' sig', CarriesNumbers sig r s ∧ CarriesNumbers sig' r s' ∧ s' + s = c.order ∧ s' ≠ s ∧ sig'.length < 400 ∧
      verifySignature C sig' msg k = .ok sig' := by
  obtain ⟨⟨label, w1, w2, w3, rest, rfl, ht, hb⟩, _⟩ := verifySignature_ok.mp h
  have h0 := verifySignature_ok.mpr ⟨⟨label, w1, w2, w3, [], rfl, ht, hb⟩, rfl⟩
  rw [List.append_nil] at h0
  rw [hk] at hb
  obtain ⟨g1, alg', len, x1, x2, junk, r, s, fr, fs, m, g2, g3, g4, g5, g6, g7, g8, g9⟩ := hb
  cases hone _ _ _ g9
  have hlen : len = ecWidth alg := by
    simp only [ecdsaLabels, List.mem_cons, Prod.mk.injEq, List.not_mem_nil, or_false] at g2
    rcases g2 with ⟨_, rfl, rfl⟩ | ⟨_, rfl, rfl⟩ | ⟨_, rfl, rfl⟩ <;> rfl
  subst hlen
  obtain ⟨s', x2', w2', q1, q2, q3, q4, q0, q5⟩ := C150_ecdsa C alg c hv hn hodd hx k cu key app hk d hd label w1 r x1 s x2 junk w2 w3 msg _
    g2 ht g4 g5 g3 h0
  refine ⟨natOf r, natOf s, natOf s', _, ⟨label, w1, w2, _, x1, x2, junk, r, s, rfl, ht, g3, g4, g5, rfl, rfl⟩,
    ⟨label, w1, w2', _, x1, x2', [], r, s', rfl, ht, by rw [List.append_nil]; exact q2, g4, q1, rfl, rfl⟩, q3, q4, ?_, q5⟩
  have hw : ecWidth alg ≤ 48 := by cases alg <;> decide
  have hw' : (256 : Nat) ^ ecWidth alg ≤ 256 ^ 48 := Nat.pow_le_pow_right (by decide) hw
  have l1 := mpint_short g4 (shortest_length g4.1 (by
    have := natOf_lt fr
    rw [g6.1, g6.2] at this
    omega))
  have l2 := mpint_short q1 (shortest_length q1.1 (by omega))
  have hl := congrArg List.length q2.2
  have ht' := congrArg List.length ht.2
  have hs := ecdsaLabels_small _ g2
  have h3 : w3.length ≤ 5 := by
    cases app with
    | none => rw [g8.2]; decide
    | some a =>
      obtain ⟨f, n, rfl, _⟩ := g8
      rfl
  rw [← strBytes_length] at hs
  simp only [List.length_append, u32, List.length_cons, List.length_nil, strBytes] at hl ht' hs ⊢
  omega

/-- C150 (finding): so a certificate that an ECDSA authority signed has another accepted form with the same fields and another
number in its signature, even if nothing is appended anywhere (compare C99). -/
theorem C150_certificate (C : Crypto) (alg : EcAlg) (c : EcDomain E) (hv : VerifiesEcdsa C alg c) (hn : c.order ≤ 256 ^ ecWidth alg)
    (hodd : 2 < c.order) (hx : ∀ P, c.coordX (-P) = c.coordX P) (data : Bytes) (cert : Certificate) (cu : Curve) (key : Bytes) (app : Option String)
    (hk : cert.signatureKey.kind = .ecdsa cu key app) (d : Nat) (hd : c.decode key = some (d • c.base))
    (hone : ∀ alg' m s, C.ecdsaVerify alg' key m s = true → alg' = alg) (h : Certificate.fromBytes C data = .ok cert) :
    ∃ r s s' data' cert', CarriesNumbers cert.signature r s ∧ CarriesNumbers cert'.signature r s' ∧ s' + s = c.order ∧ s' ≠ s ∧
      Certificate.fromBytes C data' = .ok cert' ∧ SameFields cert' cert := by
  obtain ⟨w, wsig, rest, h1, h2, h3, h4, h5, _⟩ := certFromBytes_ok.mp h
  obtain ⟨r, s, s', sig', q1, q2, q3, q4, q5, q6⟩ := C150_blob C alg c hv hn hodd hx cert.signatureKey cu key app hk d hd hone cert.signature w _
    (verifySignature_ok.mpr ⟨h4, rfl⟩)
  exact ⟨r, s, s', w ++ (frame sig' ++ []), { cert with signature := sig', serialized := w ++ (frame sig' ++ []) }, q1, q2, q3, q4,
    certFromBytes_ok.mpr ⟨w, _, _, rfl, h2, Frame.of (b := sig') (by omega), (verifySignature_ok.mp q6).1, h5, rfl⟩, sameFields_of_eq rfl⟩

/-- C150 (finding): and a verified message signature has another verified form. -/
theorem C150_sshsig (C : Crypto) (alg : EcAlg) (c : EcDomain E) (hv : VerifiesEcdsa C alg c) (hn : c.order ≤ 256 ^ ecWidth alg)
    (hodd : 2 < c.order) (hx : ∀ P, c.coordX (-P) = c.coordX P) (sg : SshSignature) (cu : Curve) (key : Bytes) (app : Option String)
    (hk : sg.pubkey.kind = .ecdsa cu key app) (d : Nat) (hd : c.decode key = some (d • c.base))
    (hone : ∀ alg' m s, C.ecdsaVerify alg' key m s = true → alg' = alg) (msg : Bytes) (ns : String) (k : Option PublicKey)
    (v : VerifiedSshSignature) (h : VerifiedSshSignature.fromSshSignature C msg sg ns k = .ok v) :
    ∃ r s s' sig', CarriesNumbers sg.signature r s ∧ CarriesNumbers sig' r s' ∧ s' + s = c.order ∧ s' ≠ s ∧
      VerifiedSshSignature.fromSshSignature C msg { sg with signature := sig' } ns k = .ok ⟨{ sg with signature := sig' }, msg⟩ := by
  unfold VerifiedSshSignature.fromSshSignature at h ⊢
  split at h
  · cases h
  · rename_i h1
    split at h
    · cases h
    · rename_i h2
      split at h
      · rename_i b hb
        obtain ⟨r, s, s', sig', q1, q2, q3, q4, _, q6⟩ := C150_blob C alg c hv hn hodd hx sg.pubkey cu key app hk d hd hone sg.signature _ b hb
        refine ⟨r, s, s', sig', q1, q2, q3, q4, ?_⟩
        have e : SshSignature.toSignedFormat C { sg with signature := sig' } msg = sg.toSignedFormat C msg := rfl
        rw [if_neg h1, if_neg h2]
        simp only [e, q6]
      · cases h
      · cases h

/-- C150: an RSA key whose numbers are right accepts for a message, with each label, one string at most. -/
theorem C150_rsa (C : Crypto) (hv : PowersRsa C) (k : PublicKey) (e n : Bytes) (hk : k.kind = .rsa e n) (d p q qinv : Nat)
    (hn : RsaNumbers (natOf n) (natOf e) d p q qinv) (label : String) (w1 s s' w2 w2' tail tail' msg b b' : Bytes) (ht : Text label w1)
    (hf : Frame s w2) (hf' : Frame s' w2') (h : verifySignature C (w1 ++ (w2 ++ tail)) msg k = .ok b)
    (h' : verifySignature C (w1 ++ (w2' ++ tail')) msg k = .ok b') : s' = s ∧ w2' = w2 := by
  obtain ⟨em, hv⟩ := hv
  have key : ∀ {s w2 tail b : Bytes}, Frame s w2 → verifySignature C (w1 ++ (w2 ++ tail)) msg k = .ok b →
      ∃ alg, (label, alg) ∈ rsaLabels ∧ Octets (natOf n) s.length ∧ natOf s < natOf n ∧
        natOf s ^ natOf e % natOf n = em alg (natOf n) msg := by
    intro s w2 tail b hf h
    obtain ⟨⟨label', v1, v2, v3, rest, he, ht', hb⟩, _⟩ := verifySignature_ok.mp h
    obtain ⟨rfl, rfl, he1⟩ := Reader.readString_parses.unique ht ht' he
    rw [hk] at hb
    obtain ⟨_, _, alg, t, ha, hft, hvt⟩ := hb
    obtain ⟨rfl, rfl, _⟩ := Reader.readBytes_parses.unique hf hft he1
    exact ⟨alg, ha, hv _ _ _ _ _ hvt⟩
  obtain ⟨alg, a1, o1, u1, r1⟩ := key hf h
  obtain ⟨alg', a2, o2, u2, r2⟩ := key hf' h'
  have ha : alg = alg' := by
    have t : ∀ x ∈ rsaLabels, ∀ y ∈ rsaLabels, x.1 = y.1 → x = y := by decide +kernel
    exact (Prod.mk.inj (t _ a1 _ a2 rfl)).2
  subst ha
  have hn' : RsaNumbers (natOf n) d (natOf e) p q qinv :=
    { hn with inverseP := by rw [mul_comm]; exact hn.inverseP, inverseQ := by rw [mul_comm]; exact hn.inverseQ }
  have hj : s'.length = s.length := by
    obtain ⟨_, a2, a3⟩ := o1
    obtain ⟨_, b2, b3⟩ := o2
    have c1 := (Nat.pow_lt_pow_iff_right (a := 256) (by decide)).mp (Nat.lt_of_le_of_lt a2 b3)
    have c2 := (Nat.pow_lt_pow_iff_right (a := 256) (by decide)).mp (Nat.lt_of_le_of_lt b2 a3)
    omega
  have hs : s' = s := by
    apply natOf_inj hj
    rw [← rsa_undo hn' _ u1, ← rsa_undo hn' _ u2, r1, r2]
  subst hs
  exact ⟨rfl, hf'.2.trans hf.2.symm⟩

/-- C150: an Ed25519 key accepts for a message at most one second half with the same first half, written in one way. -/
theorem C150_ed25519 (C : Crypto) (c : EdDomain E) (hv : VerifiesEd25519 C c) (ho : ∀ j, j • c.base = 0 → c.order ∣ j) (k : PublicKey)
    (key : Bytes) (app : Option String) (hk : k.kind = .ed25519 key app) (w1 w1' R S S' w2 w2' tail msg b b' : Bytes)
    (label label' : String) (ht : Text label w1) (ht' : Text label' w1') (hR : R.length = 32) (hf : Frame (R ++ S) w2)
    (hf' : Frame (R ++ S') w2') (h : verifySignature C (w1 ++ (w2 ++ tail)) msg k = .ok b)
    (h' : verifySignature C (w1' ++ (w2' ++ tail)) msg k = .ok b') : S' = S := by
  have step : ∀ {w1 S w2 b : Bytes} {label : String}, Text label w1 → Frame (R ++ S) w2 → verifySignature C (w1 ++ (w2 ++ tail)) msg k = .ok b →
      ∃ m w3 rest, tail = w3 ++ rest ∧ PrimitiveMessage C app msg m w3 ∧ EdValid C c key m (R ++ S) := by
    intro w1 S w2 b label ht hf h
    obtain ⟨⟨label', v1, v2, v3, rest, he, ht', hb⟩, _⟩ := verifySignature_ok.mp h
    obtain ⟨rfl, rfl, he1⟩ := Reader.readString_parses.unique ht ht' he
    rw [hk] at hb
    obtain ⟨_, t, m, _, hft, hm, hvt⟩ := hb
    obtain ⟨rfl, rfl, e2⟩ := Reader.readBytes_parses.unique hf hft he1
    exact ⟨m, v3, rest, e2, hm, (hv _ _ _).mp hvt⟩
  obtain ⟨m, w3, rest, t1, pm, A, R1, S1, a1, a2, a3, a4, a5, a6⟩ := step ht hf h
  obtain ⟨m', w3', rest', t2, pm', A', R2, S2, b1, b2, b3, b4, b5, b6⟩ := step ht' hf' h'
  obtain ⟨rfl, rfl⟩ := List.append_inj a4 (hR.trans a2.symm)
  obtain ⟨rfl, rfl⟩ := List.append_inj b4 (hR.trans b2.symm)
  have hm : m = m' := by
    cases app with
    | none => exact pm.1.trans pm'.1.symm
    | some a =>
      obtain ⟨f, n, rfl, rfl⟩ := pm
      obtain ⟨f', n', rfl, rfl⟩ := pm'
      have := t1.symm.trans t2
      simp only [u32, List.cons_append, List.nil_append, List.cons.injEq] at this
      obtain ⟨rfl, q1, q2, q3, q4, _⟩ := this
      rw [show u32 n.toNat = u32 n'.toNat by simp only [u32, q1, q2, q3, q4]]
  subst hm
  rw [a1] at b1
  cases b1
  have hw : c.written (littleEndian S • c.base - (littleEndian (C.sha512 (R ++ (key ++ m))) % c.order) • A) =
      c.written (littleEndian S' • c.base - (littleEndian (C.sha512 (R ++ (key ++ m))) % c.order) • A) := a6.symm.trans b6
  have hp := congrArg c.decode hw
  rw [c.decode_written, c.decode_written, Option.some.injEq, sub_left_inj] at hp
  have main : ∀ x y, x ≤ y → y < c.order → x • c.base = y • c.base → x = y := by
    intro x y hxy hy hp
    have : (y - x) • c.base = 0 := by
      rw [← Nat.sub_add_cancel hxy, add_nsmul] at hp
      exact right_eq_add.mp hp
    have := Nat.eq_zero_of_dvd_of_lt (ho _ this) (by omega)
    omega
  have hval : littleEndian S = littleEndian S' := by
    rcases Nat.le_total (littleEndian S) (littleEndian S') with hle | hle
    · exact main _ _ hle b5 hp
    · exact (main _ _ hle a5 hp.symm).symm
  exact List.reverse_injective (natOf_inj (by simp [a3, b3]) hval.symm)

end

/-! ### With the primitives computed in the model -/

section
variable {c : Concrete.EcCurve} [hp : Fact c.p.Prime]

omit hp in
theorem coordX_neg (P : (Concrete.curve c.p c.b).Point) : Concrete.coordX (-P) = Concrete.coordX P := by
  cases P with
  | zero => rfl
  | some x y h => rfl

theorem decode_length (g : Concrete.EcGood c) {b : Bytes} {Q : (Concrete.curve c.p c.b).Point} (h : g.domain.decode b = some Q) :
    b.length = 2 * c.len + 1 := by
  obtain ⟨P, hP, _⟩ := g.decode_iff.mp h
  unfold Concrete.ecDecode at hP
  split at hP
  · split at hP
    · cases hP
    · rename_i t hl
      rw [List.length_cons, Decidable.not_not.mp hl]
  · cases hP

end

variable (table : List ((String × Bytes × UInt32) × (Bytes × Bytes)))

theorem one_curve {key : Bytes} {alg alg' : EcAlg} {m s : Bytes} (h : key.length = 2 * ecWidth alg + 1)
    (h' : (Concrete.realCrypto table).ecdsaVerify alg' key m s = true) : alg' = alg := by
  have h2 : key.length = 2 * ecWidth alg' + 1 := by
    cases alg' with
    | p256 =>
      obtain ⟨Q, _, _, _, _, hQ, _⟩ := (Concrete.p256_verifies table _ _ _).mp h'
      exact decode_length Concrete.p256_good hQ
    | p384 =>
      obtain ⟨Q, _, _, _, _, hQ, _⟩ := (Concrete.p384_verifies table _ _ _).mp h'
      exact decode_length Concrete.p384_good hQ
  rw [h] at h2
  cases alg <;> cases alg' <;> first | rfl | exact absurd h2 (by decide)

/-- C150 for P-256, whose primitives are computed: every signature and every certificate that a key with a secret accepts
has a second one, with another number. -/
theorem C150_p256 (key : Bytes) (d : Nat) (hd : Concrete.p256_good.domain.decode key = some (d • Concrete.p256_good.domain.base)) :
    (∀ k cu app sig msg b, k.kind = .ecdsa cu key app → verifySignature (Concrete.realCrypto table) sig msg k = .ok b →
      ∃ r s s' sig', CarriesNumbers sig r s ∧ CarriesNumbers sig' r s' ∧ s' + s = Concrete.p256.n ∧ s' ≠ s ∧
        verifySignature (Concrete.realCrypto table) sig' msg k = .ok sig') ∧
    ∀ data cert cu app, cert.signatureKey.kind = .ecdsa cu key app → Certificate.fromBytes (Concrete.realCrypto table) data = .ok cert →
      ∃ r s s' data' cert', CarriesNumbers cert.signature r s ∧ CarriesNumbers cert'.signature r s' ∧ s' + s = Concrete.p256.n ∧ s' ≠ s ∧
        Certificate.fromBytes (Concrete.realCrypto table) data' = .ok cert' ∧ SameFields cert' cert := by
  have hone : ∀ alg' m s, (Concrete.realCrypto table).ecdsaVerify alg' key m s = true → alg' = .p256 := fun _ _ _ =>
    one_curve table (decode_length Concrete.p256_good hd)
  refine ⟨fun k cu app sig msg b hk h => ?_, fun data cert cu app hk h => ?_⟩
  · obtain ⟨r, s, s', sig', h1, h2, h3, h4, _, h5⟩ := C150_blob _ .p256 Concrete.p256_good.domain (Concrete.p256_verifies table) p256_width
      Concrete.p256_good.three coordX_neg k cu key app hk d hd hone sig msg b h
    exact ⟨r, s, s', sig', h1, h2, h3, h4, h5⟩
  · exact C150_certificate _ .p256 Concrete.p256_good.domain (Concrete.p256_verifies table) p256_width
      Concrete.p256_good.three coordX_neg data cert cu key app hk d hd hone h

/-- C150 for P-384. -/
theorem C150_p384 (key : Bytes) (d : Nat) (hd : Concrete.p384_good.domain.decode key = some (d • Concrete.p384_good.domain.base)) :
    (∀ k cu app sig msg b, k.kind = .ecdsa cu key app → verifySignature (Concrete.realCrypto table) sig msg k = .ok b →
      ∃ r s s' sig', CarriesNumbers sig r s ∧ CarriesNumbers sig' r s' ∧ s' + s = Concrete.p384.n ∧ s' ≠ s ∧
        verifySignature (Concrete.realCrypto table) sig' msg k = .ok sig') ∧
    ∀ data cert cu app, cert.signatureKey.kind = .ecdsa cu key app → Certificate.fromBytes (Concrete.realCrypto table) data = .ok cert →
      ∃ r s s' data' cert', CarriesNumbers cert.signature r s ∧ CarriesNumbers cert'.signature r s' ∧ s' + s = Concrete.p384.n ∧ s' ≠ s ∧
        Certificate.fromBytes (Concrete.realCrypto table) data' = .ok cert' ∧ SameFields cert' cert := by
  have hone : ∀ alg' m s, (Concrete.realCrypto table).ecdsaVerify alg' key m s = true → alg' = .p384 := fun _ _ _ =>
    one_curve table (decode_length Concrete.p384_good hd)
  refine ⟨fun k cu app sig msg b hk h => ?_, fun data cert cu app hk h => ?_⟩
  · obtain ⟨r, s, s', sig', h1, h2, h3, h4, _, h5⟩ := C150_blob _ .p384 Concrete.p384_good.domain (Concrete.p384_verifies table) Concrete.p384_width
      Concrete.p384_good.three coordX_neg k cu key app hk d hd hone sig msg b h
    exact ⟨r, s, s', sig', h1, h2, h3, h4, h5⟩
  · exact C150_certificate _ .p384 Concrete.p384_good.domain (Concrete.p384_verifies table) Concrete.p384_width
      Concrete.p384_good.three coordX_neg data cert cu key app hk d hd hone h

/-- The P-256 key of RFC 6979 signs every message, and its public half accepts a second signature. -/
example (F : Features) (D : FidoDev) (msg : Bytes) : ∃ sig r s s' sig', rfcEcPriv.sign F (Concrete.realCrypto []) D msg = .ok (some sig) ∧
    CarriesNumbers sig r s ∧ CarriesNumbers sig' r s' ∧ s' + s = Concrete.p256.n ∧ s' ≠ s ∧
    verifySignature (Concrete.realCrypto []) sig' msg rfcEcPriv.pubkey = .ok sig' := by
  obtain ⟨h1, _, h3⟩ := C146_ecdsa F (Concrete.realCrypto []) D .p256 Concrete.p256_good.domain (Concrete.p256_signs []) (Concrete.p256_verifies [])
    p256_width rfcEcPriv _ _ _ _ rfl rfl (by decide) (by decide) rfl rfl (ecPair_ne rfcEc_pair) msg
  obtain ⟨sig, hs⟩ := h1.mpr rfcEc_pair
  obtain ⟨d, _, _, _, _, _, hd⟩ := rfcEc_pair
  obtain ⟨r, s, s', sig', q⟩ := (C150_p256 [] _ d hd).1 rfcEcPriv.pubkey _ _ sig msg _ rfl (h3 sig hs)
  exact ⟨sig, r, s, s', sig', hs, q⟩

/-- That key issues a certificate, which has a second form. -/
example (D : FidoDev) : ∃ data cert data' cert' r s s', Certificate.fromBytes (Concrete.realCrypto []) data = .ok cert ∧ cert.principals = ["b"] ∧
    Certificate.fromBytes (Concrete.realCrypto []) data' = .ok cert' ∧ SameFields cert' cert ∧ CarriesNumbers cert.signature r s ∧
    CarriesNumbers cert'.signature r s' ∧ s' ≠ s := by
  obtain ⟨t, ht⟩ := rfcEc_file
  obtain ⟨c0, h0, h⟩ := (C148_read [] ⟨true, true, .none⟩ D none t rfcEcPriv rfl ht (.p256 _ _ _ rfl rfl rfl rfcEc_pair)).2 (Vector.replicate 32 1)
    (Vector.replicate 8 2) sampleEd .user [.principal "b"] sampleEd_wf (by simp [BuilderCall.Valid])
  have e0 : Certificate.builder (some (Vector.replicate 32 1)) (some (Vector.replicate 8 2)) sampleEd .user rfcEcPriv.pubkey =
      .ok (okOf sampleCert (Certificate.builder (some (Vector.replicate 32 1)) (some (Vector.replicate 8 2)) sampleEd .user rfcEcPriv.pubkey)) :=
    okOf_eq (by decide +kernel)
  have ec := Res.ok.inj (h0.symm.trans e0)
  have hp : (runCalls c0 [.principal "b"]).principals = ["b"] := by rw [ec]; decide +kernel
  have ek : (runCalls c0 [.principal "b"]).signatureKey = rfcEcPriv.pubkey := by rw [ec]; decide +kernel
  have hfit : CertFits (runCalls c0 [.principal "b"]) := by
    refine ⟨by rw [ec]; decide +kernel, by rw [ec]; decide +kernel, by rw [ec]; decide +kernel, by rw [ec]; decide +kernel,
      by rw [ec]; decide +kernel, fun b hb => ?_⟩
    have e : rfcEcPriv.pubkey.encode = .ok (okOf [] rfcEcPriv.pubkey.encode) := okOf_eq (d := []) (by decide +kernel)
    rw [ek, e] at hb
    rw [← Res.ok.inj hb]
    decide +kernel
  obtain ⟨c', _, c'', h2, h3, _⟩ := h hfit _ _ (List.Perm.refl _) (List.Perm.refl _)
  obtain ⟨_, _, _, blob, cert, _, _, _, _, _, hb, _, hc⟩ := (certFromString_iff ..).mp h2
  obtain ⟨d, _, _, _, _, _, hd⟩ := rfcEc_pair
  have hcp : cert.principals = ["b"] := by
    have := h3.2.2.2.2.2.2.2.1.trans hp
    rw [hc] at this
    exact this
  have hck : cert.signatureKey.kind = rfcEcPriv.pubkey.kind := by
    have := h3.2.2.2.2.2.2.2.2.2.2.2.2.2
    rw [hc, ek] at this
    exact this
  obtain ⟨r, s, s', data', cert', q1, q2, _, q4, q5, q6⟩ := (C150_p256 [] _ d hd).2 blob cert _ _ hck hb
  exact ⟨blob, cert, data', cert', r, s, s', hb, hcp, q5, q6, q1, q2, q4⟩

/-- The RSA key of C145: its signature of a message is the only one. -/
example (F : Features) (D : FidoDev) (hF : F.rsaSigning = true) (msg : Bytes) : ∃ s,
    mersennePriv.sign F (Concrete.realCrypto []) D msg = .ok (some (text "rsa-sha2-512" ++ str s)) ∧
    ∀ s' tail b, s'.length < 4294967296 →
      verifySignature (Concrete.realCrypto []) (text "rsa-sha2-512" ++ (str s' ++ tail)) msg mersennePriv.pubkey = .ok b → s' = s := by
  obtain ⟨t, h⟩ := mersenne_file
  have hw := C93_wellFormed _ _ _ _ _ h
  obtain ⟨s, h1, h2, h3⟩ := rsa_signature F (Concrete.realCrypto []) D _ _ (Concrete.rsa_signs []) (Concrete.rsa_verifies []) mersennePriv _ hF hw rfl
    mersenne_numbers (Nat.le_trans (Nat.pow_le_pow_right (by decide) (by decide)) mersenne_supported.1) mersenne_supported msg
  refine ⟨s, h1, fun s' tail b hl h' => ?_⟩
  have hs : s.length < 4294967296 := Nat.lt_of_le_of_lt h2 (by decide +kernel)
  exact (C150_rsa (Concrete.realCrypto []) (Concrete.rsa_powers []) mersennePriv.pubkey _ _ rfl _ _ _ _ mersenne_numbers _ (text "rsa-sha2-512") s s' _ _ [] tail msg
    _ b ⟨by decide +kernel, rfl⟩ ⟨hs, rfl⟩ ⟨hl, rfl⟩ (by rw [List.append_nil]; exact h3) h').1

/-- The two halves of the signature in the first test of RFC 8032. -/
def rfcHalf : Bytes := [0xe5, 0x56, 0x43, 0x00, 0xc3, 0x60, 0xac, 0x72, 0x90, 0x86, 0xe2, 0xcc, 0x80, 0x6e, 0x82, 0x8a, 0x84, 0x87, 0x7f, 0x1e, 0xb8,
  0xe5, 0xd9, 0x74, 0xd8, 0x73, 0xe0, 0x65, 0x22, 0x49, 0x01, 0x55]

def rfcOther : Bytes := [0x5f, 0xb8, 0x82, 0x15, 0x90, 0xa3, 0x3b, 0xac, 0xc6, 0x1e, 0x39, 0x70, 0x1c, 0xf9, 0xb4, 0x6b, 0xd2, 0x5b, 0xf5, 0xf0, 0x59,
  0x5b, 0xbe, 0x24, 0x65, 0x51, 0x41, 0x43, 0x8e, 0x7a, 0x10, 0x0b]

/-- The key of that test: whatever it accepts for the message with the same first half is this signature. -/
example : verifySignature (Concrete.realCrypto []) (text "ssh-ed25519" ++ str (rfcHalf ++ rfcOther)) [] rfcEdKey =
      .ok (text "ssh-ed25519" ++ str (rfcHalf ++ rfcOther)) ∧
    ∀ S b, S.length < 4294967000 → verifySignature (Concrete.realCrypto []) (text "ssh-ed25519" ++ str (rfcHalf ++ S)) [] rfcEdKey = .ok b →
      S = rfcOther := by
  have h : verifySignature (Concrete.realCrypto []) (text "ssh-ed25519" ++ str (rfcHalf ++ rfcOther)) [] rfcEdKey =
      .ok (text "ssh-ed25519" ++ str (rfcHalf ++ rfcOther)) := by decide +kernel
  refine ⟨h, fun S b hl h' => ?_⟩
  have ht : Text "ssh-ed25519" (text "ssh-ed25519") := ⟨by decide +kernel, rfl⟩
  exact C150_ed25519 (Concrete.realCrypto []) Concrete.edDomain (Concrete.ed_verifies []) Concrete.ed_order rfcEdKey _ _ rfl _ _ rfcHalf rfcOther S
    _ _ [] [] _ b _ _ ht ht rfl ⟨by decide +kernel, rfl⟩ ⟨by rw [List.length_append, show rfcHalf.length = 32 from rfl]; omega, rfl⟩
    (by rw [List.append_nil]; exact h) (by rw [List.append_nil]; exact h')

end Ssh
