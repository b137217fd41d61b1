import Verif.Props.SecondSignatures

/-! # C151: one signature for two messages -/

namespace Ssh

open Spec

section
variable {E : Type} [AddCommGroup E]

/-! ### ECDSA -/

theorem half_exists {n : Nat} (hn : IsPrime n) {a : Nat} (ha : ¬ n ∣ a) (x : Nat) : ∃ y, y < n ∧ a * y ≡ x [MOD n] := by
  have hp := isPrime_iff.mp hn
  obtain ⟨w, hw⟩ := Nat.exists_mul_mod_eq_one_of_coprime ((Nat.Prime.coprime_iff_not_dvd hp).mpr ha).symm hp.one_lt
  refine ⟨w * x % n, Nat.mod_lt _ hp.pos, ?_⟩
  have e1 : a * w ≡ 1 [MOD n] := by rw [Nat.ModEq, hw.2, Nat.mod_eq_of_lt hp.one_lt]
  calc a * (w * x % n) ≡ a * (w * x) [MOD n] := (Nat.mod_modEq _ _).mul_left _
    _ = a * w * x := by ring
    _ ≡ 1 * x [MOD n] := e1.mul_right _
    _ = x := by ring

/-- For two hashes a secret and one signature that is valid for both. -/
theorem ecdsa_two (c : EcDomain E) (hodd : 2 < c.order) (hx : ∀ P, c.coordX (-P) = c.coordX P) (hr : c.coordX c.base % c.order ≠ 0) {e e' : Nat}
    (h1 : ¬ e ≡ e' [MOD c.order]) (h2 : ¬ c.order ∣ e + e') :
    ∃ d r s, 0 < d ∧ d < c.order ∧ EcdsaValid c (d • c.base) e r s ∧ EcdsaValid c (d • c.base) e' r s := by
  have hp := isPrime_iff.mp c.prime
  have hpos := hp.pos
  have hone : 1 % c.order = 1 := Nat.mod_eq_of_lt hp.one_lt
  have two : ¬ c.order ∣ 2 := fun h => absurd (Nat.le_of_dvd (by decide) h) (by omega)
  generalize hrv : c.coordX c.base % c.order = r at hr
  have hrn : r < c.order := by rw [← hrv]; exact Nat.mod_lt _ hpos
  have hr0 : ¬ c.order ∣ r := fun h => absurd (Nat.le_of_dvd (Nat.pos_of_ne_zero hr) h) (by omega)
  -- 2 s = e - e' and 2 r d = - (e + e')
  obtain ⟨s, hsn, hs⟩ := half_exists c.prime two (e + (c.order - e' % c.order))
  obtain ⟨d, hdn, hd⟩ := half_exists c.prime (a := 2 * r) (by
    rw [hp.dvd_mul]; exact fun h => h.elim two hr0) (c.order - (e + e') % c.order)
  have hneg : ∀ x, c.order - x % c.order + x ≡ 0 [MOD c.order] := by
    intro x
    have := Nat.mod_lt x hpos
    calc c.order - x % c.order + x ≡ c.order - x % c.order + x % c.order [MOD c.order] := (Nat.mod_modEq _ _).symm.add_left _
      _ = c.order := by omega
      _ ≡ 0 [MOD c.order] := by rw [Nat.ModEq, Nat.mod_self, Nat.zero_mod]
  have hs' : 2 * s + e' ≡ e [MOD c.order] := by
    calc 2 * s + e' ≡ (e + (c.order - e' % c.order)) + e' [MOD c.order] := hs.add_right _
      _ = e + (c.order - e' % c.order + e') := by ring
      _ ≡ e + 0 [MOD c.order] := (hneg e').add_left _
      _ = e := by ring
  have hd' : 2 * r * d + (e + e') ≡ 0 [MOD c.order] := (hd.add_right _).trans (hneg _)
  have cancel : ∀ {a b : Nat}, 2 * a ≡ 2 * b [MOD c.order] → a ≡ b [MOD c.order] := fun h =>
    Nat.ModEq.cancel_left_of_coprime (by
      have := (Nat.Prime.coprime_iff_not_dvd hp).mpr two
      exact this) h
  have k1 : e + r * d ≡ s [MOD c.order] := by
    apply cancel
    refine Nat.ModEq.add_right_cancel' e' ?_
    calc 2 * (e + r * d) + e' = (2 * r * d + (e + e')) + e := by ring
      _ ≡ 0 + e [MOD c.order] := hd'.add_right _
      _ = e := by ring
      _ ≡ 2 * s + e' [MOD c.order] := hs'.symm
  have k2 : e' + r * d + s ≡ 0 [MOD c.order] := by
    apply cancel
    calc 2 * (e' + r * d + s) = 2 * r * d + e' + (2 * s + e') := by ring
      _ ≡ 2 * r * d + e' + e [MOD c.order] := hs'.add_left _
      _ = 2 * r * d + (e + e') := by ring
      _ ≡ 2 * 0 [MOD c.order] := hd'
  have hs0 : 0 < s := by
    apply Nat.pos_of_ne_zero
    rintro rfl
    exact h1 (by simpa using hs'.symm)
  have hd0 : 0 < d := by
    apply Nat.pos_of_ne_zero
    rintro rfl
    exact h2 (Nat.modEq_zero_iff_dvd.mp (by simpa using hd'))
  obtain ⟨w, hw⟩ := inverse_exists c.prime hs0 hsn
  have hw' : s * w ≡ 1 [MOD c.order] := by rw [Nat.ModEq, hw, hone]
  have point : ∀ x, (x * w % c.order) • c.base + (r * w % c.order) • d • c.base = ((x + r * d) * w) • c.base := by
    intro x
    rw [nsmul_mod c.cycle, ← mul_nsmul, ← add_nsmul]
    refine nsmul_modEq c.cycle ?_
    calc x * w + d * (r * w % c.order) ≡ x * w + d * (r * w) [MOD c.order] := ((Nat.mod_modEq _ _).mul_left _).add_left _
      _ = (x + r * d) * w := by ring
  have p1 : (e * w % c.order) • c.base + (r * w % c.order) • d • c.base = c.base := by
    rw [point]
    have : (e + r * d) * w ≡ 1 [MOD c.order] := (k1.mul_right w).trans hw'
    rw [nsmul_modEq c.cycle this, one_nsmul]
  have p2 : (e' * w % c.order) • c.base + (r * w % c.order) • d • c.base = -c.base := by
    rw [point, eq_neg_iff_add_eq_zero]
    have : (e' + r * d) * w + 1 ≡ 0 [MOD c.order] := by
      calc (e' + r * d) * w + 1 ≡ (e' + r * d) * w + s * w [MOD c.order] := hw'.symm.add_left _
        _ = (e' + r * d + s) * w := by ring
        _ ≡ 0 * w [MOD c.order] := k2.mul_right _
        _ = 0 := by ring
    have := nsmul_modEq c.cycle this
    rw [add_nsmul, one_nsmul, zero_nsmul] at this
    exact this
  refine ⟨d, r, s, hd0, hdn, ⟨Nat.pos_of_ne_zero hr, hrn, hs0, hsn, w, hw, ?_, ?_⟩, ⟨Nat.pos_of_ne_zero hr, hrn, hs0, hsn, w, hw, ?_, ?_⟩⟩
  · rw [p1]; exact c.nontrivial
  · rw [p1]; exact hrv
  · rw [p2]; exact neg_ne_zero.mpr c.nontrivial
  · rw [p2, hx]; exact hrv

/-- C151 (finding): for two messages with different hashes there is a secret, and one signature blob that its public key
accepts for both. -/
theorem C151_ecdsa (C : Crypto) (alg : EcAlg) (c : EcDomain E) (hv : VerifiesEcdsa C alg c) (hn : c.order ≤ 256 ^ ecWidth alg)
    (hodd : 2 < c.order) (hx : ∀ P, c.coordX (-P) = c.coordX P) (hr : c.coordX c.base % c.order ≠ 0) (m m' : Bytes)
    (h1 : ecdsaHash C alg m % c.order ≠ ecdsaHash C alg m' % c.order) (h2 : ¬ c.order ∣ ecdsaHash C alg m + ecdsaHash C alg m') :
    ∃ d sig, 0 < d ∧ d < c.order ∧ ∀ k cu key, k.kind = .ecdsa cu key none → k.keyType.kind = .ecdsa → c.decode key = some (d • c.base) →
      verifySignature C sig m k = .ok sig ∧ verifySignature C sig m' k = .ok sig := by
  obtain ⟨d, r, s, d0, dn, v1, v2⟩ := ecdsa_two c hodd hx hr h1 h2
  obtain ⟨label, hl⟩ : ∃ label, (label, alg, ecWidth alg) ∈ ecdsaLabels := by
    cases alg
    · exact ⟨"ecdsa-sha2-nistp256", by decide⟩
    · exact ⟨"ecdsa-sha2-nistp384", by decide⟩
  have hw : ecWidth alg ≤ 48 := by cases alg <;> decide
  have num : ∀ x, 0 < x → x < c.order → ∃ v w, Mpint v w ∧ natOf v = x ∧ w.length ≤ 53 ∧ FixedWidth (ecWidth alg) v (beBytes (ecWidth alg) x) ∧
      NatWidth (ecWidth alg) x (beBytes (ecWidth alg) x) := by
    intro x h0 hx
    have hsp := natBytes_spec x
    have hval : natOf (natBytes x) = x := hsp.1.1
    have hsh := hsp.2 (by omega)
    have hlt : x < 256 ^ ecWidth alg := by omega
    have hlen := shortest_length hsh (by rw [hval]; exact hlt)
    obtain ⟨w, hw'⟩ := fitsMpint_mpint.mp ⟨hsh, by split <;> omega⟩
    have hb : natOf (beBytes (ecWidth alg) x) = x := by rw [natOf_beBytes, Nat.mod_eq_of_lt hlt]
    exact ⟨_, w, hw', hval, mpint_short hw' (by omega), ⟨beBytes_length _ _, by rw [hb, hval]⟩, ⟨beBytes_length _ _, hb⟩⟩
  obtain ⟨rv, rw', r1, r2, r3, r4, r5⟩ := num r v1.1 v1.2.1
  obtain ⟨sv, sw, s1, s2, s3, s4, s5⟩ := num s v1.2.2.1 v1.2.2.2.1
  have hf : Frame (rw' ++ (sw ++ [])) (frame (rw' ++ (sw ++ []))) := Frame.of (by simp only [List.length_append, List.length_nil]; omega)
  have ht : Text label (text label) := Text.of (by rw [strBytes_length]; have := ecdsaLabels_small _ hl; simp at this; omega)
  refine ⟨d, text label ++ frame (rw' ++ (sw ++ [])), d0, dn, fun k cu key hk hkt hd => ?_⟩
  have acc : ∀ msg, EcdsaValid c (d • c.base) (ecdsaHash C alg msg) r s →
      verifySignature C (text label ++ frame (rw' ++ (sw ++ []))) msg k = .ok (text label ++ frame (rw' ++ (sw ++ []))) := by
    intro msg hval
    refine verifySignature_ok.mpr ⟨⟨label, text label, frame (rw' ++ (sw ++ [])), [], [], by rw [List.append_nil, List.append_nil, List.append_nil], ht, ?_⟩, rfl⟩
    rw [hk]
    exact ⟨hkt, alg, ecWidth alg, rw', sw, [], rv, sv, _, _, msg, hl, hf, r1, s1, r4, s4, ⟨rfl, rfl⟩,
      (hv _ _ _).mpr ⟨_, r, s, _, _, hd, rfl, r5, s5, hval⟩⟩
  exact ⟨acc m v1, acc m' v2⟩

/-- C151 (finding): so there is one message signature that is verified for two documents. -/
theorem C151_sshsig (C : Crypto) (alg : EcAlg) (c : EcDomain E) (hv : VerifiesEcdsa C alg c) (hn : c.order ≤ 256 ^ ecWidth alg)
    (hodd : 2 < c.order) (hx : ∀ P, c.coordX (-P) = c.coordX P) (hr : c.coordX c.base % c.order ≠ 0) (doc doc' : Bytes) (ns : String)
    (hash : HashAlgorithm)
    (h1 : ecdsaHash C alg (signedData C ns hash doc) % c.order ≠ ecdsaHash C alg (signedData C ns hash doc') % c.order)
    (h2 : ¬ c.order ∣ ecdsaHash C alg (signedData C ns hash doc) + ecdsaHash C alg (signedData C ns hash doc')) :
    ∃ d sig, 0 < d ∧ d < c.order ∧ ∀ k cu key, k.kind = .ecdsa cu key none → k.keyType.kind = .ecdsa → c.decode key = some (d • c.base) →
      VerifiedSshSignature.fromSshSignature C doc ⟨k, ns, hash, sig⟩ ns (some k) = .ok ⟨⟨k, ns, hash, sig⟩, doc⟩ ∧
      VerifiedSshSignature.fromSshSignature C doc' ⟨k, ns, hash, sig⟩ ns (some k) = .ok ⟨⟨k, ns, hash, sig⟩, doc'⟩ := by
  obtain ⟨d, sig, d0, dn, h⟩ := C151_ecdsa C alg c hv hn hodd hx hr _ _ h1 h2
  refine ⟨d, sig, d0, dn, fun k cu key hk hkt hd => ?_⟩
  obtain ⟨a1, a2⟩ := h k cu key hk hkt hd
  exact ⟨(C35_exact ..).mpr ⟨rfl, fun _ e => Option.some.inj e, ((C21_accepts ..).mp a1).1, rfl⟩,
    (C35_exact ..).mpr ⟨rfl, fun _ e => Option.some.inj e, ((C21_accepts ..).mp a2).1, rfl⟩⟩

/-! ### Ed25519 -/

/-- C151 (finding): the encoding of the neutral element is taken as an Ed25519 key, and it accepts one signature for every
message. -/
theorem C151_weak (C : Crypto) (c : EdDomain E) (hv : VerifiesEd25519 C c) (k : PublicKey) (app : Option String)
    (hk : k.kind = .ed25519 (c.written 0) app) (hkt : k.keyType.kind = .ed25519) (msg w3 : Bytes)
    (hw : (app = none ∧ w3 = []) ∨ (app ≠ none ∧ w3.length = 5)) :
    verifySignature C (text "ssh-ed25519" ++ (str (c.written 0 ++ List.replicate 32 0) ++ w3)) msg k =
      .ok (text "ssh-ed25519" ++ (str (c.written 0 ++ List.replicate 32 0) ++ w3)) := by
  have hz : littleEndian (List.replicate 32 0) = 0 := by decide +kernel
  have hvalid : ∀ m, EdValid C c (c.written 0) m (c.written 0 ++ List.replicate 32 0) := fun m =>
    ⟨0, _, _, c.decode_written 0, c.written_length 0, rfl, rfl, by rw [hz]; exact c.positive, by rw [hz, zero_nsmul, nsmul_zero, sub_zero]⟩
  have hf : Frame (c.written 0 ++ List.replicate 32 0) (str (c.written 0 ++ List.replicate 32 0)) :=
    ⟨by rw [List.length_append, c.written_length, List.length_replicate]; decide, rfl⟩
  obtain ⟨m, hm⟩ : ∃ m, PrimitiveMessage C app msg m w3 := by
    cases app with
    | none => exact ⟨msg, rfl, (hw.resolve_right (fun h => h.1 rfl)).2⟩
    | some a =>
      have hl := (hw.resolve_left (fun h => by cases h.1)).2
      match w3, hl with
      | [f, a1, a2, a3, a4], _ =>
        obtain ⟨n, hn⟩ : ∃ n : UInt32, u32 n.toNat = [a1, a2, a3, a4] :=
          ⟨UInt32.ofNat (natOf [a1, a2, a3, a4]), by rw [u32_ofNat, u32_natOf rfl]⟩
        exact ⟨_, f, n, by rw [hn]; rfl, rfl⟩
  refine verifySignature_ok.mpr ⟨⟨"ssh-ed25519", text "ssh-ed25519", str (c.written 0 ++ List.replicate 32 0), w3, [], by rw [List.append_nil],
    ⟨by decide +kernel, rfl⟩, ?_⟩, rfl⟩
  rw [hk]
  exact ⟨hkt, _, m, by decide, hf, hm, (hv _ _ _).mpr (hvalid m)⟩

/-- C151 (finding): everybody issues certificates in its name, for any contents, and they are read. -/
theorem C151_weak_certificate (C : Crypto) (c : EdDomain E) (hv : VerifiesEd25519 C c) (cert : Certificate) (hw : WellFormedCert cert)
    (hk : cert.signatureKey.kind = .ed25519 (c.written 0) none) (hkt : cert.signatureKey.keyType.kind = .ed25519) :
    ∃ c', cert.sign C (fun _ => .ok (some (text "ssh-ed25519" ++ str (c.written 0 ++ List.replicate 32 0)))) = .ok c' ∧
      ∃ c'', Certificate.fromBytes C c'.serialized = .ok c'' ∧ SameContent c'' cert := by
  obtain ⟨p, pc, tbs, _, _, _, _, ht, _⟩ := tbs_wellFormed hw
  have h := C151_weak C c hv cert.signatureKey none hk hkt tbs [] (.inl ⟨rfl, rfl⟩)
  rw [List.append_nil] at h
  have ha := ((C21_accepts ..).mp h).1
  refine ⟨_, (C28_sign ..).mpr ⟨tbs, _, ht, rfl, ha, rfl⟩, ?_⟩
  obtain ⟨c'', g1, g2, _⟩ := signed_parses hw ht ha (by
    simp only [List.length_append, str, u32, List.length_cons, List.length_nil, c.written_length, List.length_replicate]
    decide +kernel) []
  rw [List.append_nil] at g1
  exact ⟨c'', g1, g2⟩

/-- C151 (finding): and message signatures in its name, for any document. -/
theorem C151_weak_sshsig (C : Crypto) (c : EdDomain E) (hv : VerifiesEd25519 C c) (k : PublicKey) (hk : k.kind = .ed25519 (c.written 0) none)
    (hkt : k.keyType.kind = .ed25519) (doc : Bytes) (ns : String) (hash : HashAlgorithm) :
    VerifiedSshSignature.fromSshSignature C doc ⟨k, ns, hash, text "ssh-ed25519" ++ str (c.written 0 ++ List.replicate 32 0)⟩ ns (some k) =
      .ok ⟨⟨k, ns, hash, text "ssh-ed25519" ++ str (c.written 0 ++ List.replicate 32 0)⟩, doc⟩ := by
  have h := C151_weak C c hv k none hk hkt (signedData C ns hash doc) [] (.inl ⟨rfl, rfl⟩)
  rw [List.append_nil] at h
  exact (C35_exact ..).mpr ⟨rfl, fun _ e => Option.some.inj e, ((C21_accepts ..).mp h).1, rfl⟩

/-- C151: no seed has this key. -/
theorem C151_seeds (C : Crypto) (c : EdDomain E) (ho : ∀ j, j • c.base = 0 → c.order ∣ j) (hodd : Nat.Coprime 8 c.order) (hbig : 2 ^ 252 ≤ c.order)
    (seed : Bytes) : edPublic C c seed ≠ c.written 0 := by
  intro h
  have h := congrArg c.decode h
  unfold edPublic at h
  rw [c.decode_written, c.decode_written, Option.some.injEq] at h
  have hd := ho _ h
  have h8 : 8 ∣ edScalar C seed := by
    unfold edScalar
    exact Nat.dvd_add (by decide) (Dvd.intro_left _ rfl)
  have := Nat.Coprime.mul_dvd_of_dvd_of_dvd hodd h8 hd
  have hpos : 0 < edScalar C seed := by unfold edScalar; omega
  have hle := Nat.le_of_dvd hpos this
  have hlt : edScalar C seed < 2 ^ 255 := by
    unfold edScalar
    have := Nat.mod_lt (littleEndian ((C.sha512 seed).take 32)) (show 0 < 2 ^ 254 by decide)
    omega
  omega

/-- C151: a key made from a seed accepts a signature for two messages only if their hashes collide modulo the order. -/
theorem C151_ed25519 (C : Crypto) (c : EdDomain E) (hv : VerifiesEd25519 C c) (hp : IsPrime c.order) (ho : ∀ j, j • c.base = 0 → c.order ∣ j)
    (hodd : Nat.Coprime 8 c.order) (hbig : 2 ^ 252 ≤ c.order) (seed : Bytes) (k : PublicKey) (hk : k.kind = .ed25519 (edPublic C c seed) none)
    (sig m m' b b' : Bytes) (h : verifySignature C sig m k = .ok b) (h' : verifySignature C sig m' k = .ok b') :
    ∃ label w1 w2 rest R S, sig = w1 ++ (w2 ++ rest) ∧ Text label w1 ∧ Frame (R ++ S) w2 ∧ R.length = 32 ∧
      littleEndian (C.sha512 (R ++ (edPublic C c seed ++ m))) % c.order = littleEndian (C.sha512 (R ++ (edPublic C c seed ++ m'))) % c.order := by
  obtain ⟨⟨label, w1, w2, w3, rest, rfl, ht, hb⟩, _⟩ := verifySignature_ok.mp h
  obtain ⟨⟨label', v1, v2, v3, rest', he, ht', hb'⟩, _⟩ := verifySignature_ok.mp h'
  obtain ⟨rfl, rfl, he1⟩ := Reader.readString_parses.unique ht ht' he
  rw [hk] at hb hb'
  obtain ⟨_, s, x, _, hf, hm, hs⟩ := hb
  obtain ⟨_, s', x', _, hf', hm', hs'⟩ := hb'
  obtain ⟨rfl, rfl, _⟩ := Reader.readBytes_parses.unique hf hf' he1
  obtain ⟨e1, _⟩ := hm
  obtain ⟨e2, _⟩ := hm'
  rw [e1] at hs
  rw [e2] at hs'
  obtain ⟨A, R, S, a1, a2, a3, rfl, a5, a6⟩ := (hv _ _ _).mp hs
  obtain ⟨A', R', S', b1, b2, b3, b4, b5, b6⟩ := (hv _ _ _).mp hs'
  obtain ⟨rfl, rfl⟩ := List.append_inj b4 (a2.trans b2.symm)
  refine ⟨label, w1, w2, w3 ++ rest, R, S, rfl, ht, hf, a2, ?_⟩
  have hA : A = edScalar C seed • c.base := Option.some.inj (a1.symm.trans (c.decode_written _))
  rw [a1] at b1
  cases b1
  have hw := congrArg c.decode (a6.symm.trans b6)
  rw [c.decode_written, c.decode_written, Option.some.injEq, sub_right_inj, hA, ← mul_nsmul, ← mul_nsmul] at hw
  have hA0 : ¬ c.order ∣ edScalar C seed := by
    intro hd
    apply C151_seeds C c ho hodd hbig seed
    unfold edPublic
    obtain ⟨t, ht⟩ := hd
    rw [ht, mul_nsmul, c.cycle, nsmul_zero]
  have key : ∀ x y, x ≤ y → y < c.order → (edScalar C seed * x) • c.base = (edScalar C seed * y) • c.base → x = y := by
    intro x y hxy hy hp'
    have hz : (edScalar C seed * (y - x)) • c.base = 0 := by
      rw [show edScalar C seed * y = edScalar C seed * (y - x) + edScalar C seed * x by rw [← Nat.mul_add, Nat.sub_add_cancel hxy], add_nsmul] at hp'
      exact right_eq_add.mp hp'
    have := ((isPrime_iff.mp hp).dvd_mul.mp (ho _ hz)).resolve_left hA0
    have := Nat.eq_zero_of_dvd_of_lt this (by omega)
    omega
  rcases Nat.le_total (littleEndian (C.sha512 (R ++ (edPublic C c seed ++ m))) % c.order)
    (littleEndian (C.sha512 (R ++ (edPublic C c seed ++ m'))) % c.order) with hle | hle
  · exact key _ _ hle (Nat.mod_lt _ c.positive) hw
  · exact (key _ _ hle (Nat.mod_lt _ c.positive) hw.symm).symm

/-! ### RSA -/

/-- The encoded message determines the hash. -/
theorem emsa_inj {C : Crypto} {m m' : Bytes} {k : Nat} {em : Bytes} (h : Emsa C m k em) (h' : Emsa C m' k em) : C.sha512 m = C.sha512 m' := by
  obtain ⟨_, ps, _, e⟩ := h
  obtain ⟨_, ps', _, e'⟩ := h'
  have key : ∀ (a b : Nat) (x y : Bytes), List.replicate a (0xff : UInt8) ++ 0x00 :: x = List.replicate b 0xff ++ 0x00 :: y → x = y := by
    intro a
    induction a with
    | zero =>
      intro b x y hxy
      cases b with
      | zero => simpa using hxy
      | succ b => simp [List.replicate_succ] at hxy
    | succ a ih =>
      intro b x y hxy
      cases b with
      | zero => simp [List.replicate_succ] at hxy
      | succ b =>
        rw [List.replicate_succ, List.replicate_succ, List.cons_append, List.cons_append] at hxy
        exact ih b x y (List.cons.inj hxy).2
  exact List.append_cancel_left (key _ _ _ _ (List.append_cancel_left (e.symm.trans e')))

/-- C151: an RSA key accepts a signature with the SHA-512 label for two messages only if their hashes are equal. -/
theorem C151_rsa (C : Crypto) (supported : Nat → Nat → Prop) (hv : VerifiesRsa C supported) (k : PublicKey) (e n : Bytes)
    (hk : k.kind = .rsa e n) (w1 rest m m' b b' : Bytes) (ht : Text "rsa-sha2-512" w1) (h : verifySignature C (w1 ++ rest) m k = .ok b)
    (h' : verifySignature C (w1 ++ rest) m' k = .ok b') : C.sha512 m = C.sha512 m' := by
  have key : ∀ {x b : Bytes}, verifySignature C (w1 ++ rest) x k = .ok b →
      ∃ w2 s tail em, Frame s w2 ∧ rest = w2 ++ tail ∧ Emsa C x s.length em ∧ natOf s ^ natOf e % natOf n = natOf em := by
    intro x b h
    obtain ⟨⟨label', v1, v2, v3, rest', he, ht', hb⟩, _⟩ := verifySignature_ok.mp h
    obtain ⟨rfl, rfl, he1⟩ := Reader.readString_parses.unique ht ht' he
    rw [hk] at hb
    obtain ⟨_, _, alg, t, ha, hft, hvt⟩ := hb
    have halg : alg = .sha512 := by
      have t : ∀ y ∈ rsaLabels, y.1 = "rsa-sha2-512" → y.2 = .sha512 := by decide +kernel
      exact t _ ha rfl
    subst halg
    obtain ⟨_, j, em, o1, o2, o3, o4, o5⟩ := (hv _ _ _ _).mp hvt
    subst o3
    exact ⟨_, t, _, em, hft, he1, o2, o5⟩
  obtain ⟨w2, s, tail, em, a1, a2, a3, a4⟩ := key h
  obtain ⟨w2', s', tail', em', b1, b2, b3, b4⟩ := key h'
  obtain ⟨rfl, rfl, _⟩ := Reader.readBytes_parses.unique a1 b1 (a2.symm.trans b2)
  have : em = em' := natOf_inj (a3.1.trans b3.1.symm) (a4.symm.trans b4)
  subst this
  exact emsa_inj a3 b3

end

/-! ### With the primitives computed in the model -/

theorem base_coordX {c : Concrete.EcCurve} [Fact c.p.Prime] (g : Concrete.EcGood c) (hl : 1 < 2 ^ (8 * c.len)) :
    g.domain.coordX g.domain.base % g.domain.order ≠ 0 := by
  have h := g.mulBase_rep hl
  rw [one_nsmul] at h
  have e := Concrete.coordX_rep h g.domain.nontrivial
  exact fun h0 => g.first (by rw [e]; exact h0)

variable (table : List ((String × Bytes × UInt32) × (Bytes × Bytes)))

/-- C151 for P-256, whose primitives are computed: for two messages with different hashes, a key and one signature. -/
theorem C151_p256 (m m' : Bytes) (h1 : natOf (Concrete.sha256 m) % Concrete.p256.n ≠ natOf (Concrete.sha256 m') % Concrete.p256.n)
    (h2 : (natOf (Concrete.sha256 m) + natOf (Concrete.sha256 m')) % Concrete.p256.n ≠ 0) :
    ∃ d key sig, 0 < d ∧ d < Concrete.p256.n ∧ Concrete.p256_good.domain.decode key = some (d • Concrete.p256_good.domain.base) ∧
      ∀ k cu, k.kind = .ecdsa cu key none → k.keyType.kind = .ecdsa →
        verifySignature (Concrete.realCrypto table) sig m k = .ok sig ∧ verifySignature (Concrete.realCrypto table) sig m' k = .ok sig := by
  obtain ⟨d, sig, d0, dn, h⟩ := C151_ecdsa (Concrete.realCrypto table) .p256 Concrete.p256_good.domain (Concrete.p256_verifies table) p256_width
    Concrete.p256_good.three coordX_neg (base_coordX _ (by decide)) m m' h1 (fun hd => h2 (Nat.mod_eq_zero_of_dvd hd))
  have hk := Concrete.p256_good.domain.decode_written _ (Concrete.p256_good.multiple_ne d0 dn)
  exact ⟨d, _, sig, d0, dn, hk, fun k cu h3 h4 => h k cu _ h3 h4 hk⟩

/-- C151 for P-384. -/
theorem C151_p384 (m m' : Bytes) (h1 : natOf (Concrete.sha384 m) % Concrete.p384.n ≠ natOf (Concrete.sha384 m') % Concrete.p384.n)
    (h2 : (natOf (Concrete.sha384 m) + natOf (Concrete.sha384 m')) % Concrete.p384.n ≠ 0) :
    ∃ d key sig, 0 < d ∧ d < Concrete.p384.n ∧ Concrete.p384_good.domain.decode key = some (d • Concrete.p384_good.domain.base) ∧
      ∀ k cu, k.kind = .ecdsa cu key none → k.keyType.kind = .ecdsa →
        verifySignature (Concrete.realCrypto table) sig m k = .ok sig ∧ verifySignature (Concrete.realCrypto table) sig m' k = .ok sig := by
  obtain ⟨d, sig, d0, dn, h⟩ := C151_ecdsa (Concrete.realCrypto table) .p384 Concrete.p384_good.domain (Concrete.p384_verifies table) Concrete.p384_width
    Concrete.p384_good.three coordX_neg (base_coordX _ (Nat.one_lt_two_pow (by decide))) m m' h1 (fun hd => h2 (Nat.mod_eq_zero_of_dvd hd))
  have hk := Concrete.p384_good.domain.decode_written _ (Concrete.p384_good.multiple_ne d0 dn)
  exact ⟨d, _, sig, d0, dn, hk, fun k cu h3 h4 => h k cu _ h3 h4 hk⟩

/-- Two orders of payment have a P-256 key, which `PublicKey::from_bytes` would read, and one signature for both. -/
example : ∃ key sig,
    WellFormedKey ⟨⟨"ecdsa-sha2-nistp256", "ecdsa-sha2-nistp256", "ECDSA", false, false, .ecdsa⟩, .ecdsa ⟨.nistp256, "nistp256"⟩ key none, none⟩ ∧
    ∀ m ∈ [strBytes "pay 1", strBytes "pay 1000000"],
      verifySignature (Concrete.realCrypto []) sig m
        ⟨⟨"ecdsa-sha2-nistp256", "ecdsa-sha2-nistp256", "ECDSA", false, false, .ecdsa⟩, .ecdsa ⟨.nistp256, "nistp256"⟩ key none, none⟩ = .ok sig := by
  obtain ⟨d, key, sig, _, _, hd, h⟩ := C151_p256 [] (strBytes "pay 1") (strBytes "pay 1000000") (by decide +kernel) (by decide +kernel)
  obtain ⟨h1, h2⟩ := h ⟨⟨"ecdsa-sha2-nistp256", "ecdsa-sha2-nistp256", "ECDSA", false, false, .ecdsa⟩,
    .ecdsa ⟨.nistp256, "nistp256"⟩ key none, none⟩ _ rfl rfl
  refine ⟨key, sig, ⟨(by decide : (⟨"ecdsa-sha2-nistp256", "ecdsa-sha2-nistp256", "ECDSA", false, false, .ecdsa⟩ : KeyType) ∈ keyTypes), rfl,
    (by decide : (⟨.nistp256, "nistp256"⟩ : Curve) ∈ curves), ?_, rfl⟩, fun m hm => ?_⟩
  · rw [decode_length Concrete.p256_good hd]
    decide
  · rcases List.mem_cons.mp hm with rfl | hm
    · exact h1
    · rw [List.mem_singleton.mp hm]
      exact h2

/-- The same on P-384. -/
example : ∃ key sig, ∀ m ∈ [strBytes "pay 1", strBytes "pay 1000000"],
      verifySignature (Concrete.realCrypto []) sig m
        ⟨⟨"ecdsa-sha2-nistp384", "ecdsa-sha2-nistp384", "ECDSA", false, false, .ecdsa⟩, .ecdsa ⟨.nistp384, "nistp384"⟩ key none, none⟩ = .ok sig := by
  obtain ⟨d, key, sig, _, _, hd, h⟩ := C151_p384 [] (strBytes "pay 1") (strBytes "pay 1000000") (by decide +kernel) (by decide +kernel)
  obtain ⟨h1, h2⟩ := h ⟨⟨"ecdsa-sha2-nistp384", "ecdsa-sha2-nistp384", "ECDSA", false, false, .ecdsa⟩,
    .ecdsa ⟨.nistp384, "nistp384"⟩ key none, none⟩ _ rfl rfl
  refine ⟨key, sig, fun m hm => ?_⟩
  rcases List.mem_cons.mp hm with rfl | hm
  · exact h1
  · rw [List.mem_singleton.mp hm]
    exact h2

/-- The two orders as documents: one message signature for both. -/
example : ∃ d sig, 0 < d ∧ d < Concrete.p256.n ∧ ∀ k cu key, k.kind = .ecdsa cu key none → k.keyType.kind = .ecdsa →
    Concrete.p256_good.domain.decode key = some (d • Concrete.p256_good.domain.base) → ∀ doc ∈ [strBytes "pay 1", strBytes "pay 1000000"],
      VerifiedSshSignature.fromSshSignature (Concrete.realCrypto []) doc ⟨k, "file", .sha512, sig⟩ "file" (some k) =
        .ok ⟨⟨k, "file", .sha512, sig⟩, doc⟩ := by
  have gen : ∀ a b, natOf (Concrete.sha256 a) % Concrete.p256.n ≠ natOf (Concrete.sha256 b) % Concrete.p256.n →
      ecdsaHash (Concrete.realCrypto []) .p256 a % Concrete.p256_good.domain.order ≠
        ecdsaHash (Concrete.realCrypto []) .p256 b % Concrete.p256_good.domain.order := fun _ _ h => h
  have gen' : ∀ a b, ¬ Concrete.p256.n ∣ natOf (Concrete.sha256 a) + natOf (Concrete.sha256 b) →
      ¬ Concrete.p256_good.domain.order ∣ ecdsaHash (Concrete.realCrypto []) .p256 a + ecdsaHash (Concrete.realCrypto []) .p256 b := fun _ _ h => h
  obtain ⟨d, sig, d0, dn, h⟩ := C151_sshsig (Concrete.realCrypto []) .p256 Concrete.p256_good.domain (Concrete.p256_verifies []) p256_width
    Concrete.p256_good.three coordX_neg (base_coordX _ (by decide)) (strBytes "pay 1") (strBytes "pay 1000000") "file" .sha512
    (gen _ _ (by decide +kernel)) (gen' _ _ (by decide +kernel))
  refine ⟨d, sig, d0, dn, fun k cu key h1 h2 h3 doc hm => ?_⟩
  obtain ⟨a1, a2⟩ := h k cu key h1 h2 h3
  rcases List.mem_cons.mp hm with rfl | hm
  · exact a1
  · rw [List.mem_singleton.mp hm]
    exact a2

/-- The encoding of the neutral element of edwards25519. -/
def weakKey : Bytes := 1 :: List.replicate 31 0

theorem weakKey_eq : Concrete.edDomain.written 0 = weakKey := by
  decide +kernel

/-- A certificate of the weak key for `root`. -/
def weakCert : Certificate := { sampleCert with signatureKey := ⟨sampleEd.keyType, .ed25519 weakKey none, none⟩ }

/-- Everybody issues it, without a secret. -/
example : ∃ c c', weakCert.sign (Concrete.realCrypto []) (fun _ => .ok (some (text "ssh-ed25519" ++ str (weakKey ++ List.replicate 32 0)))) = .ok c ∧
    Certificate.fromBytes (Concrete.realCrypto []) c.serialized = .ok c' ∧ c'.principals = ["root", "me"] := by
  have h := C151_weak_certificate (Concrete.realCrypto []) Concrete.edDomain (Concrete.ed_verifies []) weakCert ?_ ?_ rfl
  · rw [weakKey_eq] at h
    obtain ⟨c, h1, c', h2, h3⟩ := h
    exact ⟨c, c', h1, h2, h3.2.2.2.2.2.2.2.1⟩
  · refine ⟨by decide +kernel, rfl, rfl, sampleEd_wf, ⟨by decide +kernel, rfl, by decide, rfl⟩, by decide +kernel, by decide +kernel, by decide, by decide,
      by decide +kernel, by decide +kernel, by decide +kernel, fun b hb => ?_⟩
    have e : weakCert.signatureKey.encode = .ok (okOf [] weakCert.signatureKey.encode) := okOf_eq (d := []) (by decide +kernel)
    rw [e] at hb
    rw [← Res.ok.inj hb]
    decide +kernel
  · rw [weakKey_eq]; rfl

/-- And signs every document. -/
example (doc : Bytes) (ns : String) (hash : HashAlgorithm) :
    VerifiedSshSignature.fromSshSignature (Concrete.realCrypto []) doc
      ⟨weakCert.signatureKey, ns, hash, text "ssh-ed25519" ++ str (weakKey ++ List.replicate 32 0)⟩ ns (some weakCert.signatureKey) =
        .ok ⟨⟨weakCert.signatureKey, ns, hash, text "ssh-ed25519" ++ str (weakKey ++ List.replicate 32 0)⟩, doc⟩ := by
  have h := C151_weak_sshsig (Concrete.realCrypto []) Concrete.edDomain (Concrete.ed_verifies []) weakCert.signatureKey (by rw [weakKey_eq]; rfl) rfl
    doc ns hash
  rw [weakKey_eq] at h
  exact h

/-- Also for a hardware key, with any flags and any counter. -/
example (msg : Bytes) : verifySignature (Concrete.realCrypto []) (text "ssh-ed25519" ++ (str (weakKey ++ List.replicate 32 0) ++ [0, 0, 0, 0, 0])) msg
    ⟨⟨"sk-ssh-ed25519@openssh.com", "sk-ssh-ed25519@openssh.com", "ED25519-SK", false, true, .ed25519⟩, .ed25519 weakKey (some "ssh:"), none⟩ =
      .ok (text "ssh-ed25519" ++ (str (weakKey ++ List.replicate 32 0) ++ [0, 0, 0, 0, 0])) := by
  rw [← weakKey_eq]
  exact C151_weak (Concrete.realCrypto []) Concrete.edDomain (Concrete.ed_verifies []) _ (some "ssh:") rfl rfl msg _ (.inr ⟨by decide, rfl⟩)

/-- No private key file made from a seed has it. -/
example (seed : Bytes) : edPublic (Concrete.realCrypto []) Concrete.edDomain seed ≠ weakKey := by
  rw [← weakKey_eq]
  exact C151_seeds _ _ Concrete.ed_order (by decide +kernel) (by decide +kernel) seed

/-- The signature in the first test of RFC 8032 is not accepted for another message. -/
example (b : Bytes) : verifySignature (Concrete.realCrypto []) (text "ssh-ed25519" ++ str (rfcHalf ++ rfcOther)) [1] rfcEdKey ≠ .ok b := by
  intro h
  have e : edPublic (Concrete.realCrypto []) Concrete.edDomain rfcSeed.toList = rfcEdPublic :=
    ((Concrete.ed_public [] rfcSeed.toList rfcEdPublic).mp (by decide +kernel)).2.symm
  have h0 : verifySignature (Concrete.realCrypto []) (text "ssh-ed25519" ++ str (rfcHalf ++ rfcOther)) [] rfcEdKey =
      .ok (text "ssh-ed25519" ++ str (rfcHalf ++ rfcOther)) := by decide +kernel
  obtain ⟨label, w1, w2, rest, R, S, q1, q2, q3, q4, q5⟩ := C151_ed25519 (Concrete.realCrypto []) Concrete.edDomain (Concrete.ed_verifies [])
    (isPrime_iff.mpr Concrete.edL_prime) Concrete.ed_order (by decide +kernel) (by decide +kernel) rfcSeed.toList rfcEdKey (by rw [e]; rfl) _ _ _ _ _ h0 h
  obtain ⟨_, rfl, q6⟩ := Reader.readString_parses.unique (⟨by decide +kernel, rfl⟩ : Text "ssh-ed25519" (text "ssh-ed25519")) q2 q1
  obtain ⟨q7, _, _⟩ := Reader.readBytes_parses.unique (⟨by decide +kernel, rfl⟩ : Frame (rfcHalf ++ rfcOther) (str (rfcHalf ++ rfcOther))) q3
    (by rw [List.append_nil]; exact q6)
  obtain ⟨rfl, _⟩ := List.append_inj q7 (by rw [q4]; rfl)
  rw [e] at q5
  have gen : ∀ a b, littleEndian ((Concrete.realCrypto []).sha512 a) % Concrete.edDomain.order =
      littleEndian ((Concrete.realCrypto []).sha512 b) % Concrete.edDomain.order →
      littleEndian (Concrete.sha512 a) % Concrete.edL = littleEndian (Concrete.sha512 b) % Concrete.edL := fun _ _ h => h
  exact absurd (gen _ _ q5) (by decide +kernel)

/-- The RSA key of C145: its signature of a message is accepted only for messages with that hash. -/
example (F : Features) (D : FidoDev) (hF : F.rsaSigning = true) (msg : Bytes) : ∃ sig,
    mersennePriv.sign F (Concrete.realCrypto []) D msg = .ok (some sig) ∧
    ∀ m b, verifySignature (Concrete.realCrypto []) sig m mersennePriv.pubkey = .ok b → Concrete.sha512 msg = Concrete.sha512 m := by
  obtain ⟨t, h⟩ := mersenne_file
  have hw := C93_wellFormed _ _ _ _ _ h
  obtain ⟨s, h1, h2, h3⟩ := rsa_signature F (Concrete.realCrypto []) D _ _ (Concrete.rsa_signs []) (Concrete.rsa_verifies []) mersennePriv _ hF hw rfl
    mersenne_numbers (Nat.le_trans (Nat.pow_le_pow_right (by decide) (by decide)) mersenne_supported.1) mersenne_supported msg
  exact ⟨_, h1, fun m b hm => C151_rsa (Concrete.realCrypto []) _ (Concrete.rsa_verifies []) mersennePriv.pubkey _ _ rfl (text "rsa-sha2-512") _ msg m
    _ b ⟨by decide +kernel, rfl⟩ h3 hm⟩

end Ssh
