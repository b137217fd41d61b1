import Verif.Props.TwoMessages

/-! # C152: a signature does not determine its key -/

namespace Ssh

open Spec

section
variable {E : Type} [AddCommGroup E]

/-- A signature that is valid for one secret is valid for another one, which makes the opposite point. -/
theorem ecdsa_other (c : EcDomain E) (hodd : 2 < c.order) (hx : ∀ P, c.coordX (-P) = c.coordX P) {d e r s : Nat}
    (h : EcdsaValid c (d • c.base) e r s) (h0 : ¬ c.order ∣ r * d + 2 * e) :
    ∃ d', 0 < d' ∧ d' < c.order ∧ d' • c.base ≠ d • c.base ∧ EcdsaValid c (d' • c.base) e r s := by
  obtain ⟨h1, h2, h3, h4, w, hw, h5, h6⟩ := h
  have hp := isPrime_iff.mp c.prime
  have hpos := hp.pos
  have hr0 : ¬ c.order ∣ r := fun h => absurd (Nat.le_of_dvd h1 h) (by omega)
  obtain ⟨d', hdn, hd⟩ := half_exists c.prime hr0 (c.order - (r * d + 2 * e) % c.order)
  have hsum : (e + r * d') + (e + r * d) ≡ 0 [MOD c.order] := by
    have hlt := Nat.mod_lt (r * d + 2 * e) hpos
    calc (e + r * d') + (e + r * d) = r * d' + (r * d + 2 * e) := by ring
      _ ≡ (c.order - (r * d + 2 * e) % c.order) + (r * d + 2 * e) [MOD c.order] := hd.add_right _
      _ ≡ (c.order - (r * d + 2 * e) % c.order) + (r * d + 2 * e) % c.order [MOD c.order] := (Nat.mod_modEq _ _).symm.add_left _
      _ = c.order := by omega
      _ ≡ 0 [MOD c.order] := by rw [Nat.ModEq, Nat.mod_self, Nat.zero_mod]
  have hd0 : 0 < d' := by
    apply Nat.pos_of_ne_zero
    rintro rfl
    refine h0 (Nat.modEq_zero_iff_dvd.mp ?_)
    calc r * d + 2 * e = (e + r * 0) + (e + r * d) := by ring
      _ ≡ 0 [MOD c.order] := hsum
  have point : ∀ x, (e * w % c.order) • c.base + (r * w % c.order) • x • c.base = ((e + r * x) * w) • c.base := by
    intro x
    have hQ : c.order • x • c.base = 0 := by rw [← mul_nsmul, mul_comm, mul_nsmul, c.cycle, nsmul_zero]
    rw [nsmul_mod c.cycle, nsmul_mod hQ, ← mul_nsmul, ← add_nsmul]
    congr 1
    ring
  have hneg : ((e + r * d') * w) • c.base = -(((e + r * d) * w) • c.base) := by
    rw [eq_neg_iff_add_eq_zero, ← add_nsmul, ← Nat.add_mul]
    have : ((e + r * d') + (e + r * d)) * w ≡ 0 [MOD c.order] := by
      have := hsum.mul_right w
      rwa [Nat.zero_mul] at this
    rw [nsmul_modEq c.cycle this, zero_nsmul]
  refine ⟨d', hd0, hdn, ?_, h1, h2, h3, h4, w, hw, ?_, ?_⟩
  · intro he
    have e1 := point d'
    rw [he, hneg] at e1
    rw [e1] at h5
    rw [point d] at e1
    have two : 2 • (((e + r * d) * w) • c.base) = 0 := by
      rw [two_nsmul]
      nth_rewrite 2 [e1]
      exact add_neg_cancel _
    have hc : c.order • (((e + r * d) * w) • c.base) = 0 := by rw [← mul_nsmul, mul_comm, mul_nsmul, c.cycle, nsmul_zero]
    have hmod : c.order % 2 = 1 := by
      rcases hp.eq_two_or_odd with h2 | h2 <;> omega
    have : ((e + r * d) * w) • c.base = 0 := by
      rw [← Nat.div_add_mod c.order 2, hmod, add_nsmul, mul_nsmul, two, nsmul_zero, zero_add, one_nsmul] at hc
      exact hc
    rw [this, neg_zero] at h5
    exact h5 rfl
  · rw [point d', hneg, ← point d]
    exact neg_ne_zero.mpr h5
  · rw [point d', hneg, ← point d, hx]
    exact h6

/-- C152 (finding): a blob that the key of one secret accepts for a message is accepted for that message by the key of
another secret. -/
theorem C152_ecdsa (C : Crypto) (alg : EcAlg) (c : EcDomain E) (hv : VerifiesEcdsa C alg c) (hodd : 2 < c.order)
    (hx : ∀ P, c.coordX (-P) = c.coordX P) (k : PublicKey) (cu : Curve) (key : Bytes) (hk : k.kind = .ecdsa cu key none) (d : Nat)
    (hd : c.decode key = some (d • c.base)) (hone : ∀ alg' m s, C.ecdsaVerify alg' key m s = true → alg' = alg) (sig msg b : Bytes)
    (r s : Nat) (hc : CarriesNumbers sig r s) (h0 : ¬ c.order ∣ r * d + 2 * ecdsaHash C alg msg) (h : verifySignature C sig msg k = .ok b) :
    ∃ d', 0 < d' ∧ d' < c.order ∧ d' • c.base ≠ d • c.base ∧
      ∀ k' cu' key', k'.kind = .ecdsa cu' key' none → k'.keyType.kind = .ecdsa → c.decode key' = some (d' • c.base) →
        verifySignature C sig msg k' = .ok sig := by
  obtain ⟨label, w1, w2, tail, x1, x2, junk, rb, sb, rfl, ht, hf, hr, hs, rfl, rfl⟩ := hc
  obtain ⟨⟨label', v1, v2, v3, rest, he, ht', hb⟩, _⟩ := verifySignature_ok.mp h
  obtain ⟨rfl, rfl, he1⟩ := Reader.readString_parses.unique ht ht' he
  rw [hk] at hb
  obtain ⟨g1, alg', len, y1, y2, jk, r', t, fr, fs, m, g2, g3, g4, g5, g6, g7, g8, g9⟩ := hb
  cases hone _ _ _ g9
  obtain ⟨e1, rfl, e2⟩ := Reader.readBytes_parses.unique hf g3 he1
  obtain ⟨rfl, rfl, e3⟩ := Reader.readPositiveMpint_parses.unique hr g4 e1
  obtain ⟨rfl, rfl, _⟩ := Reader.readPositiveMpint_parses.unique hs g5 e3
  obtain ⟨Q, nr, ns, fr', fs', q1, q2, q3, q4, q5⟩ := (hv _ _ _).mp g9
  have hlen : len = ecWidth alg := by
    simp only [ecdsaLabels, List.mem_cons, Prod.mk.injEq, List.not_mem_nil, or_false] at g2
    rcases g2 with ⟨_, rfl, rfl⟩ | ⟨_, rfl, rfl⟩ | ⟨_, rfl, rfl⟩ <;> rfl
  subst hlen
  obtain ⟨rfl, rfl⟩ := List.append_inj q2 (g6.1.trans q3.1.symm)
  rw [hd] at q1
  cases q1
  have hr' : natOf rb = nr := g6.2.symm.trans q3.2
  have hm : m = msg := g8.1
  subst hm
  rw [hr'] at h0
  obtain ⟨d', p1, p2, p3, p4⟩ := ecdsa_other c hodd hx q5 h0
  refine ⟨d', p1, p2, p3, fun k' cu' key' a1 a2 a3 => verifySignature_ok.mpr ⟨⟨label, w1, w2, v3, rest, he, ht, ?_⟩, rfl⟩⟩
  rw [a1]
  exact ⟨a2, alg, _, x1, x2, jk, rb, sb, fr, fs, m, g2, g3, g4, g5, g6, g7, g8, (hv _ _ _).mpr ⟨_, nr, ns, fr, fs, a3, rfl, q3, q4, p4⟩⟩

/-- C152 (finding): so the key in a message signature can be replaced, if the caller does not ask for a key. -/
theorem C152_sshsig (C : Crypto) (alg : EcAlg) (c : EcDomain E) (hv : VerifiesEcdsa C alg c) (hodd : 2 < c.order)
    (hx : ∀ P, c.coordX (-P) = c.coordX P) (sg : SshSignature) (cu : Curve) (key : Bytes) (hk : sg.pubkey.kind = .ecdsa cu key none) (d : Nat)
    (hd : c.decode key = some (d • c.base)) (hone : ∀ alg' m s, C.ecdsaVerify alg' key m s = true → alg' = alg) (msg : Bytes) (ns : String)
    (exp : Option PublicKey) (v : VerifiedSshSignature) (r s : Nat) (hc : CarriesNumbers sg.signature r s)
    (h0 : ¬ c.order ∣ r * d + 2 * ecdsaHash C alg (signedData C ns sg.hashAlgorithm msg))
    (h : VerifiedSshSignature.fromSshSignature C msg sg ns exp = .ok v) :
    ∃ d', 0 < d' ∧ d' < c.order ∧ d' • c.base ≠ d • c.base ∧
      ∀ k' cu' key', k'.kind = .ecdsa cu' key' none → k'.keyType.kind = .ecdsa → c.decode key' = some (d' • c.base) →
        VerifiedSshSignature.fromSshSignature C msg { sg with pubkey := k' } ns none = .ok ⟨{ sg with pubkey := k' }, msg⟩ := by
  obtain ⟨rfl, _, e3, _⟩ := (C35_exact ..).mp h
  obtain ⟨d', p1, p2, p3, p4⟩ := C152_ecdsa C alg c hv hodd hx sg.pubkey cu key hk d hd hone sg.signature _ _ r s hc h0 (verifySignature_ok.mpr ⟨e3, rfl⟩)
  exact ⟨d', p1, p2, p3, fun k' cu' key' a1 a2 a3 => (C35_exact ..).mpr ⟨rfl, fun _ e => (by cases e),
    (verifySignature_ok.mp (p4 k' cu' key' a1 a2 a3)).1, rfl⟩⟩

/-- C152: for keys made from seeds this is not so: two keys accept one Ed25519 blob for one message only if the hashes, into
which the keys go, are in the proportion of the secret scalars. -/
theorem C152_ed25519 (C : Crypto) (c : EdDomain E) (hv : VerifiesEd25519 C c) (ho : ∀ j, j • c.base = 0 → c.order ∣ j) (seed seed' : Bytes)
    (k k' : PublicKey) (hk : k.kind = .ed25519 (edPublic C c seed) none) (hk' : k'.kind = .ed25519 (edPublic C c seed') none)
    (sig m b b' : Bytes) (h : verifySignature C sig m k = .ok b) (h' : verifySignature C sig m k' = .ok b') :
    ∃ label w1 w2 rest R S, sig = w1 ++ (w2 ++ rest) ∧ Text label w1 ∧ Frame (R ++ S) w2 ∧ R.length = 32 ∧
      edScalar C seed * littleEndian (C.sha512 (R ++ (edPublic C c seed ++ m))) % c.order =
        edScalar C seed' * littleEndian (C.sha512 (R ++ (edPublic C c seed' ++ m))) % c.order := by
  obtain ⟨⟨label, w1, w2, w3, rest, rfl, ht, hb⟩, _⟩ := verifySignature_ok.mp h
  obtain ⟨⟨label', v1, v2, v3, rest', he, ht', hb'⟩, _⟩ := verifySignature_ok.mp h'
  obtain ⟨rfl, rfl, he1⟩ := Reader.readString_parses.unique ht ht' he
  rw [hk] at hb
  rw [hk'] at hb'
  obtain ⟨_, s, x, _, hf, hm, hs⟩ := hb
  obtain ⟨_, s', x', _, hf', hm', hs'⟩ := hb'
  obtain ⟨rfl, rfl, _⟩ := Reader.readBytes_parses.unique hf hf' he1
  obtain ⟨e1, _⟩ := hm
  obtain ⟨e2, _⟩ := hm'
  rw [e1] at hs
  rw [e2] at hs'
  obtain ⟨A, R, S, a1, a2, a3, rfl, a5, a6⟩ := (hv _ _ _).mp hs
  obtain ⟨A', R', S', b1, b2, b3, b4, b5, b6⟩ := (hv _ _ _).mp hs'
  obtain ⟨rfl, rfl⟩ := List.append_inj b4 (a2.trans b2.symm)
  refine ⟨label, w1, w2, w3 ++ rest, R, S, rfl, ht, hf, a2, ?_⟩
  have hA : A = edScalar C seed • c.base := Option.some.inj (a1.symm.trans (c.decode_written _))
  have hA' : A' = edScalar C seed' • c.base := Option.some.inj (b1.symm.trans (c.decode_written _))
  have hw := congrArg c.decode (a6.symm.trans b6)
  rw [c.decode_written, c.decode_written, Option.some.injEq, sub_right_inj, hA, hA', ← mul_nsmul, ← mul_nsmul] at hw
  have key : ∀ x y, x ≤ y → x • c.base = y • c.base → x ≡ y [MOD c.order] := by
    intro x y hxy hp
    have hz : (y - x) • c.base = 0 := by
      rw [show y = (y - x) + x by omega, add_nsmul] at hp
      exact right_eq_add.mp hp
    exact (Nat.modEq_iff_dvd' hxy).mpr (ho _ hz)
  have hfin : ∀ a x, a * (x % c.order) ≡ a * x [MOD c.order] := fun a x => (Nat.mod_modEq _ _).mul_left _
  refine (hfin _ _).symm.trans (Nat.ModEq.trans ?_ (hfin _ _))
  rcases Nat.le_total (edScalar C seed * (littleEndian (C.sha512 (R ++ (edPublic C c seed ++ m))) % c.order))
    (edScalar C seed' * (littleEndian (C.sha512 (R ++ (edPublic C c seed' ++ m))) % c.order)) with hle | hle
  · exact key _ _ hle hw
  · exact (key _ _ hle hw.symm).symm

end

variable (table : List ((String × Bytes × UInt32) × (Bytes × Bytes)))

/-- C152 for P-256, whose primitives are computed. -/
theorem C152_p256 (k : PublicKey) (cu : Curve) (key : Bytes) (hk : k.kind = .ecdsa cu key none) (d : Nat)
    (hd : Concrete.p256_good.domain.decode key = some (d • Concrete.p256_good.domain.base)) (sig msg b : Bytes) (r s : Nat) (hc : CarriesNumbers sig r s)
    (h0 : (r * d + 2 * natOf (Concrete.sha256 msg)) % Concrete.p256.n ≠ 0) (h : verifySignature (Concrete.realCrypto table) sig msg k = .ok b) :
    ∃ key', key' ≠ key ∧ key'.length = 65 ∧ ∀ k' cu', k'.kind = .ecdsa cu' key' none → k'.keyType.kind = .ecdsa →
      verifySignature (Concrete.realCrypto table) sig msg k' = .ok sig := by
  obtain ⟨d', p1, p2, p3, p4⟩ := C152_ecdsa (Concrete.realCrypto table) .p256 Concrete.p256_good.domain (Concrete.p256_verifies table)
    Concrete.p256_good.three coordX_neg k cu key hk d hd (fun _ _ _ => one_curve table (decode_length Concrete.p256_good hd)) sig msg b r s hc
    (fun hd => h0 (Nat.mod_eq_zero_of_dvd hd)) h
  have hk' := Concrete.p256_good.domain.decode_written _ (Concrete.p256_good.multiple_ne p1 p2)
  refine ⟨_, fun e => p3 ?_, decode_length Concrete.p256_good hk', fun k' cu' a1 a2 => p4 k' cu' _ a1 a2 hk'⟩
  rw [← e] at hd
  exact Option.some.inj (hk'.symm.trans hd)

/-- C152 for P-384. -/
theorem C152_p384 (k : PublicKey) (cu : Curve) (key : Bytes) (hk : k.kind = .ecdsa cu key none) (d : Nat)
    (hd : Concrete.p384_good.domain.decode key = some (d • Concrete.p384_good.domain.base)) (sig msg b : Bytes) (r s : Nat) (hc : CarriesNumbers sig r s)
    (h0 : (r * d + 2 * natOf (Concrete.sha384 msg)) % Concrete.p384.n ≠ 0) (h : verifySignature (Concrete.realCrypto table) sig msg k = .ok b) :
    ∃ key', key' ≠ key ∧ key'.length = 97 ∧ ∀ k' cu', k'.kind = .ecdsa cu' key' none → k'.keyType.kind = .ecdsa →
      verifySignature (Concrete.realCrypto table) sig msg k' = .ok sig := by
  obtain ⟨d', p1, p2, p3, p4⟩ := C152_ecdsa (Concrete.realCrypto table) .p384 Concrete.p384_good.domain (Concrete.p384_verifies table)
    Concrete.p384_good.three coordX_neg k cu key hk d hd (fun _ _ _ => one_curve table (decode_length Concrete.p384_good hd)) sig msg b r s hc
    (fun hd => h0 (Nat.mod_eq_zero_of_dvd hd)) h
  have hk' := Concrete.p384_good.domain.decode_written _ (Concrete.p384_good.multiple_ne p1 p2)
  refine ⟨_, fun e => p3 ?_, decode_length Concrete.p384_good hk', fun k' cu' a1 a2 => p4 k' cu' _ a1 a2 hk'⟩
  rw [← e] at hd
  exact Option.some.inj (hk'.symm.trans hd)

theorem mpint_padded {v : Bytes} (h : 0x80 ≤ v.headD 0) (hl : v.length < 4294967295) : Mpint v (str (0 :: v)) := by
  cases v with
  | nil => exact absurd h (by decide)
  | cons b bs =>
    refine ⟨fun e => ?_, 0 :: b :: bs, ⟨by simp only [List.length_cons] at hl ⊢; omega, rfl⟩, .padded b bs h, by simp [natOf]⟩
    rw [Option.some.inj e] at h
    exact absurd (show (0x80 : UInt8) ≤ 0 from h) (by decide)

/-- A signature of `2 * w` bytes as a blob, if both numbers have their highest bit. -/
def rfcBlob (label : String) (w : Nat) (s : Bytes) : Bytes :=
  text label ++ str (str (0 :: s.take w) ++ str (0 :: s.drop w))

theorem rfcBlob_numbers {label : String} {w : Nat} {s : Bytes} (hl : s.length < 4294967000) (ht : label.utf8ByteSize < 4294967296)
    (h1 : 0x80 ≤ (s.take w).headD 0) (h2 : 0x80 ≤ (s.drop w).headD 0) : CarriesNumbers (rfcBlob label w s) (natOf (s.take w)) (natOf (s.drop w)) :=
  ⟨label, text label, str (str (0 :: s.take w) ++ str (0 :: s.drop w)), [],
    str (0 :: s.take w), str (0 :: s.drop w), [], _, _, by rw [List.append_nil, rfcBlob], Text.of (by rw [strBytes_length]; exact ht),
    ⟨by simp [str, u32]; omega, by rw [List.append_nil]; rfl⟩, mpint_padded h1 (by simp; omega), mpint_padded h2 (by simp; omega), rfl, rfl⟩

theorem rfcEc_decode : Concrete.p256_good.domain.decode Concrete.rfcK256 = some (natOf rfcSecret • Concrete.p256_good.domain.base) := by
  obtain ⟨d, f, h1, h2, _, _, hd⟩ := rfcEc_pair
  have hf : f = rfcSecret := by
    rcases h1 with ⟨_, h1⟩ | h1
    · exact absurd rfl h1
    · exact (List.cons.inj h1).2.symm
  rw [hd, ← h2.2, hf]

/-- The signature of `sample` in RFC 6979 A.2.5 is accepted by another key. -/
example : ∃ key', key' ≠ Concrete.rfcK256 ∧
    verifySignature (Concrete.realCrypto []) (rfcBlob "ecdsa-sha2-nistp256" 32 Concrete.rfcS256) (strBytes "sample")
      ⟨⟨"ecdsa-sha2-nistp256", "ecdsa-sha2-nistp256", "ECDSA", false, false, .ecdsa⟩, .ecdsa ⟨.nistp256, "nistp256"⟩ key' none, none⟩ =
        .ok (rfcBlob "ecdsa-sha2-nistp256" 32 Concrete.rfcS256) := by
  obtain ⟨key', h1, _, h2⟩ := C152_p256 [] rfcEcPriv.pubkey _ _ rfl _ rfcEc_decode (rfcBlob "ecdsa-sha2-nistp256" 32 Concrete.rfcS256) (strBytes "sample") _ _ _
    (rfcBlob_numbers (by decide +kernel) (by decide +kernel) (by decide +kernel) (by decide +kernel)) (by decide +kernel) (okOf_eq (d := []) (by decide +kernel))
  exact ⟨key', h1, h2 _ _ rfl rfl⟩

/-- The same for the signature of `sample` in RFC 6979 A.2.6; and it has a second form (C150). -/
example : (∃ key', key' ≠ Concrete.rfcK384 ∧
    verifySignature (Concrete.realCrypto []) (rfcBlob "ecdsa-sha2-nistp384" 48 Concrete.rfcS384) (strBytes "sample")
      ⟨⟨"ecdsa-sha2-nistp384", "ecdsa-sha2-nistp384", "ECDSA", false, false, .ecdsa⟩, .ecdsa ⟨.nistp384, "nistp384"⟩ key' none, none⟩ =
        .ok (rfcBlob "ecdsa-sha2-nistp384" 48 Concrete.rfcS384)) ∧
    ∃ r s s' sig', CarriesNumbers (rfcBlob "ecdsa-sha2-nistp384" 48 Concrete.rfcS384) r s ∧ CarriesNumbers sig' r s' ∧ s' + s = Concrete.p384.n ∧
      s' ≠ s ∧ verifySignature (Concrete.realCrypto []) sig' (strBytes "sample") rfcEc384.pubkey = .ok sig' := by
  have hv : verifySignature (Concrete.realCrypto []) (rfcBlob "ecdsa-sha2-nistp384" 48 Concrete.rfcS384) (strBytes "sample") rfcEc384.pubkey = .ok _ :=
    okOf_eq (d := []) (by decide +kernel)
  have hd : Concrete.p384_good.domain.decode Concrete.rfcK384 = some (natOf rfcSecret384 • Concrete.p384_good.domain.base) := by
    obtain ⟨d, f, h1, h2, _, _, hd⟩ := rfcEc384_pair
    have hf : f = rfcSecret384 := by
      rcases h1 with ⟨h1, _⟩ | h1
      · exact h1.symm
      · exact absurd (congrArg List.head? h1) (by
          rw [List.head?_cons]
          decide +kernel)
    rw [hd, ← h2.2, hf]
  obtain ⟨key', h1, _, h2⟩ := C152_p384 [] rfcEc384.pubkey _ _ rfl _ hd _ (strBytes "sample") _ _ _
    (rfcBlob_numbers (by decide +kernel) (by decide +kernel) (by decide +kernel) (by decide +kernel)) (by decide +kernel) hv
  exact ⟨⟨key', h1, h2 _ _ rfl rfl⟩, (C150_p384 [] _ _ hd).1 rfcEc384.pubkey _ _ _ _ _ rfl hv⟩

/-- A message signature of that key (with the per-message secret of the RFC), in which the key is replaced. -/
def rfcMessage : SshSignature where
  pubkey := rfcEcPriv.pubkey
  namespace_ := "file"
  hashAlgorithm := .sha512
  signature := rfcBlob "ecdsa-sha2-nistp256" 32 (Concrete.rfcS256.take 32 ++ Concrete.natBytes 32 0xcf61c1a89f3886b6d0a4b5f20d98cd50ec593ea1e1b97fdc2728552596550200)

example : ∃ k', k' ≠ rfcMessage.pubkey ∧ WellFormedKey k' ∧
    VerifiedSshSignature.fromSshSignature (Concrete.realCrypto []) (strBytes "sample") rfcMessage "file" (some rfcMessage.pubkey) =
      .ok ⟨rfcMessage, strBytes "sample"⟩ ∧
    VerifiedSshSignature.fromSshSignature (Concrete.realCrypto []) (strBytes "sample") { rfcMessage with pubkey := k' } "file" none =
      .ok ⟨{ rfcMessage with pubkey := k' }, strBytes "sample"⟩ := by
  have h : VerifiedSshSignature.fromSshSignature (Concrete.realCrypto []) (strBytes "sample") rfcMessage "file" (some rfcMessage.pubkey) =
      .ok ⟨rfcMessage, strBytes "sample"⟩ := by decide +kernel
  have gen : ∀ (r d : Nat) (m : Bytes), (r * d + 2 * natOf (Concrete.sha256 m)) % Concrete.p256.n ≠ 0 →
      ¬ Concrete.p256_good.domain.order ∣ r * d + 2 * ecdsaHash (Concrete.realCrypto []) .p256 m := fun _ _ _ h1 h2 => h1 (Nat.mod_eq_zero_of_dvd h2)
  obtain ⟨d', p1, p2, p3, p4⟩ := C152_sshsig (Concrete.realCrypto []) .p256 Concrete.p256_good.domain (Concrete.p256_verifies [])
    Concrete.p256_good.three coordX_neg rfcMessage _ _ rfl _ rfcEc_decode (fun _ _ _ => one_curve [] (decode_length Concrete.p256_good rfcEc_decode)) _ _ _ _ _ _
    (rfcBlob_numbers (by decide +kernel) (by decide +kernel) (by decide +kernel) (by decide +kernel)) (gen _ _ _ (by decide +kernel)) h
  have hk' : Concrete.p256_good.domain.decode (Concrete.p256_good.domain.written (d' • Concrete.p256_good.domain.base)) =
      some (d' • Concrete.p256_good.domain.base) := Concrete.p256_good.domain.decode_written _ (Concrete.p256_good.multiple_ne p1 p2)
  refine ⟨⟨rfcMessage.pubkey.keyType, .ecdsa ⟨.nistp256, "nistp256"⟩ (Concrete.p256_good.domain.written (d' • Concrete.p256_good.domain.base)) none, none⟩,
    fun e => p3 ?_, ⟨(by decide : rfcMessage.pubkey.keyType ∈ keyTypes), rfl, (by decide : (⟨.nistp256, "nistp256"⟩ : Curve) ∈ curves), ?_, rfl⟩, h, p4 _ _ _ rfl rfl hk'⟩
  · have e1 : Concrete.p256_good.domain.written (d' • Concrete.p256_good.domain.base) = Concrete.rfcK256 :=
      congrArg (fun k : PublicKey => match k.kind with | .ecdsa _ b _ => b | _ => []) e
    rw [e1, rfcEc_decode] at hk'
    exact (Option.some.inj hk').symm
  · rw [decode_length Concrete.p256_good hk']
    decide

/-- That message signature has a second form (C150). -/
example : ∃ r s s' sig', CarriesNumbers rfcMessage.signature r s ∧ CarriesNumbers sig' r s' ∧ s' + s = Concrete.p256.n ∧ s' ≠ s ∧
    VerifiedSshSignature.fromSshSignature (Concrete.realCrypto []) (strBytes "sample") { rfcMessage with signature := sig' } "file" (some rfcMessage.pubkey) =
      .ok ⟨{ rfcMessage with signature := sig' }, strBytes "sample"⟩ :=
  C150_sshsig (Concrete.realCrypto []) .p256 Concrete.p256_good.domain (Concrete.p256_verifies []) p256_width Concrete.p256_good.three coordX_neg rfcMessage
    _ _ none rfl _ rfcEc_decode (fun _ _ _ => one_curve [] (decode_length Concrete.p256_good rfcEc_decode)) (strBytes "sample") "file"
    (some rfcMessage.pubkey) ⟨rfcMessage, strBytes "sample"⟩ (by decide +kernel)

/-- The public key of the seed of zeros. -/
def zeroPublic : Bytes := (Concrete.ed25519Pub (List.replicate 32 0)).getD []

/-- It does not accept the signature in the first test of RFC 8032. -/
example (b : Bytes) : verifySignature (Concrete.realCrypto []) (text "ssh-ed25519" ++ str (rfcHalf ++ rfcOther)) []
    { rfcEdKey with kind := .ed25519 zeroPublic none } ≠ .ok b := by
  intro h
  have e : edPublic (Concrete.realCrypto []) Concrete.edDomain rfcSeed.toList = rfcEdPublic :=
    ((Concrete.ed_public [] rfcSeed.toList rfcEdPublic).mp (by decide +kernel)).2.symm
  have e' : edPublic (Concrete.realCrypto []) Concrete.edDomain (List.replicate 32 0) = zeroPublic :=
    ((Concrete.ed_public [] (List.replicate 32 0) zeroPublic).mp (by decide +kernel)).2.symm
  have h0 : verifySignature (Concrete.realCrypto []) (text "ssh-ed25519" ++ str (rfcHalf ++ rfcOther)) [] rfcEdKey =
      .ok (text "ssh-ed25519" ++ str (rfcHalf ++ rfcOther)) := by decide +kernel
  obtain ⟨label, w1, w2, rest, R, S, q1, q2, q3, q4, q5⟩ := C152_ed25519 (Concrete.realCrypto []) Concrete.edDomain (Concrete.ed_verifies [])
    Concrete.ed_order rfcSeed.toList (List.replicate 32 0) rfcEdKey _ (by rw [e]; rfl) (by rw [e']) _ _ _ _ h0 h
  obtain ⟨_, rfl, q6⟩ := Reader.readString_parses.unique (⟨by decide +kernel, rfl⟩ : Text "ssh-ed25519" (text "ssh-ed25519")) q2 q1
  obtain ⟨q7, _, _⟩ := Reader.readBytes_parses.unique (⟨by decide +kernel, rfl⟩ : Frame (rfcHalf ++ rfcOther) (str (rfcHalf ++ rfcOther))) q3
    (by rw [List.append_nil]; exact q6)
  obtain ⟨rfl, _⟩ := List.append_inj q7 (by rw [q4]; rfl)
  rw [e, e'] at q5
  have gen : ∀ x y a b, x * littleEndian ((Concrete.realCrypto []).sha512 a) % Concrete.edDomain.order =
      y * littleEndian ((Concrete.realCrypto []).sha512 b) % Concrete.edDomain.order →
      x * littleEndian (Concrete.sha512 a) % Concrete.edL = y * littleEndian (Concrete.sha512 b) % Concrete.edL := fun _ _ _ _ h => h
  exact absurd (gen _ _ _ _ q5) (by decide +kernel)

end Ssh
