import Verif.Spec.Issue
import Verif.Props.Rsa
import Verif.Props.Curves
import Verif.Props.Utils

/-! # C147: certificates signed by a key that works -/

namespace Ssh

open Spec

theorem signOpt_form {k : PublicKey} {o : Option Bytes} {sig : Bytes} (h : signOpt k o = .ok (some sig)) :
    ∃ raw, o = some raw ∧ SshForm k raw sig := by
  cases o with
  | none => cases h
  | some raw => exact ⟨raw, rfl, sshForm_iff.mp h⟩

theorem table_text : ∀ kt ∈ keyTypes, 11 ≤ (text kt.plain).length ∧ (text kt.name).length ≤ 100 := by decide +kernel

/-- A signature for a curve is short if the raw one is. -/
theorem sshForm_size {k : PublicKey} {raw sig : Bytes} (hkt : k.keyType ∈ keyTypes) (h : SshForm k raw sig)
    (hr : raw.length ≤ 64 ∨ ∃ c key app, k.kind = .ecdsa c key app) : sig.length ≤ 1000 := by
  have ht := (table_text _ hkt).2
  have e : (text "rsa-sha2-512").length = 16 := by decide +kernel
  cases h with
  | rsa _ _ hk =>
    rcases hr with hr | ⟨_, _, _, h⟩
    · simp [str, u32_eq, e]; omega
    · rw [hk] at h; cases h
  | ed25519 key app hk =>
    rcases hr with hr | ⟨_, _, _, h⟩
    · simp [str, u32_eq]; omega
    · rw [hk] at h; cases h
  | ecdsa c key app r s hk hd =>
    obtain ⟨l, h1, h2, _⟩ := hd
    simp [str, u32_eq]; omega

/-- An RSA key takes as many bytes as a signature of the length of its modulus. -/
theorem rsa_encode_size {k : PublicKey} {e n b : Bytes} (hw : WellFormedKey k) (hk : k.kind = .rsa e n) (he : natOf e ≠ 0)
    (hb : k.encode = .ok b) : 20 + n.length ≤ b.length := by
  obtain ⟨p, b', m, _, _, _, _, _, _, hm, rfl, henc, _⟩ := encode_wellFormed hw
  rw [henc] at hb
  cases hb
  rw [hk] at hm
  obtain ⟨_, w1, w2, rfl, ⟨_, p1, f1, _, v1⟩, s2, p2, f2, _, v2⟩ := hm
  have ht := (table_text _ hw.1).1
  have h1 : p1 ≠ [] := by
    rintro rfl
    exact he (by rw [← v1]; rfl)
  have h2 := shortest_length s2 (m := p2.length) (by rw [← v2]; exact natOf_lt p2)
  have h3 := List.length_pos_iff.mpr h1
  rw [text_eq] at ht
  rw [f1.2, f2.2]
  simp only [List.length_append, u32_eq, beBytes_length]
  omega

/-- A working key signs everything, the signature verifies, and it fits into a certificate together with the public key. -/
theorem works_signs {F : Features} {C : Crypto} {D : FidoDev} {k : PrivateKey} (h : Works F C D k) (hw : WellFormedKey k.pubkey)
    (hf : ∀ b, k.pubkey.encode = .ok b → b.length < 4294967296) (msg : Bytes) :
    ∃ sig, k.sign F C D msg = .ok (some sig) ∧ sig.length < 4294967296 ∧ verifySignature C sig msg k.pubkey = .ok sig := by
  cases h with
  | rsa r signing verifying hs hv hF hp hk hn h1 h2 =>
    obtain ⟨s, g1, g2, g3⟩ := rsa_signature F C D signing verifying hs hv k r hF hp hk hn h1 h2 msg
    refine ⟨_, g1, ?_, g3⟩
    obtain ⟨_, b, _, _, _, _, _, _, _, _, _, hb, _⟩ := encode_wellFormed hw
    have hpk : k.pubkey.kind = .rsa r.e r.n := by
      have := hp.2.2.2
      rw [hk] at this
      split at this <;> simp_all
    have := hf b hb
    have := rsa_encode_size hw hpk (fun h0 => by
      have := hn.inverseP
      rw [h0, Nat.zero_mul, Nat.zero_mod] at this
      exact absurd this (by decide)) hb
    have e : (text "rsa-sha2-512").length = 16 := by decide +kernel
    simp only [List.length_append, e, str, u32_eq, beBytes_length]
    omega
  | ecdsa E alg c curve cp key pub hs hv ho hk hp hc hname ha hne hpair =>
    obtain ⟨g1, _, g3⟩ := C146_ecdsa F C D alg c hs hv ho k curve cp key pub hk hp hw.1 hc hname ha hne msg
    obtain ⟨sig, g⟩ := g1.mpr hpair
    refine ⟨sig, g, ?_, g3 sig g⟩
    rw [signEcdsa_eq hk hp hne, ha] at g
    obtain ⟨raw, _, hform⟩ := signOpt_form g
    have := sshForm_size hw.1 hform (.inr ⟨_, _, _, hp⟩)
    omega
  | ed25519 E c key pub hs hv hk hp hname hl hpair =>
    obtain ⟨g1, _, g3⟩ := C146_ed25519 F C D c hs hv k key pub hk hp hw.1 hname hl msg
    obtain ⟨sig, g⟩ := g1.mpr hpair
    refine ⟨sig, g, ?_, g3 sig g⟩
    rw [signEd_eq hk hp hl] at g
    obtain ⟨raw, e, hform⟩ := signOpt_form g
    have := edSignature_length ((hs _ _ _ _).mp e).2.2
    have := sshForm_size hw.1 hform (.inl (by omega))
    omega
  | hardware E E' c c' s app hv ho hv' hk hd =>
    obtain ⟨a, ha, hm⟩ := hd msg
    obtain ⟨sig, g, g3⟩ := C146_hardware F C D c c' hv ho hv' k s app msg hk (fun a' ha' => by
      rw [ha] at ha'; cases ha'; exact hm) a ha
    refine ⟨sig, g, ?_, g3⟩
    rw [signHardware_eq hk, ha] at g
    dsimp only at g
    unfold PrivateKey.formatAssertion at g
    cases hform : formatSignatureForSsh k.pubkey a.signature with
    | panic => rw [hform] at g; cases g
    | err e => rw [hform] at g; cases g
    | ok o =>
      rw [hform] at g
      cases o with
      | none => cases g
      | some f =>
        have hsz : f.length ≤ 1000 := by
          refine sshForm_size hw.1 (sshForm_iff.mp hform) ?_
          unfold MadeBy at hm
          split at hm
          · obtain ⟨seed, _, hm⟩ := hm
            exact .inl (by rw [edSignature_length hm])
          · rename_i hkind
            exact .inr ⟨_, _, _, hkind⟩
          · exact hm.elim
        cases g
        simp
        omega

/-- C147: a well-formed certificate is signed by a working CA key; written as bytes or as text it is read again, with the same
contents and the same signature. -/
theorem C147_issued (F : Features) (C : Crypto) (D : FidoDev) (k : PrivateKey) (c : Certificate) (hk : Works F C D k)
    (hw : WellFormedCert c) (hca : c.signatureKey = k.pubkey) :
    ∃ c', c.sign C (k.sign F C D) = .ok c' ∧
      (∃ c'', Certificate.fromBytes C c'.serialized = .ok c'' ∧ SameContent c'' c ∧ c''.signature = c'.signature) ∧
      ∃ c'', Certificate.fromString C c'.display = .ok c'' ∧ SameContent c'' c ∧ c''.signature = c'.signature := by
  obtain ⟨p, pc, tbs, _, _, _, _, ht, _⟩ := tbs_wellFormed hw
  obtain ⟨sig, h1, h2, h3⟩ := works_signs hk (by rw [← hca]; exact hw.2.2.2.2.1)
    (by rw [← hca]; exact hw.2.2.2.2.2.2.2.2.2.2.2.2) tbs
  have ha := ((C21_accepts ..).mp h3).1
  rw [← hca] at ha
  refine ⟨_, (C28_sign ..).mpr ⟨tbs, sig, ht, h1, ha, rfl⟩, ?_⟩
  obtain ⟨c'', g1, g2, _, _, _, g3⟩ := signed_parses hw ht ha h2 []
  rw [List.append_nil] at g1
  refine ⟨⟨c'', g1, g2, g3⟩, ?_⟩
  have e := cert_text_roundtrip C _ c'' g1
  obtain ⟨_, _, _, _, _, _, _, _, hser⟩ := certFromBytes_ok.mp g1
  have ed : c''.display = Certificate.display { c with signature := sig, serialized := tbs ++ (u32 sig.length ++ sig) } := by
    unfold Certificate.display
    rw [hser, g2.1, g2.2.2.2.2.2.2.1]
  rw [ed] at e
  exact ⟨_, e, g2, g3⟩

/-- C147: so for certificates made with the builder: take any random nonce and serial, any sequence of setters after which the
parts fit into their fields, any order of the options while serialising, and a working CA key; the certificate is signed, and
read again it says what was set. -/
theorem C147_built (F : Features) (C : Crypto) (D : FidoDev) (k : PrivateKey) (nonce : Vector UInt8 32) (serial : Vector UInt8 8)
    (key : PublicKey) (role : CertType) (calls : List BuilderCall) (hk : Works F C D k) (hkey : WellFormedKey key)
    (hca : WellFormedKey k.pubkey) (hcalls : ∀ x ∈ calls, x.Valid) :
    ∃ c0, Certificate.builder (some nonce) (some serial) key role k.pubkey = .ok c0 ∧ (CertFits (runCalls c0 calls) →
      ∀ critical extensions, critical.Perm (runCalls c0 calls).criticalOptions → extensions.Perm (runCalls c0 calls).extensions →
      ∃ c', Certificate.sign C (k.sign F C D) { runCalls c0 calls with criticalOptions := critical, extensions := extensions } = .ok c' ∧
        ∃ c'', Certificate.fromString C c'.display = .ok c'' ∧ SameContent c'' (runCalls c0 calls) ∧ c''.signature = c'.signature) := by
  rcases builder_ok (nonce := some nonce) (serial := some serial) (ca := k.pubkey) (role := role) hkey.1 with
    ⟨n, s, _, _, kt, hkt, hcert, hplain, hb⟩ | ⟨h | h, _⟩
  rotate_left
  · cases h
  · cases h
  refine ⟨_, hb, fun hfit critical extensions ho1 ho2 => ?_⟩
  obtain ⟨i1, i2, i3, i4, i5, i6, i7⟩ := runCalls_invariant (c := ⟨kt, n.toList, key, UInt64.ofNat (beNat s.toList), role, "", [], 0, 0, [], [],
    [0, 0, 0, 0, 0, 0, 0, 0], k.pubkey, [], none, []⟩) (calls := calls) hcalls (by simp) (by simp)
  dsimp only at i3 i4 i5
  generalize runCalls _ calls = c1 at *
  have n1 : (critical.map (·.1)).Nodup := (List.Perm.nodup_iff (ho1.map Prod.fst)).mpr i1
  have n2 : (extensions.map (·.1)).Nodup := (List.Perm.nodup_iff (ho2.map Prod.fst)).mpr i2
  have hw : WellFormedCert { c1 with criticalOptions := critical, extensions := extensions } := by
    refine ⟨?_, ?_, ?_, ?_, ?_, n1, n2, hfit.1, hfit.2.1, hfit.2.2.1, ?_, ?_, hfit.2.2.2.2.2⟩
    · show c1.keyType ∈ _; rw [i3]; exact hkt
    · show c1.keyType.isCert = _; rw [i3]; exact hcert
    · show c1.key.keyType.plain = c1.keyType.plain; rw [i3, i4]; exact hplain.symm
    · show WellFormedKey c1.key; rw [i4]; exact hkey
    · show WellFormedKey c1.signatureKey; rw [i5]; exact hca
    · show optionsSize critical < _; rw [optionsSize_perm ho1]; exact hfit.2.2.2.1
    · show optionsSize extensions < _; rw [optionsSize_perm ho2]; exact hfit.2.2.2.2.1
  obtain ⟨c', h1, _, c'', h2, h3, h4⟩ := C147_issued F C D k _ hk hw i5
  obtain ⟨s1, s2, s3, s4, s5, s6, s7, s8, s9, s10, s11, s12, s13, s14⟩ := h3
  exact ⟨c', h1, c'', h2, ⟨s1, s2, s3, s4, s5, s6, s7, s8, s9, s10, fun k => (s11 k).trans (mapGet_perm n1 ho1 k),
    fun k => (s12 k).trans (mapGet_perm n2 ho2 k), s13, s14⟩, h4⟩

/-- C147: with an ECDSA key of which the halves do not belong together no certificate is issued; the error says that signing
failed. -/
theorem C147_mismatch_ecdsa {E : Type} [AddCommGroup E] (F : Features) (C : Crypto) (D : FidoDev) (alg : EcAlg) (d : EcDomain E)
    (hs : SignsEcdsa C alg d) (hv : VerifiesEcdsa C alg d) (hn : d.order ≤ 256 ^ ecWidth alg) (k : PrivateKey) (curve cp : Curve)
    (key pub : Bytes) (hk : k.kind = .ecdsa curve key) (hp : k.pubkey.kind = .ecdsa cp pub none) (hc : curve ∈ curves)
    (hname : k.pubkey.keyType.name = "ecdsa-sha2-" ++ curve.identifier) (ha : ecAlg curve.kind = some alg) (hne : key ≠ [])
    (c : Certificate) (hw : WellFormedCert c) (hca : c.signatureKey = k.pubkey) (h : ¬ EcPair alg d key pub) :
    c.sign C (k.sign F C D) = .err .signingError := by
  obtain ⟨_, _, tbs, _, _, _, _, ht, _⟩ := tbs_wellFormed hw
  have := (C146_ecdsa F C D alg d hs hv hn k curve cp key pub hk hp (by rw [← hca]; exact hw.2.2.2.2.1.1) hc hname ha hne tbs).2.1 h
  unfold Certificate.sign
  rw [ht, Res.ok_bind, this]
  rfl

/-- C147: the same for Ed25519. -/
theorem C147_mismatch_ed25519 {E : Type} [AddCommGroup E] (F : Features) (C : Crypto) (D : FidoDev) (d : EdDomain E)
    (hs : SignsEd25519 C d) (hv : VerifiesEd25519 C d) (k : PrivateKey) (key pub : Bytes) (hk : k.kind = .ed25519 key)
    (hp : k.pubkey.kind = .ed25519 pub none) (hname : k.pubkey.keyType.name = "ssh-ed25519") (hl : 32 ≤ key.length)
    (c : Certificate) (hw : WellFormedCert c) (hca : c.signatureKey = k.pubkey) (h : pub ≠ edPublic C d (key.take 32)) :
    c.sign C (k.sign F C D) = .err .signingError := by
  obtain ⟨_, _, tbs, _, _, _, _, ht, _⟩ := tbs_wellFormed hw
  have := (C146_ed25519 F C D d hs hv k key pub hk hp (by rw [← hca]; exact hw.2.2.2.2.1.1) hname hl tbs).2.1 h
  unfold Certificate.sign
  rw [ht, Res.ok_bind, this]
  rfl

/-! ### A CA with the key of RFC 6979 on real P-256, one with the RSA key of C145, one with a generated Ed25519 key, one on an
authenticator -/

theorem rfcEc_works (D : FidoDev) : Works ⟨true, true, .none⟩ (Concrete.realCrypto []) D rfcEcPriv :=
  .ecdsa _ .p256 Concrete.p256_good.domain _ _ _ _ (Concrete.p256_signs []) (Concrete.p256_verifies []) p256_width rfl rfl
    (by decide +kernel) rfl rfl (by simp) rfcEc_pair

theorem mersenne_works (D : FidoDev) : Works ⟨true, true, .none⟩ (Concrete.realCrypto []) D mersennePriv :=
  .rsa mersenneRsa _ _ (Concrete.rsa_signs []) (Concrete.rsa_verifies []) rfl mersennePriv_wf rfl mersenne_numbers mersenne_large mersenne_supported

theorem rfcEc_key : WellFormedKey rfcEcPriv.pubkey :=
  ⟨by decide +kernel, rfl, by decide +kernel, by decide +kernel, rfl⟩

/-- The keys of `C146_generated`. -/
theorem generated_works (D : FidoDev) (s : Vector UInt8 32) (m : Vector UInt8 4) : ∃ k,
    PrivateKey.new (Concrete.realCrypto []) (some s) (some m) .ed25519 "ca" = .ok k ∧ WellFormedKey k.pubkey ∧ Works ⟨true, true, .none⟩ (Concrete.realCrypto []) D k := by
  obtain ⟨k, h⟩ := (C146_generated ⟨true, true, .none⟩ (Concrete.realCrypto []) D Concrete.edDomain (Concrete.ed_signs []) (Concrete.ed_verifies []) (Concrete.ed_public []) "ca").1 s m
  obtain ⟨_, s', m', pub, _, _, h1, h2, h3, h4, h5, h6, _⟩ := (C80_new ..).mp h
  obtain ⟨_, h7⟩ := ((Concrete.ed_public []) _ _).mp h1
  have hkind : ∀ kt ∈ keyTypes, kt.name = "ssh-ed25519" → family kt.kind = .ed25519 ∧ kt.isSk = false := by decide +kernel
  obtain ⟨g1, g2⟩ := hkind _ h2 h3
  refine ⟨k, h, ⟨by rw [h5]; exact h2, ?_⟩, .ed25519 _ Concrete.edDomain _ _ (Concrete.ed_signs []) (Concrete.ed_verifies []) h4 h6 (by rw [h5]; exact h3) (by simp) ?_⟩
  · rw [h6, h5]
    exact ⟨g1, by rw [h7, edPublic, Concrete.edDomain.written_length]; decide, g2⟩
  · rw [List.take_of_length_le (by simp)]
    exact h7

theorem rfcSk_hardware : HardwareKey rfcSkPriv ⟨1, [1, 2, 3, 4], [], none, none⟩ "ssh:" := ⟨by decide +kernel, .inr ⟨rfl, rfl, _, _, rfl⟩⟩

theorem rfcSk_answers (msg : Bytes) : ∃ a, deviceAnswer ⟨true, true, .mozilla⟩ (Concrete.realCrypto []) rfcDevice ⟨1, [1, 2, 3, 4], [], none, none⟩ "ssh:" msg =
      .ok (some a) ∧ MadeBy (Concrete.realCrypto []) Concrete.p256_good.domain Concrete.edDomain rfcSkPriv.pubkey msg a := by
  have hp := rfcEc_pair
  rw [ecPair_iff (by simp)] at hp
  obtain ⟨d, hw, h0, hd, hdec⟩ := hp
  obtain ⟨s1, s2⟩ := Concrete.p256_signs [] rfcSecret
    Concrete.rfcK256 (Concrete.sha256 "ssh:".toByteArray.data.toList ++ [5] ++ u32 77 ++ Concrete.sha256 msg)
  obtain ⟨sig, hsig⟩ := s1.mp ⟨d, hw, h0, hd, hdec⟩
  have hsig' := hsig
  rw [Concrete.p256_sign] at hsig'
  refine ⟨⟨sig, 5, 77⟩, ?_, ?_⟩
  · show Res.ok (Option.map _ (Concrete.ecdsaSign _ _ _ _)) = _
    rw [show (Concrete.realCrypto []).sha256 msg = Concrete.sha256 msg from rfl, hsig']
    rfl
  · obtain ⟨r, s, cr, cs, h1, h2, h3, h4⟩ := s2 sig hsig
    refine ⟨d, r, s, cr, cs, hdec, ?_, h2, h3, h4⟩
    rw [← hw.2]
    exact h1

/-- The hardware key of C146 on its authenticator. -/
theorem rfcSk_works : Works ⟨true, true, .mozilla⟩ (Concrete.realCrypto []) rfcDevice rfcSkPriv :=
  .hardware _ _ Concrete.p256_good.domain Concrete.edDomain _ _ Concrete.p256_good.verifies p256_width (Concrete.ed_verifies []) rfcSk_hardware
    rfcSk_answers

/-- A certificate of this CA is issued and read again. -/
example (D : FidoDev) : ∃ c', Certificate.sign (Concrete.realCrypto []) (rfcEcPriv.sign ⟨true, true, .none⟩ (Concrete.realCrypto []) D)
      { sampleCert with signatureKey := rfcEcPriv.pubkey } = .ok c' ∧
    ∃ c'', Certificate.fromString (Concrete.realCrypto []) c'.display = .ok c'' ∧ c''.principals = ["root", "me"] ∧ c''.keyId = "my id" := by
  obtain ⟨c', h1, _, c'', h2, h3, _⟩ := C147_issued ⟨true, true, .none⟩ (Concrete.realCrypto []) D rfcEcPriv
    { sampleCert with signatureKey := rfcEcPriv.pubkey } (rfcEc_works D) ⟨sampleCert_wf.1, rfl, rfl, sampleEd_wf, rfcEc_key, sampleCert_wf.2.2.2.2.2.1,
      sampleCert_wf.2.2.2.2.2.2.1, by decide, by decide, by decide +kernel, by decide +kernel, by decide +kernel, fun b hb => by
        have e : rfcEcPriv.pubkey.encode = .ok (okOf [] rfcEcPriv.pubkey.encode) := okOf_eq (d := []) (by decide +kernel)
        rw [show PublicKey.encode _ = rfcEcPriv.pubkey.encode from rfl, e] at hb
        rw [← Res.ok.inj hb]
        decide +kernel⟩ rfl
  exact ⟨c', h1, c'', h2, h3.2.2.2.2.2.2.2.1, h3.2.2.2.2.2.2.1⟩

/-- With another secret it is not. -/
example (D : FidoDev) : Certificate.sign (Concrete.realCrypto [])
    (PrivateKey.sign ⟨true, true, .none⟩ (Concrete.realCrypto []) D
      { rfcEcPriv with kind := .ecdsa ⟨.nistp256, "nistp256"⟩ (0 :: otherSecret) })
    { sampleCert with signatureKey := rfcEcPriv.pubkey } = .err .signingError :=
  C147_mismatch_ecdsa ⟨true, true, .none⟩ (Concrete.realCrypto []) D .p256 Concrete.p256_good.domain (Concrete.p256_signs [])
    (Concrete.p256_verifies []) p256_width _ _ _ _ _ rfl rfl (by decide +kernel) rfl rfl (by simp) _
    ⟨sampleCert_wf.1, rfl, rfl, sampleEd_wf, rfcEc_key, sampleCert_wf.2.2.2.2.2.1,
      sampleCert_wf.2.2.2.2.2.2.1, by decide, by decide, by decide +kernel, by decide +kernel, by decide +kernel, fun b hb => by
        have e : rfcEcPriv.pubkey.encode = .ok (okOf [] rfcEcPriv.pubkey.encode) := okOf_eq (d := []) (by decide +kernel)
        rw [show PublicKey.encode _ = rfcEcPriv.pubkey.encode from rfl, e] at hb
        rw [← Res.ok.inj hb]
        decide +kernel⟩ rfl otherEc_pair

/-- Nor with an Ed25519 key of which the public half is another one. -/
example (D : FidoDev) : Certificate.sign (Concrete.realCrypto [])
    (PrivateKey.sign ⟨true, true, .none⟩ (Concrete.realCrypto []) D { samplePriv with kind := .ed25519 (List.replicate 64 7) }) sampleCert =
      .err .signingError := by
  refine C147_mismatch_ed25519 ⟨true, true, .none⟩ (Concrete.realCrypto []) D Concrete.edDomain (Concrete.ed_signs []) (Concrete.ed_verifies []) _ _ _ rfl rfl rfl (by decide) _
    sampleCert_wf rfl fun h => ?_
  have := congrArg List.length h
  rw [edPublic, Concrete.edDomain.written_length] at this
  exact absurd this (by decide)

/-- A certificate made with the builder, signed by the RSA key. -/
example (D : FidoDev) : ∃ c0, Certificate.builder (some (Vector.replicate 32 1)) (some (Vector.replicate 8 2)) sampleEd .host mersennePriv.pubkey = .ok c0 ∧
    ∃ c', Certificate.sign (Concrete.realCrypto []) (mersennePriv.sign ⟨true, true, .none⟩ (Concrete.realCrypto []) D)
      (runCalls c0 [.principal "a", .extension "x" "y", .setPrincipals ["b"], .principal "d"]) = .ok c' ∧
    ∃ c'', Certificate.fromString (Concrete.realCrypto []) c'.display = .ok c'' ∧ c''.principals = ["b", "d"] := by
  have hkey : WellFormedKey mersennePriv.pubkey := ⟨by decide +kernel, rfl, ⟨by unfold Shortest; decide +kernel, by decide +kernel⟩,
    ⟨by unfold Shortest; decide +kernel, by decide +kernel⟩⟩
  obtain ⟨c0, h0, h⟩ := C147_built ⟨true, true, .none⟩ (Concrete.realCrypto []) D mersennePriv (Vector.replicate 32 1) (Vector.replicate 8 2) sampleEd .host
    [.principal "a", .extension "x" "y", .setPrincipals ["b"], .principal "d"] (mersenne_works D) sampleEd_wf hkey (by simp [BuilderCall.Valid])
  have e0 : Certificate.builder (some (Vector.replicate 32 1)) (some (Vector.replicate 8 2)) sampleEd .host mersennePriv.pubkey =
      .ok (okOf sampleCert (Certificate.builder (some (Vector.replicate 32 1)) (some (Vector.replicate 8 2)) sampleEd .host mersennePriv.pubkey)) :=
    okOf_eq (by decide +kernel)
  have ec : c0 = okOf sampleCert (Certificate.builder (some (Vector.replicate 32 1)) (some (Vector.replicate 8 2)) sampleEd .host mersennePriv.pubkey) :=
    Res.ok.inj (h0.symm.trans e0)
  have hp : (runCalls c0 [.principal "a", .extension "x" "y", .setPrincipals ["b"], .principal "d"]).principals = ["b", "d"] := by
    rw [ec]; decide +kernel
  have hfit : CertFits (runCalls c0 [.principal "a", .extension "x" "y", .setPrincipals ["b"], .principal "d"]) := by
    rw [ec]
    refine ⟨by decide +kernel, by decide +kernel, by decide +kernel, by decide +kernel, by decide +kernel, fun b hb => ?_⟩
    have e : mersennePriv.pubkey.encode = .ok (okOf [] mersennePriv.pubkey.encode) := okOf_eq (d := []) (by decide +kernel)
    have ek : (runCalls (okOf sampleCert (Certificate.builder (some (Vector.replicate 32 1)) (some (Vector.replicate 8 2)) sampleEd .host
        mersennePriv.pubkey)) [.principal "a", .extension "x" "y", .setPrincipals ["b"], .principal "d"]).signatureKey =
        mersennePriv.pubkey := by decide +kernel
    rw [ek, e] at hb
    rw [← Res.ok.inj hb]
    decide +kernel
  obtain ⟨c', h1, c'', h2, h3, _⟩ := h hfit _ _ (List.Perm.refl _) (List.Perm.refl _)
  exact ⟨c0, h0, c', h1, c'', h2, h3.2.2.2.2.2.2.2.1.trans hp⟩

end Ssh
