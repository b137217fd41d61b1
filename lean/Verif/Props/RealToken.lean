import Verif.Concrete.Der
import Verif.Spec.RealToken
import Verif.Props.KeyInfo
import Verif.Props.Token
import Verif.Props.RealAttestation
import Verif.Props.Curves
import Verif.Concrete.P384

/-! # C157: tokens with elliptic curve keys, with DER computed -/

namespace Ssh

open Ssh.Spec Ssh.Concrete

theorem curveOf_mem (alg : EcAlg) : ((curveOf alg).1, (curveOf alg).2) ∈ curveContents := by
  cases alg <;> decide +kernel

section
variable {E : Type} [AddCommGroup E] {σ : Type} {C : Crypto} {D : YkDev σ} {alg : EcAlg} {c : EcDomain E} {slot d : Nat} {point : Bytes}
  {sc : SlotCert}

theorem Spec.TokenOf.slotKey (h : TokenOf C D alg c slot d point sc) : ∃ k, EcKeyOf (curveOf alg).1 point k ∧ SlotKey realX509 sc k := by
  obtain ⟨info, h1, h2⟩ := h.certificate
  obtain ⟨k, hk⟩ := ecKeyOf_curve (curveOf_mem alg) point
  obtain ⟨i, h3, h4, _⟩ := parseCert_certificate (curveOf_mem alg) h1 h2 h.short []
  rw [List.append_nil] at h3
  exact ⟨k, hk, i, _, h3, by rw [h4]; exact ⟨rfl, rfl⟩, by rw [h4]; exact hk⟩

theorem ecKeyOf_alg {k : PublicKey} (h : EcKeyOf (curveOf alg).1 point k) :
    (∃ curve, k.kind = .ecdsa curve point none) ∧ keyAlg k = some (tokenAlg alg) := by
  obtain ⟨name, curve, hm, hn, _, hkind, _⟩ := h
  refine ⟨⟨curve, hkind⟩, ?_⟩
  unfold keyAlg
  rw [hkind]
  have key : ∀ x ∈ ecOids, ∀ a : EcAlg, x.1 = (curveOf a).1 → ∃ id, x.2.2 = ⟨if a = .p256 then .nistp256 else .nistp384, id⟩ := by
    intro x hx a
    rcases List.mem_cons.mp hx with rfl | hx
    · cases a
      · exact fun _ => ⟨_, rfl⟩
      · exact fun h => absurd h (by decide +kernel)
    · cases List.mem_singleton.mp hx
      cases a
      · exact fun h => absurd h (by decide +kernel)
      · exact fun _ => ⟨_, rfl⟩
  obtain ⟨id, hid⟩ := key _ hm alg rfl
  dsimp only at hid
  subst hid
  cases alg <;> rfl

theorem algOf_pkiOf : algOf (pkiOf alg point) = tokenAlg alg := by cases alg <;> rfl

theorem pkiPoint_pkiOf : pkiPoint (pkiOf alg point) = some point := by cases alg <;> rfl

theorem Spec.TokenOf.tokenSigns (h : TokenOf C D alg c slot d point sc) (hv : VerifiesEcdsa C alg c) (hw : c.order ≤ 256 ^ ecWidth alg) (conn : Nat) :
    TokenSigns C D conn slot alg point := by
  intro st m sig hs
  obtain ⟨r, s, cr, cs, h1, h2, h3, h4⟩ := h.signs conn st m sig hs
  have hval := ecdsa_valid c h1
  obtain ⟨_, v2, _, v4, _⟩ := id hval
  have b1 : r < 256 ^ ecWidth alg := by omega
  have b2 : s < 256 ^ ecWidth alg := by omega
  have hn : ∀ x, x < 256 ^ ecWidth alg → NatWidth (ecWidth alg) x (beBytes (ecWidth alg) x) := fun x hx => ⟨beBytes_length _ _, by
    rw [natOf_beBytes, Nat.mod_eq_of_lt hx]⟩
  obtain ⟨fr, w1⟩ : ∃ f, NatWidth (ecWidth alg) r f := ⟨_, hn r b1⟩
  obtain ⟨fs, w2⟩ : ∃ f, NatWidth (ecWidth alg) s f := ⟨_, hn s b2⟩
  exact ⟨r, s, cr, cs, fr, fs, b1, b2, h2, h3, h4, w1, w2, (hv _ _ _).mpr ⟨_, r, s, fr, fs, h.key, rfl, w1, w2, hval⟩⟩

/-- C157: `ssh_cert_fetch_pubkey` gives the key with the token's point, over every connection. -/
theorem C157_key (h : TokenOf C D alg c slot d point sc) :
    ∃ k, EcKeyOf (curveOf alg).1 point k ∧ ∀ conn s, ∃ ev, Does D (Yk.fetchPubkey realX509 D conn slot) s ev (.ok k) := by
  obtain ⟨k, hk, hs⟩ := h.slotKey
  refine ⟨k, hk, fun conn s => ?_⟩
  exact ⟨_, (fetchPubkey_ok (s1 := (D.read conn slot s).2) (Prod.ext (h.holds conn s) rfl) hs).does⟩

/-- C157: `ssh_cert_signer` gives a signature that `verify_signature` accepts for that key, unless the token does not sign. -/
theorem C157_signs (h : TokenOf C D alg c slot d point sc) (hv : VerifiesEcdsa C alg c) (hw : c.order ≤ 256 ^ ecWidth alg) (k : PublicKey)
    (hk : EcKeyOf (curveOf alg).1 point k) (conn : Nat) (buf : Bytes) (s : σ) :
    (∃ ev, Does D (Yk.sshCertSigner realX509 C D conn buf slot) s ev (.err .internal) ∧
      .sign conn (slotDigest C (tokenAlg alg) buf) (tokenAlg alg) slot none ∈ ev) ∨
    ∃ ev blob, Does D (Yk.sshCertSigner realX509 C D conn buf slot) s ev (.ok blob) ∧ verifySignature C blob buf k = .ok blob := by
  obtain ⟨k', hk', hs⟩ := h.slotKey
  cases C66_unique _ _ _ _ hk hk'
  obtain ⟨⟨curve, h1⟩, h2⟩ := ecKeyOf_alg hk
  exact C77_verifies realX509 C D conn slot sc k curve point alg (h.holds conn) hs h1 h2 (by rw [h.pki]; exact algOf_pkiOf)
    (h.tokenSigns hv hw conn) buf s

theorem run_refused {ev : List YkEvent} {s s' : σ} (hr : Run D s ev s') {conn : Nat} {digest : Bytes} {a : AlgId} {sl : Nat}
    (h : .sign conn digest a sl none ∈ ev) : ∃ st, (D.sign conn digest a sl st).1 = none := by
  induction hr with
  | nil => cases h
  | @cons s0 s1 _ e es h1 _ ih =>
    rcases List.mem_cons.mp h with rfl | h
    · have h1 : D.sign conn digest a sl s0 = _ := h1
      exact ⟨s0, by rw [h1]⟩
    · exact ih h

/-- C157: a token that always signs makes a signature of everything. -/
theorem C157_always (h : TokenOf C D alg c slot d point sc) (hv : VerifiesEcdsa C alg c) (hw : c.order ≤ 256 ^ ecWidth alg) (k : PublicKey)
    (hk : EcKeyOf (curveOf alg).1 point k) (conn : Nat) (buf : Bytes) (s : σ)
    (ha : ∀ st, (D.sign conn (slotDigest C (tokenAlg alg) buf) (tokenAlg alg) slot st).1 ≠ none) :
    ∃ ev blob, Does D (Yk.sshCertSigner realX509 C D conn buf slot) s ev (.ok blob) ∧ verifySignature C blob buf k = .ok blob := by
  rcases C157_signs h hv hw k hk conn buf s with ⟨ev, ⟨s', hr, _⟩, h'⟩ | h'
  · obtain ⟨st, e⟩ := run_refused hr h'
    exact absurd e (ha st)
  · exact h'

/-- C157: a certificate for which that key is the CA is issued with the token and read back, unless the token does not sign. -/
theorem C157_certificate (h : TokenOf C D alg c slot d point sc) (hv : VerifiesEcdsa C alg c) (hw : c.order ≤ 256 ^ ecWidth alg) (conn : Nat)
    (s : σ) (cert : Certificate) (hwf : WellFormedCert cert) (hca : EcKeyOf (curveOf alg).1 point cert.signatureKey) :
    cert.sign C (tokenSigner realX509 C D conn slot s) = .err .signingError ∨
    ∃ c', cert.sign C (tokenSigner realX509 C D conn slot s) = .ok c' ∧ (c'.signature.length < 4294967296 →
      ∃ c'', Certificate.fromBytes C c'.serialized = .ok c'' ∧ SameContent c'' cert ∧ c''.signature = c'.signature) := by
  obtain ⟨k', hk', hs⟩ := h.slotKey
  cases C66_unique _ _ _ _ hca hk'
  obtain ⟨⟨curve, h1⟩, h2⟩ := ecKeyOf_alg hca
  exact C77_certificate realX509 C D conn slot sc _ curve point alg (h.holds conn) hs h1 h2 (by rw [h.pki]; exact algOf_pkiOf)
    (h.tokenSigns hv hw conn) s cert hwf rfl

/-- C157: a request made by `generate_csr` has the common name and the token's point, a signature valid for them under that point, and
`extract_ssh_pubkey_from_x509_csr` gives the same key as `ssh_cert_fetch_pubkey`, whatever bytes follow. -/
theorem C157_csr (h : TokenOf C D alg c slot d point sc) (G : Rcgen) (hG : Rfc2986 G) (conn : Nat) (cn : String) (s : σ) (ev : List YkEvent)
    (csr : Bytes) (hd : Does D (Yk.generateCsr C G D conn slot cn) s ev (.ok csr)) :
    ∃ part sig, RequestPart cn alg point part ∧ RequestOf alg part sig csr ∧ SignedDer C alg c point part sig ∧
      (csr.length < 256 ^ 8 → ∀ rest, ∃ k, EcKeyOf (curveOf alg).1 point k ∧ pubkeyFromX509Csr realX509 (csr ++ rest) = .ok k) := by
  rcases C76_csr C G D conn slot cn s with ⟨ev', e, h', _⟩ | ⟨c0, ev', hp, h', hev⟩ | ⟨c0, c1, c2, i1, i2, p, t, a, e1, e2, e3, ht, h'⟩
  · cases (hd.det h').2
  · cases (hd.det h').2
  · obtain ⟨rfl, hr⟩ := hd.det h'
    cases a with
    | none => cases hr
    | some sig =>
      injection hr with hr
      obtain ⟨s', hrun, _⟩ := h'
      cases hrun with
      | cons a0 hrun =>
      cases hrun with
      | @cons _ s2 _ _ _ a1 hrun =>
      cases hrun with
      | cons a2 hrun =>
      cases hrun with
      | cons a3 hrun =>
      cases hrun with
      | @cons _ s5 _ _ _ a4 hrun =>
      cases hrun with
      | cons a5 hrun =>
      have hc1 : c1 = sc := by
        have a2 : D.read i1 slot s2 = _ := a2
        have := h.holds i1 s2
        rw [a2] at this
        exact Option.some.inj this
      subst hc1
      rw [h.pki, pkiPoint_pkiOf] at e1
      cases e1
      rw [h.pki, algOf_pkiOf] at ht hr a5
      have hpart := hG.1 _ _ _ _ ht
      have hreq := hG.2 t alg sig
      rw [← hr] at hreq
      have a5 : D.sign i2 (slotDigest C (tokenAlg alg) t) (tokenAlg alg) slot s5 = _ := a5
      obtain ⟨r, s, cr, cs, h1, h2, h3, h4⟩ := h.signs i2 s5 t sig (by rw [a5])
      refine ⟨t, sig, hpart, hreq, ⟨_, r, s, cr, cs, h.key, h2, h3, h4, ecdsa_valid c h1⟩, fun hlen rest => ?_⟩
      obtain ⟨version, subject, info, attributes, p1, ⟨_, _, _, _, _, _, _, _, p2⟩, p3, p4, p5⟩ := hpart
      obtain ⟨o, a, bits, q1, q2, q3, q4⟩ := hreq
      exact C156_csr _ _ _ _ _ rest (curveOf_mem alg) p3
        ⟨version, subject, attributes, t, a, bits, ⟨_, _, p1⟩, ⟨_, _, p2⟩, p4, p5, ⟨_, _, q2⟩, ⟨_, _, q3⟩, q4⟩ hlen

end

/-! ### Examples -/

/-- Requests, computed. -/
def derRcgen : Rcgen where
  tbs cn alg point :=
    let part (curve : Bytes) := some (tlv 0x30 (tlv 2 [0] ++
      (tlv 0x30 (tlv 0x31 (tlv 0x30 (tlv 6 [0x55, 4, 3] ++ tlv 0x0c cn.toUTF8.data.toList))) ++
      (tlv 0x30 (tlv 0x30 (tlv 6 [0x2a, 0x86, 0x48, 0xce, 0x3d, 2, 1] ++ tlv 6 curve) ++ tlv 3 (0 :: point)) ++ tlv 0xa0 []))))
    match alg with
    | .eccP256 => part (curveOf .p256).2
    | .eccP384 => part (curveOf .p384).2
    | _ => none
  finish part alg sig :=
    tlv 0x30 (part ++ (tlv 0x30 (tlv 6 (ecdsaWith (if alg = .eccP384 then .p384 else .p256))) ++ tlv 3 (0 :: sig)))

theorem derRcgen_spec : Rfc2986 derRcgen := by
  refine ⟨fun cn alg point t h => ?_, fun t alg sig => ?_⟩
  · cases alg <;> cases h <;>
      exact ⟨_, _, _, _, tlv_spec _ _, ⟨_, _, _, _, tlv_spec _ _, tlv_spec _ _, tlv_spec _ _, tlv_spec _ _, tlv_spec _ _⟩, keyInfo_tlv _ _,
        ⟨_, _, tlv_spec _ _⟩, tlv_spec _ _⟩
  · cases alg <;> exact ⟨_, _, _, tlv_spec _ _, tlv_spec _ _, tlv_spec _ _, tlv_spec _ _⟩

/-- A self-signed certificate as tokens make them (version, serial number, algorithm, names and dates abridged). -/
def slotBytes (curve point : Bytes) : Bytes :=
  tlv 0x30 (tlv 0x30 ([tlv 0xa0 (tlv 2 [2]), tlv 2 [1], tlv 0x30 [], tlv 0x30 [], tlv 0x30 [], tlv 0x30 []].flatten ++
    (tlv 0x30 (tlv 0x30 (tlv 6 [0x2a, 0x86, 0x48, 0xce, 0x3d, 2, 1] ++ tlv 6 curve) ++ tlv 3 (0 :: point)) ++ [].flatten)) ++
    (tlv 0x30 [] ++ tlv 3 [0]))

theorem slotBytes_spec (curve point : Bytes) : ∃ info, KeyInfo curve point info ∧ CertificateDer info (slotBytes curve point) := by
  refine ⟨_, keyInfo_tlv curve point, _, [], _, _, _, rfl, ?_, .inl rfl, tlv_spec _ _, ⟨_, _, tlv_spec _ _⟩, ⟨_, _, tlv_spec _ _⟩, tlv_spec _ _⟩
  intro x hx
  simp only [List.mem_cons, List.not_mem_nil, or_false] at hx
  rcases hx with rfl | rfl | rfl | rfl | rfl | rfl <;> exact ⟨_, _, tlv_spec _ _⟩

/-- Signatures of a digest with the key of RFC 6979 on P-256 and a constant number (which gives the key away, but is a signature). -/
def rfcSign (digest : Bytes) : Option Bytes :=
  ((ecSignWith p256 (natOf rfcSecret) (natOf digest % p256.n) 1).or (ecSignWith p256 (natOf rfcSecret) (natOf digest % p256.n) 2)).map
    fun (x : Nat × Nat) => 0x30 :: UInt8.ofNat (derInt x.1 32 ++ derInt x.2 32).length :: (derInt x.1 32 ++ derInt x.2 32)

/-- A token whose slots all have the key of RFC 6979 on P-256. -/
def rfcToken : YkDev Nat where
  openFirst s := (some 1, s)
  openSerial _ s := (some 2, s)
  serial _ := 5
  reconnect _ s := (false, s)
  verifyPin _ _ s := (true, s)
  mgmKey _ := true
  authenticate _ _ s := (true, s)
  read _ _ s := (some ⟨.ecP256 rfcK256, "me", slotBytes (curveOf .p256).2 rfcK256⟩, s)
  certBytes _ := true
  write _ _ _ s := (true, s)
  attest _ _ s := (none, s)
  generate _ _ _ _ _ s := (none, s)
  selfSign _ _ _ _ s := (false, s)
  sign _ digest _ _ s := (rfcSign digest, s + 1)

theorem rfcToken_sign (conn : Nat) (digest : Bytes) (a : AlgId) (slot st : Nat) : (rfcToken.sign conn digest a slot st).1 = rfcSign digest := by
  simp only [rfcToken]

theorem rfcToken_digest (m : Bytes) : slotDigest (realCrypto []) (tokenAlg .p256) m = sha256 m := by
  simp only [tokenAlg, slotDigest, realCrypto]

theorem rfcSecret_range : 0 < natOf rfcSecret ∧ natOf rfcSecret < p256.n ∧ p256_good.domain.decode rfcK256 = some (natOf rfcSecret • p256_good.domain.base) := by
  have hp := rfcEc_pair
  rw [ecPair_iff (by simp)] at hp
  obtain ⟨d, ⟨_, hw⟩, h0, hd, hdec⟩ := hp
  have e : natOf rfcSecret = d := hw
  rw [e]
  exact ⟨h0, hd, hdec⟩

/-- It meets the hypotheses. -/
theorem rfcToken_meets : TokenOf (realCrypto []) rfcToken .p256 p256_good.domain 9 (natOf rfcSecret) rfcK256
    ⟨.ecP256 rfcK256, "me", slotBytes (curveOf .p256).2 rfcK256⟩ where
  holds _ _ := rfl
  key := rfcSecret_range.2.2
  pki := rfl
  certificate := slotBytes_spec _ _
  short := by decide +kernel
  signs := by
    intro conn st m sig h
    rw [rfcToken_sign, rfcToken_digest] at h
    unfold rfcSign at h
    obtain ⟨⟨r, s⟩, hs, rfl⟩ := Option.map_eq_some_iff.mp h
    have hsig : EcdsaSignature p256_good.domain (natOf rfcSecret) (natOf (sha256 m)) r s := by
      rw [Option.or_eq_some_iff] at hs
      rcases hs with hs | ⟨_, hs⟩
      · exact p256_good.signWith Nat.zero_lt_one p256_good.order.one_lt hs
      · exact p256_good.signWith Nat.zero_lt_two p256_good.three hs
    obtain ⟨v1, v2, v3, v4, _⟩ := ecdsa_valid _ hsig
    obtain ⟨cr, cs, d1, d2, d3⟩ := derSig_pair p256_good v2 (Nat.pos_iff_ne_zero.mp v1) v4 (Nat.pos_iff_ne_zero.mp v3)
    exact ⟨r, s, cr, cs, hsig, d1, d2, d3⟩

/-- It signs everything, and the signatures are accepted. -/
example (msg : Bytes) (k : PublicKey) (hk : EcKeyOf "1.2.840.10045.3.1.7" rfcK256 k) :
    ∃ ev blob, Does rfcToken (Yk.sshCertSigner realX509 (realCrypto []) rfcToken 1 msg 9) 0 ev (.ok blob) ∧
      verifySignature (realCrypto []) blob msg k = .ok blob := by
  refine C157_always rfcToken_meets (p256_verifies []) p256_width k hk 1 msg 0 fun st h => ?_
  rw [rfcToken_sign, rfcToken_digest] at h
  unfold rfcSign at h
  exact p256_good.signWith_some rfcSecret_range.1 rfcSecret_range.2.1 (Option.map_eq_none_iff.mp h)

set_option maxRecDepth 100000 in
/-- It makes a request, which is read. -/
example : ∃ ev csr k, Does rfcToken (Yk.generateCsr (realCrypto []) derRcgen rfcToken 1 9 "me") 0 ev (.ok csr) ∧
    EcKeyOf "1.2.840.10045.3.1.7" rfcK256 k ∧ pubkeyFromX509Csr realX509 (csr ++ [1]) = .ok k := by
  have key : (match (Yk.generateCsr (realCrypto []) derRcgen rfcToken 1 9 "me" (0, [])).1 with
    | .ok csr => decide (csr.length < 256 ^ 8)
    | _ => false) = true := by decide +kernel
  have fin : ∀ ev r, Does rfcToken (Yk.generateCsr (realCrypto []) derRcgen rfcToken 1 9 "me") 0 ev r →
      ∃ csr, r = .ok csr ∧ csr.length < 256 ^ 8 := by
    rintro ev r ⟨s', _, h⟩
    rw [h []] at key
    cases r with
    | ok csr => exact ⟨csr, rfl, of_decide_eq_true key⟩
    | err => cases key
    | panic => cases key
  have run : ∃ ev r, Does rfcToken (Yk.generateCsr (realCrypto []) derRcgen rfcToken 1 9 "me") 0 ev r := by
    rcases C76_csr (realCrypto []) derRcgen rfcToken 1 9 "me" 0 with ⟨_, _, h, _⟩ | ⟨_, _, _, h, _⟩ | ⟨_, _, _, _, _, _, _, _, _, _, _, _, h⟩ <;>
      exact ⟨_, _, h⟩
  obtain ⟨ev, r, h⟩ := run
  obtain ⟨csr, rfl, hl⟩ := fin _ _ h
  obtain ⟨_, _, _, _, _, hk⟩ := C157_csr rfcToken_meets derRcgen derRcgen_spec 1 "me" 0 ev csr h
  obtain ⟨k, h1, h2⟩ := hk hl [1]
  exact ⟨ev, csr, k, h, h1, h2⟩

end Ssh
