import Verif.Spec.Chains
import Verif.Props.RealToken
import Verif.Props.Rsa
import Verif.Concrete.Attested

/-! # C158: chains of certificates, with DER and signatures computed -/

namespace Ssh

open Ssh.Spec Ssh.Concrete

/-! ### Reading -/

theorem oid_extension : ∀ x ∈ extensionOids, oidText x.2 = x.1 := by decide +kernel

theorem oid_signature : oidText ecdsaSha256 = "1.2.840.10045.4.3.2" ∧ oidText rsaSha256 = "1.2.840.113549.1.1.11" := by decide +kernel

theorem spkiOf_rsa {key b : Bytes} (h : RsaKeyInfo key b) (hb : b.length < 256 ^ 8) : ∃ s, spkiOf b = some s ∧ s.keyData = key := by
  obtain ⟨o1, o2, alg, bits, h1, h2, h3, h4, h5⟩ := h
  have l1 := tlv_length h1
  have l2 := tlv_length h2
  have l3 := tlv_length h3
  have l4 := tlv_length h4
  have l5 := tlv_length h5
  rw [List.length_append] at l3 l5
  unfold spkiOf
  rw [derSeq_tlv h5 hb, derAll_two h3 h4 (by rw [List.length_append]; omega) (by rw [List.length_append]; omega)]
  have e := derAll_two h1 h2 (f := (o1 ++ o2).length + 1) (by rw [List.length_append]; omega) (by rw [List.length_append]; omega)
  simp only [Option.bind_eq_bind, Option.bind_some, e]
  exact ⟨_, rfl, rfl⟩

theorem issuer_any {key b : Bytes} (h : IssuerInfo key b) : AnyTlv b := by
  rcases h with ⟨_, _, _, h⟩ | ⟨_, _, _, _, _, _, _, _, h⟩
  · exact keyInfo_any h
  · exact ⟨_, _, h⟩

theorem spkiOf_issuer {key b : Bytes} (h : IssuerInfo key b) (hb : b.length < 256 ^ 8) : ∃ s, spkiOf b = some s ∧ s.keyData = key := by
  rcases h with ⟨_, _, h1, h2⟩ | h
  · exact ⟨_, spkiOf_keyInfo h1 h2 hb, rfl⟩
  · exact spkiOf_rsa h hb

theorem extensions_forall {es : List (String × Bytes)} {exts : List Bytes} (h : List.Forall₂ NamedExtension es exts)
    (hb : exts.flatten.length < 256 ^ 8) : (∀ x ∈ exts, AnyTlv x) ∧ exts.mapM extensionOf = some es := by
  induction h with
  | nil => exact ⟨nofun, rfl⟩
  | @cons e x es exts hx _ ih =>
    rw [List.flatten_cons, List.length_append] at hb
    obtain ⟨oid, h1, h2⟩ := hx
    obtain ⟨i1, i2⟩ := ih (by omega)
    refine ⟨fun y hy => ?_, ?_⟩
    · rcases List.mem_cons.mp hy with rfl | hy
      · exact extension_any h2
      · exact i1 y hy
    · rw [List.mapM_cons, extensionOf_der h2 (by omega), i2, oid_extension _ h1]
      rfl

theorem theExtensions_any {es : List (String × Bytes)} {parts : List Bytes} (h : TheExtensions es parts) : ∀ x ∈ parts, AnyTlv x := by
  rcases h with ⟨_, rfl⟩ | ⟨_, _, outer, rfl, _, _, h⟩
  · exact nofun
  · intro x hx
    rw [List.mem_singleton.mp hx]
    exact ⟨_, _, h⟩

theorem certExtensions_the {es : List (String × Bytes)} {parts : List Bytes} (h : TheExtensions es parts) (hb : parts.flatten.length < 256 ^ 8) :
    certExtensions parts = some es := by
  rcases h with ⟨rfl, rfl⟩ | ⟨exts, inner, outer, rfl, he, h1, h2⟩
  · rfl
  · have l1 := tlv_length h1
    have l2 := tlv_length h2
    rw [List.flatten_singleton] at hb
    obtain ⟨a1, a2⟩ := extensions_forall he (by omega)
    have c3 := children_tlv' h1 a1 (by omega)
    unfold certExtensions
    dsimp only
    rw [derNext_tlv' h2 hb]
    simp only [Option.bind_eq_bind, Option.bind_some, c3, a2]

/-- A certificate is read with its key and its extensions, whatever follows; then its parts are found. -/
theorem parseCert_certified {info tbs oid sig b : Bytes} {es : List (String × Bytes)} {s : Spki} (hany : AnyTlv info)
    (hs : info.length < 256 ^ 8 → spkiOf info = some s) (h : Certified info es tbs oid sig b) (hb : b.length < 256 ^ 8) (rest : Bytes) :
    parseCert (b ++ rest) = some ⟨s, es, b⟩ := by
  obtain ⟨before, after, o, params, alg, bits, hl, ha, he, h3, _, _, h4, h5, h6⟩ := h
  have l3 := tlv_length h3
  have l6 := tlv_length h6
  simp only [List.length_append] at l3 l6
  rw [show before.flatten ++ (info ++ after.flatten) = (before ++ info :: after).flatten by simp] at h3
  rw [show tbs ++ (alg ++ bits) = [tbs, alg, bits].flatten by simp] at h6
  have c1 := children_tlv' h6 (by
    intro x hx
    simp only [List.mem_cons, List.not_mem_nil, or_false] at hx
    rcases hx with rfl | rfl | rfl
    · exact ⟨_, _, h3⟩
    · exact ⟨_, _, h4⟩
    · exact ⟨_, _, h5⟩) hb
  have c2 := children_tlv' h3 (by
    intro x hx
    simp only [List.mem_append, List.mem_cons] at hx
    rcases hx with hx | rfl | hx
    · exact ha x hx
    · exact hany
    · exact theExtensions_any he x hx) (by omega)
  have hes := certExtensions_the he (by omega)
  have g6 : (before ++ info :: after).getD 6 [] = info := by
    rw [List.getD_eq_getElem?_getD, List.getElem?_append_right (by omega), hl]
    rfl
  have g7 : (before ++ info :: after).drop 7 = after := by
    rw [List.drop_append, hl, List.drop_eq_nil_of_le (by omega)]
    rfl
  unfold parseCert
  rw [derWhole_tlv h6 hb]
  simp only [Option.bind_eq_bind, Option.bind_some, c1]
  rw [show [tbs, alg, bits].getD 0 [] = tbs from rfl, c2]
  simp only [Option.bind_some]
  rw [g6, g7, hs (by omega)]
  simp only [Option.bind_some, hes]
  rfl

/-! ### RSA with SHA-256 -/

theorem padded_iff {m em : Bytes} {k : Nat} :
    (em.length = k ∧ ∃ ps, 8 ≤ ps ∧ em = [0x00, 0x01] ++ (List.replicate ps 0xff ++ (0x00 :: Spec.sha256Info (sha256 m)))) ↔
      62 ≤ k ∧ em = rsaPadded k .sha256 m := by
  have hlen := sha256_length m
  have hinfo : Spec.sha256Info (sha256 m) = rsaInfo .sha256 m := rfl
  have hil : (rsaInfo .sha256 m).length = 51 := by
    unfold rsaInfo Concrete.sha256Info
    rw [List.length_append, hlen]
    rfl
  unfold rsaPadded
  rw [hinfo]
  dsimp only
  rw [hil]
  constructor
  · rintro ⟨h1, ps, h2, rfl⟩
    simp only [List.length_append, List.length_cons, List.length_nil, List.length_replicate, hil] at h1
    refine ⟨by omega, ?_⟩
    rw [show k - 3 - 51 = ps by omega]
    rfl
  · rintro ⟨h, rfl⟩
    refine ⟨?_, k - 3 - 51, by omega, rfl⟩
    simp only [List.length_append, List.length_cons, List.length_replicate, hil]
    omega

theorem rsaVerify_sha256 (nb eb m s : Bytes) : rsaVerify .sha256 nb eb m s = true ↔
    rsaSupported (natOf nb) (natOf eb) ∧ SignedRsa (realCrypto []) (natOf nb) (natOf eb) m s := by
  unfold rsaVerify
  simp only [force_eq, toNat_eq]
  change (if octets (natOf nb) < 256 ∨ octets (natOf nb) > 1024 ∨ s.length ≠ octets (natOf nb) ∨ natOf s ≥ natOf nb ∨ natOf eb < 3 ∨
    natOf eb ≥ 2 ^ 33 then false else powMod (natOf s) (natOf eb) (natOf nb) == natOf (rsaPadded (octets (natOf nb)) .sha256 m)) = true ↔ _
  constructor
  · intro h
    split at h
    · cases h
    · rename_i hb
      have hn : 0 < natOf nb := by omega
      obtain ⟨b1, b2⟩ := (octets_bounds hn).mp (by omega)
      rw [beq_iff_eq, powMod_eq (Nat.lt_of_lt_of_le (Nat.one_lt_two_pow (n := 8) (by decide)) (Nat.le_trans (Nat.le_self_pow (n := 255) (by decide) 256) b1))] at h
      obtain ⟨e1, ps, e2, e3⟩ := (padded_iff (m := m) (k := octets (natOf nb))).mpr ⟨by omega, rfl⟩
      exact ⟨⟨b1, b2, by omega, by omega⟩, octets (natOf nb), ps, _, octets_eq hn, e1, e2, e3, by omega, by omega, h⟩
  · rintro ⟨⟨b1, b2, b3, b4⟩, k, ps, em, ho, e1, e2, e3, hs, hlt, hv⟩
    have hn : 0 < natOf nb := by omega
    have hb := (octets_bounds hn).mpr ⟨b1, b2⟩
    have hk := octets_unique' ho hn
    obtain ⟨_, rfl⟩ := padded_iff.mp ⟨e1, ps, e2, e3⟩
    rw [hk] at hs hv
    rw [if_neg (by omega), beq_iff_eq, powMod_eq (Nat.lt_of_lt_of_le (Nat.one_lt_two_pow (n := 8) (by decide)) (Nat.le_trans (Nat.le_self_pow (n := 255) (by decide) 256) b1))]
    exact hv

theorem natOf_dropZeros (b : Bytes) : natOf (b.dropWhile (· == 0)) = natOf b := by
  induction b with
  | nil => rfl
  | cons x b ih =>
    rw [List.dropWhile_cons]
    split
    · rename_i h
      rw [ih, beq_iff_eq.mp h]
      simp [natOf]
    · rfl

theorem derSeq_rsa {n e : Nat} {b : Bytes} (h : RsaPublicKey n e b) (hb : b.length < 256 ^ 8) :
    ∃ x y, derSeq b = some [(2, x), (2, y)] ∧ natOf x = n ∧ natOf y = e := by
  obtain ⟨wn, we, h1, h2, h3⟩ := h
  have l3 := tlv_length h3
  rw [List.length_append] at l3
  obtain ⟨x, d1, d2, _⟩ := derNext_integer (rest := we) h1 (by omega)
  obtain ⟨y, e1, e2, _⟩ := derNext_integer (rest := []) h2 (by omega)
  rw [List.append_nil] at e1
  refine ⟨x, y, ?_, by rw [← toNat_eq]; exact d2, by rw [← toNat_eq]; exact e2⟩
  rw [derSeq_tlv h3 hb]
  have p1 : wn ++ we ≠ [] := by obtain ⟨_, _, rfl, _⟩ := h1; simp
  have p2 : we ≠ [] := by obtain ⟨_, _, rfl, _⟩ := h2; simp
  have hl : 2 ≤ (wn ++ we).length := by
    have := List.length_pos_iff.mpr p2
    have : 0 < wn.length := by obtain ⟨_, _, rfl, _⟩ := h1; simp
    rw [List.length_append]
    omega
  obtain ⟨f, hf⟩ : ∃ f, (wn ++ we).length + 1 = f + 1 + 1 + 1 := ⟨(wn ++ we).length - 2, by omega⟩
  rw [hf]
  exact derAll_cons p1 d1 (derAll_cons p2 e1 (derAll_nil _))

theorem certified_length {info tbs oid sig b : Bytes} {es : List (String × Bytes)} (h : Certified info es tbs oid sig b) : info.length ≤ b.length := by
  obtain ⟨before, after, o, params, alg, bits, _, _, _, h3, _, _, _, _, h6⟩ := h
  have l3 := tlv_length h3
  have l6 := tlv_length h6
  simp only [List.length_append] at l3 l6
  omega

theorem issuer_length {key b : Bytes} (h : IssuerInfo key b) : key.length ≤ b.length := by
  rcases h with ⟨_, _, _, o1, o2, alg, bits, _, _, _, h4, h5⟩ | ⟨o1, o2, alg, bits, _, _, _, h4, h5⟩
  all_goals
    have l4 := tlv_length h4
    have l5 := tlv_length h5
    simp only [List.length_append, List.length_cons] at l4 l5
    omega

/-! ### Signatures -/

/-- C158: the signature of a certificate is accepted exactly if it is one by the given key. -/
theorem C158_signature {info tbs oid sig b : Bytes} {es : List (String × Bytes)} (h : Certified info es tbs oid sig b)
    (hb : b.length < 256 ^ 8) (cert : X509Cert) (hc : cert.raw = b) (key : Spki)
    (ho : oid = ecdsaSha256 ∨ oid = rsaSha256 ∧ ∃ n e, RsaPublicKey n e key.keyData) (hl : key.keyData.length < 256 ^ 8) :
    realX509.verify cert key = true ↔ SignedWith (realCrypto []) p256_good.domain rsaSupported oid key.keyData tbs sig := by
  obtain ⟨before, after, o, params, alg, bits, hl', ha, he, h3, h7, hp, h4, h5, h6⟩ := h
  have l7 := tlv_length h7
  have l4 := tlv_length h4
  have l5 := tlv_length h5
  have l6 := tlv_length h6
  simp only [List.length_append] at l4 l6
  rw [show tbs ++ (alg ++ bits) = [tbs, alg, bits].flatten by simp] at h6
  have c1 := children_tlv' h6 (by
    intro x hx
    simp only [List.mem_cons, List.not_mem_nil, or_false] at hx
    rcases hx with rfl | rfl | rfl
    · exact ⟨_, _, h3⟩
    · exact ⟨_, _, h4⟩
    · exact ⟨_, _, h5⟩) hb
  have c2 : ∃ l, children alg = some (o :: l) := by
    rcases hp with rfl | hp
    · rw [List.append_nil] at h4
      exact ⟨[], children_tlv' (l := [o]) (by simpa using h4) (by
        intro x hx
        rw [List.mem_singleton.mp hx]
        exact ⟨_, _, h7⟩) (by omega)⟩
    · exact ⟨[params], children_tlv' (l := [o, params]) (by simpa using h4) (by
        intro x hx
        simp only [List.mem_cons, List.not_mem_nil, or_false] at hx
        rcases hx with rfl | rfl
        · exact ⟨_, _, h7⟩
        · exact hp) (by omega)⟩
  obtain ⟨l, c2⟩ := c2
  show verifyCert cert key = true ↔ _
  have e : (do
      let top ← children cert.raw
      let alg ← children (top.getD 1 [])
      let (_, alg, _) ← derNext (alg.getD 0 [])
      let (_, sig, _) ← derNext (top.getD 2 [])
      return (oidText alg, top.getD 0 [], sig.drop 1) : Option (String × Bytes × Bytes)) = some (oidText oid, tbs, sig) := by
    rw [hc, c1]
    simp only [Option.bind_eq_bind, Option.bind_some]
    rw [show [tbs, alg, bits].getD 1 [] = alg from rfl, c2]
    simp only [Option.bind_some]
    rw [show (o :: l).getD 0 [] = o from rfl, derNext_tlv' h7 (by omega)]
    simp only [Option.bind_some]
    rw [show [tbs, alg, bits].getD 2 [] = bits from rfl, derNext_tlv' h5 (by omega)]
    rfl
  unfold verifyCert
  rw [e]
  rcases ho with rfl | ⟨rfl, n, e', hr⟩
  · rw [oid_signature.1]
    simp only []
    have := C154_p256 [] key.keyData tbs sig
    rw [show (realCrypto []).ecdsaAsn1Verify key.keyData tbs sig = ecdsaAsn1Verify key.keyData tbs sig from rfl] at this
    rw [this]
    constructor
    · exact fun h => .inl ⟨rfl, h⟩
    · rintro (⟨_, h⟩ | ⟨h, _⟩)
      · exact h
      · exact absurd h (by decide)
  · rw [oid_signature.2]
    simp only []
    obtain ⟨x, y, hd, hx, hy⟩ := derSeq_rsa hr hl
    rw [hd]
    simp only []
    rw [rsaVerify_sha256, natOf_dropZeros, hx, hy]
    constructor
    · rintro ⟨h1, h2⟩
      exact .inr ⟨rfl, n, e', hr, h1, h2⟩
    · rintro (⟨h, _⟩ | ⟨_, n', e'', hr', h1, h2⟩)
      · exact absurd h (by decide)
      · obtain ⟨x', y', hd', hx', hy'⟩ := derSeq_rsa hr' hl
        rw [hd] at hd'
        cases hd'
        cases hx.symm.trans hx'
        cases hy.symm.trans hy'
        exact ⟨h1, h2⟩

/-- C158: whoever knows the secret numbers of an RSA key can sign everything. -/
theorem C158_rsa {n e d p q qinv : Nat} (hn : RsaNumbers n e d p q qinv) (hs : rsaSupported n e) {key : Bytes} (hk : RsaPublicKey n e key)
    (tbs : Bytes) : ∃ sig, SignedWith (realCrypto []) p256_good.domain rsaSupported rsaSha256 key tbs sig := by
  have h0 : 0 < n := Nat.lt_of_lt_of_le (Nat.pow_pos (by decide)) hs.1
  have ho := octets_eq h0
  have hb := (octets_bounds h0).mpr ⟨hs.1, hs.2.1⟩
  obtain ⟨e1, ps, e2, e3⟩ := (padded_iff (m := tbs) (k := octets n)).mpr ⟨by omega, rfl⟩
  have hlt : natOf (rsaPadded (octets n) .sha256 tbs) < n := by
    refine Nat.lt_of_lt_of_le ?_ ho.2.1
    rw [e3] at e1 ⊢
    simp only [List.cons_append, List.nil_append, List.length_cons] at e1
    have := natOf_lt (0x01 :: (List.replicate ps 0xff ++ (0x00 :: Spec.sha256Info (sha256 tbs))))
    rw [List.length_cons] at this
    simp only [List.cons_append, List.nil_append]
    rw [natOf, UInt8.toNat_zero, Nat.zero_mul, Nat.zero_add]
    have e : octets n - 1 = (List.replicate ps 0xff ++ (0x00 :: Spec.sha256Info (sha256 tbs))).length + 1 := by omega
    rw [e]
    exact this
  have hsl : natOf (rsaPadded (octets n) .sha256 tbs) ^ d % n < n := Nat.mod_lt _ h0
  refine ⟨Concrete.natBytes (octets n) (natOf (rsaPadded (octets n) .sha256 tbs) ^ d % n), .inr ⟨rfl, n, e, hk, hs, octets n, ps, _, ho, e1, e2, e3,
    Concrete.natBytes_length _ _, ?_, ?_⟩⟩
  · rw [Concrete.natOf_natBytes, Nat.mod_eq_of_lt (Nat.lt_trans hsl ho.2.2)]
    exact hsl
  · rw [Concrete.natOf_natBytes, Nat.mod_eq_of_lt (Nat.lt_trans hsl ho.2.2)]
    exact rsa_undo hn _ hlt

example (tbs : Bytes) : ∃ sig, SignedWith (realCrypto []) p256_good.domain rsaSupported rsaSha256
    (tlv 0x30 (derInteger mersenneRsa.n ++ derInteger mersenneRsa.e)) tbs sig :=
  C158_rsa mersenne_numbers mersenne_supported ⟨_, _, derInteger_spec _, derInteger_spec _, tlv_spec _ _⟩ tbs

/-- C158: and the signatures of FIPS 186-5 on P-256 in DER are signatures. -/
theorem C158_ecdsa {d r s : Nat} {key cr cs sig tbs : Bytes} (hk : p256_good.domain.decode key = some (d • p256_good.domain.base))
    (h : EcdsaSignature p256_good.domain d (natOf (sha256 tbs)) r s) (hr : DerPositive r cr) (hs : DerPositive s cs) (hsig : DerPair cr cs sig) :
    SignedWith (realCrypto []) p256_good.domain rsaSupported ecdsaSha256 key tbs sig :=
  .inl ⟨rfl, _, r, s, cr, cs, hk, hr, hs, hsig, ecdsa_valid _ h⟩

/-! ### Chains -/

variable {iinfo ikey itbs ioid isig intermediate cinfo point ctbs coid csig client : Bytes} {ies es : List (String × Bytes)} {name : String}
  {curve : Bytes}

/-- C158: exactly when a chain is accepted, and what is reported: names, dates and the extensions of the intermediate certificate (whether
it may issue certificates) do not matter. -/
theorem C158_exact (yubicoRoot : String) (rootPem : Option String) (root : X509Cert)
    (hroot : realX509.parsePem (rootPem.getD yubicoRoot) = some root) (hrl : root.spki.keyData.length < 256 ^ 8)
    (hi : Certified iinfo ies itbs ioid isig intermediate) (hik : IssuerInfo ikey iinfo) (hil : intermediate.length < 256 ^ 8)
    (hc : Certified cinfo es ctbs coid csig client) (hcurve : (name, curve) ∈ curveContents) (hck : KeyInfo curve point cinfo)
    (hcl : client.length < 256 ^ 8)
    (hia : ioid = ecdsaSha256 ∨ ioid = rsaSha256 ∧ ∃ n e, RsaPublicKey n e root.spki.keyData)
    (hca : coid = ecdsaSha256 ∨ coid = rsaSha256 ∧ ∃ n e, RsaPublicKey n e ikey) (rest rest' : Bytes) (v : ValidPivKey) :
    verifyCertificateChain realX509 yubicoRoot (client ++ rest) (intermediate ++ rest') rootPem = .ok v ↔
    SignedWith (realCrypto []) p256_good.domain rsaSupported ioid root.spki.keyData itbs isig ∧
    SignedWith (realCrypto []) p256_good.domain rsaSupported coid ikey ctbs csig ∧ EcKeyOf name point v.publicKey ∧
    (∀ e ∈ es, SerialReadable realX509 e ∧ PolicyReadable e) ∧ PivInfo realX509 es v := by
  have li := certified_length hi
  obtain ⟨s, hs, hsk⟩ := spkiOf_issuer hik (by omega)
  have p1 : realX509.parseDer (intermediate ++ rest') = some ⟨s, ies, intermediate⟩ := parseCert_certified (issuer_any hik) (fun _ => hs) hi hil rest'
  have p2 : realX509.parseDer (client ++ rest) = some ⟨⟨"1.2.840.10045.2.1", some (some name), point, cinfo⟩, es, client⟩ :=
    parseCert_certified (keyInfo_any hck) (spkiOf_keyInfo hcurve hck) hc hcl rest
  have hkl := issuer_length hik
  have v1 := C158_signature hi hil ⟨s, ies, intermediate⟩ rfl root.spki hia hrl
  have v2 := C158_signature hc hcl ⟨⟨"1.2.840.10045.2.1", some (some name), point, cinfo⟩, es, client⟩ rfl s
    (by rw [hsk]; exact hca) (by rw [hsk]; omega)
  rw [hsk] at v2
  rw [C65_exact, ← v1, ← v2]
  constructor
  · rintro ⟨c, oid, ⟨r, i, q1, q2, q3, q4, q5⟩, ⟨_, q6⟩, q7, q8, q9⟩
    rw [hroot] at q1
    rw [p1] at q2
    rw [p2] at q3
    cases q1
    cases q2
    cases q3
    cases q6
    exact ⟨q4, q5, q7, q8, q9⟩
  · rintro ⟨q4, q5, q7, q8, q9⟩
    exact ⟨_, name, ⟨root, _, hroot, p1, p2, q4, q5⟩, ⟨rfl, rfl⟩, q7, q8, q9⟩

/-- C158: the same with nothing after the certificates. -/
theorem C158_plain (yubicoRoot : String) (rootPem : Option String) (root : X509Cert)
    (hroot : realX509.parsePem (rootPem.getD yubicoRoot) = some root) (hrl : root.spki.keyData.length < 256 ^ 8)
    (hi : Certified iinfo ies itbs ioid isig intermediate) (hik : IssuerInfo ikey iinfo) (hil : intermediate.length < 256 ^ 8)
    (hc : Certified cinfo es ctbs coid csig client) (hcurve : (name, curve) ∈ curveContents) (hck : KeyInfo curve point cinfo)
    (hcl : client.length < 256 ^ 8)
    (hia : ioid = ecdsaSha256 ∨ ioid = rsaSha256 ∧ ∃ n e, RsaPublicKey n e root.spki.keyData)
    (hca : coid = ecdsaSha256 ∨ coid = rsaSha256 ∧ ∃ n e, RsaPublicKey n e ikey) (v : ValidPivKey) :
    verifyCertificateChain realX509 yubicoRoot client intermediate rootPem = .ok v ↔
    SignedWith (realCrypto []) p256_good.domain rsaSupported ioid root.spki.keyData itbs isig ∧
    SignedWith (realCrypto []) p256_good.domain rsaSupported coid ikey ctbs csig ∧ EcKeyOf name point v.publicKey ∧
    (∀ e ∈ es, SerialReadable realX509 e ∧ PolicyReadable e) ∧ PivInfo realX509 es v := by
  have := C158_exact yubicoRoot rootPem root hroot hrl hi hik hil hc hcurve hck hcl hia hca [] [] v
  rwa [List.append_nil, List.append_nil] at this

/-- C158: a chain with a signature that is not one is refused as such. -/
theorem C158_forged (yubicoRoot : String) (rootPem : Option String) (root : X509Cert)
    (hroot : realX509.parsePem (rootPem.getD yubicoRoot) = some root) (hrl : root.spki.keyData.length < 256 ^ 8)
    (hi : Certified iinfo ies itbs ioid isig intermediate) (hik : IssuerInfo ikey iinfo) (hil : intermediate.length < 256 ^ 8)
    (hc : Certified cinfo es ctbs coid csig client) (hcurve : (name, curve) ∈ curveContents) (hck : KeyInfo curve point cinfo)
    (hcl : client.length < 256 ^ 8)
    (hia : ioid = ecdsaSha256 ∨ ioid = rsaSha256 ∧ ∃ n e, RsaPublicKey n e root.spki.keyData)
    (hca : coid = ecdsaSha256 ∨ coid = rsaSha256 ∧ ∃ n e, RsaPublicKey n e ikey) (rest rest' : Bytes)
    (hn : ¬ (SignedWith (realCrypto []) p256_good.domain rsaSupported ioid root.spki.keyData itbs isig ∧
      SignedWith (realCrypto []) p256_good.domain rsaSupported coid ikey ctbs csig)) :
    verifyCertificateChain realX509 yubicoRoot (client ++ rest) (intermediate ++ rest') rootPem = .err .invalidSignature := by
  have li := certified_length hi
  obtain ⟨s, hs, hsk⟩ := spkiOf_issuer hik (by omega)
  have p1 : realX509.parseDer (intermediate ++ rest') = some ⟨s, ies, intermediate⟩ := parseCert_certified (issuer_any hik) (fun _ => hs) hi hil rest'
  have p2 : realX509.parseDer (client ++ rest) = some ⟨⟨"1.2.840.10045.2.1", some (some name), point, cinfo⟩, es, client⟩ :=
    parseCert_certified (keyInfo_any hck) (spkiOf_keyInfo hcurve hck) hc hcl rest
  have hkl := issuer_length hik
  have v1 := C158_signature hi hil ⟨s, ies, intermediate⟩ rfl root.spki hia hrl
  have v2 := C158_signature hc hcl ⟨⟨"1.2.840.10045.2.1", some (some name), point, cinfo⟩, es, client⟩ rfl s
    (by rw [hsk]; exact hca) (by rw [hsk]; omega)
  rw [hsk] at v2
  rw [← v1, ← v2] at hn
  unfold verifyCertificateChain
  rw [hroot, p1, p2]
  simp only [Res.unwrap, Res.ofOption, Res.ok_bind]
  split
  · rfl
  · split
    · rfl
    · rename_i h1 h2
      exact absurd ⟨Classical.not_not.mp h1, Classical.not_not.mp h2⟩ hn

/-- C158: exactly when the attestation of a security key is accepted, and what is reported. -/
theorem C158_attestation (yubicoRoot : String) (rootPem : Option String) (root : X509Cert)
    (hroot : realX509.parsePem (rootPem.getD yubicoRoot) = some root) (hrl : root.spki.keyData.length < 256 ^ 8)
    (hc : Certified cinfo es ctbs coid csig client) (hck : IssuerInfo point cinfo) (hcl : client.length < 256 ^ 8)
    (hca : coid = ecdsaSha256 ∨ coid = rsaSha256 ∧ ∃ n e, RsaPublicKey n e root.spki.keyData)
    (authData sig challenge rest : Bytes) (alg : Int) (v : ValidAttestation) :
    verifyAuthData realX509 (realCrypto []) yubicoRoot authData sig challenge alg (client ++ rest) rootPem = .ok v ↔
    alg = -7 ∧ SignedWith (realCrypto []) p256_good.domain rsaSupported coid root.spki.keyData ctbs csig ∧
    SignedAsn1 (realCrypto []) p256_good.domain point (authData ++ challenge) sig ∧ AuthData.parse authData = .ok v.authData ∧
    ExtensionsDecode realX509 es ∧ AttestationInfo realX509 es v := by
  have lc := certified_length hc
  obtain ⟨s, hs, hsk⟩ := spkiOf_issuer hck (by omega)
  have p1 : realX509.parseDer (client ++ rest) = some ⟨s, es, client⟩ := parseCert_certified (issuer_any hck) (fun _ => hs) hc hcl rest
  have v1 := C158_signature hc hcl ⟨s, es, client⟩ rfl root.spki hca hrl
  rw [C154_exact _ _ _ (C154_p256 []), ← v1]
  constructor
  · rintro ⟨h0, i, ⟨r, q1, q2, q3⟩, q4, q5, q6, q7⟩
    rw [hroot] at q1
    rw [p1] at q2
    cases q1
    cases q2
    rw [hsk] at q4
    exact ⟨h0, q3, q4, q5, q6, q7⟩
  · rintro ⟨h0, q3, q4, q5, q6, q7⟩
    exact ⟨h0, _, ⟨root, hroot, p1, q3⟩, by rw [hsk]; exact q4, q5, q6, q7⟩

/-- C158: an attestation of which the certificate or the authenticator data is not signed is refused as such. -/
theorem C158_refused (yubicoRoot : String) (rootPem : Option String) (root : X509Cert)
    (hroot : realX509.parsePem (rootPem.getD yubicoRoot) = some root) (hrl : root.spki.keyData.length < 256 ^ 8)
    (hc : Certified cinfo es ctbs coid csig client) (hck : IssuerInfo point cinfo) (hcl : client.length < 256 ^ 8)
    (hca : coid = ecdsaSha256 ∨ coid = rsaSha256 ∧ ∃ n e, RsaPublicKey n e root.spki.keyData) (authData sig challenge rest : Bytes)
    (hn : ¬ (SignedWith (realCrypto []) p256_good.domain rsaSupported coid root.spki.keyData ctbs csig ∧
      SignedAsn1 (realCrypto []) p256_good.domain point (authData ++ challenge) sig)) :
    verifyAuthData realX509 (realCrypto []) yubicoRoot authData sig challenge (-7) (client ++ rest) rootPem = .err .invalidSignature := by
  have lc := certified_length hc
  obtain ⟨s, hs, hsk⟩ := spkiOf_issuer hck (by omega)
  have p1 : realX509.parseDer (client ++ rest) = some ⟨s, es, client⟩ := parseCert_certified (issuer_any hck) (fun _ => hs) hc hcl rest
  have v1 := C158_signature hc hcl ⟨s, es, client⟩ rfl root.spki hca hrl
  rw [← v1, ← C154_p256 [] point] at hn
  unfold verifyAuthData
  rw [if_pos rfl, hroot, p1]
  simp only [Res.ofOption, Res.ok_bind]
  split
  · rfl
  · split
    · rfl
    · rename_i h1 h2
      rw [hsk] at h2
      exact absurd ⟨Classical.not_not.mp h1, Classical.not_not.mp h2⟩ hn

/-- C158: the chain of a device: the client's certificate names firmware, serial number and policies, and perhaps something else; they
are reported with its key. -/
theorem C158_device (yubicoRoot : String) (rootPem : Option String) (root : X509Cert)
    (hroot : realX509.parsePem (rootPem.getD yubicoRoot) = some root) (hrl : root.spki.keyData.length < 256 ^ 8)
    (hi : Certified iinfo ies itbs ioid isig intermediate) (hik : IssuerInfo ikey iinfo) (hil : intermediate.length < 256 ^ 8)
    (f1 f2 f3 pin touch : UInt8) (serial : UInt64) (w : Bytes) (hw : DerInteger serial.toNat w) (hw8 : w.length ≤ 10)
    (more : List (String × Bytes))
    (hmore : ∀ e ∈ more, e.1 ≠ "1.3.6.1.4.1.41482.3.3" ∧ e.1 ≠ "1.3.6.1.4.1.41482.3.7" ∧ e.1 ≠ "1.3.6.1.4.1.41482.3.8")
    (hc : Certified cinfo
      ([("1.3.6.1.4.1.41482.3.3", [f1, f2, f3]), ("1.3.6.1.4.1.41482.3.7", w), ("1.3.6.1.4.1.41482.3.8", [pin, touch])] ++ more)
      ctbs coid csig client)
    (hcurve : (name, curve) ∈ curveContents) (hck : KeyInfo curve point cinfo) (hcl : client.length < 256 ^ 8)
    (hia : SignedWith (realCrypto []) p256_good.domain rsaSupported ioid root.spki.keyData itbs isig)
    (hca : SignedWith (realCrypto []) p256_good.domain rsaSupported coid ikey ctbs csig) (rest rest' : Bytes) :
    ∃ k, EcKeyOf name point k ∧ verifyCertificateChain realX509 yubicoRoot (client ++ rest) (intermediate ++ rest') rootPem =
      .ok ⟨k, s!"{f1.toNat}.{f2.toNat}.{f3.toNat}".toList, serial, touch, pin⟩ := by
  obtain ⟨k, hk⟩ := ecKeyOf_curve hcurve point
  have alg : ∀ {oid key tbs sig : Bytes}, SignedWith (realCrypto []) p256_good.domain rsaSupported oid key tbs sig →
      oid = ecdsaSha256 ∨ oid = rsaSha256 ∧ ∃ n e, RsaPublicKey n e key := by
    rintro _ _ _ _ (⟨h, _⟩ | ⟨h, n, e, h', _⟩)
    · exact .inl h
    · exact .inr ⟨h, n, e, h'⟩
  obtain ⟨l, c, rfl, hl, hcn, _⟩ := id hw
  have hn : realX509.integer ([2] ++ (l ++ c)) = some c := by
    show tagged 2 _ = _
    unfold tagged
    have := derNext_eq (tag := 2) (rest := []) hl (by simp only [List.length_append, List.length_cons] at hw8; omega)
    rw [List.append_nil] at this
    rw [show [2] ++ (l ++ c) = 2 :: (l ++ c) from rfl, this]
    rfl
  have hc8 : c.length ≤ 8 := by
    have : l ≠ [] := by
      rcases hl with ⟨_, rfl⟩ | ⟨_, l', rfl, _⟩ <;> simp
    have := List.length_pos_iff.mpr this
    simp only [List.length_append, List.length_cons, List.length_nil] at hw8
    omega
  refine ⟨k, hk, (C158_exact yubicoRoot rootPem root hroot hrl hi hik hil hc hcurve hck hcl (alg hia) (alg hca) rest rest' _).mpr
    ⟨hia, hca, hk, ?_, ?_⟩⟩
  · intro e he
    simp only [List.mem_append, List.mem_cons, List.not_mem_nil, or_false] at he
    rcases he with (rfl | rfl | rfl) | he
    · exact ⟨fun h => absurd h (by simp), fun h => absurd h (by simp)⟩
    · exact ⟨fun _ => by rw [hn]; simp, fun h => absurd h (by simp)⟩
    · exact ⟨fun h => absurd h (by simp), fun _ => Nat.le_refl 2⟩
    · exact ⟨fun h => absurd h (hmore e he).2.1, fun h => absurd h (hmore e he).2.2⟩
  · have s2 : pivSerial realX509 ("1.3.6.1.4.1.41482.3.7", [2] ++ (l ++ c)) = some serial.toNat := by
      unfold pivSerial
      dsimp only
      rw [hn]
      simp [hc8, hcn]
    have s1 : pivSerial realX509 ("1.3.6.1.4.1.41482.3.3", [f1, f2, f3]) = none := by
      unfold pivSerial
      rfl
    have s3 : pivSerial realX509 ("1.3.6.1.4.1.41482.3.8", [pin, touch]) = none := by
      unfold pivSerial
      rfl
    have m1 : more.filterMap pivFirmware = [] := List.filterMap_eq_nil_iff.mpr fun e he => by
      unfold pivFirmware
      rw [beq_false_of_ne (hmore e he).1]
    have m2 : more.filterMap (pivSerial realX509) = [] := List.filterMap_eq_nil_iff.mpr fun e he => by
      unfold pivSerial
      rw [beq_false_of_ne (hmore e he).2.1]
    have m3 : more.filterMap pivPolicies = [] := List.filterMap_eq_nil_iff.mpr fun e he => by
      unfold pivPolicies
      rw [beq_false_of_ne (hmore e he).2.2]
    refine ⟨?_, ?_, ?_⟩
    · rw [List.filterMap_append, m1]
      rfl
    · rw [List.filterMap_append, m2]
      simp only [List.filterMap_cons, s1, s2, s3]
      rfl
    · rw [List.filterMap_append, m3]
      rfl

/-! ### A chain with the key of RFC 6979 for everybody -/

def rfcInfo : Bytes := tlv 0x30 (tlv 0x30 (tlv 6 [0x2a, 0x86, 0x48, 0xce, 0x3d, 2, 1] ++ tlv 6 (curveOf .p256).2) ++ tlv 3 (0 :: rfcK256))

/-- What is signed; names and dates are empty. -/
def plainTbs (exts : List Bytes) : Bytes :=
  tlv 0x30 ([tlv 0xa0 (tlv 2 [2]), tlv 2 [1], tlv 0x30 [], tlv 0x30 [], tlv 0x30 [], tlv 0x30 []].flatten ++ (rfcInfo ++ exts.flatten))

def plainExt (oid value : Bytes) : Bytes := tlv 0x30 (tlv 6 oid ++ tlv 4 value)

def deviceExts : List Bytes :=
  [tlv 0xa3 (tlv 0x30 [plainExt [0x2b, 6, 1, 4, 1, 0x82, 0xc4, 0x0a, 3, 3] [5, 4, 3],
    plainExt [0x2b, 6, 1, 4, 1, 0x82, 0xc4, 0x0a, 3, 7] [2, 2, 0x12, 0x34], plainExt [0x2b, 6, 1, 4, 1, 0x82, 0xc4, 0x0a, 3, 8] [1, 2]].flatten)]

def rfcSigned (tbs : Bytes) : Bytes := (rfcSign (sha256 tbs)).getD []

def rfcCert (tbs : Bytes) : Bytes := tlv 0x30 (tbs ++ (tlv 0x30 (tlv 6 ecdsaSha256 ++ []) ++ tlv 3 (0 :: rfcSigned tbs)))

theorem rfcCert_certified {es : List (String × Bytes)} {exts : List Bytes} (h : TheExtensions es exts) :
    Certified rfcInfo es (plainTbs exts) ecdsaSha256 (rfcSigned (plainTbs exts)) (rfcCert (plainTbs exts)) := by
  refine ⟨_, _, _, _, _, _, rfl, ?_, h, tlv_spec _ _, tlv_spec _ _, .inl rfl, tlv_spec _ _, tlv_spec _ _, tlv_spec _ _⟩
  intro x hx
  simp only [List.mem_cons, List.not_mem_nil, or_false] at hx
  rcases hx with rfl | rfl | rfl | rfl | rfl | rfl <;> exact ⟨_, _, tlv_spec _ _⟩

theorem rfcSigned_with (tbs : Bytes) : SignedWith (realCrypto []) p256_good.domain rsaSupported ecdsaSha256 rfcK256 tbs (rfcSigned tbs) := by
  obtain ⟨sig, h⟩ : ∃ sig, rfcSign (sha256 tbs) = some sig := by
    cases h : rfcSign (sha256 tbs) with
    | some sig => exact ⟨sig, rfl⟩
    | none =>
      unfold rfcSign at h
      exact absurd (Option.map_eq_none_iff.mp h) (p256_good.signWith_some rfcSecret_range.1 rfcSecret_range.2.1)
  obtain ⟨r, s, cr, cs, h1, h2, h3, h4⟩ := rfcToken_meets.signs 1 0 tbs sig (by rw [rfcToken_sign, rfcToken_digest]; exact h)
  have e : rfcSigned tbs = sig := by
    unfold rfcSigned
    rw [h]
    rfl
  rw [e]
  exact C158_ecdsa rfcSecret_range.2.2 h1 h2 h3 h4

theorem parsePem_ofList (l : List Char) : realX509.parsePem (String.ofList l) =
    (b64Decode ((lines l).filter fun l => ¬ "-----".toList.isPrefixOf l).flatten).bind parseCert := by
  show (pemBytes (String.ofList l)).bind parseCert = _
  unfold pemBytes
  simp only [String.toList_ofList]

def rfcRoot : String := String.ofList (b64Encode (slotBytes (curveOf .p256).2 rfcK256))

theorem rfcRoot_key : ∃ root, realX509.parsePem rfcRoot = some root ∧ root.spki.keyData = rfcK256 := by
  have key : ((((b64Decode ((lines (b64Encode (slotBytes (curveOf .p256).2 rfcK256))).filter fun l => ¬ "-----".toList.isPrefixOf l).flatten).bind
      parseCert).map fun c => c.spki.keyData) == some rfcK256) = true := by decide +kernel
  rw [beq_iff_eq, Option.map_eq_some_iff] at key
  obtain ⟨root, h1, h2⟩ := key
  exact ⟨root, (parsePem_ofList _).trans h1, h2⟩

/-- A device is recognised, although the dates of the certificates are empty and the intermediate certificate has no extensions. -/
example (rest : Bytes) : ∃ k, EcKeyOf "1.2.840.10045.3.1.7" rfcK256 k ∧
    verifyCertificateChain realX509 "" (rfcCert (plainTbs deviceExts) ++ rest) (rfcCert (plainTbs []) ++ [1]) (some rfcRoot) =
      .ok ⟨k, "5.4.3".toList, 0x1234, 2, 1⟩ := by
  obtain ⟨root, h1, h2⟩ := rfcRoot_key
  have hinfo : KeyInfo (curveOf .p256).2 rfcK256 rfcInfo := keyInfo_tlv _ _
  exact C158_device "" (some rfcRoot) root h1 (by rw [h2]; decide +kernel) (rfcCert_certified (.inl ⟨rfl, rfl⟩))
    (.inl ⟨_, _, curveOf_mem .p256, hinfo⟩) (by decide +kernel) 5 4 3 1 2 0x1234 [2, 2, 0x12, 0x34]
    ⟨[2], [0x12, 0x34], rfl, .inl ⟨by decide, rfl⟩, by decide +kernel, .inr (.inl ⟨0x12, [0x34], rfl, by decide, by decide⟩)⟩ (by decide) [] nofun
    (rfcCert_certified (.inr ⟨_, _, _, rfl, .cons ⟨_, by decide +kernel, _, _, tlv_spec _ _, tlv_spec _ _, .inl (tlv_spec _ _)⟩
      (.cons ⟨_, by decide +kernel, _, _, tlv_spec _ _, tlv_spec _ _, .inl (tlv_spec _ _)⟩
      (.cons ⟨_, by decide +kernel, _, _, tlv_spec _ _, tlv_spec _ _, .inl (tlv_spec _ _)⟩ .nil)), tlv_spec _ _, tlv_spec _ _⟩))
    (curveOf_mem .p256) hinfo (by decide +kernel) (by rw [h2]; exact rfcSigned_with _) (rfcSigned_with _) rest [1]

/-- Without the signature it is not. -/
example (rest : Bytes) : verifyCertificateChain realX509 "" (tlv 0x30 (plainTbs [] ++ (tlv 0x30 (tlv 6 ecdsaSha256 ++ []) ++ tlv 3 [0])) ++ rest)
    (rfcCert (plainTbs []) ++ [7]) (some rfcRoot) = .err .invalidSignature := by
  obtain ⟨root, h1, h2⟩ := rfcRoot_key
  have hinfo : KeyInfo (curveOf .p256).2 rfcK256 rfcInfo := keyInfo_tlv _ _
  exact C158_forged "" (some rfcRoot) root h1 (by rw [h2]; decide +kernel) (rfcCert_certified (.inl ⟨rfl, rfl⟩))
    (.inl ⟨_, _, curveOf_mem .p256, hinfo⟩) (by decide +kernel) (es := []) (csig := []) (coid := ecdsaSha256) (ctbs := plainTbs [])
    (client := tlv 0x30 (plainTbs [] ++ (tlv 0x30 (tlv 6 ecdsaSha256 ++ []) ++ tlv 3 [0])))
    (by
      refine ⟨_, [], _, _, _, _, rfl, ?_, .inl ⟨rfl, rfl⟩, tlv_spec _ _, tlv_spec _ _, .inl rfl, tlv_spec _ _, tlv_spec _ _, tlv_spec _ _⟩
      intro x hx
      simp only [List.mem_cons, List.not_mem_nil, or_false] at hx
      rcases hx with rfl | rfl | rfl | rfl | rfl | rfl <;> exact ⟨_, _, tlv_spec _ _⟩)
    (curveOf_mem .p256) hinfo (by decide +kernel) (.inl rfl) (.inl rfl) rest [7] (by
      rintro ⟨_, ⟨_, _, _, _, _, _, _, _, _, ⟨_, _, h⟩, _⟩ | ⟨h, _⟩⟩
      exact absurd h (by decide))

/-- The attestation of a security key with that key. -/
example (challenge : Bytes) : verifyAuthData realX509 (realCrypto []) "" sampleAuthData (rfcSigned (sampleAuthData ++ challenge)) challenge (-7)
    (rfcCert (plainTbs []) ++ [1]) (some rfcRoot) = .ok ⟨sampleAttestation.authData, none, none, none⟩ := by
  obtain ⟨root, h1, h2⟩ := rfcRoot_key
  refine (C158_attestation "" (some rfcRoot) root h1 (by rw [h2]; decide +kernel) (rfcCert_certified (.inl ⟨rfl, rfl⟩))
    (.inl ⟨_, _, curveOf_mem .p256, keyInfo_tlv _ _⟩) (by decide +kernel) (.inl rfl) _ _ _ [1] _ _).mpr
    ⟨rfl, by rw [h2]; exact rfcSigned_with _, ?_, ?_, nofun, rfl, rfl, rfl⟩
  · rcases rfcSigned_with (sampleAuthData ++ challenge) with ⟨_, h⟩ | ⟨h, _⟩
    · exact h
    · exact absurd h (by decide)
  · exact ((C63_exact ..).mp (sampleAttestation_verifies "" none)).2.choose_spec.2.1

/-! ### The chain of the project's tests -/

/-- A certificate of its parts. -/
def certOfParts (before : List Bytes) (info : Bytes) (exts : List (Bytes × Bytes)) (oid params sig : Bytes) : Bytes × Bytes :=
  let tbs := tlv 0x30 (before.flatten ++ (info ++ [tlv 0xa3 (tlv 0x30 (exts.map fun e => plainExt e.1 e.2).flatten)].flatten))
  (tbs, tlv 0x30 (tbs ++ (tlv 0x30 (tlv 6 oid ++ params) ++ tlv 3 (0 :: sig))))

/-- Whether bytes are an unsigned INTEGER's, with no more bytes than needed. -/
def minimal : Bytes → Bool
  | [] => false
  | [x] => x < 128
  | x :: y :: _ => (x != 0 && x < 128) || (x == 0 && 128 ≤ y)

theorem minimal_integer {c : Bytes} (h : minimal c = true) : DerInteger (natOf c) (tlv 2 c) := by
  obtain ⟨l, hl, hw⟩ := tlv_spec 2 c
  refine ⟨l, c, hw, hl, rfl, ?_⟩
  match c, h with
  | [x], h =>
    by_cases h0 : x = 0
    · exact .inl (by rw [h0])
    · exact .inr (.inl ⟨x, [], rfl, h0, of_decide_eq_true h⟩)
  | x :: y :: t, h =>
    simp only [minimal, Bool.or_eq_true, Bool.and_eq_true, bne_iff_ne, beq_iff_eq, decide_eq_true_eq] at h
    rcases h with ⟨h1, h2⟩ | ⟨rfl, h2⟩
    · exact .inr (.inl ⟨x, _, rfl, h1, h2⟩)
    · exact .inr (.inr ⟨y, t, rfl, h2⟩)

/-- Whether bytes are an RSA public key. -/
def isRsaKey (b : Bytes) : Bool :=
  match derSeq b with
  | some [(2, x), (2, y)] => minimal x && (minimal y && tlv 0x30 (tlv 2 x ++ tlv 2 y) == b)
  | _ => false

theorem isRsaKey_key {b : Bytes} (h : isRsaKey b = true) : ∃ n e, RsaPublicKey n e b := by
  unfold isRsaKey at h
  split at h
  · rename_i x y _
    simp only [Bool.and_eq_true, beq_iff_eq] at h
    obtain ⟨h1, h2, rfl⟩ := h
    exact ⟨_, _, _, _, minimal_integer h1, minimal_integer h2, tlv_spec _ _⟩
  · cases h

theorem certOfParts_certified {before : List Bytes} {info oid params sig : Bytes} {exts : List (Bytes × Bytes)} {es : List (String × Bytes)}
    (hl : before.length = 6) (hb : before.all isTlv = true) (hp : params = [] ∨ AnyTlv params)
    (he : List.Forall₂ (fun e x => e.2 = x.2 ∧ (e.1, x.1) ∈ extensionOids) es exts) :
    Certified info es (certOfParts before info exts oid params sig).1 oid sig (certOfParts before info exts oid params sig).2 := by
  refine ⟨before, _, _, params, _, _, hl, fun x hx => isTlv_spec (List.all_eq_true.mp hb x hx), .inr ⟨_, _, _, rfl, ?_, tlv_spec _ _, tlv_spec _ _⟩,
    tlv_spec _ _, tlv_spec _ _, hp, tlv_spec _ _, tlv_spec _ _, tlv_spec _ _⟩
  refine List.forall₂_map_right_iff.mpr (he.imp fun e x h => ?_)
  exact ⟨x.1, h.2, _, _, tlv_spec _ _, by rw [h.1]; exact tlv_spec _ _, .inl (tlv_spec _ _)⟩

def firstObjects (b : Bytes) : List Bytes := ((do children ((← children b).getD 0 [])) : Option (List Bytes)).getD []

def keyBits (b : Bytes) : Bytes := ((parseCert b).map fun c => c.spki.keyData).getD []

def signatureBits (b : Bytes) : Bytes := ((do
  let (_, s, _) ← derNext ((← children b).getD 2 [])
  return s.drop 1) : Option Bytes).getD []

def valueOf (b : Bytes) (i : Nat) : Bytes := ((parseCert b).map fun c => (c.extensions.getD i ("", [])).2).getD []

def pivClientParts : Bytes × Bytes :=
  certOfParts ((firstObjects pivClient).take 6)
    (tlv 0x30 (tlv 0x30 (tlv 6 [0x2a, 0x86, 0x48, 0xce, 0x3d, 2, 1] ++ tlv 6 (curveOf .p384).2) ++ tlv 3 (0 :: keyBits pivClient)))
    [([0x2b, 6, 1, 4, 1, 0x82, 0xc4, 0x0a, 3, 3], [5, 2, 4]), ([0x2b, 6, 1, 4, 1, 0x82, 0xc4, 0x0a, 3, 7], valueOf pivClient 1),
      ([0x2b, 6, 1, 4, 1, 0x82, 0xc4, 0x0a, 3, 8], valueOf pivClient 2), ([0x2b, 6, 1, 4, 1, 0x82, 0xc4, 0x0a, 3, 9], valueOf pivClient 3)]
    rsaSha256 (tlv 5 []) (signatureBits pivClient)

def pivIntermediateParts : Bytes × Bytes :=
  certOfParts ((firstObjects pivIntermediate).take 6)
    (tlv 0x30 (tlv 0x30 (tlv 6 [0x2a, 0x86, 0x48, 0x86, 0xf7, 0x0d, 1, 1, 1] ++ tlv 5 []) ++ tlv 3 (0 :: keyBits pivIntermediate)))
    [([0x2b, 6, 1, 4, 1, 0x82, 0xc4, 0x0a, 3, 3], valueOf pivIntermediate 0)] rsaSha256 (tlv 5 []) (signatureBits pivIntermediate)

theorem pivParts : pivClientParts.2 = pivClient ∧ pivIntermediateParts.2 = pivIntermediate := by decide +kernel

theorem pivRoot_rsa (root : X509Cert) (h : realX509.parsePem pivRoot = some root) : isRsaKey root.spki.keyData = true ∧ root.spki.keyData.length < 256 ^ 8 := by
  have key : (match pemChars pivRootChars with
    | some c => isRsaKey c.spki.keyData && decide (c.spki.keyData.length < 256 ^ 8)
    | none => false) = true := by decide +kernel
  rw [pivRoot_eq, parsePem_chars] at h
  rw [h] at key
  simp only [Bool.and_eq_true, decide_eq_true_eq] at key
  exact key

/-- The signatures in the chain of a YubiKey 5C in tests/yubikey-lite.rs are signatures of RFC 8017, by the root's and the intermediate's
key, of what is to be signed. -/
example : ∃ root, realX509.parsePem pivRoot = some root ∧
    SignedWith (realCrypto []) p256_good.domain rsaSupported rsaSha256 root.spki.keyData pivIntermediateParts.1 (signatureBits pivIntermediate) ∧
    SignedWith (realCrypto []) p256_good.domain rsaSupported rsaSha256 (keyBits pivIntermediate) pivClientParts.1 (signatureBits pivClient) := by
  obtain ⟨v, hv, _⟩ := piv_attested
  obtain ⟨c, oid, ⟨root, i, hroot, _⟩, _⟩ := (C65_exact ..).mp hv
  rw [Option.getD_none] at hroot
  obtain ⟨r1, r2⟩ := pivRoot_rsa root hroot
  refine ⟨root, hroot, ?_⟩
  have hi := certOfParts_certified (before := (firstObjects pivIntermediate).take 6)
    (info := tlv 0x30 (tlv 0x30 (tlv 6 [0x2a, 0x86, 0x48, 0x86, 0xf7, 0x0d, 1, 1, 1] ++ tlv 5 []) ++ tlv 3 (0 :: keyBits pivIntermediate)))
    (oid := rsaSha256) (params := tlv 5 []) (sig := signatureBits pivIntermediate)
    (exts := [([0x2b, 6, 1, 4, 1, 0x82, 0xc4, 0x0a, 3, 3], valueOf pivIntermediate 0)])
    (es := [("1.3.6.1.4.1.41482.3.3", valueOf pivIntermediate 0)])
    (by decide +kernel) (by decide +kernel) (.inr ⟨_, _, tlv_spec _ _⟩) (.cons ⟨rfl, by decide +kernel⟩ .nil)
  have hc := certOfParts_certified (before := (firstObjects pivClient).take 6)
    (info := tlv 0x30 (tlv 0x30 (tlv 6 [0x2a, 0x86, 0x48, 0xce, 0x3d, 2, 1] ++ tlv 6 (curveOf .p384).2) ++ tlv 3 (0 :: keyBits pivClient)))
    (oid := rsaSha256) (params := tlv 5 []) (sig := signatureBits pivClient)
    (exts := [([0x2b, 6, 1, 4, 1, 0x82, 0xc4, 0x0a, 3, 3], [5, 2, 4]), ([0x2b, 6, 1, 4, 1, 0x82, 0xc4, 0x0a, 3, 7], valueOf pivClient 1),
      ([0x2b, 6, 1, 4, 1, 0x82, 0xc4, 0x0a, 3, 8], valueOf pivClient 2), ([0x2b, 6, 1, 4, 1, 0x82, 0xc4, 0x0a, 3, 9], valueOf pivClient 3)])
    (es := [("1.3.6.1.4.1.41482.3.3", [5, 2, 4]), ("1.3.6.1.4.1.41482.3.7", valueOf pivClient 1),
      ("1.3.6.1.4.1.41482.3.8", valueOf pivClient 2), ("1.3.6.1.4.1.41482.3.9", valueOf pivClient 3)])
    (by decide +kernel) (by decide +kernel) (.inr ⟨_, _, tlv_spec _ _⟩)
    (.cons ⟨rfl, by decide +kernel⟩ (.cons ⟨rfl, by decide +kernel⟩ (.cons ⟨rfl, by decide +kernel⟩ (.cons ⟨rfl, by decide +kernel⟩ .nil))))
  have hii := isRsaKey_key (b := keyBits pivIntermediate) (by decide +kernel)
  have hx := C158_plain pivRoot none root hroot r2 hi (.inr ⟨_, _, _, _, tlv_spec _ _, tlv_spec _ _, tlv_spec _ _, tlv_spec _ _, tlv_spec _ _⟩)
    (by decide +kernel) hc (curveOf_mem .p384) (keyInfo_tlv _ _) (by decide +kernel) (.inr ⟨rfl, isRsaKey_key r1⟩) (.inr ⟨rfl, hii⟩) v
  have e1 : (certOfParts _ _ _ _ _ _).2 = pivClient := pivParts.1
  have e2 : (certOfParts _ _ _ _ _ _).2 = pivIntermediate := pivParts.2
  rw [e1, e2] at hx
  obtain ⟨h1, h2, _⟩ := hx.mp hv
  exact ⟨h1, h2⟩

def bioEs : List (String × Bytes) :=
  [("1.3.6.1.4.1.41482.13.1", valueOf bioCert 0), ("1.3.6.1.4.1.41482.2", valueOf bioCert 1), ("1.3.6.1.4.1.45724.2.1.1", valueOf bioCert 2),
   ("1.3.6.1.4.1.45724.1.1.4", valueOf bioCert 3), ("2.5.29.19", valueOf bioCert 4)]

theorem bioExts_eq : bioExts = [plainExt [0x2b, 6, 1, 4, 1, 0x82, 0xc4, 0x0a, 13, 1] (valueOf bioCert 0),
    plainExt [0x2b, 6, 1, 4, 1, 0x82, 0xc4, 0x0a, 2] (valueOf bioCert 1), plainExt [0x2b, 6, 1, 4, 1, 0x82, 0xe5, 0x1c, 2, 1, 1] (valueOf bioCert 2),
    plainExt [0x2b, 6, 1, 4, 1, 0x82, 0xe5, 0x1c, 1, 1, 4] (valueOf bioCert 3),
    tlv 0x30 (tlv 6 [0x55, 0x1d, 0x13] ++ (tlv 1 [255] ++ tlv 4 (valueOf bioCert 4)))] := by decide +kernel

theorem named_plain {name : String} {oid value : Bytes} (h : (name, oid) ∈ extensionOids) : NamedExtension (name, value) (plainExt oid value) :=
  ⟨oid, h, _, _, tlv_spec _ _, tlv_spec _ _, .inl (tlv_spec _ _)⟩

theorem named_critical {name : String} {oid value : Bytes} (h : (name, oid) ∈ extensionOids) :
    NamedExtension (name, value) (tlv 0x30 (tlv 6 oid ++ (tlv 1 [255] ++ tlv 4 value))) :=
  ⟨oid, h, _, _, tlv_spec _ _, tlv_spec _ _, .inr ⟨_, ⟨_, _, tlv_spec _ _⟩, tlv_spec _ _⟩⟩

theorem bioCert_certified : Certified (bioTbs.getD 6 []) bioEs (bioTop.getD 0 []) rsaSha256 (signatureBits bioCert) bioCert := by
  have e1 : bioTop.getD 0 [] = tlv 0x30 ((bioTbs.take 6).flatten ++ (bioTbs.getD 6 [] ++ [tlv 0xa3 (tlv 0x30 bioExts.flatten)].flatten)) := by
    decide +kernel
  have e2 : bioCert = tlv 0x30 (bioTop.getD 0 [] ++ (tlv 0x30 (tlv 6 rsaSha256 ++ tlv 5 []) ++ tlv 3 (0 :: signatureBits bioCert))) := by
    decide +kernel
  have hb : (bioTbs.take 6).all isTlv = true := by decide +kernel
  refine ⟨bioTbs.take 6, [tlv 0xa3 (tlv 0x30 bioExts.flatten)], _, tlv 5 [], _, _, by decide +kernel,
    fun x hx => isTlv_spec (List.all_eq_true.mp hb x hx), .inr ⟨bioExts, _, _, rfl, ?_, tlv_spec _ _, tlv_spec _ _⟩, ?_, tlv_spec _ _,
    .inr ⟨_, _, tlv_spec _ _⟩, tlv_spec _ _, tlv_spec _ _, ?_⟩
  · rw [bioExts_eq]
    exact .cons (named_plain (by decide +kernel)) (.cons (named_plain (by decide +kernel)) (.cons (named_plain (by decide +kernel))
      (.cons (named_plain (by decide +kernel)) (.cons (named_critical (by decide +kernel)) .nil))))
  · rw [e1]
    exact tlv_spec _ _
  · have := tlv_spec 0x30 (bioTop.getD 0 [] ++ (tlv 0x30 (tlv 6 rsaSha256 ++ tlv 5 []) ++ tlv 3 (0 :: signatureBits bioCert)))
    rwa [← e2] at this

theorem bioCert_key : IssuerInfo ((bioTbs.getD 6 []).drop 26) (bioTbs.getD 6 []) := by
  have := keyInfo_tlv (curveOf .p256).2 ((bioTbs.getD 6 []).drop 26)
  have e : tlv 0x30 (tlv 0x30 (tlv 6 [0x2a, 0x86, 0x48, 0xce, 0x3d, 2, 1] ++ tlv 6 (curveOf .p256).2) ++
      tlv 3 (0 :: (bioTbs.getD 6 []).drop 26)) = bioTbs.getD 6 [] := by decide +kernel
  rw [e] at this
  exact .inl ⟨_, _, curveOf_mem .p256, this⟩

theorem u2fRoot_rsa (root : X509Cert) (h : realX509.parsePem u2fRoot = some root) : isRsaKey root.spki.keyData = true ∧ root.spki.keyData.length < 256 ^ 8 := by
  have key : (match pemChars u2fRootChars with
    | some c => isRsaKey c.spki.keyData && decide (c.spki.keyData.length < 256 ^ 8)
    | none => false) = true := by decide +kernel
  rw [u2fRoot_eq, parsePem_chars] at h
  rw [h] at key
  simp only [Bool.and_eq_true, decide_eq_true_eq] at key
  exact key

/-- The attestation of a YubiKey Bio in tests/fido-lite.rs: the certificate is signed by the root's RSA key as in RFC 8017, and the
authenticator data with the digest of the client data by the certificate's P-256 key as in FIPS 186-4. -/
example : ∃ root, realX509.parsePem u2fRoot = some root ∧
    SignedWith (realCrypto []) p256_good.domain rsaSupported rsaSha256 root.spki.keyData (bioTop.getD 0 []) (signatureBits bioCert) ∧
    SignedAsn1 (realCrypto []) p256_good.domain ((bioTbs.getD 6 []).drop 26) (bioAuthData ++ sha256 bioClient) bioSig := by
  obtain ⟨v, hv, _⟩ := bio_attested
  obtain ⟨_, i, ⟨root, hroot, _⟩, _⟩ := (C63_exact ..).mp hv
  rw [Option.getD_none] at hroot
  obtain ⟨r1, r2⟩ := u2fRoot_rsa root hroot
  have hx := C158_attestation u2fRoot none root hroot r2 bioCert_certified bioCert_key (by decide +kernel) (.inr ⟨rfl, isRsaKey_key r1⟩) bioAuthData bioSig
    (sha256 bioClient) [] (-7) v
  rw [List.append_nil] at hx
  obtain ⟨_, h1, h2, _⟩ := hx.mp hv
  exact ⟨root, hroot, h1, h2⟩

/-- The certificate of the YubiKey Bio with an empty signature. -/
example (authData challenge : Bytes) : verifyAuthData realX509 (realCrypto []) u2fRoot authData [] challenge (-7) bioCert none =
    .err .invalidSignature := by
  obtain ⟨v, hv, _⟩ := bio_attested
  obtain ⟨_, i, ⟨root, hroot, _⟩, _⟩ := (C63_exact ..).mp hv
  rw [Option.getD_none] at hroot
  obtain ⟨r1, r2⟩ := u2fRoot_rsa root hroot
  have hx := C158_refused u2fRoot none root hroot r2 bioCert_certified bioCert_key (by decide +kernel) (.inr ⟨rfl, isRsaKey_key r1⟩) authData []
    challenge [] (by
      rintro ⟨_, Q, r, s, cr, cs, _, _, _, hp, _⟩
      exact absurd hp.2 (by simp))
  rwa [List.append_nil] at hx

end Ssh
