import Verif.Concrete.Der
import Verif.Concrete.Attested
import Verif.Props.Piv
import Verif.Props.TokenPrograms

/-! # C156: keys and certificates in DER, with DER computed -/

namespace Ssh

open Ssh.Spec Ssh.Concrete Ssh.Examples

theorem ecKeyOf_curve {oid : String} {curve : Bytes} (h : (oid, curve) ∈ curveContents) (point : Bytes) : ∃ k, EcKeyOf oid point k := by
  have t1 : ∃ t ∈ keyTypes, t.name = "ecdsa-sha2-nistp256" := by decide +kernel
  have t2 : ∃ t ∈ keyTypes, t.name = "ecdsa-sha2-nistp384" := by decide +kernel
  rcases List.mem_cons.mp h with h | h
  · cases h
    obtain ⟨t, ht, hn⟩ := t1
    exact ⟨⟨t, .ecdsa _ point none, none⟩, _, _, List.mem_cons_self, hn, ht, rfl, rfl⟩
  · cases List.mem_singleton.mp h
    obtain ⟨t, ht, hn⟩ := t2
    exact ⟨⟨t, .ecdsa _ point none, none⟩, _, _, List.mem_cons_of_mem _ List.mem_cons_self, hn, ht, rfl, rfl⟩

/-- C156: every elliptic curve key of RFC 5480 on P-256 or P-384 in DER gives the SSH key with that curve and point, whatever bytes follow. -/
theorem C156_der (oid : String) (curve point b rest : Bytes) (hc : (oid, curve) ∈ curveContents) (h : KeyInfo curve point b)
    (hb : b.length < 256 ^ 8) : ∃ k, EcKeyOf oid point k ∧ derEncodingToSshPublicKey realX509 (b ++ rest) = .ok k := by
  obtain ⟨k, hk⟩ := ecKeyOf_curve hc point
  obtain ⟨o, h1, h2⟩ := parseSequence_keyInfo hc h hb rest
  exact ⟨k, hk, (C66_der _ _ _).mpr ⟨o, oid, point, h1, h2, hk⟩⟩

/-- C156: the same for certificates with the key. -/
theorem C156_certificate (oid : String) (curve point info b rest : Bytes) (hc : (oid, curve) ∈ curveContents) (hi : KeyInfo curve point info)
    (h : CertificateDer info b) (hb : b.length < 256 ^ 8) :
    ∃ k, EcKeyOf oid point k ∧ pubkeyFromX509Certificate realX509 (b ++ rest) = .ok k := by
  obtain ⟨k, hk⟩ := ecKeyOf_curve hc point
  obtain ⟨c, h1, h2, _⟩ := parseCert_certificate hc hi h hb rest
  exact ⟨k, hk, (C66_certificate _ _ _).mpr ⟨c, oid, h1, by rw [h2]; exact ⟨rfl, rfl⟩, by rw [h2]; exact hk⟩⟩

/-- C156: the same for certification requests with the key. -/
theorem C156_csr (oid : String) (curve point info b rest : Bytes) (hc : (oid, curve) ∈ curveContents) (hi : KeyInfo curve point info)
    (h : RequestDer info b) (hb : b.length < 256 ^ 8) :
    ∃ k, EcKeyOf oid point k ∧ pubkeyFromX509Csr realX509 (b ++ rest) = .ok k := by
  obtain ⟨k, hk⟩ := ecKeyOf_curve hc point
  exact ⟨k, hk, (C66_csr _ _ _).mpr ⟨_, oid, parseRequest_request hc hi h hb rest, ⟨rfl, rfl⟩, hk⟩⟩

/-- C156: into-ssh-pubkey prints, for a file that starts with such a key, a line that is read back as the SSH key with that curve and
point. -/
theorem C156_program (T : ForeignTexts) (disk : Disk) (path oid : String) (curve point b rest : Bytes) (hd : disk path = some (b ++ rest))
    (hc : (oid, curve) ∈ curveContents) (h : KeyInfo curve point b) (hb : b.length < 4294967296) :
    ∃ k out, EcKeyOf oid point k ∧ intoSshPubkey realX509 T disk [path] = .ok out ∧ PublicKey.fromString out = .ok k := by
  have hb' : b.length < 256 ^ 8 := by omega
  obtain ⟨k, hk, e⟩ := C156_der oid curve point b rest hc h hb'
  obtain ⟨o, h1, h2⟩ := parseSequence_keyInfo hc h hb' rest
  rcases C120_into realX509 T disk path (b ++ rest) hd (by
    intro oid' point' o' h3 h4
    have h5 : parseSequence (b ++ rest) = some o' := h3
    rw [h1] at h5
    cases h5
    unfold EcDer at h2 h4
    rw [h2] at h4
    cases h4
    obtain ⟨_, _, _, _, _, _, _, g1, g2⟩ := h
    have := tlv_length g1
    have := tlv_length g2
    simp only [List.length_append, List.length_cons] at *
    omega) with ⟨k', out, h3, h4, h5⟩ | ⟨e', h3, _⟩
  · rw [e] at h3
    cases h3
    exact ⟨k, out, hk, h4, h5⟩
  · rw [e] at h3
    cases h3

/-- C156: the chain of a PIV attestation is judged the same with bytes after the client's and the intermediate's certificate. -/
theorem C156_chain (root : String) (pem : Option String) (client inter : Bytes) (t t' : UInt8) (c c' : Bytes) (h : Tlv t c client)
    (h' : Tlv t' c' inter) (hb : client.length < 256 ^ 8) (hb' : inter.length < 256 ^ 8) (rest rest' : Bytes) :
    verifyCertificateChain realX509 root (client ++ rest) (inter ++ rest') pem = verifyCertificateChain realX509 root client inter pem := by
  have e : realX509.parseDer (client ++ rest) = realX509.parseDer client := parseCert_append h hb rest
  have e' : realX509.parseDer (inter ++ rest') = realX509.parseDer inter := parseCert_append h' hb' rest'
  unfold verifyCertificateChain
  simp only [e, e', pubkeyFromX509Certificate]

/-- C156: the attestation of a FIDO key is judged the same with bytes after the certificate. -/
theorem C156_fido (C : Crypto) (root : String) (pem : Option String) (authData sig challenge : Bytes) (alg : Int) (inter : Bytes) (t : UInt8)
    (c : Bytes) (h : Tlv t c inter) (hb : inter.length < 256 ^ 8) (rest : Bytes) :
    verifyAuthData realX509 C root authData sig challenge alg (inter ++ rest) pem =
      verifyAuthData realX509 C root authData sig challenge alg inter pem := by
  have e : realX509.parseDer (inter ++ rest) = realX509.parseDer inter := parseCert_append h hb rest
  unfold verifyAuthData
  simp only [e]

/-! ### Examples -/

/-- Whether bytes are one object. -/
def isTlv (b : Bytes) : Bool :=
  match derNext b with
  | some (t, c, []) => b == tlv t c
  | _ => false

theorem isTlv_spec {b : Bytes} (h : isTlv b = true) : AnyTlv b := by
  unfold isTlv at h
  split at h
  · rename_i t c _
    exact ⟨t, c, by rw [beq_iff_eq.mp h]; exact tlv_spec t c⟩
  · cases h

/-- The generator of P-256, and its key info. -/
def sampleG : Bytes :=
  [4, 0x6b, 0x17, 0xd1, 0xf2, 0xe1, 0x2c, 0x42, 0x47, 0xf8, 0xbc, 0xe6, 0xe5, 0x63, 0xa4, 0x40, 0xf2, 0x77, 0x03, 0x7d, 0x81, 0x2d, 0xeb, 0x33,
   0xa0, 0xf4, 0xa1, 0x39, 0x45, 0xd8, 0x98, 0xc2, 0x96, 0x4f, 0xe3, 0x42, 0xe2, 0xfe, 0x1a, 0x7f, 0x9b, 0x8e, 0xe7, 0xeb, 0x4a, 0x7c, 0x0f, 0x9e,
   0x16, 0x2b, 0xce, 0x33, 0x57, 0x6b, 0x31, 0x5e, 0xce, 0xcb, 0xb6, 0x40, 0x68, 0x37, 0xbf, 0x51, 0xf5]

def sampleInfo : Bytes :=
  [0x30, 0x59, 0x30, 0x13, 6, 7, 0x2a, 0x86, 0x48, 0xce, 0x3d, 2, 1, 6, 8, 0x2a, 0x86, 0x48, 0xce, 0x3d, 3, 1, 7, 3, 0x42, 0] ++ sampleG

theorem sampleInfo_spec : KeyInfo [0x2a, 0x86, 0x48, 0xce, 0x3d, 3, 1, 7] sampleG sampleInfo := by
  have := keyInfo_tlv [0x2a, 0x86, 0x48, 0xce, 0x3d, 3, 1, 7] sampleG
  rwa [show tlv 0x30 _ = sampleInfo from by decide +kernel] at this

/-- The key info of the generator is read, also with three bytes after it. -/
example : ∃ k, EcKeyOf "1.2.840.10045.3.1.7" sampleG k ∧ derEncodingToSshPublicKey realX509 (sampleInfo ++ [1, 2, 3]) = .ok k :=
  C156_der _ _ _ _ _ List.mem_cons_self sampleInfo_spec (by decide +kernel)

/-- As is a point on P-384, from a request. -/
example : ∃ b k, RequestDer (tlv 0x30 (tlv 0x30 (tlv 6 [0x2a, 0x86, 0x48, 0xce, 0x3d, 2, 1] ++ tlv 6 [0x2b, 0x81, 4, 0, 0x22]) ++ tlv 3 (0 :: [4, 7, 9]))) b ∧
    EcKeyOf "1.3.132.0.34" [4, 7, 9] k ∧ pubkeyFromX509Csr realX509 (b ++ []) = .ok k := by
  have hr : ∀ info, RequestDer info (tlv 0x30 (tlv 0x30 (tlv 2 [0] ++ (tlv 0x30 [] ++ (info ++ tlv 0xa0 []))) ++ (tlv 0x30 [] ++ tlv 3 [0]))) :=
    fun info => ⟨_, _, _, _, _, _, ⟨_, _, tlv_spec _ _⟩, ⟨_, _, tlv_spec _ _⟩, ⟨_, _, tlv_spec _ _⟩, tlv_spec _ _, ⟨_, _, tlv_spec _ _⟩,
      ⟨_, _, tlv_spec _ _⟩, tlv_spec _ _⟩
  obtain ⟨k, h1, h2⟩ := C156_csr "1.3.132.0.34" _ _ _ _ [] (List.mem_cons_of_mem _ List.mem_cons_self) (keyInfo_tlv [0x2b, 0x81, 4, 0, 0x22] [4, 7, 9])
    (hr _) (by decide +kernel)
  exact ⟨_, k, hr _, h1, h2⟩

/-- The parts of the certificate of the YubiKey Bio in tests/fido-lite.rs. -/
def bioTop : List Bytes := (children bioCert).getD []
def bioTbs : List Bytes := (children (bioTop.getD 0 [])).getD []
def bioExts : List Bytes := ((tagged 0xa3 (bioTbs.getD 7 [])).bind children).getD []

theorem bioExts_spec : ∀ x ∈ bioExts, ∃ oid value, ExtensionDer oid value x := by
  have h : ∀ x ∈ bioExts, (match derSeq x with
      | some [(6, o), (4, v)] => x == tlv 0x30 (tlv 6 o ++ tlv 4 v)
      | some [(6, o), (t, c), (4, v)] => x == tlv 0x30 (tlv 6 o ++ (tlv t c ++ tlv 4 v))
      | _ => false) = true := by decide +kernel
  intro x hx
  have := h x hx
  split at this
  · rename_i o v _
    rw [beq_iff_eq.mp this]
    exact ⟨o, v, _, _, tlv_spec _ _, tlv_spec _ _, .inl (tlv_spec _ _)⟩
  · rename_i o t c v _
    rw [beq_iff_eq.mp this]
    exact ⟨o, v, _, _, tlv_spec _ _, tlv_spec _ _, .inr ⟨_, ⟨_, _, tlv_spec _ _⟩, tlv_spec _ _⟩⟩
  · cases this

/-- It is a certificate with a key on P-256. -/
theorem bioCert_spec : ∃ point info, KeyInfo [0x2a, 0x86, 0x48, 0xce, 0x3d, 3, 1, 7] point info ∧ CertificateDer info bioCert := by
  refine ⟨(bioTbs.getD 6 []).drop 26, bioTbs.getD 6 [], ?_, ?_⟩
  · have := keyInfo_tlv [0x2a, 0x86, 0x48, 0xce, 0x3d, 3, 1, 7] ((bioTbs.getD 6 []).drop 26)
    rwa [show tlv 0x30 _ = bioTbs.getD 6 [] from by decide +kernel] at this
  · have e : bioCert = tlv 0x30 (tlv 0x30 ((bioTbs.take 6).flatten ++ (bioTbs.getD 6 [] ++ [tlv 0xa3 (tlv 0x30 bioExts.flatten)].flatten)) ++
        (bioTop.getD 1 [] ++ bioTop.getD 2 [])) := by decide +kernel
    refine ⟨bioTbs.take 6, [tlv 0xa3 (tlv 0x30 bioExts.flatten)], _, bioTop.getD 1 [], bioTop.getD 2 [], by decide +kernel,
      fun x hx => isTlv_spec ?_, .inr ⟨bioExts, _, _, rfl, bioExts_spec, tlv_spec _ _, tlv_spec _ _⟩, tlv_spec _ _, isTlv_spec (by decide +kernel),
      isTlv_spec (by decide +kernel), ⟨_, derLen_spec _, e⟩⟩
    have h : ∀ x ∈ bioTbs.take 6, isTlv x = true := by decide +kernel
    exact h x hx

example : ∃ point k, EcKeyOf "1.2.840.10045.3.1.7" point k ∧ pubkeyFromX509Certificate realX509 (bioCert ++ [7]) = .ok k := by
  obtain ⟨point, info, h1, h2⟩ := bioCert_spec
  obtain ⟨k, h3, h4⟩ := C156_certificate _ _ _ _ _ [7] List.mem_cons_self h1 h2 (by decide +kernel)
  exact ⟨point, k, h3, h4⟩

/-- The attestations in tests/yubikey-lite.rs and tests/fido-lite.rs are accepted with bytes after their certificates. -/
example : ∃ v, verifyCertificateChain realX509 pivRoot (pivClient ++ [1]) (pivIntermediate ++ [2, 3]) none = .ok v ∧ v.serial = 11778047 := by
  obtain ⟨v, h1, h2, _⟩ := piv_attested
  obtain ⟨t, c, h3⟩ := isTlv_spec (b := pivClient) (by decide +kernel)
  obtain ⟨t', c', h4⟩ := isTlv_spec (b := pivIntermediate) (by decide +kernel)
  exact ⟨v, by rw [C156_chain _ _ _ _ _ _ _ _ h3 h4 (by decide +kernel) (by decide +kernel)]; exact h1, h2⟩

example : ∃ v, verifyAuthData realX509 (realCrypto []) u2fRoot bioAuthData bioSig (sha256 bioClient) (-7) (bioCert ++ [0, 0]) none = .ok v ∧
    v.transports = some [.usb] := by
  obtain ⟨v, h1, h2, _⟩ := bio_attested
  obtain ⟨t, c, h3⟩ := isTlv_spec (b := bioCert) (by decide +kernel)
  exact ⟨v, by rw [C156_fido _ _ _ _ _ _ _ _ _ _ h3 (by decide +kernel)]; exact h1, h2⟩

end Ssh
