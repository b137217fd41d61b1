import Verif.Lemmas.Piv
import Verif.Props.PrivKey

/-! # Properties of X.509 key extraction and PIV attestation (C65, C66, C20) -/

namespace Ssh
open Spec

/-! ## C66 -/

/-- C66: exactly which certificates give which key. -/
theorem C66_certificate (X : X509Env) (cert : Bytes) (k : PublicKey) : pubkeyFromX509Certificate X cert = .ok k ↔
    ∃ c oid, X.parseDer cert = some c ∧ EcInfo c.spki oid ∧ EcKeyOf oid c.spki.keyData k := pubkeyFromX509Certificate_ok

/-- C66: the same for certificate requests. -/
theorem C66_csr (X : X509Env) (csr : Bytes) (k : PublicKey) : pubkeyFromX509Csr X csr = .ok k ↔
    ∃ i oid, X.parseCsr csr = some i ∧ EcInfo i oid ∧ EcKeyOf oid i.keyData k := by
  unfold pubkeyFromX509Csr
  cases X.parseCsr csr with
  | none => exact ⟨nofun, nofun⟩
  | some c =>
    dsimp only
    rw [convertPki_ok]
    exact ⟨fun ⟨o, h⟩ => ⟨c, o, rfl, h⟩, fun ⟨_, o, e, h⟩ => by cases e; exact ⟨o, h⟩⟩

/-- C66: the same for DER encoded keys. -/
theorem C66_der (X : X509Env) (key : Bytes) (k : PublicKey) : derEncodingToSshPublicKey X key = .ok k ↔
    ∃ o oid point, X.derSequence key = some o ∧ EcDer oid point o ∧ EcKeyOf oid point k := derEncoding_ok

/-- C66: type name and curve of an extracted key agree, and it is not a hardware key. -/
theorem C66_consistent (oid : String) (point : Bytes) (k : PublicKey) (h : EcKeyOf oid point k) :
    ∃ curve ∈ curves, k.kind = .ecdsa curve point none ∧ k.keyType.name = "ecdsa-sha2-" ++ curve.identifier ∧
      k.keyType.kind = .ecdsa ∧ k.keyType.isSk = false ∧ k.keyType.isCert = false := by
  have t1 : ∀ t ∈ keyTypes, t.name = "ecdsa-sha2-nistp256" → t.kind = .ecdsa ∧ t.isSk = false ∧ t.isCert = false := by decide +kernel
  have t2 : ∀ t ∈ keyTypes, t.name = "ecdsa-sha2-nistp384" → t.kind = .ecdsa ∧ t.isSk = false ∧ t.isCert = false := by decide +kernel
  obtain ⟨name, curve, hm, hn, hk, hkind, _⟩ := h
  rcases List.mem_cons.mp hm with h | h
  · cases h
    exact ⟨_, by decide +kernel, hkind, hn.trans (by decide +kernel), t1 _ hk hn⟩
  rcases List.mem_cons.mp h with h | h
  · cases h
    exact ⟨_, by decide +kernel, hkind, hn.trans (by decide +kernel), t2 _ hk hn⟩
  · cases h

/-- C66: a curve has at most one key for a point. -/
theorem C66_unique (oid : String) (point : Bytes) (k k' : PublicKey) (h : EcKeyOf oid point k) (h' : EcKeyOf oid point k') : k = k' := by
  rw [← ecdsaKeyOfOid_ok] at h h'
  rw [h] at h'
  cases h'
  rfl

/-- C66: RSA keys are refused as unsupported, other curves as a mismatch, everything else as a parse error. -/
theorem C66_rejects (X : X509Env) (cert : Bytes) (c : X509Cert) (h : X.parseDer cert = some c) :
    (c.spki.algorithm = "1.2.840.113549.1.1.1" → pubkeyFromX509Certificate X cert = .err .unsupported) ∧
    (∀ oid, EcInfo c.spki oid → oid ∉ ecOids.map Prod.fst → pubkeyFromX509Certificate X cert = .err .keyTypeMismatch) ∧
    (c.spki.algorithm ≠ "1.2.840.113549.1.1.1" → (¬ ∃ oid, EcInfo c.spki oid) →
      pubkeyFromX509Certificate X cert = .err .parsingError) := by
  unfold pubkeyFromX509Certificate
  rw [h]
  unfold convertPki EcInfo
  dsimp only
  have n : "1.2.840.10045.2.1" ≠ "1.2.840.113549.1.1.1" := by decide
  refine ⟨fun h1 => if_pos h1, ?_, ?_⟩
  · rintro oid ⟨h1, h2⟩ h3
    rw [if_neg (by rw [h1]; exact n), if_pos h1, h2]
    simp only [Res.ofOption, Res.ok_bind]
    rcases ecdsaKeyOfOid_cases oid c.spki.keyData with ⟨k, hk⟩ | hk
    · obtain ⟨name, curve, hm, _⟩ := ecdsaKeyOfOid_ok.mp hk
      exact absurd (List.mem_map.mpr ⟨_, hm, rfl⟩) h3
    · exact hk
  · intro h1 h2
    rw [if_neg h1]
    split
    · rename_i h3
      cases hp : c.spki.parameters with
      | none => rfl
      | some p =>
        cases p with
        | none => rfl
        | some o => exact absurd ⟨o, h3, hp⟩ h2
    · rfl

/-- C66: no extraction panics. -/
theorem C66_total (X : X509Env) (b : Bytes) :
    pubkeyFromX509Certificate X b ≠ .panic ∧ pubkeyFromX509Csr X b ≠ .panic ∧ derEncodingToSshPublicKey X b ≠ .panic := by
  refine ⟨pubkeyFromX509Certificate_noPanic X b, ?_, derEncoding_noPanic X b⟩
  unfold pubkeyFromX509Csr
  split
  · exact convertPki_noPanic _
  · nofun

/-- Parsers for the examples: a root, an intermediate and a client certificate with all extensions. -/
def samplePivX : X509Env where
  parsePem s := if s = "" then none else some ⟨⟨"root", none, [], [1]⟩, [], [1]⟩
  parseDer b :=
    if b = [2] then some ⟨⟨"1.2.840.113549.1.1.1", none, [4], [3]⟩, [], [2]⟩
    else if b = [5] then some ⟨⟨"1.2.840.10045.2.1", some (some "1.3.132.0.34"), [4, 7], [6]⟩,
      [("1.3.6.1.4.1.41482.3.3", [5, 4, 3]), ("1.3.6.1.4.1.41482.3.7", [1, 2]), ("2.5.29.19", []), ("1.3.6.1.4.1.41482.3.8", [2, 3])], [5]⟩
    else if b = [8] then some ⟨⟨"1.2.840.10045.2.1", some (some "1.3.132.0.34"), [4, 7], [6]⟩, [("1.3.6.1.4.1.41482.3.8", [2])], [8]⟩
    else if b = [9] then some ⟨⟨"1.2.840.10045.2.1", some (some "1.2.840.10045.3.1.7"), [4, 7], [6]⟩, [], [9]⟩
    else none
  parseCsr b := if b = [1] then some ⟨"1.2.840.10045.2.1", some (some "1.2.840.10045.3.1.7"), [4, 7], [6]⟩ else none
  verify c k := (c.raw = [2] ∧ k.raw = [1]) ∨ ((c.raw = [5] ∨ c.raw = [8]) ∧ k.raw = [3])
  octetString b := some b
  bitString b := some b
  integer b := some b
  derSequence b := some (.seq [.seq [.oid "1.2.840.10045.2.1", .oid "1.2.840.10045.3.1.7"], .bitString b])

def sampleP384 : PublicKey := ⟨⟨"ecdsa-sha2-nistp384", "ecdsa-sha2-nistp384", "ECDSA", false, false, .ecdsa⟩,
  .ecdsa ⟨.nistp384, "nistp384"⟩ [4, 7] none, none⟩

def sampleP256 : PublicKey := ⟨⟨"ecdsa-sha2-nistp256", "ecdsa-sha2-nistp256", "ECDSA", false, false, .ecdsa⟩,
  .ecdsa ⟨.nistp256, "nistp256"⟩ [4, 7] none, none⟩

example : pubkeyFromX509Certificate samplePivX [5] = .ok sampleP384 ∧ pubkeyFromX509Csr samplePivX [1] = .ok sampleP256 ∧
    derEncodingToSshPublicKey samplePivX [4, 7] = .ok sampleP256 ∧ pubkeyFromX509Certificate samplePivX [2] = .err .unsupported :=
  ⟨by decide +kernel, by decide +kernel, by decide +kernel, by decide +kernel⟩

theorem sampleP384_of : EcKeyOf "1.3.132.0.34" [4, 7] sampleP384 := ⟨_, _, List.mem_cons_of_mem _ List.mem_cons_self, rfl, by decide +kernel, rfl, rfl⟩

example : EcKeyOf "1.3.132.0.34" [4, 7] sampleP384 ∧ "1.3.132.0.35" ∉ ecOids.map Prod.fst ∧
    EcInfo ⟨"1.2.840.10045.2.1", some (some "1.3.132.0.35"), [4, 7], [6]⟩ "1.3.132.0.35" := ⟨sampleP384_of, by decide, rfl, rfl⟩

/-! ## C20 -/

/-- C20: an extracted key whose point is shorter than `2^32` is well-formed. -/
theorem C20_x509 (oid : String) (point : Bytes) (k : PublicKey) (h : EcKeyOf oid point k) (hs : point.length < 4294967296) :
    WellFormedKey k := by
  obtain ⟨curve, hc, hk, _, ht, hsk, _⟩ := C66_consistent oid point k h
  obtain ⟨_, _, _, _, hm, _⟩ := h
  refine ⟨hm, ?_⟩
  rw [hk]
  exact ⟨by rw [ht]; rfl, hc, hs, hsk⟩

example : WellFormedKey sampleP384 := C20_x509 _ _ _ sampleP384_of (by decide)

/-! ## C65 -/

/-- C65: exactly when a PIV attestation is accepted, and what is reported. -/
theorem C65_exact (X : X509Env) (yubicoRoot : String) (client intermediate : Bytes) (rootPem : Option String) (v : ValidPivKey) :
    verifyCertificateChain X yubicoRoot client intermediate rootPem = .ok v ↔
    ∃ c oid, CertChain X (rootPem.getD yubicoRoot) client intermediate c ∧ EcInfo c.spki oid ∧ EcKeyOf oid c.spki.keyData v.publicKey ∧
      (∀ e ∈ c.extensions, SerialReadable X e ∧ PolicyReadable e) ∧ PivInfo X c.extensions v := verifyCertificateChain_ok

/-- C65: exactly when verification panics: an unreadable root, or a policy extension of the client certificate that is too short
(before any unreadable serial number) in a chain that verifies. -/
theorem C65_panic (X : X509Env) (yubicoRoot : String) (client intermediate : Bytes) (rootPem : Option String) :
    verifyCertificateChain X yubicoRoot client intermediate rootPem = .panic ↔ X.parsePem (rootPem.getD yubicoRoot) = none ∨
    ∃ c oid k pre e post, CertChain X (rootPem.getD yubicoRoot) client intermediate c ∧ EcInfo c.spki oid ∧ EcKeyOf oid c.spki.keyData k ∧
      c.extensions = pre ++ e :: post ∧ (∀ x ∈ pre, SerialReadable X x ∧ PolicyReadable x) ∧ ¬ PolicyReadable e := by
  rw [verifyCertificateChain_panic]
  constructor
  · rintro (h | ⟨c, k, pre, e, post, hc, hk, h⟩)
    · exact .inl h
    · obtain ⟨c', oid, h1, h2, h3⟩ := pubkeyFromX509Certificate_ok.mp hk
      obtain ⟨_, _, _, _, h4, _⟩ := id hc
      rw [h4] at h1
      cases h1
      exact .inr ⟨c, oid, k, pre, e, post, hc, h2, h3, h⟩
  · rintro (h | ⟨c, oid, k, pre, e, post, hc, h2, h3, h⟩)
    · exact .inl h
    · obtain ⟨_, _, _, _, h4, _⟩ := id hc
      exact .inr ⟨c, k, pre, e, post, hc, pubkeyFromX509Certificate_ok.mpr ⟨c, oid, h4, h2, h3⟩, h⟩

/-- C65: a chain that does not verify is never accepted. -/
theorem C65_chain_needed (X : X509Env) (yubicoRoot : String) (client intermediate : Bytes) (rootPem : Option String)
    (h : ¬ ∃ c, CertChain X (rootPem.getD yubicoRoot) client intermediate c) :
    ∀ v, verifyCertificateChain X yubicoRoot client intermediate rootPem ≠ .ok v := by
  intro v hv
  obtain ⟨c, _, hc, _⟩ := (C65_exact ..).mp hv
  exact h ⟨c, hc⟩

/-- The sample chain verifies. -/
theorem samplePiv_verifies : verifyCertificateChain samplePivX "root" [5] [2] none = .ok ⟨sampleP384, "5.4.3".toList, 258, 3, 2⟩ := by
  decide +kernel

/-- Findings: a bad root or a short policy extension panics. -/
example : verifyCertificateChain samplePivX "root" [5] [2] (some "") = .panic ∧
    verifyCertificateChain samplePivX "root" [8] [2] none = .panic := ⟨by decide +kernel, by decide +kernel⟩

/-- A client certificate presented as its own intermediate is not accepted. -/
example : ¬ ∃ c, CertChain samplePivX "root" [5] [5] c := by
  rintro ⟨c, r, i, h1, h2, h3, h4, _⟩
  have : X509Env.parseDer samplePivX [5] = some i := h2
  revert h4
  cases h1
  cases h2
  decide +kernel

end Ssh
