import Verif.Model.Display
import Verif.Props.Cert

/-! # C85–C88: what certificates are mistaken for, labels, curves, issuing again -/

namespace Ssh

open Spec Reader

/-! ## C85: a certificate read as a public key -/

/-- C85: `PublicKey::from_bytes` accepts every Ed25519 certificate, and the key it returns is made of the nonce: the
certified key is not looked at. -/
theorem C85_ed25519 (C : Crypto) (data : Bytes) (c : Certificate) (h : Certificate.fromBytes C data = .ok c)
    (hk : c.keyType.kind = .ed25519Cert) :
    PublicKey.fromBytes data = .ok ⟨c.keyType, .ed25519 c.nonce none, none⟩ := by
  obtain ⟨w, wsig, rest, rfl, hb, _⟩ := certFromBytes_ok.mp h
  obtain ⟨h1, h2, _, _, _, _, wName, wNonce, wKey, wId, pBuf, wPrincipals, cBuf, wCritical, eBuf, wExtensions,
    wReserved, caBlob, caJunk, wCa, critical, extensions, rfl, e1, e2, e3, _⟩ := hb
  have hsk : ∀ kt ∈ keyTypes, kt.kind = .ed25519Cert → kt.isSk = false := by decide +kernel
  refine fromBytes_ok.mpr ⟨wName ++ wNonce, _, by simp only [List.append_assoc]; rfl, ⟨h1, wName, wNonce, rfl, e1, ?_⟩, rfl⟩
  refine ⟨by rw [hk]; rfl, wNonce, [], by simp, e2, ?_⟩
  show Application c.keyType.isSk none []
  rw [hsk _ h1 hk]
  rfl

/-- C85: for a hardware-backed Ed25519 certificate the "key" is the nonce and the "application" the certified key, if
that is text. -/
theorem C85_ed25519_sk (C : Crypto) (data : Bytes) (c : Certificate) (h : Certificate.fromBytes C data = .ok c)
    (hk : c.keyType.kind = .ed25519) (k : PublicKey) :
    PublicKey.fromBytes data = .ok k ↔ ∃ s key app, c.key.kind = .ed25519 key app ∧ strBytes s = key ∧
      k = ⟨c.keyType, .ed25519 c.nonce (some s), none⟩ := by
  obtain ⟨w, wsig, rest, rfl, hb, _⟩ := certFromBytes_ok.mp h
  obtain ⟨h1, h2, h3, h4, _, _, wName, wNonce, wKey, wId, pBuf, wPrincipals, cBuf, wCritical, eBuf, wExtensions,
    wReserved, caBlob, caJunk, wCa, critical, extensions, rfl, e1, e2, e3, _⟩ := hb
  have hsk : ∀ kt ∈ keyTypes, kt.kind = .ed25519 → kt.isCert = true → kt.isSk = true := by decide +kernel
  have hfam : ∀ kt ∈ keyTypes, kt.kind = .ed25519 → kt.isCert = true → ∀ p ∈ keyTypes, p.name = kt.plain →
      family p.kind = .ed25519 := by decide +kernel
  have hf := hfam _ h1 hk h2 _ h3 h4
  have hs := hsk _ h1 hk h2
  cases hkk : c.key.kind with
  | rsa e n => rw [hkk] at e3; rw [e3.1] at hf; cases hf
  | ecdsa cu key app => rw [hkk] at e3; rw [e3.1] at hf; cases hf
  | ed25519 key app =>
    rw [hkk] at e3
    obtain ⟨_, x1, x2, rfl, e4, e5⟩ := e3
    have mk : ∀ s, strBytes s = key → PublicKey.fromBytes
        (wName ++ (wNonce ++ ((x1 ++ x2) ++ (u64 c.serial.toNat ++ (u32 (roleNumber c.certType) ++ (wId ++
          (wPrincipals ++ (u64 c.validAfter.toNat ++ (u64 c.validBefore.toNat ++ (wCritical ++ (wExtensions ++
          (wReserved ++ wCa))))))))))) ++ (wsig ++ rest)) = .ok ⟨c.keyType, .ed25519 c.nonce (some s), none⟩ := by
      rintro s rfl
      refine fromBytes_ok.mpr ⟨wName ++ (wNonce ++ x1), _, by simp only [List.append_assoc]; rfl,
        ⟨h1, wName, wNonce ++ x1, rfl, e1, by rw [hk]; rfl, wNonce, x1, rfl, e2, ?_⟩, rfl⟩
      show Application c.keyType.isSk (some s) x1
      rw [hs]
      exact e4
    constructor
    · intro hk'
      obtain ⟨y, tl, he, ⟨g1, y1, y2, rfl, g2, g3⟩, g4⟩ := fromBytes_ok.mp hk'
      obtain ⟨hn, rfl, he1⟩ := readString_parses.unique (rest := _) (rest' := _) e1 g2
        (by simpa only [List.append_assoc] using he)
      have hkt : c.keyType = k.keyType := table_name_inj _ h1 _ g1 hn
      rw [← hkt] at g3
      cases hkk' : k.kind with
      | rsa e n => rw [hkk', KeyMaterial, hk] at g3; cases g3.1
      | ecdsa cu key' app' => rw [hkk', KeyMaterial, hk] at g3; cases g3.1
      | ed25519 key' app' =>
        rw [hkk'] at g3
        obtain ⟨_, z1, z2, rfl, g5, g6⟩ := g3
        obtain ⟨rfl, rfl, he2⟩ := readBytes_parses.unique (rest := _) (rest' := _) e2 g5
          (by simpa only [List.append_assoc] using he1)
        rw [hs] at g6
        cases app' with
        | none => cases g6
        | some s =>
          obtain ⟨rfl, rfl, _⟩ := readBytes_parses.unique (rest := _) (rest' := _) e4 g6
            (by simpa only [List.append_assoc] using he2)
          obtain ⟨kt', kind', cm'⟩ := k
          simp only at hkt hkk' g4
          subst hkt hkk' g4
          exact ⟨s, _, _, rfl, rfl, rfl⟩
    · rintro ⟨s, key', app', he, hs', rfl⟩
      cases he
      exact mk s hs'

/-- C85: for an RSA certificate the "exponent" is the nonce, when it happens to be a canonical integer, and the
"modulus" is the certified exponent. -/
theorem C85_rsa (C : Crypto) (data : Bytes) (c : Certificate) (h : Certificate.fromBytes C data = .ok c)
    (hk : c.keyType.kind = .rsaCert) (k : PublicKey) :
    PublicKey.fromBytes data = .ok k ↔ ∃ v e n, c.key.kind = .rsa e n ∧ MpintPayload c.nonce ∧ Shortest v ∧
      natOf v = natOf c.nonce ∧ k = ⟨c.keyType, .rsa v e, none⟩ := by
  obtain ⟨w, wsig, rest, rfl, hb, _⟩ := certFromBytes_ok.mp h
  obtain ⟨h1, h2, h3, h4, _, _, wName, wNonce, wKey, wId, pBuf, wPrincipals, cBuf, wCritical, eBuf, wExtensions,
    wReserved, caBlob, caJunk, wCa, critical, extensions, rfl, e1, e2, e3, _⟩ := hb
  have hfam : ∀ kt ∈ keyTypes, kt.kind = .rsaCert → ∀ p ∈ keyTypes, p.name = kt.plain →
      family p.kind = .rsa := by decide +kernel
  have hf := hfam _ h1 hk _ h3 h4
  cases hkk : c.key.kind with
  | ed25519 key app => rw [hkk] at e3; rw [e3.1] at hf; cases hf
  | ecdsa cu key app => rw [hkk] at e3; rw [e3.1] at hf; cases hf
  | rsa e n =>
    rw [hkk] at e3
    obtain ⟨_, x1, x2, rfl, e4, e5⟩ := e3
    constructor
    · intro hk'
      obtain ⟨y, tl, he, ⟨g1, y1, y2, rfl, g2, g3⟩, g4⟩ := fromBytes_ok.mp hk'
      obtain ⟨hn, rfl, he1⟩ := readString_parses.unique (rest := _) (rest' := _) e1 g2
        (by simpa only [List.append_assoc] using he)
      have hkt : c.keyType = k.keyType := table_name_inj _ h1 _ g1 hn
      rw [← hkt] at g3
      cases hkk' : k.kind with
      | ed25519 key' app' => rw [hkk', KeyMaterial, hk] at g3; cases g3.1
      | ecdsa cu key' app' => rw [hkk', KeyMaterial, hk] at g3; cases g3.1
      | rsa e' n' =>
        rw [hkk'] at g3
        obtain ⟨_, z1, z2, rfl, ⟨g5, p, g6, g7, g8⟩, g9⟩ := g3
        obtain ⟨rfl, rfl, he2⟩ := readBytes_parses.unique (rest := _) (rest' := _) e2 g6
          (by simpa only [List.append_assoc] using he1)
        obtain ⟨rfl, rfl, _⟩ := readPositiveMpint_parses.unique (rest := _) (rest' := _) e4 g9
          (by simpa only [List.append_assoc] using he2)
        obtain ⟨kt', kind', cm'⟩ := k
        simp only at hkt hkk' g4
        subst hkt hkk' g4
        exact ⟨_, _, _, rfl, g7, g5, g8.symm, rfl⟩
    · rintro ⟨v, e', n', he, hp, hv, hn, rfl⟩
      cases he
      exact fromBytes_ok.mpr ⟨wName ++ (wNonce ++ x1), _, by simp only [List.append_assoc]; rfl,
        ⟨h1, wName, wNonce ++ x1, rfl, e1, by rw [hk]; rfl, wNonce, x1, rfl, ⟨hv, c.nonce, e2, hp, hn.symm⟩, e4⟩, rfl⟩

/-- C85: an ECDSA certificate is accepted as a public key only if its nonce spells the name of a curve; with a nonce of
another length than 8 bytes (the library makes 32) it is rejected. -/
theorem C85_ecdsa (C : Crypto) (data : Bytes) (c : Certificate) (h : Certificate.fromBytes C data = .ok c)
    (hk : family c.keyType.kind = .ecdsa) (k : PublicKey) (hp : PublicKey.fromBytes data = .ok k) :
    ∃ cu ∈ curves, c.nonce = strBytes cu.identifier ∧ c.nonce.length = 8 := by
  obtain ⟨w, wsig, rest, rfl, hb, _⟩ := certFromBytes_ok.mp h
  obtain ⟨h1, h2, h3, h4, _, _, wName, wNonce, wKey, wId, pBuf, wPrincipals, cBuf, wCritical, eBuf, wExtensions,
    wReserved, caBlob, caJunk, wCa, critical, extensions, rfl, e1, e2, e3, _⟩ := hb
  obtain ⟨y, tl, he, ⟨g1, y1, y2, rfl, g2, g3⟩, g4⟩ := fromBytes_ok.mp hp
  obtain ⟨hn, rfl, he1⟩ := readString_parses.unique (rest := _) (rest' := _) e1 g2
    (by simpa only [List.append_assoc] using he)
  have hkt : c.keyType = k.keyType := table_name_inj _ h1 _ g1 hn
  rw [← hkt] at g3
  cases hkk' : k.kind with
  | ed25519 key' app' => rw [hkk', KeyMaterial, hk] at g3; cases g3.1
  | rsa e n => rw [hkk', KeyMaterial, hk] at g3; cases g3.1
  | ecdsa cu key' app' =>
    rw [hkk'] at g3
    obtain ⟨_, hc, z1, z2, z3, rfl, g5, _⟩ := g3
    obtain ⟨hnn, rfl, _⟩ := readBytes_parses.unique (rest := _) (rest' := _) e2 g5
      (by simpa only [List.append_assoc] using he1)
    have hl : ∀ cu ∈ curves, (strBytes cu.identifier).length = 8 := by decide +kernel
    exact ⟨cu, hc, hnn, by rw [hnn]; exact hl _ hc⟩

/-- C85: so two Ed25519 certificates of the same key with different nonces are read as different keys, and their
fingerprints are those of their nonces. -/
theorem C85_fingerprint (C : Crypto) (data : Bytes) (c : Certificate) (h : Certificate.fromBytes C data = .ok c)
    (hk : c.keyType.kind = .ed25519Cert) (kind : FingerprintKind) : ∃ k, PublicKey.fromBytes data = .ok k ∧
      k.fingerprintWith C kind = (⟨c.key.keyType, .ed25519 c.nonce none, none⟩ : PublicKey).fingerprintWith C kind := by
  refine ⟨_, C85_ed25519 C data c h hk, ?_⟩
  obtain ⟨w, wsig, rest, rfl, hb, _⟩ := certFromBytes_ok.mp h
  obtain ⟨h1, h2, h3, h4, _⟩ := hb
  have hsk : ∀ kt ∈ keyTypes, kt.kind = .ed25519Cert → ∀ p ∈ keyTypes, p.name = kt.plain →
    kt.isSk = false ∧ p.isSk = false ∧ p.plain = kt.plain := by decide +kernel
  obtain ⟨s1, s2, s3⟩ := hsk _ h1 hk _ h3 h4
  unfold PublicKey.fingerprintWith PublicKey.encode
  simp only [s1, s2, s3]

example : ∃ c, Certificate.fromBytes laxCrypto sampleSigned.serialized = .ok c ∧ c.keyType.kind = .ed25519Cert :=
  ⟨_, sampleSigned_parses, by decide +kernel⟩

/-- The bytes of the sample certificate for another type, key and nonce. -/
def certBytesOf (kt : KeyType) (key : PublicKey) (nonce : Bytes) : Bytes :=
  (okOf sampleCert (({ sampleCert with keyType := kt, key := key, nonce := nonce } : Certificate).addSignature
    laxCrypto sampleSig)).serialized

/-- A hardware-backed Ed25519 certificate. -/
def skCertBytes : Bytes :=
  certBytesOf ⟨"sk-ssh-ed25519-cert-v01@openssh.com", "sk-ssh-ed25519@openssh.com", "ED25519-SK-CERT", true, true, .ed25519⟩
    ⟨⟨"sk-ssh-ed25519@openssh.com", "sk-ssh-ed25519@openssh.com", "ED25519-SK", false, true, .ed25519⟩,
      .ed25519 [65, 66] (some "ssh:"), none⟩ [9, 9]

example : ∃ c k, Certificate.fromBytes laxCrypto skCertBytes = .ok c ∧ c.keyType.kind = .ed25519 ∧
    PublicKey.fromBytes skCertBytes = .ok k :=
  ⟨_, _, okOf_eq (d := sampleCert) (by decide +kernel), by decide +kernel, okOf_eq (d := sampleEd) (by decide +kernel)⟩

/-- An RSA certificate whose nonce reads as a positive number. -/
def rsaCertBytes : Bytes := certBytesOf sampleRsa.keyType sampleRsa [9, 9]

example : ∃ c k, Certificate.fromBytes laxCrypto rsaCertBytes = .ok c ∧ c.keyType.kind = .rsaCert ∧
    PublicKey.fromBytes rsaCertBytes = .ok k :=
  ⟨_, _, okOf_eq (d := sampleCert) (by decide +kernel), by decide +kernel, okOf_eq (d := sampleEd) (by decide +kernel)⟩

/-- An ECDSA certificate whose nonce reads as the name of a curve. -/
def ecdsaCertBytes : Bytes :=
  certBytesOf ⟨"ecdsa-sha2-nistp256-cert-v01@openssh.com", "ecdsa-sha2-nistp256", "ECDSA-CERT", true, false, .ecdsaCert⟩
    ⟨⟨"ecdsa-sha2-nistp256", "ecdsa-sha2-nistp256", "ECDSA", false, false, .ecdsa⟩,
      .ecdsa ⟨.nistp256, "nistp256"⟩ [4, 9] none, none⟩ (strBytes "nistp256")

example : ∃ c k, Certificate.fromBytes laxCrypto ecdsaCertBytes = .ok c ∧ family c.keyType.kind = .ecdsa ∧
    PublicKey.fromBytes ecdsaCertBytes = .ok k :=
  ⟨_, _, okOf_eq (d := sampleCert) (by decide +kernel), by decide +kernel, okOf_eq (d := sampleEd) (by decide +kernel)⟩

/-! ## C86: the label of a certificate's text form -/

/-- C86: whatever the label, the text of an accepted certificate is accepted exactly when the label's type has the same
kind as the certificate's; otherwise the error is `KeyTypeMismatch`. -/
theorem C86_label (C : Crypto) (data : Bytes) (c : Certificate) (h : Certificate.fromBytes C data = .ok c) (t : KeyType)
    (ht : t ∈ keyTypes) (s : List Char) (hs : Base64 data s) : Certificate.fromString C (t.name.toList ++ ' ' :: s) =
      if c.keyType.kind = t.kind then .ok c else .err .keyTypeMismatch := by
  obtain rfl := base64_iff.mp hs
  obtain ⟨w, wsig, rest, h1, h2, h3, h4, h5, h6⟩ := certFromBytes_ok.mp h
  obtain ⟨hw1, hw2⟩ := table_name_word _ ht
  have hne : data ≠ [] := by rw [h1]; simp [bodyExact_ne_nil h2]
  have hbw : ∀ x ∈ b64Encode data, isWs x = false := fun x hx => (b64Encode_props _ x hx).1
  have hbn : b64Encode data ≠ [] := b64Encode_ne_nil hne
  unfold Certificate.fromString
  rw [splitWhitespace_cons hw1 hw2 (by decide), splitWhitespace_word hbn hbw]
  simp only [String.ofList_toList, fromName_ok.mpr ⟨ht, rfl⟩, Res.ok_bind, b64Decode_encode, Res.ofOption, h]
  by_cases hk : c.keyType.kind = t.kind
  · simp [hk]
    cases c
    simp only at h5
    simp [h5]
  · simp [hk]

/-- C86: which labels are accepted for which certificates.  For RSA and software Ed25519 certificates only the label
naming the type; software ECDSA certificates are accepted under the label of any curve's certificate type; a
hardware-backed certificate is accepted exactly under the labels of plain keys of its family and of hardware keys and
certificates. -/
theorem C86_accepted_labels : ∀ kt ∈ keyTypes, kt.isCert = true → ∀ t ∈ keyTypes, (kt.kind = t.kind ↔
    t.name ∈ (match kt.kind with
      | .rsaCert => ["ssh-rsa-cert-v01@openssh.com"]
      | .ed25519Cert => ["ssh-ed25519-cert-v01@openssh.com"]
      | .ecdsaCert => ["ecdsa-sha2-nistp256-cert-v01@openssh.com", "ecdsa-sha2-nistp384-cert-v01@openssh.com",
          "ecdsa-sha2-nistp521-cert-v01@openssh.com"]
      | .ed25519 => ["ssh-ed25519", "sk-ssh-ed25519@openssh.com", "sk-ssh-ed25519-cert-v01@openssh.com"]
      | .ecdsa => ["ecdsa-sha2-nistp256", "ecdsa-sha2-nistp384", "ecdsa-sha2-nistp521",
          "sk-ecdsa-sha2-nistp256@openssh.com", "sk-ecdsa-sha2-nistp256-cert-v01@openssh.com"]
      | .rsa => [])) := by decide +kernel

/-- Printing puts the right label back, whatever the label was. -/
theorem cert_normalised (C : Crypto) (s : List Char) (c : Certificate) (h : Certificate.fromString C s = .ok c) :
    ∃ tl, c.display = c.keyType.name.toList ++ ' ' :: tl ∧ c.keyType ∈ keyTypes ∧ c.keyType.isCert = true ∧
      Certificate.fromString C c.display = .ok { c with comment := (splitWhitespace c.keyId.toList).head?.map String.ofList } := by
  obtain ⟨label, d, rest, blob, c0, t, _, _, _, _, hc, _, rfl⟩ := (certFromString_iff C s c).mp h
  obtain ⟨w, wsig, rest', h1, h2, _⟩ := certFromBytes_ok.mp hc
  exact ⟨_, by unfold Certificate.display; simp only [List.append_assoc, List.cons_append]; rfl, h2.1, h2.2.1,
    cert_text_roundtrip C blob c0 hc⟩

/-- C86: printing puts the right label back, whatever the label was. -/
theorem C86_normalised (C : Crypto) (s : List Char) (c : Certificate) (h : Certificate.fromString C s = .ok c) :
    ∃ tl ws, c.display = c.keyType.name.toList ++ ' ' :: tl ∧ c.keyType ∈ keyTypes ∧ c.keyType.isCert = true ∧
      TextWords c.keyId.toList ws ∧ Certificate.fromString C c.display = .ok { c with comment := ws.head?.map String.ofList } := by
  obtain ⟨tl, h1, h2, h3, h4⟩ := cert_normalised C s c h
  exact ⟨tl, _, h1, h2, h3, textWords_iff.mpr rfl, h4⟩

example : ∃ c, Certificate.fromString laxCrypto ("ssh-ed25519-cert-v01@openssh.com".toList ++ ' ' ::
    b64Encode sampleSigned.serialized) = .ok c := by
  have := C86_label _ _ _ sampleSigned_parses sampleCertType (by decide +kernel) _ (base64_iff.mpr rfl)
  rw [if_pos (by decide +kernel)] at this
  exact ⟨_, this⟩

/-! ## C87: the curve inside a key is not compared with the key type -/

/-- C87: every combination of an ECDSA key type and a curve identifier is accepted, and both are kept. -/
theorem C87_any_curve (t : KeyType) (ht : t ∈ keyTypes) (hf : family t.kind = .ecdsa) (cu : Curve) (hc : cu ∈ curves)
    (point : Bytes) (hp : point.length < 4294967296) (app : Option String) (ha : AppOk t.isSk app) :
    ∃ w, KeyBlob ⟨t, .ecdsa cu point app, none⟩ w ∧ PublicKey.fromBytes w = .ok ⟨t, .ecdsa cu point app, none⟩ := by
  obtain ⟨m, hm⟩ := wellFormed_material (k := ⟨t, .ecdsa cu point app, none⟩) ⟨ht, hf, hc, hp, ha⟩
  have hb : KeyBlob ⟨t, .ecdsa cu point app, none⟩ (frameStr t.name ++ m) := ⟨ht, _, _, rfl, frameStr_name ht, hm⟩
  exact ⟨_, hb, fromBytes_ok.mpr ⟨_, [], by simp, hb, rfl⟩⟩

/-- A P-384 point under the type of P-256 keys. -/
example : ∃ w, PublicKey.fromBytes w = .ok ⟨⟨"ecdsa-sha2-nistp256", "ecdsa-sha2-nistp256", "ECDSA", false, false, .ecdsa⟩,
    .ecdsa ⟨.nistp384, "nistp384"⟩ [4, 9] none, none⟩ := by
  obtain ⟨w, _, h⟩ := C87_any_curve ⟨"ecdsa-sha2-nistp256", "ecdsa-sha2-nistp256", "ECDSA", false, false, .ecdsa⟩ (by decide +kernel) rfl
    ⟨.nistp384, "nistp384"⟩ (by decide +kernel) [4, 9] (by decide) none rfl
  exact ⟨w, h⟩

/-- C87: so a key can say `ecdsa-sha2-nistp256` and `nistp521` at once. -/
theorem C87_mismatch : ∃ w k, PublicKey.fromBytes w = .ok k ∧ k.keyType.name = "ecdsa-sha2-nistp256" ∧ k.bits = 521 := by
  obtain ⟨w, h1, h2⟩ := C87_any_curve ⟨"ecdsa-sha2-nistp256", "ecdsa-sha2-nistp256", "ECDSA", false, false, .ecdsa⟩
    (by decide +kernel) rfl ⟨.nistp521, "nistp521"⟩ (by decide) [4] (by decide) none rfl
  exact ⟨w, _, h2, rfl, rfl⟩

/-! ## C88: issuing a parsed certificate again -/

theorem optionsSize_mapInsert (m : StrMap) (k v : String) : optionsSize (mapInsert m k v) ≤
    optionsSize m + (8 + k.utf8ByteSize + (if v = "" then 0 else 4 + v.utf8ByteSize)) := by
  induction m with
  | nil => simp [mapInsert, optionsSize]
  | cons kv m ih =>
    simp only [mapInsert]
    split
    · simp only [optionsSize, List.map_cons, List.sum_cons]; omega
    · simp only [optionsSize, List.map_cons, List.sum_cons] at ih ⊢; omega

theorem optionsSize_insertAll (m : StrMap) (l : List (String × String)) :
    optionsSize (insertAll m l) ≤ optionsSize m + optionsSize l := by
  induction l generalizing m with
  | nil => simp [insertAll, optionsSize]
  | cons kv l ih =>
    have h1 := ih (mapInsert m kv.1 kv.2)
    have h2 := optionsSize_mapInsert m kv.1 kv.2
    have h3 : insertAll m (kv :: l) = insertAll (mapInsert m kv.1 kv.2) l := rfl
    rw [h3]
    simp only [optionsSize, List.map_cons, List.sum_cons] at *
    omega

theorem text_size {s : String} {w : Bytes} (h : Text s w) : w.length = 4 + s.utf8ByteSize ∧ s.utf8ByteSize < 4294967296 := by
  obtain ⟨h1, rfl⟩ := h
  have : s.toByteArray.data.toList.length = s.utf8ByteSize := strBytes_length s
  rw [List.length_append, this]
  exact ⟨by simp [u32], by rw [← this]; exact h1⟩

theorem optionPairs_size {l : List (String × String)} {buf : Bytes} (h : OptionPairs l buf) : optionsSize l ≤ buf.length := by
  induction h with
  | nil => simp [optionsSize]
  | @cons n v l w1 w2 w3 hn hv t ih =>
    have h1 := (text_size hn).1
    obtain ⟨d, hd, hd'⟩ := hv
    have h2 : w2.length = 4 + d.length := by rw [hd.2]; simp [u32]; omega
    have h3 : (if v = "" then 0 else 4 + v.utf8ByteSize) ≤ d.length := by
      rcases hd' with ⟨_, rfl⟩ | ⟨x1, rest, rfl, hx⟩
      · simp
      · have := (text_size hx).1
        split
        · omega
        · rw [List.length_append]; omega
    simp only [optionsSize, List.map_cons, List.sum_cons, List.length_append] at ih ⊢
    omega

theorem texts_size {l : List String} {buf : Bytes} (h : Texts l buf) : principalsSize l = buf.length := by
  induction h with
  | nil => simp [principalsSize]
  | cons hs t ih =>
    have := (text_size hs).1
    simp only [principalsSize, List.map_cons, List.sum_cons, List.length_append] at ih ⊢
    omega

/-- A parsed certificate can be serialised again. -/
theorem bodyExact_wellFormed {c : Certificate} {w : Bytes} (h : BodyExact c w) : WellFormedCert c := by
  obtain ⟨h1, h2, h3, h4, h5, h6, wName, wNonce, wKey, wId, pBuf, wPrincipals, cBuf, wCritical, eBuf, wExtensions,
    wReserved, caBlob, caJunk, wCa, critical, extensions, e0, e1, e2, e3, e4, e5, e6, e7, e8, e9, e10, e11, e12, e13,
    e14, e15⟩ := h
  have hpl : ∀ kt ∈ keyTypes, ∀ p ∈ keyTypes, p.name = kt.plain → p.plain = kt.plain := by decide +kernel
  have hle : ∀ kt ∈ keyTypes, (frameStr kt.plain).length ≤ (frameStr kt.name).length := by decide +kernel
  obtain ⟨g1, x1, x2, rfl, g2, g3⟩ := e14
  refine ⟨h1, h2, hpl _ h1 _ h3 h4, material_wellFormed h3 e3, material_wellFormed g1 g3, ?_, ?_, e2.1,
    (text_size e4).2, ?_, ?_, ?_, ?_⟩
  · rw [e9]; exact nodupKeys_insertAll (by simp [NodupKeys]) _
  · rw [e12]; exact nodupKeys_insertAll (by simp [NodupKeys]) _
  · rw [texts_size e5]; exact e6.1
  · have := optionsSize_insertAll [] critical
    have := optionPairs_size e7
    have := e8.1
    rw [e9]
    simp only [optionsSize, List.map_nil, List.sum_nil] at *
    omega
  · have := optionsSize_insertAll [] extensions
    have := optionPairs_size e10
    have := e11.1
    rw [e12]
    simp only [optionsSize, List.map_nil, List.sum_nil] at *
    omega
  · intro b hb
    rw [encode_eq, keyMaterial_of g3] at hb
    simp only [Res.unwrap, Res.ok_bind, Res.ok.injEq] at hb
    have h15 := e15.1
    have hx : x1 = frameStr c.signatureKey.keyType.name := g2.eq
    have hl := hle _ g1
    rw [← hx] at hl
    rw [← hb]
    simp only [List.length_append] at *
    omega

/-- C88: take any accepted certificate, make any builder calls on it, iterate the option maps in any order while
serialising and sign with any signer: if signing succeeds, the result parses back to the changed contents with the same
subject key and CA key; the bytes of the reserved field are dropped. -/
theorem C88_reissue (C C' : Crypto) (signer : Bytes → Res (Option Bytes)) (data : Bytes) (c c3 : Certificate)
    (calls : List BuilderCall) (critical extensions : StrMap) (h : Certificate.fromBytes C data = .ok c)
    (hcalls : ∀ x ∈ calls, x.Valid)
    (ho1 : critical.Perm (runCalls c calls).criticalOptions) (ho2 : extensions.Perm (runCalls c calls).extensions)
    (hfit : CertFits (runCalls c calls))
    (hs : Certificate.sign C' signer { runCalls c calls with criticalOptions := critical, extensions := extensions } = .ok c3)
    (hsl : c3.signature.length < 4294967296) :
    ∃ c4, Certificate.fromBytes C' c3.serialized = .ok c4 ∧ SameContent c4 (runCalls c calls) ∧
      c4.key.kind = c.key.kind ∧ c4.nonce = c.nonce ∧ c4.certType = c.certType ∧ c4.signatureKey.kind = c.signatureKey.kind ∧
      c4.signature = c3.signature ∧ c4.reserved = [] := by
  obtain ⟨w, wsig, rest, h1, h2, _⟩ := certFromBytes_ok.mp h
  obtain ⟨w1, w2, w3, w4, w5, w6, w7, _⟩ := bodyExact_wellFormed h2
  obtain ⟨tbs, sig, ht, hsig, hacc, rfl⟩ := (C28_sign _ _ _ _).mp hs
  obtain ⟨i1, i2, i3, i4, i5, i6, i7⟩ := runCalls_invariant (c := c) (calls := calls) hcalls w6 w7
  generalize runCalls c calls = c1 at *
  have n1 : (critical.map (·.1)).Nodup := (List.Perm.nodup_iff (ho1.map Prod.fst)).mpr i1
  have n2 : (extensions.map (·.1)).Nodup := (List.Perm.nodup_iff (ho2.map Prod.fst)).mpr i2
  have hw : WellFormedCert { c1 with criticalOptions := critical, extensions := extensions } := by
    refine ⟨?_, ?_, ?_, ?_, ?_, n1, n2, hfit.1, hfit.2.1, hfit.2.2.1, ?_, ?_, hfit.2.2.2.2.2⟩
    · show c1.keyType ∈ _; rw [i3]; exact w1
    · show c1.keyType.isCert = _; rw [i3]; exact w2
    · show c1.key.keyType.plain = c1.keyType.plain; rw [i3, i4]; exact w3
    · show WellFormedKey c1.key; rw [i4]; exact w4
    · show WellFormedKey c1.signatureKey; rw [i5]; exact w5
    · show optionsSize critical < _; rw [optionsSize_perm ho1]; exact hfit.2.2.2.1
    · show optionsSize extensions < _; rw [optionsSize_perm ho2]; exact hfit.2.2.2.2.1
  obtain ⟨c4, h4, hc4, hcm1, hcm2, hr, hsg⟩ := signed_parses hw ht hacc hsl []
  rw [List.append_nil] at h4
  obtain ⟨s1, s2, s3, s4, s5, s6, s7, s8, s9, s10, s11, s12, s13, s14⟩ := hc4
  refine ⟨c4, h4, ⟨s1, s2, s3, s4, s5, s6, s7, s8, s9, s10, ?_, ?_, s13, s14⟩, ?_, ?_, ?_, ?_, hsg, hr⟩
  · exact fun k => (s11 k).trans (mapGet_perm n1 ho1 k)
  · exact fun k => (s12 k).trans (mapGet_perm n2 ho2 k)
  · rw [s4]; show c1.key.kind = _; rw [i4]
  · rw [s2]; show c1.nonce = _; rw [i6]
  · rw [s6]; show c1.certType = _; rw [i7]
  · rw [s14]; show c1.signatureKey.kind = _; rw [i5]

/-- C88: an accepted certificate always fits and can be serialised: `tbs_certificate` neither fails nor panics, whatever
the iteration order, so whether it can be signed again depends on the signer alone. -/
theorem C88_serialises (C C' : Crypto) (data : Bytes) (c : Certificate) (critical extensions : StrMap)
    (h : Certificate.fromBytes C data = .ok c) (ho1 : critical.Perm c.criticalOptions) (ho2 : extensions.Perm c.extensions)
    (signer : Bytes → Res (Option Bytes)) : CertFits c ∧
      ∃ tbs, ({ c with criticalOptions := critical, extensions := extensions } : Certificate).tbsCertificate = .ok tbs ∧
        ∀ sig, signer tbs = .ok (some sig) → Accepts C' c.signatureKey tbs sig →
          ∃ c3, Certificate.sign C' signer { c with criticalOptions := critical, extensions := extensions } = .ok c3 := by
  obtain ⟨w, wsig, rest, h1, h2, _⟩ := certFromBytes_ok.mp h
  have hw0 := bodyExact_wellFormed h2
  have hfit : CertFits c := hw0.2.2.2.2.2.2.2
  obtain ⟨w1, w2, w3, w4, w5, w6, w7, f1, f2, f3, f4, f5, f6⟩ := hw0
  have n1 : (critical.map (·.1)).Nodup := (List.Perm.nodup_iff (ho1.map Prod.fst)).mpr w6
  have n2 : (extensions.map (·.1)).Nodup := (List.Perm.nodup_iff (ho2.map Prod.fst)).mpr w7
  have hw : WellFormedCert { c with criticalOptions := critical, extensions := extensions } :=
    ⟨w1, w2, w3, w4, w5, n1, n2, f1, f2, f3, by show optionsSize critical < _; rw [optionsSize_perm ho1]; exact f4,
      by show optionsSize extensions < _; rw [optionsSize_perm ho2]; exact f5, f6⟩
  obtain ⟨p, pc, tbs, _, _, _, _, ht, _⟩ := tbs_wellFormed hw
  exact ⟨hfit, tbs, ht, fun sig hs ha => ⟨_, (C28_sign _ _ _ _).mpr ⟨tbs, sig, ht, hs, ha, rfl⟩⟩⟩

example : ∃ c c3, Certificate.fromBytes laxCrypto sampleSigned.serialized = .ok c ∧
    Certificate.sign laxCrypto (fun _ => .ok (some sampleSig)) (runCalls c [.serial 5, .principal "more"]) = .ok c3 :=
  ⟨_, _, sampleSigned_parses, okOf_eq (d := sampleCert) (by decide +kernel)⟩

end Ssh
