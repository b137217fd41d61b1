import Verif.Lemmas.Cert
import Verif.Props.Verify

/-! # C25–C34 (and C20 for certificates) -/

namespace Ssh

open Spec

/-! ## Sample certificate -/

/-- The certificate type of `sampleEd`. -/
def sampleCertType : KeyType :=
  ⟨"ssh-ed25519-cert-v01@openssh.com", "ssh-ed25519", "ED25519-CERT", true, false, .ed25519Cert⟩

/-- An unsigned user certificate. -/
def sampleCert : Certificate where
  keyType := sampleCertType
  nonce := List.replicate 32 9
  key := sampleEd
  serial := 77
  certType := .user
  keyId := "my id"
  principals := ["root", "me"]
  validAfter := 10
  validBefore := 20
  criticalOptions := [("force-command", "ls")]
  extensions := [("permit-pty", ""), ("permit-user-rc", "")]
  reserved := [0, 0, 0, 0, 0, 0, 0, 0]
  signatureKey := sampleEd
  signature := []
  comment := none
  serialized := []

theorem sampleCert_wf : WellFormedCert sampleCert := by
  refine ⟨by decide +kernel, rfl, rfl, sampleEd_wf, sampleEd_wf, by decide +kernel, by decide +kernel, by decide, by decide,
    by decide +kernel, by decide +kernel, by decide +kernel, ?_⟩
  intro b hb
  have : sampleEd.encode = .ok (u32 11 ++ "ssh-ed25519".toUTF8.data.toList ++ (u32 3 ++ [1, 2, 3])) := by decide +kernel
  change sampleEd.encode = .ok b at hb
  rw [this] at hb
  cases hb
  decide

/-- Result of a computation known not to fail. -/
def okOf {α : Type} (d : α) : Res α → α
  | .ok a => a
  | _ => d

theorem okOf_eq {α : Type} {d : α} {x : Res α} (h : (match x with | .ok _ => true | _ => false) = true) :
    x = .ok (okOf d x) := by
  cases x <;> simp_all [okOf]

/-- The sample signed with `sampleSig` (accepted by `laxCrypto`). -/
def sampleSigned : Certificate := okOf sampleCert (sampleCert.addSignature laxCrypto sampleSig)

theorem sampleSigned_eq : sampleCert.addSignature laxCrypto sampleSig = .ok sampleSigned :=
  okOf_eq (by decide +kernel)

theorem sampleSigned_parses : Certificate.fromBytes laxCrypto sampleSigned.serialized =
    .ok (okOf sampleCert (Certificate.fromBytes laxCrypto sampleSigned.serialized)) := okOf_eq (by decide +kernel)

/-! ## C25 -/

/-- C25: an accepted input is the signed part (with exactly the returned fields), the framed
signature and possibly trailing bytes; the signature was accepted for exactly the signed part under
the CA key found in it. -/
theorem C25_signed (C : Crypto) (data : Bytes) (c : Certificate) (h : Certificate.fromBytes C data = .ok c) :
    ∃ w wsig rest, data = w ++ (wsig ++ rest) ∧ CertBody c w ∧ Frame c.signature wsig ∧
      Accepts C c.signatureKey w c.signature ∧ c.comment = none ∧ c.serialized = data := by
  obtain ⟨w, wsig, rest, h1, h2, h3⟩ := certFromBytes_ok.mp h
  exact ⟨w, wsig, rest, h1, h2.certBody, h3⟩

example : ∃ c w wsig rest, sampleSigned.serialized = w ++ (wsig ++ rest) ∧ CertBody c w ∧ Frame c.signature wsig ∧
    Accepts laxCrypto c.signatureKey w c.signature ∧ c.comment = none ∧ c.serialized = sampleSigned.serialized :=
  ⟨_, C25_signed _ _ _ sampleSigned_parses⟩

/-- C25, converse: every such input is accepted, with these fields. -/
theorem C25_complete (C : Crypto) (c : Certificate) (w wsig rest : Bytes) (hw : CertBody c w)
    (hs : Frame c.signature wsig) (ha : Accepts C c.signatureKey w c.signature) (hc : c.comment = none)
    (hd : c.serialized = w ++ (wsig ++ rest)) :
    ∃ c', Certificate.fromBytes C (w ++ (wsig ++ rest)) = .ok c' ∧ SameCert c' c := by
  obtain ⟨m, m', he, h1, h2⟩ := certBody_exact hw
  exact ⟨_, certFromBytes_ok.mpr ⟨w, wsig, rest, rfl, he, hs, ha, hc, hd⟩, h1, h2, rfl⟩

/-- The sample certificate with its signature and two more bytes has these parts. -/
example : ∃ (c : Certificate) (w wsig rest : Bytes), CertBody c w ∧ Frame c.signature wsig ∧
    Accepts laxCrypto c.signatureKey w c.signature ∧ c.comment = none ∧ c.serialized = w ++ (wsig ++ rest) := by
  obtain ⟨w, wsig, rest, h1, h2, h3, h4, h5, h6⟩ := C25_signed _ _ _ sampleSigned_parses
  exact ⟨_, w, wsig, rest, h2, h3, h4, h5, h6.trans h1⟩

/-- C25: parsing never panics. -/
theorem C25_total (C : Crypto) (data : Bytes) : Certificate.fromBytes C data ≠ .panic :=
  certFromBytes_noPanic C data

example : ∃ c, Certificate.fromBytes laxCrypto sampleSigned.serialized = .ok c := ⟨_, sampleSigned_parses⟩

/-! ## C26 -/

theorem sameFields_of_eq {c c' : Certificate} (h : { c with signature := [], comment := none, serialized := [] } =
    { c' with signature := [], comment := none, serialized := [] }) : SameFields c c' := by
  cases c; cases c'
  simp only [Certificate.mk.injEq] at h
  obtain ⟨rfl, rfl, rfl, rfl, rfl, rfl, rfl, rfl, rfl, rfl, rfl, rfl, rfl, _⟩ := h
  exact ⟨fun _ => rfl, fun _ => rfl, rfl⟩

/-- C26: whatever follows, every accepted input that starts with the signed part of an accepted
certificate yields the same fields. -/
theorem C26_fields_authenticated (C C' : Crypto) (data : Bytes) (c : Certificate)
    (h : Certificate.fromBytes C data = .ok c) :
    ∃ w wsig rest, data = w ++ (wsig ++ rest) ∧ Accepts C c.signatureKey w c.signature ∧
      ∀ rest' c', Certificate.fromBytes C' (w ++ rest') = .ok c' → SameFields c' c := by
  obtain ⟨w, wsig, rest, h1, h2, h3, h4, _⟩ := certFromBytes_ok.mp h
  refine ⟨w, wsig, rest, h1, h4, ?_⟩
  intro rest' c' h'
  obtain ⟨w', wsig', rest'', h1', h2', _⟩ := certFromBytes_ok.mp h'
  exact sameFields_of_eq (bodyExact_unique h2' h2 h1'.symm).2.2

example : ∃ c w wsig rest, sampleSigned.serialized = w ++ (wsig ++ rest) ∧ Accepts laxCrypto c.signatureKey w c.signature ∧
    ∀ rest' c', Certificate.fromBytes laxCrypto (w ++ rest') = .ok c' → SameFields c' c :=
  ⟨_, C26_fields_authenticated laxCrypto laxCrypto _ _ sampleSigned_parses⟩

/-- C26: one signed part has only one reading. -/
theorem C26_body_unambiguous (c c' : Certificate) (w w' rest rest' : Bytes) (h : CertBody c w) (h' : CertBody c' w')
    (e : w ++ rest = w' ++ rest') : w = w' ∧ SameFields c c' := by
  obtain ⟨m, m', he, h1, h2⟩ := certBody_exact h
  obtain ⟨n, n', he', h1', h2'⟩ := certBody_exact h'
  obtain ⟨h3, _, h4⟩ := bodyExact_unique he he' e
  refine ⟨h3, ?_⟩
  obtain ⟨_, _, _, _, _, _, _, _, _, _, _, _, _, _, _, _⟩ := c
  obtain ⟨_, _, _, _, _, _, _, _, _, _, _, _, _, _, _, _⟩ := c'
  simp only [Certificate.mk.injEq] at h4
  obtain ⟨rfl, rfl, rfl, rfl, rfl, rfl, rfl, rfl, rfl, rfl, rfl, rfl, rfl, _⟩ := h4
  exact ⟨fun k => (h1 k).symm.trans (h1' k), fun k => (h2 k).symm.trans (h2' k), rfl⟩

example : ∃ (c : Certificate) (w : Bytes), CertBody c w ∧ c.principals = ["root", "me"] := by
  obtain ⟨w, _, _, _, h, _⟩ := C25_signed _ _ _ sampleSigned_parses
  exact ⟨_, w, h, by decide +kernel⟩

/-! ## C28 -/

/-- C28: `add_signature` succeeds exactly for signatures accepted for the to-be-signed bytes under
the CA key; the stored form is these bytes followed by the framed signature. -/
theorem C28_add_signature (C : Crypto) (c c' : Certificate) (sig : Bytes) :
    c.addSignature C sig = .ok c' ↔ ∃ tbs, c.tbsCertificate = .ok tbs ∧ Accepts C c.signatureKey tbs sig ∧
      c' = { c with signature := sig, serialized := tbs ++ (u32 sig.length ++ sig) } := by
  unfold Certificate.addSignature
  cases ht : c.tbsCertificate with
  | err e => simp
  | panic => simp
  | ok tbs =>
    simp only [Res.ok_bind, Res.ok.injEq, exists_eq_left']
    cases hv : verifySignature C sig tbs c.signatureKey with
    | err e =>
      simp only [Res.err_bind, reduceCtorEq, false_iff]
      rintro ⟨h, _⟩
      rw [verifySignature_ok.mpr ⟨h, rfl⟩] at hv
      cases hv
    | panic => exact absurd hv (verifySignature_noPanic _ _ _ _)
    | ok b =>
      simp only [Res.ok_bind, Res.pure_eq, Res.ok.injEq]
      constructor
      · rintro rfl
        exact ⟨(verifySignature_ok.mp hv).1, by simp [frame]⟩
      · rintro ⟨_, rfl⟩
        simp [frame]

/-- C28: `sign` asks the signer for a signature of the to-be-signed bytes and adds it; whatever the
signer does, a returned certificate carries an accepted signature. -/
theorem C28_sign (C : Crypto) (signer : Bytes → Res (Option Bytes)) (c c' : Certificate) :
    c.sign C signer = .ok c' ↔ ∃ tbs sig, c.tbsCertificate = .ok tbs ∧ signer tbs = .ok (some sig) ∧
      Accepts C c.signatureKey tbs sig ∧
      c' = { c with signature := sig, serialized := tbs ++ (u32 sig.length ++ sig) } := by
  have key : c.sign C signer = .ok c' ↔ ∃ tbs sig, c.tbsCertificate = .ok tbs ∧ signer tbs = .ok (some sig) ∧
      c.addSignature C sig = .ok c' := by
    unfold Certificate.sign
    cases ht : c.tbsCertificate with
    | err e => simp
    | panic => simp
    | ok tbs =>
      simp only [Res.ok_bind]
      cases hs : signer tbs with
      | err e => simp [hs]
      | panic => simp [hs]
      | ok o =>
        cases o with
        | none => simp [Res.ofOption, hs]
        | some sig => simp [Res.ofOption, hs]
  rw [key]
  constructor
  · rintro ⟨tbs, sig, h1, h2, h3⟩
    obtain ⟨tbs', h4, h5, h6⟩ := (C28_add_signature C c c' sig).mp h3
    rw [h1] at h4
    cases h4
    exact ⟨tbs, sig, h1, h2, h5, h6⟩
  · rintro ⟨tbs, sig, h1, h2, h3, h4⟩
    exact ⟨tbs, sig, h1, h2, (C28_add_signature C c c' sig).mpr ⟨tbs, h1, h3, h4⟩⟩

/-- C28: without an acceptable signature `add_signature` returns the verification error. -/
theorem C28_rejected (C : Crypto) (c : Certificate) (sig tbs : Bytes) (h : c.tbsCertificate = .ok tbs)
    (ha : ¬ Accepts C c.signatureKey tbs sig) : ∃ e, c.addSignature C sig = .err e := by
  unfold Certificate.addSignature
  rw [h]
  simp only [Res.ok_bind]
  cases hv : verifySignature C sig tbs c.signatureKey with
  | err e => exact ⟨e, rfl⟩
  | panic => exact absurd hv (verifySignature_noPanic _ _ _ _)
  | ok b => exact absurd (verifySignature_ok.mp hv).1 ha

example : ∃ c', sampleCert.addSignature laxCrypto sampleSig = .ok c' := ⟨_, sampleSigned_eq⟩

example : ¬ Accepts laxCrypto sampleEd [1] [] := by
  rintro ⟨label, w1, w2, w3, rest, h, ht, _⟩
  obtain ⟨_, rfl⟩ := ht
  simp [u32] at h

/-! ## C27 -/

/-- The calls of the builder interface. -/
inductive BuilderCall where
  | serial (n : UInt64)
  | keyId (s : String)
  | principal (s : String)
  | setPrincipals (l : List String)
  | validAfter (n : UInt64)
  | validBefore (n : UInt64)
  | criticalOption (k v : String)
  | setCriticalOptions (m : StrMap)
  | extension (k v : String)
  | setExtensions (m : StrMap)
  | comment (s : String)

/-- The effect of a call, by the library function it names. -/
def BuilderCall.run (c : Certificate) : BuilderCall → Certificate
  | .serial n => c.setSerial n
  | .keyId s => c.setKeyId s
  | .principal s => c.addPrincipal s
  | .setPrincipals l => c.setPrincipals l
  | .validAfter n => c.setValidAfter n
  | .validBefore n => c.setValidBefore n
  | .criticalOption k v => c.addCriticalOption k v
  | .setCriticalOptions m => c.setCriticalOptions m
  | .extension k v => c.addExtension k v
  | .setExtensions m => c.setExtensions m
  | .comment s => c.setComment s

/-- Argument maps are maps: no name twice. -/
def BuilderCall.Valid : BuilderCall → Prop
  | .setCriticalOptions m | .setExtensions m => (m.map (·.1)).Nodup
  | _ => True

/-- A certificate after a sequence of calls. -/
def runCalls (c : Certificate) (calls : List BuilderCall) : Certificate := calls.foldl BuilderCall.run c

theorem runCalls_invariant {c : Certificate} {calls : List BuilderCall} (hv : ∀ x ∈ calls, x.Valid)
    (h1 : (c.criticalOptions.map (·.1)).Nodup) (h2 : (c.extensions.map (·.1)).Nodup) :
    ((runCalls c calls).criticalOptions.map (·.1)).Nodup ∧ ((runCalls c calls).extensions.map (·.1)).Nodup ∧
    (runCalls c calls).keyType = c.keyType ∧ (runCalls c calls).key = c.key ∧
    (runCalls c calls).signatureKey = c.signatureKey ∧ (runCalls c calls).nonce = c.nonce ∧
    (runCalls c calls).certType = c.certType := by
  induction calls generalizing c with
  | nil => exact ⟨h1, h2, rfl, rfl, rfl, rfl, rfl⟩
  | cons x xs ih =>
    have hx := hv x (by simp)
    have step : ((x.run c).criticalOptions.map (·.1)).Nodup ∧ ((x.run c).extensions.map (·.1)).Nodup ∧
        (x.run c).keyType = c.keyType ∧ (x.run c).key = c.key ∧ (x.run c).signatureKey = c.signatureKey ∧
        (x.run c).nonce = c.nonce ∧ (x.run c).certType = c.certType := by
      cases x with
      | criticalOption k v => exact ⟨nodupKeys_mapInsert h1 k v, h2, rfl, rfl, rfl, rfl, rfl⟩
      | extension k v => exact ⟨h1, nodupKeys_mapInsert h2 k v, rfl, rfl, rfl, rfl, rfl⟩
      | setCriticalOptions m => exact ⟨hx, h2, rfl, rfl, rfl, rfl, rfl⟩
      | setExtensions m => exact ⟨h1, hx, rfl, rfl, rfl, rfl, rfl⟩
      | _ => exact ⟨h1, h2, rfl, rfl, rfl, rfl, rfl⟩
    obtain ⟨s1, s2, s3, s4, s5, s6, s7⟩ := step
    obtain ⟨a, b, c1, d, e, f, g⟩ := ih (c := x.run c) (fun y hy => hv y (by simp [hy])) s1 s2
    exact ⟨a, b, c1.trans s3, d.trans s4, e.trans s5, f.trans s6, g.trans s7⟩

/-- What `builder` returns. -/
theorem builder_ok {nonce : Option (Vector UInt8 32)} {serial : Option (Vector UInt8 8)} {key ca : PublicKey}
    {role : CertType} (hk : key.keyType ∈ keyTypes) : (∃ n s, nonce = some n ∧ serial = some s ∧
      ∃ kt ∈ keyTypes, kt.isCert = true ∧ kt.plain = key.keyType.plain ∧
      Certificate.builder nonce serial key role ca = .ok {
        nonce := n.toList, key, keyType := kt, serial := UInt64.ofNat (beNat s.toList), certType := role, keyId := "",
        principals := [], validAfter := 0, validBefore := 0, criticalOptions := [], extensions := [],
        reserved := [0, 0, 0, 0, 0, 0, 0, 0], signatureKey := ca, signature := [], comment := none, serialized := [] }) ∨
    ((nonce = none ∨ serial = none) ∧ ∃ e, Certificate.builder nonce serial key role ca = .err e) := by
  obtain ⟨kt, hkt, h1, h2, h3, _⟩ := table_cert _ hk
  unfold Certificate.builder
  rw [h1]
  simp only [Res.ok_bind, fromName_ok.mpr ⟨hkt, rfl⟩]
  cases nonce with
  | none => exact .inr ⟨.inl rfl, _, rfl⟩
  | some n =>
    cases serial with
    | none => exact .inr ⟨.inr rfl, _, rfl⟩
    | some s => exact .inl ⟨n, s, rfl, rfl, kt, hkt, h2, h3, rfl⟩

/-- Parsing the serialised form of a well-formed certificate that was given an accepted signature. -/
theorem signed_parses {C : Crypto} {c : Certificate} {tbs sig : Bytes} (hw : WellFormedCert c)
    (ht : c.tbsCertificate = .ok tbs) (ha : Accepts C c.signatureKey tbs sig) (hs : sig.length < 4294967296)
    (rest : Bytes) :
    ∃ c', Certificate.fromBytes C (tbs ++ ((u32 sig.length ++ sig) ++ rest)) = .ok c' ∧ SameContent c' c ∧
      c'.key.comment = none ∧ c'.signatureKey.comment = none ∧ c'.reserved = [] ∧ c'.signature = sig := by
  obtain ⟨p, pc, tbs', hp, hpc, p1, c1, ht', hb⟩ := tbs_wellFormed hw
  rw [ht] at ht'
  cases ht'
  have hwca : c.signatureKey.keyType ∈ keyTypes := hw.2.2.2.2.1.1
  have hkind := table_plain_kind _ hwca pc hpc c1 (accepts_kind ha)
  have ha' : Accepts C (normalCert c p pc).signatureKey tbs sig :=
    (accepts_congr (k := (normalCert c p pc).signatureKey) (k' := c.signatureKey) rfl hkind).mpr ha
  obtain ⟨p', hp', q1, q2, _⟩ := exists_plain hw.2.2.2.1.1
  obtain ⟨pc', hpc', r1, r2, _⟩ := exists_plain hwca
  have e1 := table_name_inj p hp p' hp' (p1.trans q1.symm)
  have e2 := table_name_inj pc hpc pc' hpc' (c1.trans r1.symm)
  let data := tbs ++ ((u32 sig.length ++ sig) ++ rest)
  refine ⟨{ normalCert c p pc with signature := sig, comment := none, serialized := data }, ?_, ?_, rfl, rfl, rfl, rfl⟩
  · exact certFromBytes_ok.mpr ⟨tbs, u32 sig.length ++ sig, rest, rfl, hb, ⟨hs, rfl⟩, ha', rfl, rfl⟩
  · refine ⟨rfl, rfl, ?_, rfl, rfl, rfl, rfl, rfl, rfl, rfl, fun _ => rfl, fun _ => rfl, ?_, rfl⟩
    · show p.plain = _; rw [e1]; exact q2
    · show pc.plain = _; rw [e2]; exact r2

theorem optionsSize_perm {m m' : StrMap} (h : m.Perm m') : optionsSize m = optionsSize m' :=
  (h.map _).sum_nat

/-- C27: build a certificate for a well-formed key and CA key, make any sequence of builder calls,
iterate the option maps in any order while serialising, sign with any signer: if signing succeeds,
the serialised certificate parses to one with the same contents, and the signature; key comments are
dropped and the reserved field is empty. -/
theorem C27_roundtrip (C : Crypto) (signer : Bytes → Res (Option Bytes)) (nonce : Option (Vector UInt8 32))
    (serial : Option (Vector UInt8 8)) (key ca : PublicKey) (role : CertType) (c0 c3 : Certificate)
    (calls : List BuilderCall) (critical extensions : StrMap) (hk : WellFormedKey key) (hca : WellFormedKey ca)
    (hb : Certificate.builder nonce serial key role ca = .ok c0) (hcalls : ∀ x ∈ calls, x.Valid)
    (ho1 : critical.Perm (runCalls c0 calls).criticalOptions) (ho2 : extensions.Perm (runCalls c0 calls).extensions)
    (hfit : CertFits (runCalls c0 calls))
    (hs : Certificate.sign C signer { runCalls c0 calls with criticalOptions := critical, extensions := extensions } = .ok c3)
    (hsl : c3.signature.length < 4294967296) :
    ∃ c4, Certificate.fromBytes C c3.serialized = .ok c4 ∧ SameContent c4 (runCalls c0 calls) ∧
      c4.key.kind = key.kind ∧ c4.key.keyType.plain = key.keyType.plain ∧ c4.certType = role ∧
      c4.signatureKey.kind = ca.kind ∧ c4.signatureKey.keyType.plain = ca.keyType.plain ∧
      c4.signature = c3.signature ∧ c4.reserved = [] ∧ c4.serialized = c3.serialized := by
  rcases builder_ok (nonce := nonce) (serial := serial) (ca := ca) (role := role) hk.1 with
    ⟨n, s, rfl, rfl, kt, hkt, hcert, hplain, hb'⟩ | ⟨_, e, he⟩
  rotate_left
  · rw [he] at hb; cases hb
  rw [hb'] at hb
  simp only [Res.ok.injEq] at hb
  obtain ⟨tbs, sig, ht, hsig, hacc, rfl⟩ := (C28_sign _ _ _ _).mp hs
  obtain ⟨i1, i2, i3, i4, i5, i6, i7⟩ := runCalls_invariant (c := c0) (calls := calls) hcalls (by subst hb; simp)
    (by subst hb; simp)
  have e3 : c0.keyType = kt := by subst hb; rfl
  have e4 : c0.key = key := by subst hb; rfl
  have e5 : c0.signatureKey = ca := by subst hb; rfl
  have e7 : c0.certType = role := by subst hb; rfl
  generalize runCalls c0 calls = c1 at *
  have n1 : (critical.map (·.1)).Nodup := (List.Perm.nodup_iff (ho1.map Prod.fst)).mpr i1
  have n2 : (extensions.map (·.1)).Nodup := (List.Perm.nodup_iff (ho2.map Prod.fst)).mpr i2
  have hw : WellFormedCert { c1 with criticalOptions := critical, extensions := extensions } := by
    refine ⟨?_, ?_, ?_, ?_, ?_, n1, n2, hfit.1, hfit.2.1, hfit.2.2.1, ?_, ?_, hfit.2.2.2.2.2⟩
    · show c1.keyType ∈ _; rw [i3, e3]; exact hkt
    · show c1.keyType.isCert = _; rw [i3, e3]; exact hcert
    · show c1.key.keyType.plain = c1.keyType.plain; rw [i3, e3, i4, e4]; exact hplain.symm
    · show WellFormedKey c1.key; rw [i4, e4]; exact hk
    · show WellFormedKey c1.signatureKey; rw [i5, e5]; exact hca
    · show optionsSize critical < _; rw [optionsSize_perm ho1]; exact hfit.2.2.2.1
    · show optionsSize extensions < _; rw [optionsSize_perm ho2]; exact hfit.2.2.2.2.1
  obtain ⟨c4, h4, hc4, hcm1, hcm2, hr, hsg⟩ := signed_parses hw ht hacc hsl []
  rw [List.append_nil] at h4
  obtain ⟨s1, s2, s3, s4, s5, s6, s7, s8, s9, s10, s11, s12, s13, s14⟩ := hc4
  refine ⟨c4, h4, ⟨s1, s2, s3, s4, s5, s6, s7, s8, s9, s10, ?_, ?_, s13, s14⟩, ?_, ?_, ?_, ?_, ?_, hsg, hr, ?_⟩
  · exact fun k => (s11 k).trans (mapGet_perm n1 ho1 k)
  · exact fun k => (s12 k).trans (mapGet_perm n2 ho2 k)
  · rw [s4]; show c1.key.kind = _; rw [i4, e4]
  · rw [s3]; show c1.key.keyType.plain = _; rw [i4, e4]
  · rw [s6]; show c1.certType = _; rw [i7, e7]
  · rw [s14]; show c1.signatureKey.kind = _; rw [i5, e5]
  · rw [s13]; show c1.signatureKey.keyType.plain = _; rw [i5, e5]
  · obtain ⟨_, _, _, _, _, _, _, _, h⟩ := certFromBytes_ok.mp h4
    exact h

example : ∃ c3, Certificate.sign laxCrypto (fun _ => .ok (some sampleSig)) (runCalls (okOf sampleCert
    (Certificate.builder (some (Vector.replicate 32 1)) (some (Vector.replicate 8 2)) sampleSk .host sampleEd))
    [.principal "a", .extension "x" "y", .criticalOption "c" "", .setPrincipals ["b"], .principal "d"]) = .ok c3 :=
  ⟨_, okOf_eq (d := sampleCert) (by decide +kernel)⟩

/-! ## C30 -/

/-- C30: certificates with the same to-be-signed bytes have the same contents. -/
theorem C30_tbs_injective (c c' : Certificate) (h : WellFormedCert c) (h' : WellFormedCert c')
    (e : c.tbsCertificate = c'.tbsCertificate) : SameContent c c' := by
  obtain ⟨p, pc, tbs, hp, hpc, p1, c1, ht, hb⟩ := tbs_wellFormed h
  obtain ⟨p', pc', tbs', hp', hpc', p1', c1', ht', hb'⟩ := tbs_wellFormed h'
  rw [ht, ht'] at e
  simp only [Res.ok.injEq] at e
  subst e
  have := (bodyExact_unique (rest := []) (rest' := []) hb hb' rfl).2.2
  simp only [normalCert, Certificate.mk.injEq, PublicKey.mk.injEq] at this
  obtain ⟨a1, a2, ⟨a3, a4, _⟩, a5, a6, a7, a8, a9, a10, a11, a12, _, ⟨a13, a14, _⟩, _⟩ := this
  refine ⟨a1, a2, ?_, a4, a5, a6, a7, a8, a9, a10, fun k => by rw [a11], fun k => by rw [a12], ?_, a14⟩
  · rw [← p1, ← p1', a3]
  · rw [← c1, ← c1', a13]

/-- C30: an accepted certificate whose signed part is the to-be-signed form of `c` has the contents of
`c`. -/
theorem C30_parsed (C : Crypto) (c c' : Certificate) (tbs rest : Bytes) (h : WellFormedCert c)
    (ht : c.tbsCertificate = .ok tbs) (hp : Certificate.fromBytes C (tbs ++ rest) = .ok c') : SameContent c' c := by
  obtain ⟨p, pc, tbs', hp1, hpc, p1, c1, ht', hb⟩ := tbs_wellFormed h
  rw [ht] at ht'
  cases ht'
  obtain ⟨w, wsig, rest', h1, h2, _⟩ := certFromBytes_ok.mp hp
  have := (bodyExact_unique h2 hb h1.symm).2.2
  obtain ⟨q, hq, q1, q2, _⟩ := exists_plain h.2.2.2.1.1
  obtain ⟨qc, hqc, qc1, qc2, _⟩ := exists_plain h.2.2.2.2.1.1
  simp only [normalCert, Certificate.mk.injEq] at this
  obtain ⟨a1, a2, a3, a5, a6, a7, a8, a9, a10, a11, a12, _, a13, _⟩ := this
  refine ⟨a1, a2, ?_, by rw [a3], a5, a6, a7, a8, a9, a10, fun k => by rw [a11], fun k => by rw [a12], ?_, by rw [a13]⟩
  · rw [a3]; show p.plain = _; rw [table_name_inj p hp1 q hq (p1.trans q1.symm)]; exact q2
  · rw [a13]; show pc.plain = _; rw [table_name_inj pc hpc qc hqc (c1.trans qc1.symm)]; exact qc2

example : WellFormedCert sampleCert ∧ WellFormedCert { sampleCert with comment := some "x", signature := [1] } ∧
    sampleCert.tbsCertificate = ({ sampleCert with comment := some "x", signature := [1] } : Certificate).tbsCertificate :=
  ⟨sampleCert_wf, sampleCert_wf, rfl⟩

/-! ## C29 -/

/-- What is accepted was signed. -/
theorem accepts_signed {C : Crypto} {k : PublicKey} {signed : Bytes → Prop} {msg sig : Bytes} (hu : NotForged C k signed sig)
    (hn : NoCollision C k signed msg) (h : Accepts C k msg sig) : signed msg := by
  obtain ⟨label, w1, w2, w3, rest, hs, ht, hv⟩ := h
  have wrapped : ∀ {a : String} {m : Bytes}, applicationOf k = some a → MadeFor C k signed m →
      PrimitiveMessage C (some a) msg m w3 → signed msg := by
    intro a m ha hm hp
    unfold MadeFor at hm
    rw [ha] at hm
    obtain ⟨flags, counter, msg0, hs0, rfl⟩ := hm
    obtain ⟨flags', counter', _, e⟩ := hp
    obtain ⟨h32, hcf⟩ := hn (by rw [ha]; exact Option.some_ne_none a)
    obtain ⟨e1, e2⟩ := List.append_inj e (by simp [h32])
    rwa [hcf msg0 hs0 e2.symm]
  cases hk : k.kind with
  | rsa e n =>
    rw [hk] at hv
    obtain ⟨_, _, alg, s, _, hf, hv⟩ := hv
    have := hu msg s ⟨label, w1, w2, _, hs, ht, .inl hf⟩ (by unfold PrimitiveAccepts; rw [hk]; exact ⟨alg, hv⟩)
    unfold MadeFor applicationOf at this
    rwa [hk] at this
  | ecdsa c key app =>
    rw [hk] at hv
    obtain ⟨_, alg, len, x1, x2, junk, r, s, fr, fs, m, _, hf, hx1, hx2, hr, hs', hm, hv⟩ := hv
    have := hu m (fr ++ fs) ⟨label, w1, w2, _, hs, ht, .inr ⟨x1, x2, junk, r, s, fr, fs, hf, hx1, hx2, by rw [hs'.1]; exact hr, hs'.2, rfl⟩⟩
      (by unfold PrimitiveAccepts; rw [hk]; exact ⟨alg, hv⟩)
    cases app with
    | none =>
      obtain ⟨rfl, _⟩ := hm
      unfold MadeFor applicationOf at this
      rwa [hk] at this
    | some a => exact wrapped (by unfold applicationOf; rw [hk]) this hm
  | ed25519 key app =>
    rw [hk] at hv
    obtain ⟨_, s, m, _, hf, hm, hv⟩ := hv
    have := hu m s ⟨label, w1, w2, _, hs, ht, .inl hf⟩ (by unfold PrimitiveAccepts; rw [hk]; exact hv)
    cases app with
    | none =>
      obtain ⟨rfl, _⟩ := hm
      unfold MadeFor applicationOf at this
      rwa [hk] at this
    | some a => exact wrapped (by unfold applicationOf; rw [hk]) this hm

/-- C29: let `issued` be the certificates the CA signed.  Every accepted input carrying that CA key has the contents of
an issued certificate, unless the signature in it is a forgery: one that the primitive accepts under the CA key for
a message that is not the to-be-signed bytes of an issued certificate (or, for a hardware CA, unless a part of the
input collides with such bytes under SHA-256). -/
theorem C29_unforgeable (C : Crypto) (ca : PublicKey) (issued : Certificate → Prop)
    (hwf : ∀ c, issued c → WellFormedCert c) (data : Bytes) (c : Certificate)
    (hu : NotForged C ca (fun m => ∃ c, issued c ∧ c.tbsCertificate = .ok m) c.signature)
    (hn : ∀ w, w <+: data → NoCollision C ca (fun m => ∃ c, issued c ∧ c.tbsCertificate = .ok m) w)
    (h : Certificate.fromBytes C data = .ok c) (hca : c.signatureKey = ca) :
    ∃ c0, issued c0 ∧ SameContent c c0 := by
  obtain ⟨w, wsig, rest, h1, h2, h3, h4, _⟩ := certFromBytes_ok.mp h
  rw [hca] at h4
  obtain ⟨c0, hi, ht⟩ := accepts_signed hu (hn w (h1 ▸ List.prefix_append _ _)) h4
  subst h1
  exact ⟨c0, hi, C30_parsed C c0 c w _ (hwf c0 hi) ht h⟩

/-- The hypotheses can be met: a CA that issued `sampleCert` only, with primitives that accept the signature of
`sampleCert` for it, and some other signature for everything else. -/
example : ∃ (C : Crypto) (ca : PublicKey) (data : Bytes) (c : Certificate),
    NotForged C ca (fun m => ∃ c, c = sampleCert ∧ c.tbsCertificate = .ok m) c.signature ∧
    (∀ w, w <+: data → NoCollision C ca (fun m => ∃ c, c = sampleCert ∧ c.tbsCertificate = .ok m) w) ∧
    Certificate.fromBytes C data = .ok c ∧ c.signatureKey = ca ∧ (∀ m, ∃ s, PrimitiveAccepts C ca m s) := by
  let tbs := okOf [] sampleCert.tbsCertificate
  have htbs : sampleCert.tbsCertificate = .ok tbs := okOf_eq (by decide +kernel)
  let C : Crypto := { laxCrypto with ed25519Verify := fun _ m s => s == [5, 6, 7] && m == tbs || s == 9 :: m }
  have hp : Certificate.fromBytes C (tbs ++ (u32 sampleSig.length ++ sampleSig)) =
    .ok (okOf sampleCert (Certificate.fromBytes C (tbs ++ (u32 sampleSig.length ++ sampleSig)))) := okOf_eq (by decide +kernel)
  have hsig : (okOf sampleCert (Certificate.fromBytes C (tbs ++ (u32 sampleSig.length ++ sampleSig)))).signature = sampleSig := by
    decide +kernel
  refine ⟨C, { sampleEd with comment := none }, _, _, ?_, ?_, hp, by decide +kernel, fun m => ⟨9 :: m, ?_⟩⟩
  · intro m s hc ha
    rw [hsig] at hc
    have hs : s = [5, 6, 7] := sampleSig_carries hc
    have ha' : (s == [5, 6, 7] && m == tbs || s == 9 :: m) = true := ha
    have : m = tbs := by simpa [hs] using ha'
    show ∃ c, _
    exact ⟨_, rfl, by rw [this]; exact htbs⟩
  · exact fun w _ h => absurd rfl h
  · show (9 :: m == [5, 6, 7] && m == tbs || 9 :: m == 9 :: m) = true
    simp

/-! ## C31 -/

/-- The printed form of an accepted certificate parses to the same certificate, with the first
word of the key id as comment. -/
theorem cert_text_roundtrip (C : Crypto) (data : Bytes) (c : Certificate) (h : Certificate.fromBytes C data = .ok c) :
    Certificate.fromString C c.display =
      .ok { c with comment := (splitWhitespace c.keyId.toList).head?.map String.ofList } := by
  obtain ⟨w, wsig, rest, h1, h2, h3, h4, h5, h6⟩ := certFromBytes_ok.mp h
  obtain ⟨hw1, hw2⟩ := table_name_word _ h2.1
  have hne : data ≠ [] := by
    rw [h1]; simp [bodyExact_ne_nil h2]
  have hbw : ∀ x ∈ b64Encode c.serialized, isWs x = false := fun x hx => (b64Encode_props _ x hx).1
  have hbn : b64Encode c.serialized ≠ [] := b64Encode_ne_nil (by rw [h6]; exact hne)
  unfold Certificate.fromString Certificate.display
  rw [List.append_assoc, List.cons_append, splitWhitespace_cons hw1 hw2 (by decide),
    splitWhitespace_cons hbn hbw (by decide)]
  simp only [String.ofList_toList, fromName_ok.mpr ⟨h2.1, rfl⟩, Res.ok_bind, b64Decode_encode, Res.ofOption]
  rw [h6, h]
  simp [h6]

/-- C31: the printed form of an accepted certificate parses to the same certificate, with the first
word of the key id as comment. -/
theorem C31_text_roundtrip (C : Crypto) (data : Bytes) (c : Certificate) (h : Certificate.fromBytes C data = .ok c) :
    ∃ ws, TextWords c.keyId.toList ws ∧
      Certificate.fromString C c.display = .ok { c with comment := ws.head?.map String.ofList } :=
  ⟨_, textWords_iff.mpr rfl, cert_text_roundtrip C data c h⟩

example : ∃ data c, Certificate.fromBytes laxCrypto data = .ok c := ⟨_, _, sampleSigned_parses⟩

/-- `from_string` accepts exactly: a label word, a base64 word of an accepted certificate whose
type has the same kind as the label. -/
theorem certFromString_iff (C : Crypto) (s : List Char) (c : Certificate) : Certificate.fromString C s = .ok c ↔
    ∃ label data rest blob c0 t, splitWhitespace s = label :: data :: rest ∧ t ∈ keyTypes ∧ t.name.toList = label ∧
      b64Decode data = some blob ∧ Certificate.fromBytes C blob = .ok c0 ∧ c0.keyType.kind = t.kind ∧
      c = { c0 with comment := rest.head?.map String.ofList } := by
  unfold Certificate.fromString
  constructor
  · intro h
    split at h
    · cases h
    rename_i label rest hs
    rcases fromName_cases (String.ofList label) with ⟨t, ht⟩ | ht
    rotate_left
    · rw [ht] at h; cases h
    rw [ht] at h
    simp only [Res.ok_bind] at h
    cases rest with
    | nil => cases h
    | cons data rest =>
      simp only at h
      cases hd : b64Decode data with
      | none => rw [hd] at h; cases h
      | some blob =>
        rw [hd] at h
        simp only [Res.ofOption, Res.ok_bind] at h
        cases hc : Certificate.fromBytes C blob with
        | err e => rw [hc] at h; cases h
        | panic => rw [hc] at h; cases h
        | ok c0 =>
          rw [hc] at h
          simp only [Res.ok_bind] at h
          obtain ⟨ht1, ht2⟩ := fromName_ok.mp ht
          split at h
          · cases h
          · rename_i hk
            simp only [Res.pure_eq, Res.ok.injEq] at h
            exact ⟨label, data, rest, blob, c0, t, hs, ht1, by simp [ht2], hd, hc, by simpa using hk, h.symm⟩
  · rintro ⟨label, data, rest, blob, c0, t, hs, ht1, rfl, hd, hc, hk, rfl⟩
    rw [hs]
    simp only [String.ofList_toList, fromName_ok.mpr ⟨ht1, rfl⟩, Res.ok_bind, hd, Res.ofOption, hc]
    rw [if_neg (by simpa using hk)]
    rfl

/-- C31: `from_string` accepts exactly: a label word, a base64 word of an accepted certificate whose
type has the same kind as the label. -/
theorem C31_from_string (C : Crypto) (s : List Char) (c : Certificate) : Certificate.fromString C s = .ok c ↔
    ∃ label data rest blob c0 t, TextWords s (label :: data :: rest) ∧ t ∈ keyTypes ∧ t.name.toList = label ∧
      Base64Lax blob data ∧ Certificate.fromBytes C blob = .ok c0 ∧ c0.keyType.kind = t.kind ∧
      c = { c0 with comment := rest.head?.map String.ofList } := by
  simp only [certFromString_iff, textWords_iff, base64Lax_iff]

/-- C31: `from_string` never panics. -/
theorem C31_total (C : Crypto) (s : List Char) : Certificate.fromString C s ≠ .panic := by
  unfold Certificate.fromString
  split
  · simp
  rename_i label rest hs
  rcases fromName_cases (String.ofList label) with ⟨t, ht⟩ | ht
  rotate_left
  · rw [ht]; simp
  rw [ht]
  simp only [Res.ok_bind]
  cases rest with
  | nil => simp
  | cons data rest =>
    show Res.bind (Res.ofOption _ (b64Decode data)) _ ≠ _
    cases hd : b64Decode data with
    | none => simp [Res.ofOption, Res.bind]
    | some blob =>
      show Res.bind (Certificate.fromBytes C blob) _ ≠ _
      cases hc : Certificate.fromBytes C blob with
      | err e => simp [Res.bind]
      | panic => exact absurd hc (certFromBytes_noPanic C blob)
      | ok c0 => simp only [Res.bind]; split <;> simp

/-! ## C32 -/

/-- C32: a key type that is not a certificate type is rejected with `NotCertificate`. -/
theorem C32_not_certificate (C : Crypto) (w rest : Bytes) (name : String) (kt : KeyType) (hw : Text name w)
    (hk : KeyType.fromName name = .ok kt) (hc : kt.isCert = false) :
    Certificate.fromBytes C (w ++ rest) = .err .notCertificate := by
  rw [certFromBytes_eq]
  have h1 : Reader.readString (Reader.new (w ++ rest)) = (.ok name, adv (Reader.new (w ++ rest)) w) :=
    (Reader.readString_parses _ _ _).mpr ⟨w, hw, at_new.mpr ⟨rest, rfl⟩, rfl⟩
  have : certBody (Reader.new (w ++ rest)) = (.err .notCertificate, adv (Reader.new (w ++ rest)) w) := by
    unfold certBody
    rw [Rd.bind_of_ok h1]
    simp only [hk]
    rw [Rd.bind_of_ok (Rd.lift_eq _ _), hc]
    rfl
  rw [Rd.bind_of_err this]

example : Certificate.fromBytes laxCrypto (u32 11 ++ "ssh-ed25519".toUTF8.data.toList ++ [1, 2]) = .err .notCertificate :=
  C32_not_certificate _ _ _ "ssh-ed25519" _ ⟨by decide, rfl⟩ rfl rfl

/-- C32: a returned certificate has a certificate type and certifies a key of the matching plain
type. -/
theorem C32_certificate_type (C : Crypto) (data : Bytes) (c : Certificate) (h : Certificate.fromBytes C data = .ok c) :
    c.keyType.isCert = true ∧ c.key.keyType.isCert = false ∧ c.key.keyType.name = c.keyType.plain := by
  obtain ⟨w, wsig, rest, _, h2, _⟩ := certFromBytes_ok.mp h
  refine ⟨h2.2.1, ?_, h2.2.2.2.1⟩
  obtain ⟨p, hp, p1, _, p3, _⟩ := exists_plain h2.1
  rw [table_name_inj _ h2.2.2.1 p hp (h2.2.2.2.1.trans p1.symm)]
  exact p3

example : ∃ c, Certificate.fromBytes laxCrypto sampleSigned.serialized = .ok c ∧ c.keyType.isCert = true :=
  ⟨_, sampleSigned_parses, (C32_certificate_type _ _ _ sampleSigned_parses).1⟩

/-- C32: a role other than 1 and 2 is rejected with that number. -/
theorem C32_role (C : Crypto) (name : String) (kt p : KeyType) (kind : PublicKeyKind) (nonce w1 w2 w3 rest : Bytes)
    (serial : UInt64) (role : UInt32) (hw : Text name w1) (hk : KeyType.fromName name = .ok kt)
    (hc : kt.isCert = true) (hn : Frame nonce w2) (hp : KeyType.fromName kt.plain = .ok p) (hm : KeyMaterial p kind w3)
    (hr : role ≠ 1 ∧ role ≠ 2) :
    Certificate.fromBytes C (w1 ++ (w2 ++ (w3 ++ (u64 serial.toNat ++ (u32 role.toNat ++ rest))))) =
      .err (.invalidCertType role) := by
  rw [certFromBytes_eq]
  generalize hd : w1 ++ (w2 ++ (w3 ++ (u64 serial.toNat ++ (u32 role.toNat ++ rest)))) = data
  obtain ⟨hp1, hp2⟩ := fromName_ok.mp hp
  let r0 := Reader.new data
  have a1 : At r0 (w1 ++ (w2 ++ (w3 ++ (u64 serial.toNat ++ u32 role.toNat)))) := at_new.mpr ⟨rest, by simp [← hd]⟩
  obtain ⟨b1, a2⟩ := at_append.mp a1
  obtain ⟨b2, a3⟩ := at_append.mp a2
  obtain ⟨b3, a4⟩ := at_append.mp a3
  obtain ⟨b4, b5⟩ := at_append.mp a4
  have h1 : Reader.readString r0 = (.ok name, adv r0 w1) := (Reader.readString_parses _ _ _).mpr ⟨w1, hw, b1, rfl⟩
  have h2 : Reader.readBytes (adv r0 w1) = (.ok nonce, _) := (Reader.readBytes_parses _ _ _).mpr ⟨w2, hn, b2, rfl⟩
  have h3 : PublicKey.fromReader kt.asPubkeyName (adv (adv r0 w1) w2) = (.ok ⟨p, kind, none⟩, _) :=
    (fromReader_parses _ _ _ _).mpr ⟨w3, ⟨hp1, hp2, rfl, hm⟩, b3, rfl⟩
  have h4 : Reader.readU64 (adv (adv (adv r0 w1) w2) w3) = (.ok serial, _) :=
    (Reader.readU64_parses _ _ _).mpr ⟨_, rfl, b4, rfl⟩
  have h5 : Reader.readU32 (adv (adv (adv (adv r0 w1) w2) w3) (u64 serial.toNat)) = (.ok role, _) :=
    (Reader.readU32_parses _ _ _).mpr ⟨_, rfl, b5, rfl⟩
  have h6 : Certificate.readCertType (adv (adv (adv (adv r0 w1) w2) w3) (u64 serial.toNat)) =
      (.err (.invalidCertType role), adv (adv (adv (adv (adv r0 w1) w2) w3) (u64 serial.toNat)) (u32 role.toNat)) := by
    unfold Certificate.readCertType
    rw [Rd.bind_of_ok h5, if_neg hr.1, if_neg hr.2]
    rfl
  have : certBody r0 = (.err (.invalidCertType role),
      adv (adv (adv (adv (adv r0 w1) w2) w3) (u64 serial.toNat)) (u32 role.toNat)) := by
    unfold certBody
    rw [Rd.bind_of_ok h1]
    simp only [hk]
    rw [Rd.bind_of_ok (Rd.lift_eq _ _), hc]
    simp only [Bool.not_true, Bool.false_eq_true, if_false]
    rw [Rd.bind_of_ok h2, Rd.bind_of_ok h3, Rd.bind_of_ok h4, Rd.bind_of_err h6]
  rw [Rd.bind_of_err this]

example : ∃ w kt, Text "ssh-ed25519" w ∧ KeyType.fromName "ssh-ed25519" = .ok kt ∧ kt.isCert = false :=
  ⟨_, _, ⟨by decide, rfl⟩, rfl, rfl⟩

example : ∃ w kt p w3, Text "ssh-ed25519-cert-v01@openssh.com" w ∧
    KeyType.fromName "ssh-ed25519-cert-v01@openssh.com" = .ok kt ∧ kt.isCert = true ∧
    KeyType.fromName kt.plain = .ok p ∧ KeyMaterial p (.ed25519 [1] none) w3 :=
  ⟨_, sampleCertType, sampleEd.keyType, u32 1 ++ [1] ++ [], ⟨by decide, rfl⟩, by decide +kernel, rfl, by decide +kernel,
    rfl, _, _, rfl, ⟨by decide, rfl⟩, rfl⟩

/-! ## C33 -/

/-- C33: the builder succeeds for every key whose type is in the table, given randomness; the nonce
has 32 bytes, the fields start empty. -/
theorem C33_builder (n : Vector UInt8 32) (s : Vector UInt8 8) (key ca : PublicKey) (role : CertType)
    (hk : key.keyType ∈ keyTypes) : ∃ c, Certificate.builder (some n) (some s) key role ca = .ok c ∧
      c.nonce = n.toList ∧ c.nonce.length = 32 ∧ c.serial.toNat = natOf s.toList ∧ c.key = key ∧ c.signatureKey = ca ∧
      c.certType = role ∧ c.keyType.isCert = true ∧ c.keyType.plain = key.keyType.plain ∧ c.keyId = "" ∧
      c.principals = [] ∧ c.validAfter = 0 ∧ c.validBefore = 0 ∧ c.criticalOptions = [] ∧ c.extensions = [] := by
  rcases builder_ok (nonce := some n) (serial := some s) (ca := ca) (role := role) hk with
    ⟨n', s', h1, h2, kt, hkt, hcert, hplain, hb⟩ | ⟨h, _⟩
  · cases h1; cases h2
    refine ⟨_, hb, rfl, by simp, ?_, rfl, rfl, rfl, hcert, hplain, rfl, rfl, rfl, rfl, rfl, rfl⟩
    rw [beNat_eq_natOf]
    have := natOf_lt s.toList
    simp only [Vector.length_toList] at this
    rw [UInt64.toNat_ofNat']
    exact Nat.mod_eq_of_lt this
  · simp at h

example : ∃ c, Certificate.builder (some (Vector.replicate 32 1)) (some (Vector.replicate 8 2)) sampleSk .host sampleEd = .ok c ∧
    c.serial.toNat = natOf (List.replicate 8 2) := by
  obtain ⟨c, h, _, _, hs, _⟩ := C33_builder (Vector.replicate 32 1) (Vector.replicate 8 2) sampleSk sampleEd .host (by decide +kernel)
  exact ⟨c, h, hs⟩

/-- C33: without randomness it fails with an error, never a panic. -/
theorem C33_no_randomness (nonce : Option (Vector UInt8 32)) (serial : Option (Vector UInt8 8)) (key ca : PublicKey)
    (role : CertType) (hk : key.keyType ∈ keyTypes) (h : nonce = none ∨ serial = none) :
    ∃ e, Certificate.builder nonce serial key role ca = .err e := by
  rcases builder_ok (nonce := nonce) (serial := serial) (ca := ca) (role := role) hk with
    ⟨n, s, rfl, rfl, _⟩ | ⟨_, h⟩
  · simp at h
  · exact h

example : ∃ e, Certificate.builder none (some (Vector.replicate 8 2)) sampleSk .host sampleEd = .err e :=
  C33_no_randomness _ _ _ _ _ (by decide +kernel) (.inl rfl)

/-- The last value given by calls that select one. -/
def lastSet {α : Type} (sel : BuilderCall → Option α) (calls : List BuilderCall) (init : α) : α :=
  (calls.filterMap sel).getLast?.getD init

theorem lastSet_cons {α : Type} (sel : BuilderCall → Option α) (x : BuilderCall) (xs : List BuilderCall) (init : α) :
    lastSet sel (x :: xs) init = lastSet sel xs ((sel x).getD init) := by
  unfold lastSet
  cases hs : sel x with
  | none => simp [hs]
  | some a =>
    simp only [List.filterMap_cons, hs, Option.getD_some]
    cases hl : List.filterMap sel xs with
    | nil => rfl
    | cons b bs => simp [List.getLast?_cons]

/-- C33: after any sequence of calls each scalar field holds the last value set. -/
theorem C33_last_write (c : Certificate) (calls : List BuilderCall) :
    (runCalls c calls).serial = lastSet (fun | .serial n => some n | _ => none) calls c.serial ∧
    (runCalls c calls).keyId = lastSet (fun | .keyId s => some s | _ => none) calls c.keyId ∧
    (runCalls c calls).validAfter = lastSet (fun | .validAfter n => some n | _ => none) calls c.validAfter ∧
    (runCalls c calls).validBefore = lastSet (fun | .validBefore n => some n | _ => none) calls c.validBefore ∧
    (runCalls c calls).comment = lastSet (fun | .comment s => some (some s) | _ => none) calls c.comment := by
  induction calls generalizing c with
  | nil => exact ⟨rfl, rfl, rfl, rfl, rfl⟩
  | cons x xs ih =>
    simp only [lastSet_cons]
    obtain ⟨h1, h2, h3, h4, h5⟩ := ih (x.run c)
    have e : runCalls c (x :: xs) = runCalls (x.run c) xs := rfl
    rw [e, h1, h2, h3, h4, h5]
    cases x <;> exact ⟨rfl, rfl, rfl, rfl, rfl⟩

/-- A call that replaces the principals. -/
def BuilderCall.setsPrincipals : BuilderCall → Bool
  | .setPrincipals _ => true
  | _ => false

/-- A call that adds a principal. -/
def BuilderCall.addedPrincipal : BuilderCall → Option String
  | .principal s => some s
  | _ => none

theorem principals_added (c : Certificate) (calls : List BuilderCall) (h : ∀ x ∈ calls, x.setsPrincipals = false) :
    (runCalls c calls).principals = c.principals ++ calls.filterMap BuilderCall.addedPrincipal := by
  induction calls generalizing c with
  | nil => simp [runCalls]
  | cons x xs ih =>
    have e : runCalls c (x :: xs) = runCalls (x.run c) xs := rfl
    have hx := h x (by simp)
    rw [e, ih _ fun y hy => h y (by simp [hy])]
    cases x <;> simp [List.filterMap_cons, BuilderCall.run, BuilderCall.addedPrincipal, Certificate.setSerial, Certificate.setKeyId,
      Certificate.addPrincipal, Certificate.setValidAfter, Certificate.setValidBefore, Certificate.addCriticalOption,
      Certificate.setCriticalOptions, Certificate.addExtension, Certificate.setExtensions, Certificate.setComment,
      BuilderCall.setsPrincipals] at hx ⊢

/-- C33: the principals are the last list set (or the initial one) followed by those added later, in
order. -/
theorem C33_principals (c : Certificate) (pre post : List BuilderCall) (l : List String)
    (h : ∀ x ∈ post, x.setsPrincipals = false) :
    (runCalls c post).principals = c.principals ++ post.filterMap BuilderCall.addedPrincipal ∧
    (runCalls c (pre ++ .setPrincipals l :: post)).principals = l ++ post.filterMap BuilderCall.addedPrincipal := by
  refine ⟨principals_added c post h, ?_⟩
  have : runCalls c (pre ++ .setPrincipals l :: post) =
      runCalls ((runCalls c pre).setPrincipals l) post := by simp [runCalls, BuilderCall.run]
  rw [this, principals_added _ post h]
  rfl

example : (runCalls sampleCert ([.principal "a"] ++ .setPrincipals ["b"] :: [.keyId "k", .principal "c"])).principals = ["b", "c"] :=
  (C33_principals _ _ _ _ (by decide)).2

/-- A call that replaces a map (critical options or extensions). -/
def BuilderCall.setsMap (critical : Bool) : BuilderCall → Bool
  | .setCriticalOptions _ => critical
  | .setExtensions _ => !critical
  | _ => false

/-- A call that adds an entry. -/
def BuilderCall.addedEntry (critical : Bool) : BuilderCall → Option (String × String)
  | .criticalOption k v => if critical then some (k, v) else none
  | .extension k v => if critical then none else some (k, v)
  | _ => none

/-- The critical options or the extensions of a certificate. -/
def optionsOf (critical : Bool) (c : Certificate) : StrMap :=
  if critical then c.criticalOptions else c.extensions

theorem options_added (b : Bool) (c : Certificate) (calls : List BuilderCall) (h : ∀ x ∈ calls, x.setsMap b = false) :
    optionsOf b (runCalls c calls) = insertAll (optionsOf b c) (calls.filterMap (BuilderCall.addedEntry b)) := by
  induction calls generalizing c with
  | nil => simp [runCalls, insertAll]
  | cons x xs ih =>
    have e : runCalls c (x :: xs) = runCalls (x.run c) xs := rfl
    have hx := h x (by simp)
    rw [e, ih _ fun y hy => h y (by simp [hy])]
    cases b <;> cases x <;> simp [List.filterMap_cons, BuilderCall.run, BuilderCall.addedEntry, Certificate.setSerial, Certificate.setKeyId,
      Certificate.addPrincipal, Certificate.setValidAfter, Certificate.setValidBefore, Certificate.addCriticalOption,
      Certificate.setCriticalOptions, Certificate.addExtension, Certificate.setExtensions, Certificate.setComment,
      Certificate.setPrincipals, BuilderCall.setsMap, optionsOf, insertAll] at hx ⊢

/-- C33: a name is bound to the last value given for it since the map was last replaced, else to its
value in that map. -/
theorem C33_options (critical : Bool) (c : Certificate) (pre post : List BuilderCall) (m : StrMap) (k : String)
    (h : ∀ x ∈ post, x.setsMap critical = false) :
    mapGet (optionsOf critical (runCalls c post)) k =
      (lastValue (post.filterMap (BuilderCall.addedEntry critical)) k).or (mapGet (optionsOf critical c) k) ∧
    mapGet (optionsOf critical (runCalls c
        (pre ++ (if critical then .setCriticalOptions m else .setExtensions m) :: post))) k =
      (lastValue (post.filterMap (BuilderCall.addedEntry critical)) k).or (mapGet m k) := by
  have key : ∀ c, mapGet (optionsOf critical (runCalls c post)) k =
      (lastValue (post.filterMap (BuilderCall.addedEntry critical)) k).or (mapGet (optionsOf critical c) k) := by
    intro c
    rw [options_added critical c post h, mapGet_insertAll]
    cases lastValue (post.filterMap (BuilderCall.addedEntry critical)) k <;> rfl
  refine ⟨key c, ?_⟩
  cases critical with
  | true =>
    have : runCalls c (pre ++ .setCriticalOptions m :: post) = runCalls ((runCalls c pre).setCriticalOptions m) post := by
      simp [runCalls, BuilderCall.run]
    simp only [if_true, this]
    exact key _
  | false =>
    have : runCalls c (pre ++ .setExtensions m :: post) = runCalls ((runCalls c pre).setExtensions m) post := by
      simp [runCalls, BuilderCall.run]
    simp only [Bool.false_eq_true, if_false, this]
    exact key _

example : ∀ x ∈ [BuilderCall.principal "a", .criticalOption "k" "v", .criticalOption "k" "w", .serial 3],
    x.setsPrincipals = false ∧ x.setsMap true = false := by decide

/-! ## C34 -/

/-- C34: bytes after the signature do not change the result (except the stored form). -/
theorem C34_trailing (C : Crypto) (data suf : Bytes) (c : Certificate) (h : Certificate.fromBytes C data = .ok c) :
    Certificate.fromBytes C (data ++ suf) = .ok { c with serialized := data ++ suf } := by
  obtain ⟨w, wsig, rest, h1, h2, h3, h4, h5, h6⟩ := certFromBytes_ok.mp h
  exact certFromBytes_ok.mpr ⟨w, wsig, rest ++ suf, by simp [h1], h2, h3, h4, h5, rfl⟩

example : ∃ data c, Certificate.fromBytes laxCrypto data = .ok c := ⟨_, _, sampleSigned_parses⟩

/-! ## C20 for certificates -/

/-- C20: both keys of a parsed certificate are well-formed, and re-serialising it never panics. -/
theorem C20_certificate (C : Crypto) (data : Bytes) (c : Certificate) (h : Certificate.fromBytes C data = .ok c) :
    WellFormedKey c.key ∧ WellFormedKey c.signatureKey ∧ c.tbsCertificate ≠ .panic := by
  obtain ⟨w, wsig, rest, h1, ⟨k1, k2, k3, k4, k5, k6, wName, wNonce, wKey, wId, pBuf, wPrincipals, cBuf, wCritical, eBuf,
    wExtensions, wReserved, caBlob, caJunk, wCa, critical, extensions, e0, e1, e2, e3, e4, e5, e6, e7, e8, e9, e10, e11,
    e12, e13, ⟨e14, x1, x2, e16, e17, e18⟩, e15⟩, _⟩ := certFromBytes_ok.mp h
  have w1 : WellFormedKey c.key := material_wellFormed k3 e3
  have w2 : WellFormedKey c.signatureKey := material_wellFormed e14 e18
  refine ⟨w1, w2, ?_⟩
  obtain ⟨_, b, _, _, _, _, _, _, _, _, _, he, _⟩ := encode_wellFormed w2
  rw [tbs_eq, table_certName _ k1 k2, keyMaterial_of e3, he]
  simp [Res.unwrap]

example : ∃ c, Certificate.fromBytes laxCrypto sampleSigned.serialized = .ok c ∧ WellFormedKey c.key ∧ WellFormedKey c.signatureKey :=
  ⟨_, sampleSigned_parses, (C20_certificate _ _ _ sampleSigned_parses).1, (C20_certificate _ _ _ sampleSigned_parses).2.1⟩

end Ssh
