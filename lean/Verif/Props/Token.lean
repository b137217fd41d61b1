import Verif.Lemmas.Token
import Verif.Props.Piv

/-! # Properties of PIV tokens (C67, C74 - C78) -/

namespace Ssh
open Spec

variable {σ : Type}

/-! ## C67 -/

/-- C67: everything `sign_data` can do: it reads the slot; if that fails the slot is unprovisioned; if the key is of another
algorithm, nothing else happens; otherwise it has the digest for the algorithm signed and returns the answer. -/
theorem C67_sign_data (C : Crypto) (D : YkDev σ) (conn : Nat) (data : Bytes) (alg : AlgId) (slot : Nat) (s : σ) :
    Does D (Yk.signData C D conn data alg slot) s [.read conn slot none] (.err .unprovisioned) ∨
    (∃ c, algOf c.pki ≠ alg ∧ Does D (Yk.signData C D conn data alg slot) s [.read conn slot (some c)] (.err .wrongKeyType)) ∨
    (∃ c a, algOf c.pki = alg ∧ Does D (Yk.signData C D conn data alg slot) s
      [.read conn slot (some c), .sign conn (slotDigest C alg data) alg slot a] (answer a)) := by
  rcases signData_does C D conn data alg slot s with ⟨s', h⟩ | ⟨c, s', h1, h⟩ | ⟨c, a, s', h1, h⟩
  · exact .inl h.does
  · exact .inr (.inl ⟨c, h1, h.does⟩)
  · exact .inr (.inr ⟨c, a, h1, h.does⟩)

/-- C67: if `ssh_cert_signer` asks for a signature, then just before the slot held a key of the algorithm it asks for, which is the
algorithm of the SSH key read from the slot, and it asks to sign the digest of the given data. -/
theorem C67_signer_requests (X : X509Env) (C : Crypto) (D : YkDev σ) (conn : Nat) (buf : Bytes) (slot : Nat) (s : σ)
    (ev : List YkEvent) (r : YkRes Bytes) (h : Does D (Yk.sshCertSigner X C D conn buf slot) s ev r)
    (pre post : List YkEvent) (conn' slot' : Nat) (digest : Bytes) (alg : AlgId) (a : Option Bytes)
    (he : ev = pre ++ .sign conn' digest alg slot' a :: post) :
    conn' = conn ∧ slot' = slot ∧ digest = slotDigest C alg buf ∧
    ∃ c1 c2 k1, pre = [.read conn slot (some c1), .read conn slot (some c2)] ∧ SlotKey X c1 k1 ∧ keyAlg k1 = some alg ∧ algOf c2.pki = alg := by
  rcases sshCertSigner_does X C D conn buf slot s with ⟨ev', e, s', h', hr⟩ | ⟨c1, c2, k1, alg', a', ev', r', s', h1, h2, h3, h', ht⟩
  · obtain ⟨rfl, _⟩ := h.det h'.does
    obtain ⟨o, ho⟩ := hr (.sign conn' digest alg slot' a) (by rw [he]; simp)
    cases ho
  · obtain ⟨rfl, _⟩ := h.det h'.does
    have tail : ∀ x ∈ ev', ∃ o, x = .read conn slot o := by
      rcases ht with ⟨_, rfl, _⟩ | ⟨sig, _, ⟨rfl, _⟩ | ⟨c, e, rfl, _⟩ | ⟨c, k, rfl, _⟩⟩
      · nofun
      all_goals
        intro x hx
        exact ⟨_, by simpa using hx⟩
    match pre with
    | [] => simp at he
    | [p] => simp at he
    | [p, q] =>
      simp only [List.cons_append, List.nil_append, List.cons.injEq] at he
      obtain ⟨rfl, rfl, e, _⟩ := he
      cases e
      exact ⟨rfl, rfl, rfl, c1, c2, k1, rfl, h1, h2, h3⟩
    | p :: q :: x :: rest =>
      simp only [List.cons_append, List.nil_append, List.cons.injEq] at he
      obtain ⟨_, _, _, e⟩ := he
      obtain ⟨o, ho⟩ := tail (.sign conn' digest alg slot' a) (by rw [e]; simp)
      cases ho

/-- C67: exactly when `ssh_cert_signer` succeeds and what it returns: the signature the token made, in SSH form for the key that is
in the slot afterwards. -/
theorem C67_signer (X : X509Env) (C : Crypto) (D : YkDev σ) (conn : Nat) (buf : Bytes) (slot : Nat) (s : σ) (ev : List YkEvent)
    (blob : Bytes) : Does D (Yk.sshCertSigner X C D conn buf slot) s ev (.ok blob) ↔
    (∃ s', Run D s ev s') ∧ ∃ c1 c2 c3 k1 k3 alg sig,
      ev = [.read conn slot (some c1), .read conn slot (some c2), .sign conn (slotDigest C alg buf) alg slot (some sig),
        .read conn slot (some c3)] ∧
      SlotKey X c1 k1 ∧ keyAlg k1 = some alg ∧ algOf c2.pki = alg ∧ SlotKey X c3 k3 ∧ SshForm k3 sig blob := by
  simp only [← sshForm_iff]
  constructor
  · intro h
    obtain ⟨s', hrun, _⟩ := id h
    refine ⟨⟨s', hrun⟩, ?_⟩
    rcases sshCertSigner_does X C D conn buf slot s with ⟨ev', e, s', h', hr⟩ | ⟨c1, c2, k1, alg', a', ev', r', s', h1, h2, h3, h', ht⟩
    · cases (h.det h'.does).2
    · obtain ⟨rfl, rfl⟩ := h.det h'.does
      rcases ht with ⟨_, _, e⟩ | ⟨sig, rfl, ⟨_, e⟩ | ⟨c, e, _, _, e'⟩ | ⟨c, k, rfl, h4, ⟨blob', h5, e⟩ | ⟨_, e⟩⟩⟩
      · cases e
      · cases e
      · cases e'
      · cases e
        exact ⟨c1, c2, c, k1, k, alg', sig, rfl, h1, h2, h3, h4, h5⟩
      · cases e
  · rintro ⟨⟨s', hrun⟩, c1, c2, c3, k1, k3, alg, sig, rfl, h1, h2, h3, h4, h5⟩
    cases hrun with
    | cons a1 hrun =>
    cases hrun with
    | cons a2 hrun =>
    cases hrun with
    | cons a3 hrun =>
    cases hrun with
    | cons a4 hrun =>
    exact (sshCertSigner_ok a1 h1 h2 a2 h3 a3 a4 h4 h5).does

/-- C67: signing on a token never panics. -/
theorem C67_total (X : X509Env) (C : Crypto) (D : YkDev σ) (conn : Nat) (buf : Bytes) (slot : Nat) (s : σ) :
    ∃ ev r, Does D (Yk.sshCertSigner X C D conn buf slot) s ev r ∧ r ≠ .panic := by
  rcases sshCertSigner_does X C D conn buf slot s with ⟨ev', e, s', h', hr⟩ | ⟨c1, c2, k1, alg', a', ev', r', s', h1, h2, h3, h', ht⟩
  · exact ⟨_, _, h'.does, nofun⟩
  · refine ⟨_, _, h'.does, ?_⟩
    rcases ht with ⟨_, _, rfl⟩ | ⟨sig, rfl, ⟨_, rfl⟩ | ⟨c, e, _, _, rfl⟩ | ⟨c, k, rfl, h4, ⟨blob', h5, rfl⟩ | ⟨_, rfl⟩⟩⟩ <;> nofun

/-! ## C77 -/

theorem slotKey_label {X : X509Env} {c : SlotCert} {k : PublicKey} {alg : EcAlg} (h : SlotKey X c k) (ha : keyAlg k = some (tokenAlg alg)) :
    k.keyType.kind = .ecdsa ∧ (k.keyType.name, alg, ecWidth alg) ∈ ecdsaLabels := by
  have t1 : ∀ t ∈ keyTypes, t.name = "ecdsa-sha2-nistp256" → t.kind = .ecdsa := by decide +kernel
  have t2 : ∀ t ∈ keyTypes, t.name = "ecdsa-sha2-nistp384" → t.kind = .ecdsa := by decide +kernel
  obtain ⟨i, oid, _, _, name, curve, hm, hn, hk, hkind, _⟩ := h
  unfold keyAlg at ha
  rw [hkind] at ha
  rcases List.mem_cons.mp hm with h | h
  · cases h
    cases alg with
    | p256 => exact ⟨t1 _ hk hn, by rw [hn]; decide⟩
    | p384 => cases ha
  rcases List.mem_cons.mp h with h | h
  · cases h
    cases alg with
    | p256 => cases ha
    | p384 => exact ⟨t2 _ hk hn, by rw [hn]; decide⟩
  · cases h

/-- C77: with a slot that keeps its certificate and signs correctly, `ssh_cert_signer` reports an error only if the token refused to sign, and otherwise
returns a signature that verifies under the slot's key. -/
theorem C77_verifies (X : X509Env) (C : Crypto) (D : YkDev σ) (conn slot : Nat) (c : SlotCert) (k : PublicKey) (curve : Curve)
    (point : Bytes) (alg : EcAlg) (hh : SlotHolds D conn slot c) (hk : SlotKey X c k) (hp : k.kind = .ecdsa curve point none)
    (ha : keyAlg k = some (tokenAlg alg)) (hc : algOf c.pki = tokenAlg alg) (ht : TokenSigns C D conn slot alg point)
    (buf : Bytes) (s : σ) :
    (∃ ev, Does D (Yk.sshCertSigner X C D conn buf slot) s ev (.err .internal) ∧
      .sign conn (slotDigest C (tokenAlg alg) buf) (tokenAlg alg) slot none ∈ ev) ∨
    ∃ ev blob, Does D (Yk.sshCertSigner X C D conn buf slot) s ev (.ok blob) ∧ verifySignature C blob buf k = .ok blob := by
  have rd : ∀ st, D.read conn slot st = (some c, (D.read conn slot st).2) := fun st => Prod.ext (hh st) rfl
  let s1 := (D.read conn slot s).2
  let s2 := (D.read conn slot s1).2
  cases hs : D.sign conn (slotDigest C (tokenAlg alg) buf) (tokenAlg alg) slot s2 with
  | mk a s3 =>
    cases a with
    | none =>
      left
      refine ⟨_, (DoesTo.bind ((getSshKeyType_ok (rd s) hk ha).mapErr (e := .unsupported)) (signData_ok (rd s1) hc hs).bind_err).does, by simp⟩
    | some sig =>
      right
      obtain ⟨r, q, cr, cs, fr, fs, hr, hq, hcr, hcs, hd, hfr, hfs, hv⟩ := ht s2 buf sig (by rw [hs])
      obtain ⟨l1, l2⟩ := slotKey_label hk ha
      obtain ⟨der, blob, hd', hf, hver⟩ := C51_end_to_end C k curve point alg (ecWidth alg) r q cr cs fr fs hp l1 l2 hr hq hcr hcs hfr hfs
      have : der = sig := hd'.2.trans hd.2.symm
      subst this
      exact ⟨_, blob, (sshCertSigner_ok (rd s) hk ha (rd s1) hc hs (rd s3) hk hf).does, (hver buf).mpr hv⟩

/-- examples/sign-cert-with-yubikey.rs:36-48: the signer `Certificate::sign` is given for a token: the signature, or nothing on
failure (the connection is the one opened there). -/
def tokenSigner (X : X509Env) (C : Crypto) (D : YkDev σ) (conn slot : Nat) (s : σ) (buf : Bytes) : Res (Option Bytes) :=
  match (Yk.sshCertSigner X C D conn buf slot (s, [])).1 with
  | .ok b => .ok (some b)
  | .err _ => .ok none
  | .panic => .panic

/-- C77: certificates signed with such a slot: either `SigningError` or a certificate that parses back with the same contents. -/
theorem C77_certificate (X : X509Env) (C : Crypto) (D : YkDev σ) (conn slot : Nat) (c : SlotCert) (k : PublicKey) (curve : Curve)
    (point : Bytes) (alg : EcAlg) (hh : SlotHolds D conn slot c) (hk : SlotKey X c k) (hp : k.kind = .ecdsa curve point none)
    (ha : keyAlg k = some (tokenAlg alg)) (hc : algOf c.pki = tokenAlg alg) (ht : TokenSigns C D conn slot alg point)
    (s : σ) (cert : Certificate) (hw : WellFormedCert cert) (hca : cert.signatureKey = k) :
    cert.sign C (tokenSigner X C D conn slot s) = .err .signingError ∨
    ∃ c', cert.sign C (tokenSigner X C D conn slot s) = .ok c' ∧ (c'.signature.length < 4294967296 →
      ∃ c'', Certificate.fromBytes C c'.serialized = .ok c'' ∧ SameContent c'' cert ∧ c''.signature = c'.signature) := by
  obtain ⟨p, pc, tbs, _, _, _, _, hb, _⟩ := tbs_wellFormed hw
  unfold Certificate.sign
  rw [hb, Res.ok_bind]
  rcases C77_verifies X C D conn slot c k curve point alg hh hk hp ha hc ht tbs s with ⟨ev, ⟨s', _, h⟩, _⟩ | ⟨ev, sig, ⟨s', _, h⟩, hv⟩
  · left
    unfold tokenSigner
    rw [h []]
    rfl
  · right
    have hacc : Accepts C cert.signatureKey tbs sig := by
      rw [hca]
      exact ((C21_accepts C sig tbs sig k).mp hv).1
    have e := (C28_add_signature C cert _ sig).mpr ⟨tbs, hb, hacc, rfl⟩
    refine ⟨{ cert with signature := sig, serialized := tbs ++ (u32 sig.length ++ sig) }, ?_, ?_⟩
    · unfold tokenSigner
      rw [h []]
      exact e
    · intro hl
      obtain ⟨c'', h1, h2, _, _, _, h3⟩ := signed_parses hw hb hacc hl []
      rw [List.append_nil] at h1
      exact ⟨c'', h1, h2, h3⟩

/-! ## C74 -/

/-- C74: everything `unlock` can do.  The management key is tried only after the PIN was accepted, and success means both were. -/
theorem C74_unlock (D : YkDev σ) (conn : Nat) (pin mgm : Bytes) (s : σ) :
    Does D (Yk.unlock D conn pin mgm) s [.verifyPin conn pin false] (.err .internal) ∨
    (D.mgmKey mgm = false ∧ Does D (Yk.unlock D conn pin mgm) s [.verifyPin conn pin true] (.err .invalidManagementKey)) ∨
    (D.mgmKey mgm = true ∧ ∃ a, Does D (Yk.unlock D conn pin mgm) s [.verifyPin conn pin true, .authenticate conn mgm a]
      (if a then .ok () else .err .internal)) := by
  unfold Yk.unlock
  have h := DoesTo.tell (D := D) (f := D.verifyPin conn pin) (ev := .verifyPin conn pin) (s := s) rfl rfl
  cases hp : (D.verifyPin conn pin s).1 with
  | false =>
    rw [hp] at h
    exact .inl h.bind_err.does
  | true =>
    rw [hp] at h
    right
    cases hm : D.mgmKey mgm with
    | false =>
      refine .inl ⟨rfl, ((h.bind (b := []) (s2 := (D.verifyPin conn pin s).2) ?_).congr (List.append_nil _)).does⟩
      rw [if_neg (by simp)]
      exact DoesTo.fail _
    | true =>
      have h2 := DoesTo.tell (D := D) (f := D.authenticate conn mgm) (ev := .authenticate conn mgm) (s := (D.verifyPin conn pin s).2) rfl rfl
      exact .inr ⟨rfl, _, (h.bind (f := fun _ => if true = true then _ else _) (by rw [if_pos rfl]; exact h2)).does⟩

/-- C74: a wrong PIN means no attempt with the management key. -/
theorem C74_wrong_pin (D : YkDev σ) (conn : Nat) (pin mgm : Bytes) (s : σ) (ev : List YkEvent) (r : YkRes Unit)
    (h : Does D (Yk.unlock D conn pin mgm) s ev r) (c : Nat) (k : Bytes) (a : Bool) (he : .authenticate c k a ∈ ev) :
    ev = [.verifyPin conn pin true, .authenticate c k a] ∧ c = conn ∧ k = mgm ∧ (r = .ok () ↔ a = true) := by
  rcases C74_unlock D conn pin mgm s with h' | ⟨_, h'⟩ | ⟨_, a', h'⟩
  · rw [(h.det h').1] at he; simp at he
  · rw [(h.det h').1] at he; simp at he
  · obtain ⟨rfl, rfl⟩ := h.det h'
    simp only [List.mem_cons, List.not_mem_nil, or_false, reduceCtorEq, false_or] at he
    cases he
    exact ⟨rfl, rfl, rfl, by cases a <;> simp⟩

/-! ## C75 -/

/-- C75: everything `provision` can do.  A key is generated with the given algorithm and policies, a certificate for that very key
is stored, and the key returned is the one in the certificate then read back; if a step fails, the following ones do not happen. -/
theorem C75_provision (X : X509Env) (D : YkDev σ) (conn slot : Nat) (cn : String) (alg : AlgId) (touch : TouchPolicy) (pin : PinPolicy)
    (s : σ) :
    let m := Yk.provision X D conn slot cn alg touch pin
    Does D m s [.generate conn slot alg pin touch none] (.err .internal) ∨
    (∃ key, Does D m s [.generate conn slot alg pin touch (some key), .selfSign conn slot cn key false] (.err .internal)) ∨
    (∃ key o r, Does D m s [.generate conn slot alg pin touch (some key), .selfSign conn slot cn key true, .read conn slot o] r ∧
      r ≠ .panic ∧ ∀ k, r = .ok k ↔ ∃ c, o = some c ∧ SlotKey X c k) := by
  intro m
  have h := DoesTo.ask (D := D) (f := D.generate conn slot alg pin touch) (ev := .generate conn slot alg pin touch) (s := s) rfl rfl
  show Does D (Yk.provision X D conn slot cn alg touch pin) s _ _ ∨ _
  show _ ∨ (∃ key, Does D (Yk.provision X D conn slot cn alg touch pin) s _ _) ∨
    (∃ key o r, Does D (Yk.provision X D conn slot cn alg touch pin) s _ _ ∧ _ ∧ _)
  unfold Yk.provision
  cases hg : (D.generate conn slot alg pin touch s).1 with
  | none =>
    rw [hg] at h
    exact .inl h.bind_err.does
  | some key =>
    rw [hg] at h
    right
    have h2 := DoesTo.tell (D := D) (f := D.selfSign conn slot cn key) (ev := .selfSign conn slot cn key)
      (s := (D.generate conn slot alg pin touch s).2) rfl rfl
    cases hs : (D.selfSign conn slot cn key (D.generate conn slot alg pin touch s).2).1 with
    | false =>
      rw [hs] at h2
      exact .inl ⟨key, (h.bind h2.bind_err).does⟩
    | true =>
      rw [hs] at h2
      right
      have h3 := fetchPubkey_does X D conn slot (D.selfSign conn slot cn key (D.generate conn slot alg pin touch s).2).2
      refine ⟨key, _, _, (h.bind (h2.bind h3)).does, ?_⟩
      cases (D.read conn slot (D.selfSign conn slot cn key (D.generate conn slot alg pin touch s).2).2).1 with
      | none => exact ⟨nofun, fun k => ⟨nofun, fun ⟨c, e, _⟩ => by cases e⟩⟩
      | some c =>
        refine ⟨pubkeyRes_noPanic X c.bytes, fun k => ?_⟩
        dsimp only
        rw [pubkeyRes_ok, ← slotKey_iff]
        exact ⟨fun h => ⟨c, rfl, h⟩, fun ⟨_, e, h⟩ => by cases e; exact h⟩

/-- A token that stores what it is given: after a certificate for a key is stored in a slot, reading the slot gives a certificate
with that key, in the token's view and in the parser's. -/
def StoresKeys (X : X509Env) (D : YkDev σ) : Prop :=
  ∀ conn slot cn key s s1 c s2, D.selfSign conn slot cn key s = (true, s1) → D.read conn slot s1 = (some c, s2) →
    c.pki = key ∧ ∀ k, SlotKey X c k → ∃ curve point, k.kind = .ecdsa curve point none ∧ pkiPoint key = some point ∧ keyAlg k = some (algOf key)

/-- C75: on such a token, the key returned is the key that was generated. -/
theorem C75_generated_key (X : X509Env) (D : YkDev σ) (hD : StoresKeys X D) (conn slot : Nat) (cn : String) (alg : AlgId)
    (touch : TouchPolicy) (pin : PinPolicy) (s : σ) (ev : List YkEvent) (k : PublicKey)
    (h : Does D (Yk.provision X D conn slot cn alg touch pin) s ev (.ok k)) :
    ∃ key curve point, .generate conn slot alg pin touch (some key) ∈ ev ∧ k.kind = .ecdsa curve point none ∧
      pkiPoint key = some point ∧ keyAlg k = some (algOf key) := by
  rcases C75_provision X D conn slot cn alg touch pin s with h' | ⟨key, h'⟩ | ⟨key, o, r, h', _, hk⟩
  · cases (h.det h').2
  · cases (h.det h').2
  · obtain ⟨rfl, rfl⟩ := h.det h'
    obtain ⟨c, rfl, hs⟩ := (hk k).mp rfl
    obtain ⟨s', hrun, _⟩ := h
    cases hrun with
    | cons a1 hrun =>
    cases hrun with
    | cons a2 hrun =>
    cases hrun with
    | cons a3 hrun =>
    obtain ⟨_, hkey⟩ := hD _ _ _ _ _ _ _ _ a2 a3
    obtain ⟨curve, point, h1, h2, h3⟩ := hkey k hs
    exact ⟨key, curve, point, List.mem_cons_self, h1, h2, h3⟩

/-! ## C76 -/

/-- C76: everything `generate_csr` can do.  Either it fails without any signature; or it panics, exactly when the slot first gave an
elliptic curve key but the token could not be opened again by its serial number, or then the slot could not be read or gave an RSA key;
or it asks for one signature, over the digest of the request to be signed, on a token with the same serial number whose slot holds a key
of the same algorithm, and the request contains the key read from the slot. -/
theorem C76_csr (C : Crypto) (G : Rcgen) (D : YkDev σ) (conn slot : Nat) (cn : String) (s : σ) :
    (∃ ev e, Does D (Yk.generateCsr C G D conn slot cn) s ev (.err e) ∧ (∀ x ∈ ev, ∀ n d a sl r, x ≠ .sign n d a sl r)) ∨
    (∃ c0 ev, pkiPoint c0.pki ≠ none ∧
      Does D (Yk.generateCsr C G D conn slot cn) s (.read conn slot (some c0) :: ev) .panic ∧
      (ev = [.openSerial (D.serial conn) none] ∨ (∃ i, ev = [.openSerial (D.serial conn) (some i), .read i slot none]) ∨
       ∃ i c, pkiPoint c.pki = none ∧ ev = [.openSerial (D.serial conn) (some i), .read i slot (some c)])) ∨
    (∃ c0 c1 c2 i1 i2 p t a, pkiPoint c1.pki = some p ∧ algOf c0.pki = algOf c1.pki ∧ algOf c2.pki = algOf c1.pki ∧
      G.tbs cn (algOf c1.pki) p = some t ∧
      Does D (Yk.generateCsr C G D conn slot cn) s
        [.read conn slot (some c0), .openSerial (D.serial conn) (some i1), .read i1 slot (some c1),
         .openSerial (D.serial conn) (some i2), .read i2 slot (some c2), .sign i2 (slotDigest C (algOf c1.pki) t) (algOf c1.pki) slot a]
        (match a with
         | some sig => .ok (G.finish t (algOf c1.pki) sig)
         | none => .err .internal)) := by
  rcases generateCsr_does C G D conn slot cn s with ⟨ev, e, s', h, h1⟩ | ⟨c0, ev, s', h1, h, h2⟩ |
    ⟨c0, c1, c2, i1, i2, p, t, a, s', h1, h2, h3, h4, h⟩
  · exact .inl ⟨ev, e, h.does, h1⟩
  · exact .inr (.inl ⟨c0, ev, h1, h.does, h2⟩)
  · refine .inr (.inr ⟨c0, c1, c2, i1, i2, p, t, a, h1, h2, h3, h4, ?_⟩)
    cases a <;> exact h.does

/-- C76: on a token that can be reopened and keeps its slot, `generate_csr` does not panic. -/
theorem C76_no_panic (C : Crypto) (G : Rcgen) (D : YkDev σ) (conn slot : Nat) (cn : String) (c : SlotCert)
    (ho : ∀ s, ∃ i, (D.openSerial (D.serial conn) s).1 = some i) (hr : ∀ i s, (D.read i slot s).1 = some c) (s : σ) (ev : List YkEvent)
    (r : YkRes Bytes) (h : Does D (Yk.generateCsr C G D conn slot cn) s ev r) : r ≠ .panic := by
  rcases C76_csr C G D conn slot cn s with ⟨ev', e, h', _⟩ | ⟨c0, ev', hp, h', hev⟩ | ⟨c0, c1, c2, i1, i2, p, t, a, _, _, _, _, h'⟩
  · rw [(h.det h').2]; nofun
  · exfalso
    obtain ⟨s', hrun, _⟩ := h'
    cases hrun with
    | @cons _ s1 _ _ _ a1 hrun =>
    have a1 : D.read conn slot s = _ := a1
    have e0 : c = c0 := by
      have := hr conn s
      rw [a1] at this
      cases this
      rfl
    subst e0
    rcases hev with rfl | ⟨i, rfl⟩ | ⟨i, c', hc, rfl⟩
    · cases hrun with
      | cons a2 hrun =>
      have a2 : D.openSerial (D.serial conn) s1 = _ := a2
      obtain ⟨i, hi⟩ := ho s1
      rw [a2] at hi
      cases hi
    · cases hrun with
      | @cons _ s2 _ _ _ a2 hrun =>
      cases hrun with
      | cons a3 hrun =>
      have a3 : D.read i slot s2 = _ := a3
      have := hr i s2
      rw [a3] at this
      cases this
    · cases hrun with
      | @cons _ s2 _ _ _ a2 hrun =>
      cases hrun with
      | cons a3 hrun =>
      have a3 : D.read i slot s2 = _ := a3
      have := hr i s2
      rw [a3] at this
      cases this
      exact hp hc
  · rw [(h.det h').2]
    cases a <;> nofun

/-! ## C78 -/

/-- C78: everything `reconnect` can do: keep the connection, or open the token with the same serial number again, or report that
it is gone. -/
theorem C78_reconnect (D : YkDev σ) (conn : Nat) (s : σ) :
    Does D (Yk.reconnect D conn) s [.reconnect conn true] (.ok conn) ∨
    (∃ n, Does D (Yk.reconnect D conn) s [.reconnect conn false, .openSerial (D.serial conn) (some n)] (.ok n)) ∨
    Does D (Yk.reconnect D conn) s [.reconnect conn false, .openSerial (D.serial conn) none] (.err .noSuchYubikey) := by
  have h := DoesTo.tell (D := D) (f := D.reconnect conn) (ev := .reconnect conn) (s := s) rfl rfl
  have h2 := openSerial_does D (D.serial conn) (D.reconnect conn s).2
  cases hr : (D.reconnect conn s).1 with
  | true =>
    rw [hr] at h
    left
    refine ⟨_, h.1, fun tr => ?_⟩
    unfold Yk.reconnect
    rw [h.2 tr]
    rfl
  | false =>
    rw [hr] at h
    right
    have e : ∀ tr, Yk.reconnect D conn (s, tr) = Yk.openSerial D (D.serial conn) ((D.reconnect conn s).2, tr ++ [.reconnect conn false]) := by
      intro tr
      unfold Yk.reconnect
      rw [h.2 tr]
      rfl
    cases ho : (D.openSerial (D.serial conn) (D.reconnect conn s).2).1 with
    | none =>
      rw [ho] at h2
      refine .inr ⟨_, h.1.append h2.1, fun tr => ?_⟩
      rw [e, h2.2, List.append_assoc]
      rfl
    | some n =>
      rw [ho] at h2
      refine .inl ⟨n, _, h.1.append h2.1, fun tr => ?_⟩
      rw [e, h2.2, List.append_assoc]
      rfl

/-- C78: if opening by serial number gives a token with that number, reconnecting never changes to another token. -/
theorem C78_same_token (D : YkDev σ) (hD : ∀ n s i s', D.openSerial n s = (some i, s') → D.serial i = n) (conn : Nat) (s : σ)
    (ev : List YkEvent) (i : Nat) (h : Does D (Yk.reconnect D conn) s ev (.ok i)) : D.serial i = D.serial conn := by
  rcases C78_reconnect D conn s with h' | ⟨n, h'⟩ | h'
  · cases (h.det h').2; rfl
  · cases (h.det h').2
    obtain ⟨s', hrun, _⟩ := h'
    cases hrun with
    | cons a1 hrun =>
    cases hrun with
    | cons a2 hrun => exact hD _ _ _ _ a2
  · cases (h.det h').2

/-! ## Samples -/

/-- A token for the examples.  The state is the certificate in the only slot. -/
def sampleToken : YkDev (Option SlotCert) where
  openFirst s := (some 1, s)
  openSerial n s := (if n = 5 then some 2 else none, s)
  serial _ := 5
  reconnect _ s := (false, s)
  verifyPin _ p s := (p == [1, 2], s)
  mgmKey k := k.length == 24
  authenticate _ k s := (k == List.replicate 24 7, s)
  read _ _ s := (s, s)
  certBytes _ := true
  write _ _ _ s := (true, s)
  attest _ _ s := (none, s)
  generate _ _ a _ _ s := (if a = .eccP384 then some (.ecP384 [4, 7]) else none, s)
  selfSign _ _ _ k s := if k = .ecP384 [4, 7] then (true, some ⟨k, "me", [5]⟩) else (false, s)
  sign _ _ _ _ s := (some [0x30, 6, 2, 1, 1, 2, 1, 1], s)

def sampleSlot : SlotCert := ⟨.ecP384 [4, 7], "me", [5]⟩

theorem sampleSlot_key : SlotKey samplePivX sampleSlot sampleP384 :=
  ⟨⟨⟨"1.2.840.10045.2.1", some (some "1.3.132.0.34"), [4, 7], [6]⟩,
      [("1.3.6.1.4.1.41482.3.3", [5, 4, 3]), ("1.3.6.1.4.1.41482.3.7", [1, 2]), ("2.5.29.19", []), ("1.3.6.1.4.1.41482.3.8", [2, 3])], [5]⟩,
    "1.3.132.0.34", by decide +kernel, ⟨rfl, rfl⟩, sampleP384_of⟩

/-- The sample token whose slot is filled for good. -/
def stableToken : YkDev Unit where
  openFirst s := (some 1, s)
  openSerial n s := (if n = 5 then some 2 else none, s)
  serial _ := 5
  reconnect _ s := (false, s)
  verifyPin _ p s := (p == [1, 2], s)
  mgmKey k := k.length == 24
  authenticate _ k s := (k == List.replicate 24 7, s)
  read _ _ s := (some sampleSlot, s)
  certBytes _ := true
  write _ _ _ s := (true, s)
  attest _ _ s := (none, s)
  generate _ _ _ _ _ s := (none, s)
  selfSign _ _ _ _ s := (false, s)
  sign _ _ _ _ s := (some [0x30, 6, 2, 1, 1, 2, 1, 1], s)

/-- The hypotheses of C77 hold for it, and the signer succeeds. -/
theorem stableToken_meets : SlotHolds stableToken 1 9 sampleSlot ∧ SlotKey samplePivX sampleSlot sampleP384 ∧
    sampleP384.kind = .ecdsa ⟨.nistp384, "nistp384"⟩ [4, 7] none ∧ keyAlg sampleP384 = some (tokenAlg .p384) ∧
    algOf sampleSlot.pki = tokenAlg .p384 ∧ TokenSigns signingCrypto stableToken 1 9 .p384 [4, 7] := by
  refine ⟨fun _ => rfl, sampleSlot_key, rfl, rfl, rfl, ?_⟩
  intro st m sig h
  cases h
  have hp : DerPositive 1 [1] := ⟨.plain 1 [] (by decide) (by decide), by decide, by decide⟩
  exact ⟨1, 1, [1], [1], List.replicate 47 0 ++ [1], List.replicate 47 0 ++ [1], by decide, by decide, hp, hp,
    ⟨by decide, by decide⟩, ⟨by decide, by decide +kernel⟩, ⟨by decide, by decide +kernel⟩, rfl⟩

example : ∃ ev blob, Does stableToken (Yk.sshCertSigner samplePivX signingCrypto stableToken 1 [1, 2, 3] 9) () ev (.ok blob) := by
  obtain ⟨h1, h2, h3, h4, h5, h6⟩ := stableToken_meets
  rcases C77_verifies _ _ _ _ _ _ _ _ _ _ h1 h2 h3 h4 h5 h6 [1, 2, 3] () with ⟨ev, ⟨s', hrun, h⟩, _⟩ | ⟨ev, blob, h, _⟩
  · have h := congrArg Prod.fst (h [])
    have : (match (Yk.sshCertSigner samplePivX signingCrypto stableToken 1 [1, 2, 3] 9 ((), [])).1 with | .ok _ => true | _ => false) = true := by
      decide +kernel
    rw [h] at this
    cases this
  · exact ⟨ev, blob, h⟩

/-- A token whose slot is given another key after it has been read twice. -/
def changingToken : YkDev Nat where
  openFirst s := (some 1, s)
  openSerial _ s := (some 2, s)
  serial _ := 5
  reconnect _ s := (true, s)
  verifyPin _ _ s := (true, s)
  mgmKey _ := true
  authenticate _ _ s := (true, s)
  read _ _ n := (some (if n < 2 then sampleSlot else ⟨.ecP256 [4, 7], "me", [9]⟩), n + 1)
  certBytes _ := true
  write _ _ _ s := (true, s)
  attest _ _ s := (none, s)
  generate _ _ _ _ _ s := (none, s)
  selfSign _ _ _ _ s := (false, s)
  sign _ _ _ _ s := (some [0x30, 6, 2, 1, 1, 2, 1, 1], s)

/-- C67, finding: the three readings of the slot need not agree.  If the slot is given another key meanwhile, a signature made with
a P-384 key (over a SHA-384 digest) is returned, successfully, as one of type `ecdsa-sha2-nistp256`. -/
theorem C67_race : ∃ ev blob, Does changingToken (Yk.sshCertSigner samplePivX signingCrypto changingToken 1 [1, 2, 3] 9) 0 ev (.ok blob) ∧
    .sign 1 (slotDigest signingCrypto .eccP384 [1, 2, 3]) .eccP384 9 (some [0x30, 6, 2, 1, 1, 2, 1, 1]) ∈ ev ∧
    (u32 19 ++ "ecdsa-sha2-nistp256".toUTF8.data.toList) <+: blob := by
  have e : changingToken.read 1 9 2 = (some ⟨.ecP256 [4, 7], "me", [9]⟩, 3) := rfl
  have k3 : SlotKey samplePivX ⟨.ecP256 [4, 7], "me", [9]⟩ sampleP256 := by
    rw [slotKey_iff]
    decide +kernel
  have hf : formatSignatureForSsh sampleP256 [0x30, 6, 2, 1, 1, 2, 1, 1] = .ok (some
      (u32 19 ++ "ecdsa-sha2-nistp256".toUTF8.data.toList ++ (u32 10 ++ [0, 0, 0, 1, 1, 0, 0, 0, 1, 1]))) := by decide +kernel
  exact ⟨_, _, (sshCertSigner_ok (s := 0) (s1 := 1) (s2 := 2) (c2 := sampleSlot) (by rfl) sampleSlot_key (by rfl) (by rfl) (by rfl) (by rfl) e k3 hf).does,
    List.mem_cons_of_mem _ (List.mem_cons_of_mem _ List.mem_cons_self), List.prefix_append _ _⟩

/-- A certificate to be signed by the sample token. -/
example : WellFormedCert { sampleCert with signatureKey := sampleP384 } := by
  refine ⟨by decide +kernel, rfl, rfl, sampleEd_wf, C20_x509 _ _ _ sampleP384_of (by decide), by decide +kernel, by decide +kernel,
    by decide, by decide, by decide +kernel, by decide +kernel, by decide +kernel, ?_⟩
  intro b hb
  have : sampleP384.encode = .ok (u32 19 ++ "ecdsa-sha2-nistp384".toUTF8.data.toList ++ (u32 8 ++ "nistp384".toUTF8.data.toList ++
    (u32 2 ++ [4, 7]))) := by decide +kernel
  change sampleP384.encode = .ok b at hb
  rw [this] at hb
  cases hb
  decide

example : (Yk.unlock sampleToken 1 [1, 2] (List.replicate 24 7) (none, [])).1 = .ok () ∧
    (Yk.unlock sampleToken 1 [1, 3] (List.replicate 24 7) (none, [])) = (.err .internal, (none, [.verifyPin 1 [1, 3] false])) :=
  ⟨by decide +kernel, by decide +kernel⟩

/-- Provisioning the sample token returns the generated key. -/
example : (Yk.provision samplePivX sampleToken 1 9 "me" .eccP384 .always .once (none, [])).1 = .ok sampleP384 := by decide +kernel

theorem sampleToken_stores : StoresKeys samplePivX sampleToken := by
  intro conn slot cn key s s1 c s2 h1 h2
  have h1 : (if key = .ecP384 [4, 7] then (true, some ⟨key, "me", [5]⟩) else (false, s)) = (true, s1) := h1
  split at h1
  · rename_i hk
    subst hk
    cases h1
    cases h2
    refine ⟨rfl, fun k hs => ?_⟩
    have := slotKey_iff.mp hs
    change pubkeyFromX509Certificate samplePivX sampleSlot.bytes = _ at this
    rw [slotKey_iff.mp sampleSlot_key] at this
    cases this
    exact ⟨_, _, rfl, rfl, rfl⟩
  · cases h1

/-- Finding: an empty slot is an error, but a token that cannot be found again by its number is a panic. -/
example : ∃ ev, Does { stableToken with serial := fun _ => 6 } (Yk.generateCsr laxCrypto ⟨fun _ _ _ => some [1], fun _ _ s => s⟩
    { stableToken with serial := fun _ => 6 } 1 9 "me") () ev .panic := by
  rcases C76_csr laxCrypto ⟨fun _ _ _ => some [1], fun _ _ s => s⟩ { stableToken with serial := fun _ => 6 } 1 9 "me" () with
    ⟨ev, e, ⟨s', _, h⟩, _⟩ | ⟨c0, ev, _, h, _⟩ | ⟨c0, c1, c2, i1, i2, p, t, a, _, _, _, _, s', h, _⟩
  · have h := congrArg Prod.fst (h [])
    have : (Yk.generateCsr laxCrypto ⟨fun _ _ _ => some [1], fun _ _ s => s⟩ { stableToken with serial := fun _ => 6 } 1 9 "me" ((), [])).1 = .panic := by
      decide +kernel
    rw [this] at h
    cases h
  · exact ⟨_, h⟩
  · cases h with
    | cons _ h => cases h with
      | cons a _ => cases a

example : (∀ s, ∃ i, (stableToken.openSerial (stableToken.serial 1) s).1 = some i) ∧ (∀ i s, (stableToken.read i 9 s).1 = some sampleSlot) ∧
    (Yk.generateCsr laxCrypto ⟨fun _ _ _ => some [1], fun t _ s => t ++ s⟩ stableToken 1 9 "me" ((), [])).1 =
      .ok [1, 0x30, 6, 2, 1, 1, 2, 1, 1] := ⟨fun _ => ⟨2, rfl⟩, fun _ _ => rfl, by decide +kernel⟩

example : (∀ n s i s', stableToken.openSerial n s = (some i, s') → stableToken.serial i = n) ∧
    (Yk.reconnect stableToken 1 ((), [])).1 = .ok 2 := by
  refine ⟨?_, by decide +kernel⟩
  intro n s i s' h
  have h : ((if n = 5 then some 2 else none : Option Nat), s) = (some i, s') := h
  split at h
  · rename_i hn; exact hn.symm
  · cases h

end Ssh
