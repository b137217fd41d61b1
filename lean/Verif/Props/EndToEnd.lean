import Verif.Props.Signing
import Verif.Props.Examples
import Verif.Props.PrivText

/-! # C143: From making a key to checking what it signed -/

namespace Ssh

open Spec

/-- What is made with a key that was read from a file survives being printed, read and checked by someone who knows the public
half. -/
theorem carried {F : Features} {C : Crypto} {D : FidoDev} {k : PrivateKey} {msg : Bytes} {ns : String} {hash : Option HashAlgorithm}
    {v : VerifiedSshSignature} {kb : Bytes} (hcom : k.pubkey.comment = none) (hkb : KeyBlob k.pubkey kb) (hkl : kb.length < 4294967296)
    (hwf : WellFormedKey k.pubkey) (hn : ns ≠ "") (hn' : ns.utf8ByteSize < 4294967296)
    (hv : VerifiedSshSignature.newWithPrivateKey F C D msg ns k hash = .ok v) (hs : v.signature.signature.length < 4294967296) :
    ∃ t, v.signature.display = .ok t ∧ SshSignature.fromArmoredString t = .ok v.signature ∧
      VerifiedSshSignature.fromSshSignature C msg v.signature ns (some k.pubkey) = .ok v := by
  obtain ⟨sig, _, ha, rfl⟩ := ((C133_signature F C D msg ns k hash _ rfl).1 v).mp hv
  have hcn : ({ k.pubkey with comment := none } : PublicKey) = k.pubkey :=
    (congrArg (fun c => (⟨k.pubkey.keyType, k.pubkey.kind, c⟩ : PublicKey)) hcom).symm
  obtain ⟨t, ht, hp⟩ := C37_roundtrip ⟨k.pubkey, ns, hash.getD .sha512, sig⟩ hwf hn hn' hs (by
    intro b hb
    rw [hcn] at hb
    rw [keyBlob_unique hb hkb]
    exact hkl)
  dsimp only at hp
  rw [hcn] at hp
  exact ⟨t, ht, hp, (C35_exact _ _ _ _ _ _).mpr ⟨rfl, fun _ h => (Option.some.inj h), ha, rfl⟩⟩

/-- A generated software key signs every message. -/
theorem new_signs (F : Features) (C : Crypto) (D : FidoDev) (seed : Option (Vector UInt8 32)) (magic : Option (Vector UInt8 4))
    (kind : KeyTypeKind) (comment : String) (k : PrivateKey) (m : Bytes)
    (h : PrivateKey.new C seed magic kind comment = .ok k) (hC : SignsCorrectly C)
    (hs : ∀ sd pub m, C.ed25519Pub sd = some pub → ∃ s, C.ed25519Sign sd pub m = some s ∧ s.length = 64) :
    ∃ sig, k.sign F C D m = .ok (some sig) ∧ Accepts C k.pubkey m sig ∧ sig.length < 4294967296 := by
  rcases C80_signs F C D seed magic kind comment k m h hC with h0 | ⟨sig, h1, h2⟩
  all_goals
    obtain ⟨_, s, mg, pub, _, _, h3, h4, h5, h6, h7, h8, _⟩ := (C80_new _ _ _ _ _ _).mp h
    obtain ⟨x, hx, hx'⟩ := hs _ _ m h3
    have hsg : Signed F C D k m (text k.pubkey.keyType.name ++ str x) :=
      .ed25519 h6 h8 (by rw [Vector.length_toList]; decide) (by
        rw [List.take_of_length_le (by rw [Vector.length_toList]; decide)]
        exact hx) (.ed25519 _ _ h8)
    have hsn := ((C132_exact F C D k m).1 _).mpr hsg
  · rw [h0] at hsn; cases hsn
  · rw [h1] at hsn
    cases hsn
    refine ⟨_, h1, ((C21_accepts _ _ _ _ _).mp h2).1, ?_⟩
    rw [h7, h5]
    simp only [text, str, u32, List.length_append, hx']
    decide

/-- C143: a generated Ed25519 key, written to a file and read back, makes a signature for every message; its text is read back,
and verifies for the message, the namespace and the public half of the key generated. -/
theorem C143_message (F : Features) (C : Crypto) (D : FidoDev) (seed : Option (Vector UInt8 32)) (magic : Option (Vector UInt8 4))
    (kind : KeyTypeKind) (comment : String) (k : PrivateKey) (pass : Option String) (msg : Bytes) (ns : String)
    (hash : Option HashAlgorithm) (h : PrivateKey.new C seed magic kind comment = .ok k) (hC : SignsCorrectly C)
    (hp : ∀ s p, C.ed25519Pub s = some p → p.length = 32)
    (hs : ∀ sd pub m, C.ed25519Pub sd = some pub → ∃ s, C.ed25519Sign sd pub m = some s ∧ s.length = 64)
    (hl : ∀ w, k.encode = .ok w → w.length < 4294967296) (hc : comment.utf8ByteSize < 4294967296)
    (hn : ns ≠ "") (hn' : ns.utf8ByteSize < 4294967296) :
    ∃ file v text sig, k.write = .ok file ∧ PrivateKey.fromStringWithPassphrase F C file pass = .ok k ∧
      VerifiedSshSignature.newWithPrivateKey F C D msg ns k hash = .ok v ∧ v.signature.display = .ok text ∧
      SshSignature.fromArmoredString text = .ok sig ∧
      VerifiedSshSignature.fromSshSignature C msg sig ns (some k.pubkey) = .ok v ∧ v.message = msg := by
  obtain ⟨file, hw, hr⟩ := C80_file F C C seed magic kind comment k pass h hp hl hc
  obtain ⟨hcom, kb, hkb, hkl⟩ := privkey_blob hr
  obtain ⟨sig, h1, h2, h3⟩ := new_signs F C D seed magic kind comment k (signedData C ns (hash.getD .sha512) msg) h hC hs
  have hv := ((C133_signature F C D msg ns k hash _ rfl).1 ⟨⟨k.pubkey, ns, hash.getD .sha512, sig⟩, msg⟩).mpr
    ⟨sig, ((C132_exact F C D k _).1 _).mp h1, h2, rfl⟩
  obtain ⟨t, ht, hp, hf⟩ := carried hcom hkb hkl (C20_privkey F C pass file k hr).1 hn hn' hv h3
  exact ⟨file, _, t, _, hw, hr, hv, ht, hp, hf, rfl⟩

/-- C143: so for a certificate authority: a generated key, written and read back, signs every certificate request that fits, and
the text of the certificate is read back with the contents that were asked for and the generated key as its authority. -/
theorem C143_certificate (F : Features) (C : Crypto) (D : FidoDev) (seed : Option (Vector UInt8 32)) (magic : Option (Vector UInt8 4))
    (kind : KeyTypeKind) (comment : String) (k : PrivateKey) (pass : Option String) (nonce : Vector UInt8 32)
    (serial : Vector UInt8 8) (key : PublicKey) (role : CertType) (calls : List BuilderCall) (critical extensions : StrMap)
    (h : PrivateKey.new C seed magic kind comment = .ok k) (hC : SignsCorrectly C)
    (hp : ∀ s p, C.ed25519Pub s = some p → p.length = 32)
    (hs : ∀ sd pub m, C.ed25519Pub sd = some pub → ∃ s, C.ed25519Sign sd pub m = some s ∧ s.length = 64)
    (hl : ∀ w, k.encode = .ok w → w.length < 4294967296) (hc : comment.utf8ByteSize < 4294967296)
    (hk : WellFormedKey key) (hcalls : ∀ x ∈ calls, x.Valid) :
    ∃ file c0, k.write = .ok file ∧ PrivateKey.fromStringWithPassphrase F C file pass = .ok k ∧
      Certificate.builder (some nonce) (some serial) key role k.pubkey = .ok c0 ∧
      (critical.Perm (runCalls c0 calls).criticalOptions → extensions.Perm (runCalls c0 calls).extensions →
       CertFits (runCalls c0 calls) →
       ∃ c c', Certificate.sign C (k.sign F C D)
           { runCalls c0 calls with criticalOptions := critical, extensions := extensions } = .ok c ∧
         Certificate.fromString C c.display = .ok c' ∧ SameContent c' (runCalls c0 calls) ∧
         c'.key.kind = key.kind ∧ c'.certType = role ∧ c'.signatureKey.kind = k.pubkey.kind ∧
         c'.signatureKey.keyType.plain = k.pubkey.keyType.plain) := by
  obtain ⟨file, hw, hr⟩ := C80_file F C C seed magic kind comment k pass h hp hl hc
  obtain ⟨hcom, kb, hkb, hkl⟩ := privkey_blob hr
  have hwf := (C20_privkey F C pass file k hr).1
  rcases builder_ok (nonce := some nonce) (serial := some serial) (ca := k.pubkey) (role := role) hk.1 with
    ⟨n, s, hn, hse, kt, hkt, hcert, hplain, hb⟩ | ⟨hn, _⟩
  rotate_left
  · rcases hn with hn | hn <;> cases hn
  cases hn
  cases hse
  refine ⟨file, _, hw, hr, hb, ?_⟩
  intro ho1 ho2 hfit
  generalize hc0 : Certificate.mk .. = c0 at hb ho1 ho2 hfit ⊢
  obtain ⟨i1, i2, i3, i4, i5, i6, i7⟩ := runCalls_invariant (c := c0) (calls := calls) hcalls (by subst hc0; simp)
    (by subst hc0; simp)
  have e3 : c0.keyType = kt := by subst hc0; rfl
  have e4 : c0.key = key := by subst hc0; rfl
  have e5 : c0.signatureKey = k.pubkey := by subst hc0; rfl
  have n1 : (critical.map (·.1)).Nodup := (List.Perm.nodup_iff (ho1.map Prod.fst)).mpr i1
  have n2 : (extensions.map (·.1)).Nodup := (List.Perm.nodup_iff (ho2.map Prod.fst)).mpr i2
  have hwc : WellFormedCert { runCalls c0 calls with criticalOptions := critical, extensions := extensions } := by
    refine ⟨?_, ?_, ?_, ?_, ?_, n1, n2, hfit.1, hfit.2.1, hfit.2.2.1, ?_, ?_, hfit.2.2.2.2.2⟩
    · show (runCalls c0 calls).keyType ∈ _; rw [i3, e3]; exact hkt
    · show (runCalls c0 calls).keyType.isCert = _; rw [i3, e3]; exact hcert
    · show (runCalls c0 calls).key.keyType.plain = (runCalls c0 calls).keyType.plain; rw [i3, e3, i4, e4]; exact hplain.symm
    · show WellFormedKey (runCalls c0 calls).key; rw [i4, e4]; exact hk
    · show WellFormedKey (runCalls c0 calls).signatureKey; rw [i5, e5]; exact hwf
    · show optionsSize critical < _; rw [optionsSize_perm ho1]; exact hfit.2.2.2.1
    · show optionsSize extensions < _; rw [optionsSize_perm ho2]; exact hfit.2.2.2.2.1
  obtain ⟨p, pc, tbs, _, _, _, _, ht, _⟩ := tbs_wellFormed hwc
  obtain ⟨sig, h1, h2, h3⟩ := new_signs F C D seed magic kind comment k tbs h hC hs
  have hsign : ∃ c, Certificate.sign C (k.sign F C D)
      { runCalls c0 calls with criticalOptions := critical, extensions := extensions } = .ok c ∧ c.signature = sig ∧
      c.keyType = (runCalls c0 calls).keyType ∧ c.keyId = (runCalls c0 calls).keyId := by
    have e := (C28_add_signature C { runCalls c0 calls with criticalOptions := critical, extensions := extensions } _ sig).mpr
      ⟨tbs, ht, by rw [show _ = k.pubkey from i5.trans e5]; exact h2, rfl⟩
    refine ⟨{ runCalls c0 calls with
      criticalOptions := critical, extensions := extensions, signature := sig, serialized := tbs ++ (u32 sig.length ++ sig) },
      ?_, rfl, rfl, rfl⟩
    unfold Certificate.sign
    rw [ht, Res.ok_bind, h1]
    exact e
  obtain ⟨c, hcs, hsg, hct, hci⟩ := hsign
  obtain ⟨c4, g1, g2, g3, _, g5, g6, g7, _, _, g10⟩ := C27_roundtrip C (k.sign F C D) (some nonce) (some serial) key k.pubkey role c0
    c calls critical extensions hk hwf hb hcalls ho1 ho2 hfit hcs (by rw [hsg]; exact h3)
  obtain ⟨ws, _, hstr⟩ := C31_text_roundtrip C _ _ g1
  have hd : c4.display = c.display := by
    unfold Certificate.display
    rw [g10, g2.1, g2.2.2.2.2.2.2.1, hct, hci]
  rw [hd] at hstr
  exact ⟨c, _, hcs, hstr, g2, g3, g5, g6, g7⟩

/-- A program that knows the PIN and the device path gives them to a key that was read from a file. -/
def equipped (k : PrivateKey) (pin path : Option String) : PrivateKey :=
  let k := match pin with
    | some p => k.setPin p
    | none => k
  match path with
  | some p => k.setDevicePath p
  | none => k

/-- A hardware key signs alike under either name of its kind. -/
theorem signSk_congr {k k' : PrivateKey} {s : SkPrivateKey} (F : Features) (C : Crypto) (D : FidoDev) (m : Bytes)
    (h : k.kind = .ed25519Sk s ∨ k.kind = .ecdsaSk s) (h' : k'.kind = .ed25519Sk s ∨ k'.kind = .ecdsaSk s)
    (hp : k.pubkey = k'.pubkey) : k.sign F C D m = k'.sign F C D m := by
  have e1 : ∀ x : PrivateKey, x.kind = .ed25519Sk s ∨ x.kind = .ecdsaSk s → x.sign F C D m = PrivateKey.signSk F C D x m := by
    intro x hx
    unfold PrivateKey.sign
    rcases hx with hx | hx <;> rw [hx]
  have e2 : ∀ x : PrivateKey, x.kind = .ed25519Sk s ∨ x.kind = .ecdsaSk s → PrivateKey.skFields x.kind = some s := by
    intro x hx
    rcases hx with hx | hx <;> rw [hx] <;> rfl
  rw [e1 k h, e1 k' h']
  unfold PrivateKey.signSk PrivateKey.signCtap PrivateKey.signMozilla
  rw [e2 k h, e2 k' h', hp]

/-- C143: a key made on an authenticator, written to a file, read back and given the PIN and the device path again, asks every
authenticator the same and signs the same as the key in memory, although its kind may be named differently. -/
theorem C143_hardware (F F' : Features) (C C' : Crypto) (D : FidoDev) (X : X509Env) (yubicoRoot application comment : String)
    (pin path pass : Option String) (challenge m : Bytes) (att : CtapAttestation) (k : FidoSshKey)
    (h : ctapGenerate X C yubicoRoot application comment pin path challenge (.ok att) = .ok k)
    (hs : application.utf8ByteSize < 4294967296 ∧ comment.utf8ByteSize < 4294967296 ∧ att.credentialId.length < 4294967296 ∧
      att.authData.length < 4294967296)
    (hl : ∀ w, k.privateKey.encode = .ok w → w.length < 4294967296) :
    ∃ file k', k.privateKey.write = .ok file ∧ PrivateKey.fromStringWithPassphrase F C file pass = .ok k' ∧
      k'.pubkey = k.privateKey.pubkey ∧
      (equipped k' pin path).sign F' C' D m = k.privateKey.sign F' C' D m := by
  obtain ⟨s, t, h1, h2, h3⟩ := C73_file F C X yubicoRoot application comment pin path pass challenge att k h hs hl
  obtain ⟨hcom, _⟩ := privkey_blob h3
  obtain ⟨att', v, e, _, _, hp, _, _, _, _, hk⟩ := (ctap_ok ..).mp h
  cases e
  obtain ⟨hc, _⟩ := (C62_ssh_key ..).mp hp
  have hpk : ({ k.privateKey.pubkey with comment := none } : PublicKey) = k.privateKey.pubkey :=
    (congrArg (fun c => (⟨k.privateKey.pubkey.keyType, k.privateKey.pubkey.kind, c⟩ : PublicKey)) hc).symm
  rw [h1] at hk
  cases hk
  refine ⟨t, _, h2, h3, hpk, ?_⟩
  apply signSk_congr (s := ⟨att.flags, att.credentialId, [], pin, path⟩)
  · cases k.privateKey.pubkey.kind <;> cases pin <;> cases path <;> first | exact .inl rfl | exact .inr rfl
  · exact .inl h1
  · refine Eq.trans ?_ hpk
    cases k.privateKey.pubkey.kind <;> cases pin <;> cases path <;> rfl

/-- C143: if the authenticator answers every request for that application, handle, PIN and device path, correctly for the public
key it reported, then the key read from the file makes a signature for every message; its text is read back and verifies under
the public half of the key generated. -/
theorem C143_hardware_message (F : Features) (C : Crypto) (D : FidoDev) (X : X509Env) (yubicoRoot application comment : String)
    (pin path pass : Option String) (challenge msg : Bytes) (ns : String) (hash : Option HashAlgorithm) (att : CtapAttestation)
    (k : FidoSshKey) (h : ctapGenerate X C yubicoRoot application comment pin path challenge (.ok att) = .ok k)
    (hF : F.fido = .ctapHid)
    (hd : ∀ m, ∃ a, D.ctapAssert application m att.credentialId pin path = some a ∧ AssertionFor C k.privateKey.pubkey m a)
    (hsig : ∀ m sig, k.privateKey.sign F C D m = .ok (some sig) → sig.length < 4294967296)
    (hs : application.utf8ByteSize < 4294967296 ∧ comment.utf8ByteSize < 4294967296 ∧ att.credentialId.length < 4294967296 ∧
      att.authData.length < 4294967296)
    (hl : ∀ w, k.privateKey.encode = .ok w → w.length < 4294967296) (hn : ns ≠ "") (hn' : ns.utf8ByteSize < 4294967296) :
    ∃ file k' v text sig, k.privateKey.write = .ok file ∧ PrivateKey.fromStringWithPassphrase F C file pass = .ok k' ∧
      VerifiedSshSignature.newWithPrivateKey F C D msg ns (equipped k' pin path) hash = .ok v ∧ v.signature.display = .ok text ∧
      SshSignature.fromArmoredString text = .ok sig ∧
      VerifiedSshSignature.fromSshSignature C msg sig ns (some k.privateKey.pubkey) = .ok v ∧ v.message = msg := by
  obtain ⟨s, t, h1, h2, h3⟩ := C73_file F C X yubicoRoot application comment pin path pass challenge att k h hs hl
  obtain ⟨hcom, kb, hkb, hkl⟩ := privkey_blob h3
  have hwf := (C20_privkey F C pass t _ h3).1
  obtain ⟨att', v, e, _, _, hp, hnm, hmem, _, _, hk⟩ := (ctap_ok ..).mp h
  cases e
  obtain ⟨hc, hcase⟩ := (C62_ssh_key ..).mp hp
  have hpk : ({ k.privateKey.pubkey with comment := none } : PublicKey) = k.privateKey.pubkey :=
    (congrArg (fun c => (⟨k.privateKey.pubkey.keyType, k.privateKey.pubkey.kind, c⟩ : PublicKey)) hc).symm
  rw [h1] at hk
  cases hk
  generalize hk' : stored _ = k' at h3 hcom hkb hwf
  have hpk' : k'.pubkey = k.privateKey.pubkey := by rw [← hk']; exact hpk
  have heq : (equipped k' pin path).pubkey = k.privateKey.pubkey := by
    rw [← hk']
    refine Eq.trans ?_ hpk
    cases k.privateKey.pubkey.kind <;> cases pin <;> cases path <;> rfl
  have hhw : HardwareKey (equipped k' pin path) ⟨att.flags, att.credentialId, [], pin, path⟩ application := by
    refine ⟨?_, ?_⟩
    · rw [heq]
      rcases hcase with ⟨_, _, hm, _⟩ | ⟨_, _, hm, _⟩ <;> exact hm
    · rw [heq]
      rcases hcase with ⟨_, hname, _, c, _, _, hkind⟩ | ⟨_, hname, _, hkind⟩
      · refine .inr ⟨?_, hname, c, _, hkind⟩
        rw [← hk']
        simp only [hkind]
        cases pin <;> cases path <;> rfl
      · refine .inl ⟨?_, hname, _, hkind⟩
        rw [← hk']
        simp only [hkind]
        cases pin <;> cases path <;> rfl
  have hans : ∀ m, ∃ a, deviceAnswer F C D ⟨att.flags, att.credentialId, [], pin, path⟩ application m = .ok (some a) ∧
      AssertionFor C k.privateKey.pubkey m a := by
    intro m
    obtain ⟨a, ha, hb⟩ := hd m
    refine ⟨a, ?_, hb⟩
    unfold deviceAnswer
    rw [hF]
    dsimp only
    rw [ha]
  obtain ⟨a, ha, hb⟩ := hans (signedData C ns (hash.getD .sha512) msg)
  have hver := C81_verifies F C D (equipped k' pin path) _ application (signedData C ns (hash.getD .sha512) msg) hhw (by
    intro a' ha'
    rw [ha] at ha'
    cases ha'
    rw [heq]
    exact hb)
  rw [ha] at hver
  obtain ⟨sig, g1, g2⟩ := hver
  have hlen : sig.length < 4294967296 := by
    refine hsig (signedData C ns (hash.getD .sha512) msg) sig ?_
    rw [← g1]
    refine signSk_congr (s := ⟨att.flags, att.credentialId, [], pin, path⟩) F C D _ (.inl h1) ?_ heq.symm
    rcases hhw.2 with ⟨x, _⟩ | ⟨x, _⟩
    · exact .inl x
    · exact .inr x
  have hv := ((C133_signature F C D msg ns (equipped k' pin path) hash _ rfl).1
    ⟨⟨(equipped k' pin path).pubkey, ns, hash.getD .sha512, sig⟩, msg⟩).mpr
    ⟨sig, ((C132_exact F C D _ _).1 _).mp g1, ((C21_accepts _ _ _ _ _).mp g2).1, rfl⟩
  rw [hpk', ← heq] at hcom hkb hwf
  obtain ⟨tx, ht, hpp, hf⟩ := carried hcom hkb hkl hwf hn hn' hv hlen
  exact ⟨t, k', _, tx, _, h2, h3, hv, ht, hpp, heq ▸ hf, rfl⟩

/-! ## The assumptions can be met -/

/-- Primitives as in C80's example, with signatures of 64 bytes. -/
def storyCrypto : Crypto := { seedCrypto with
  ed25519Pub := fun s => if s.length = 32 then some s else none
  ed25519Sign := fun _ _ _ => some (List.replicate 64 7) }

theorem storyCrypto_correct : SignsCorrectly storyCrypto := by
  refine ⟨?_, signingCrypto_correct.2⟩
  intro seed pub m s h
  cases h
  exact ⟨by decide, rfl⟩

theorem story_key : ∃ k, PrivateKey.new storyCrypto (some (Vector.replicate 32 5)) (some #v[0, 0, 1, 2]) .ed25519 "me" = .ok k ∧
    ∀ w, k.encode = .ok w → w.length < 4294967296 := by
  refine ⟨_, rfl, fun w h => ?_⟩
  have e : (match (⟨⟨"ssh-ed25519", "ssh-ed25519", "ED25519", false, false, .ed25519⟩, .ed25519 (List.replicate 32 5),
      ⟨⟨"ssh-ed25519", "ssh-ed25519", "ED25519", false, false, .ed25519⟩, .ed25519 (List.replicate 32 5) none, none⟩,
      258, "me"⟩ : PrivateKey).encode with | .ok w => decide (w.length < 4294967296) | _ => true) = true := by decide +kernel
  have h' := h
  revert e
  rw [show (⟨⟨"ssh-ed25519", "ssh-ed25519", "ED25519", false, false, .ed25519⟩, .ed25519 (List.replicate 32 5),
      ⟨⟨"ssh-ed25519", "ssh-ed25519", "ED25519", false, false, .ed25519⟩, .ed25519 (List.replicate 32 5) none, none⟩,
      258, "me"⟩ : PrivateKey).encode = .ok w from h']
  exact of_decide_eq_true

/-- The key made from 32 bytes 5 is read back from its file with any passphrase and signs the message 1, 2, 3. -/
example : ∃ k, PrivateKey.new storyCrypto (some (Vector.replicate 32 5)) (some #v[0, 0, 1, 2]) .ed25519 "me" = .ok k ∧
    ∃ file v text sig, k.write = .ok file ∧
      PrivateKey.fromStringWithPassphrase ⟨true, true, .none⟩ storyCrypto file (some "x") = .ok k ∧
      VerifiedSshSignature.newWithPrivateKey ⟨true, true, .none⟩ storyCrypto sampleDevice [1, 2, 3] "file" k none = .ok v ∧
      v.signature.display = .ok text ∧ SshSignature.fromArmoredString text = .ok sig ∧
      VerifiedSshSignature.fromSshSignature storyCrypto [1, 2, 3] sig "file" (some k.pubkey) = .ok v ∧ v.message = [1, 2, 3] := by
  obtain ⟨k, hk, hl⟩ := story_key
  refine ⟨k, hk, C143_message _ _ _ _ _ _ _ _ _ _ _ _ hk storyCrypto_correct ?_ ?_ hl (by decide +kernel) (by decide)
    (by decide +kernel)⟩
  · intro s p h
    unfold storyCrypto at h
    dsimp only at h
    split at h
    · cases h; assumption
    · cases h
  · exact fun _ _ _ _ => ⟨_, rfl, rfl⟩

/-- The same key certifies a host key for the principals b and d. -/
example : ∃ k c0 c c', PrivateKey.new storyCrypto (some (Vector.replicate 32 5)) (some #v[0, 0, 1, 2]) .ed25519 "me" = .ok k ∧
    Certificate.builder (some (Vector.replicate 32 1)) (some (Vector.replicate 8 2)) sampleSk .host k.pubkey = .ok c0 ∧
    Certificate.sign storyCrypto (k.sign ⟨true, true, .none⟩ storyCrypto sampleDevice)
      { runCalls c0 [.principal "a", .setPrincipals ["b"], .principal "d"] with criticalOptions := [], extensions := [] } = .ok c ∧
    Certificate.fromString storyCrypto c.display = .ok c' ∧ c'.principals = ["b", "d"] := by
  obtain ⟨k, hk, hl⟩ := story_key
  have hkp : k.pubkey = ⟨⟨"ssh-ed25519", "ssh-ed25519", "ED25519", false, false, .ed25519⟩,
      .ed25519 (List.replicate 32 5) none, none⟩ := by
    have : PrivateKey.new storyCrypto (some (Vector.replicate 32 5)) (some #v[0, 0, 1, 2]) .ed25519 "me" = .ok
      ⟨⟨"ssh-ed25519", "ssh-ed25519", "ED25519", false, false, .ed25519⟩, .ed25519 (List.replicate 32 5),
      ⟨⟨"ssh-ed25519", "ssh-ed25519", "ED25519", false, false, .ed25519⟩, .ed25519 (List.replicate 32 5) none, none⟩,
      258, "me"⟩ := rfl
    rw [hk] at this
    cases this
    rfl
  obtain ⟨file, c0, hw, hr, hb, hall⟩ := C143_certificate ⟨true, true, .none⟩ storyCrypto sampleDevice _ _ _ _ k none
    (Vector.replicate 32 1) (Vector.replicate 8 2) sampleSk .host [.principal "a", .setPrincipals ["b"], .principal "d"] [] [] hk
    storyCrypto_correct (by
      intro s p h
      unfold storyCrypto at h
      dsimp only at h
      split at h
      · cases h; assumption
      · cases h) (fun _ _ _ _ => ⟨_, rfl, rfl⟩) hl (by decide +kernel) sampleSk_wf (by
      intro x hx
      simp only [List.mem_cons, List.not_mem_nil, or_false] at hx
      rcases hx with rfl | rfl | rfl <;> exact trivial)
  obtain ⟨n, s, hn, hs, kt, _, _, _, hb2⟩ | ⟨_, e, he⟩ := builder_ok (nonce := some (Vector.replicate 32 1))
    (serial := some (Vector.replicate 8 2)) (ca := k.pubkey) (role := .host) sampleSk_wf.1
  rotate_left
  · rw [he] at hb; cases hb
  rw [hb2, Res.ok.injEq] at hb
  cases hn
  have hsize : ∀ b, k.pubkey.encode = .ok b → b.length < 4294967296 := by
    intro b hbb
    rw [hkp] at hbb
    have e : (match (⟨⟨"ssh-ed25519", "ssh-ed25519", "ED25519", false, false, .ed25519⟩,
        .ed25519 (List.replicate 32 5) none, none⟩ : PublicKey).encode with
      | .ok b => decide (b.length < 4294967296) | _ => true) = true := by decide +kernel
    rw [hbb] at e
    exact of_decide_eq_true e
  obtain ⟨c, c', h1, h2, h3, _⟩ := hall (by rw [← hb]; exact .nil) (by rw [← hb]; exact .nil) (by
    rw [← hb]
    exact ⟨by show (Vector.replicate 32 (1 : UInt8)).toList.length < _; decide +kernel, by show "".utf8ByteSize < _; decide +kernel,
      by show principalsSize ["b", "d"] < _; decide +kernel, by show optionsSize [] < _; decide +kernel,
      by show optionsSize [] < _; decide +kernel, hsize⟩)
  refine ⟨k, c0, c, c', hk, by rw [hb2, hb], h1, h2, ?_⟩
  rw [h3.2.2.2.2.2.2.2.1, ← hb]
  rfl

theorem laxStory (m : Bytes) (pk : PublicKey) (h : pk.kind = .ed25519 (List.replicate 32 9) (some "ssh:")) :
    AssertionFor sampleGenC pk m ⟨List.replicate 64 7, 5, 77⟩ := by
  unfold AssertionFor
  rw [h]
  exact ⟨by decide, rfl⟩

/-- The sample authenticator's key is read back and signs the message 1, 2, 3 with the PIN and path it was made with. -/
example : ∃ k, ctapGenerate sampleFidoX sampleGenC "" "ssh:" "me" none none [7] (.ok sampleAnswer) = .ok k ∧
    ∃ file k' v text sig, k.privateKey.write = .ok file ∧
      PrivateKey.fromStringWithPassphrase ⟨true, true, .ctapHid⟩ sampleGenC file none = .ok k' ∧
      VerifiedSshSignature.newWithPrivateKey ⟨true, true, .ctapHid⟩ sampleGenC ⟨fun _ _ _ _ _ => some ⟨List.replicate 64 7, 5, 77⟩,
        fun _ _ _ _ => .panic⟩ [1, 2, 3] "file" (equipped k' none none) none = .ok v ∧
      v.signature.display = .ok text ∧ SshSignature.fromArmoredString text = .ok sig ∧
      VerifiedSshSignature.fromSshSignature sampleGenC [1, 2, 3] sig "file" (some k.privateKey.pubkey) = .ok v ∧
      v.message = [1, 2, 3] := by
  obtain ⟨k, hk, h1, h2⟩ := sample_generates
  refine ⟨k, hk, C143_hardware_message _ _ _ _ _ _ _ _ _ _ _ _ _ _ _ _ hk rfl (fun m => ⟨_, rfl, laxStory m _ h1⟩) ?_
    (by decide +kernel) ?_ (by decide) (by decide +kernel)⟩
  · intro m sig h
    obtain ⟨h3, _⟩ | ⟨h3, _⟩ | ⟨h3, _⟩ | ⟨h3, h4, h5, hf⟩ := ((C132_exact _ _ _ _ _).1 _).mp h
    · rw [h2] at h3; cases h3
    · rw [h2] at h3; cases h3
    · rw [h2] at h3; cases h3
    · cases h5
      cases hf with
      | rsa _ _ hf => rw [h1] at hf; cases hf
      | ecdsa _ _ _ _ _ hf => rw [h1] at hf; cases hf
      | ed25519 _ _ _ =>
        have : ∀ kt ∈ keyTypes, (text kt.name).length < 1000 := by decide +kernel
        have hm : k.privateKey.pubkey.keyType ∈ keyTypes := by
          obtain ⟨_, _, _, _, _, hp, _⟩ := (ctap_ok ..).mp hk
          obtain ⟨_, ⟨_, _, x, _⟩ | ⟨_, _, x, _⟩⟩ := (C62_ssh_key ..).mp hp <;> exact x
        have := this _ hm
        simp only [str, u32, List.length_append, List.length_cons, List.length_nil, List.length_replicate]
        omega
  · intro w hw
    have : (match ctapGenerate sampleFidoX sampleGenC "" "ssh:" "me" none none [7] (.ok sampleAnswer) with
      | .ok k => (match k.privateKey.encode with | .ok w => decide (w.length < 4294967296) | _ => true)
      | _ => true) = true := by decide +kernel
    rw [hk] at this
    dsimp only at this
    rw [hw] at this
    exact of_decide_eq_true this

end Ssh
