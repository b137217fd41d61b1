import Verif.Lemmas.Sign
import Verif.Props.Cert
import Verif.Props.Utils

/-! # C35–C39 and C49: SSHSIG signatures and signing with private keys -/

namespace Ssh

open Spec

/-! ## Samples -/

/-- A software Ed25519 key (the public half is `sampleEd`). -/
def samplePriv : PrivateKey where
  keyType := sampleEd.keyType
  kind := .ed25519 (List.replicate 32 5)
  pubkey := sampleEd
  magic := 99
  comment := "me"

/-- A signature made by `samplePriv` that `laxCrypto` accepts. -/
def sampleSshSig : SshSignature where
  pubkey := sampleEd
  namespace_ := "file"
  hashAlgorithm := .sha512
  signature := sampleSig

/-! ## C35 -/

/-- C35: `from_ssh_signature` succeeds exactly when the namespace is the one requested, the key is the
one expected (if any), and the signature is accepted for the SSHSIG-framed digest of the message. -/
theorem C35_exact (C : Crypto) (msg : Bytes) (s : SshSignature) (ns : String) (k : Option PublicKey)
    (v : VerifiedSshSignature) : VerifiedSshSignature.fromSshSignature C msg s ns k = .ok v ↔
      ns = s.namespace_ ∧ (∀ k', k = some k' → s.pubkey = k') ∧
      Accepts C s.pubkey (signedData C s.namespace_ s.hashAlgorithm msg) s.signature ∧ v = ⟨s, msg⟩ := by
  unfold VerifiedSshSignature.fromSshSignature
  rw [toSignedFormat_eq]
  have hk : (Option.any (fun k => decide (s.pubkey ≠ k)) k = true) ↔ ¬ ∀ k', k = some k' → s.pubkey = k' := by
    cases k <;> simp
  by_cases h1 : ∀ k', k = some k' → s.pubkey = k'
  · rw [if_neg (fun h => hk.mp h h1)]
    by_cases h2 : ns = s.namespace_
    · rw [if_neg (by simp [h2])]
      cases hv : verifySignature C s.signature (signedData C s.namespace_ s.hashAlgorithm msg) s.pubkey with
      | ok b =>
        simp only [Res.ok.injEq]
        exact ⟨fun h => ⟨h2, h1, (verifySignature_ok.mp hv).1, h.symm⟩, fun h => h.2.2.2.symm⟩
      | err e =>
        simp only [reduceCtorEq, false_iff]
        rintro ⟨_, _, ha, _⟩
        rw [verifySignature_ok.mpr ⟨ha, rfl⟩] at hv
        cases hv
      | panic => exact absurd hv (verifySignature_noPanic _ _ _ _)
    · rw [if_pos h2]
      simp [h2]
  · rw [if_pos (hk.mpr h1)]
    simp [h1]

/-- C35: otherwise the result is the error `InvalidSignature`. -/
theorem C35_otherwise (C : Crypto) (msg : Bytes) (s : SshSignature) (ns : String) (k : Option PublicKey) :
    (∃ v, VerifiedSshSignature.fromSshSignature C msg s ns k = .ok v) ∨
    VerifiedSshSignature.fromSshSignature C msg s ns k = .err .invalidSignature := by
  unfold VerifiedSshSignature.fromSshSignature
  split
  · exact .inr rfl
  split
  · exact .inr rfl
  cases hv : verifySignature C s.signature (s.toSignedFormat C msg) s.pubkey with
  | ok b => exact .inl ⟨_, rfl⟩
  | err e => exact .inr rfl
  | panic => exact absurd hv (verifySignature_noPanic _ _ _ _)

/-- C35: a verified signature shows that the holder of the key signed this message's digest for this namespace, unless
the signature presented is a forgery (or, for a hardware key, the data signed collide with others under SHA-256). -/
theorem C35_unforgeable (C : Crypto) (msg : Bytes) (s : SshSignature) (ns : String) (k : PublicKey)
    (v : VerifiedSshSignature) (signed : Bytes → Prop) (hu : NotForged C k signed s.signature)
    (hn : NoCollision C k signed (signedData C ns s.hashAlgorithm msg))
    (h : VerifiedSshSignature.fromSshSignature C msg s ns (some k) = .ok v) :
    signed (signedData C ns v.signature.hashAlgorithm v.message) ∧ v.message = msg := by
  obtain ⟨rfl, hk, ha, rfl⟩ := (C35_exact C msg s ns (some k) v).mp h
  obtain rfl := hk k rfl
  exact ⟨accepts_signed hu hn ha, rfl⟩

/-- C35, finding: the expected key is compared including its comment, so an expected key with a
comment never matches the key of a parsed signature. -/
theorem C35_comment_mismatch (C : Crypto) (msg : Bytes) (t : List Char) (s : SshSignature) (ns : String) (k : PublicKey)
    (ht : SshSignature.fromArmoredString t = .ok s) (hc : k.comment ≠ none) :
    VerifiedSshSignature.fromSshSignature C msg s ns (some k) = .err .invalidSignature := by
  rcases C35_otherwise C msg s ns (some k) with ⟨v, h⟩ | h
  · obtain ⟨_, hk, _⟩ := (C35_exact C msg s ns (some k) v).mp h
    obtain ⟨blob, w, rest, res, junk, _, _, hn, _⟩ := fromArmored_ok.mp ht
    exact absurd (hk k rfl ▸ hn) hc
  · exact h

theorem sampleSshSig_verifies : VerifiedSshSignature.fromSshSignature laxCrypto [1, 2] sampleSshSig "file" (some sampleEd) =
    .ok ⟨sampleSshSig, [1, 2]⟩ := by decide +kernel

example : ∃ C msg s ns k v, VerifiedSshSignature.fromSshSignature C msg s ns k = .ok v :=
  ⟨_, _, _, _, _, _, sampleSshSig_verifies⟩

/-- The hypotheses of `C35_unforgeable` can be met, with primitives for which every message has a signature. -/
example : ∃ C : Crypto, (∀ m, ∃ s, PrimitiveAccepts C sampleEd m s) ∧
    NotForged C sampleEd (· = signedData C "file" .sha512 [1, 2]) sampleSshSig.signature ∧
    NoCollision C sampleEd (· = signedData C "file" .sha512 [1, 2]) (signedData C "file" sampleSshSig.hashAlgorithm [1, 2]) ∧
    ∃ v, VerifiedSshSignature.fromSshSignature C [1, 2] sampleSshSig "file" (some sampleEd) = .ok v := by
  refine ⟨{ laxCrypto with ed25519Verify := fun _ m s => s == [5, 6, 7] && m == signedData laxCrypto "file" .sha512 [1, 2] || s == 9 :: m },
    fun m => ⟨9 :: m, ?_⟩, ?_, fun h => absurd rfl h, ⟨sampleSshSig, [1, 2]⟩, by decide +kernel⟩
  · show ((9 :: m : Bytes) == [5, 6, 7] && m == signedData laxCrypto "file" .sha512 [1, 2] || 9 :: m == 9 :: m) = true
    simp
  · intro m s hc ha
    obtain rfl := sampleSig_carries hc
    have ha' : (([5, 6, 7] : Bytes) == [5, 6, 7] && m == signedData laxCrypto "file" .sha512 [1, 2] || [5, 6, 7] == 9 :: m) = true := ha
    show m = signedData laxCrypto "file" .sha512 [1, 2]
    simpa using ha'

/-! ## C36 -/

theorem str_inj {a b x y : Bytes} (ha : a.length < 4294967296) (hb : b.length < 4294967296)
    (h : str a ++ x = str b ++ y) : a = b ∧ x = y := by
  simp only [str, List.append_assoc] at h
  obtain ⟨h1, h2⟩ := List.append_inj h (by simp [u32])
  exact List.append_inj h2 (u32_inj ha hb h1)

theorem text_inj {a b : String} {x y : Bytes} (ha : a.utf8ByteSize < 4294967296) (hb : b.utf8ByteSize < 4294967296)
    (h : text a ++ x = text b ++ y) : a = b ∧ x = y := by
  obtain ⟨h1, h2⟩ := str_inj (by rw [← strBytes_length] at ha; exact ha) (by rw [← strBytes_length] at hb; exact hb) h
  exact ⟨strBytes_inj h1, h2⟩

/-- C36: the signed bytes determine namespace, hash algorithm and message digest. -/
theorem C36_injective (C C' : Crypto) (s s' : SshSignature) (msg msg' : Bytes)
    (hn : s.namespace_.utf8ByteSize < 4294967296) (hn' : s'.namespace_.utf8ByteSize < 4294967296)
    (hd : (digest C s.hashAlgorithm msg).length < 4294967296)
    (hd' : (digest C' s'.hashAlgorithm msg').length < 4294967296)
    (e : s.toSignedFormat C msg = s'.toSignedFormat C' msg') :
    s.namespace_ = s'.namespace_ ∧ s.hashAlgorithm = s'.hashAlgorithm ∧
      digest C s.hashAlgorithm msg = digest C' s'.hashAlgorithm msg' := by
  rw [toSignedFormat_eq, toSignedFormat_eq] at e
  unfold signedData at e
  have e1 := List.append_cancel_left e
  obtain ⟨e2, e3⟩ := text_inj hn hn' e1
  have e4 := List.append_cancel_left e3
  have hs : ∀ h, (hashName h).utf8ByteSize < 4294967296 := by intro h; cases h <;> decide +kernel
  obtain ⟨e5, e6⟩ := text_inj (hs _) (hs _) e4
  rw [← List.append_nil (str (digest C s.hashAlgorithm msg)),
    ← List.append_nil (str (digest C' s'.hashAlgorithm msg'))] at e6
  exact ⟨e2, hashName_inj e5, (str_inj hd hd' e6).1⟩

example : sampleSshSig.namespace_.utf8ByteSize < 4294967296 ∧
    (digest laxCrypto sampleSshSig.hashAlgorithm [1]).length < 4294967296 := by decide +kernel

/-- C36: what is signed for a certificate never is what is signed for a message. -/
theorem C36_not_certificate (C : Crypto) (s : SshSignature) (msg : Bytes) (c : Certificate) (tbs : Bytes)
    (hk : c.keyType ∈ keyTypes) (ht : c.tbsCertificate = .ok tbs) : s.toSignedFormat C msg ≠ tbs := by
  intro e
  obtain ⟨kt, hkt, hn, _⟩ := table_cert _ hk
  rw [tbs_eq, hn, Res.ok_bind] at ht
  cases hm : keyMaterial c.key.keyType.isSk c.key.kind with
  | none => rw [hm] at ht; cases ht
  | some km =>
    rw [hm] at ht
    simp only [Res.unwrap, Res.ok_bind] at ht
    cases he : c.signatureKey.encode with
    | err e => rw [he] at ht; cases ht
    | panic => rw [he] at ht; cases ht
    | ok ca =>
      rw [he, Res.ok_bind, Res.ok.injEq] at ht
      have h1 := (text_table hkt)
      have h2 := (table_name_len _ hkt).1
      rw [toSignedFormat_eq, ← ht] at e
      have e1 := congrArg List.head? e
      rw [frameStr_eq_text] at e1
      have e2 : (strBytes kt.name).length / 16777216 = 0 := by rw [strBytes_length]; omega
      have e3 : (text kt.name).head? = some 0 := by
        show some (UInt8.ofNat ((strBytes kt.name).length / 16777216)) = some 0
        rw [e2]
        rfl
      rw [List.head?_append, e3] at e1
      exact absurd e1 (by simp [signedData, magic])

example : ∃ tbs, sampleCert.keyType ∈ keyTypes ∧ sampleCert.tbsCertificate = .ok tbs :=
  ⟨_, sampleCert_wf.1, okOf_eq (d := []) (by decide +kernel)⟩

/-! ## C37 -/

/-- C37: printing a signature and parsing the text gives the signature back (the comment of the key
is not stored). -/
theorem C37_roundtrip (s : SshSignature) (hk : WellFormedKey s.pubkey) (hn : s.namespace_ ≠ "")
    (hn' : s.namespace_.utf8ByteSize < 4294967296) (hs : s.signature.length < 4294967296)
    (hb : ∀ b, KeyBlob { s.pubkey with comment := none } b → b.length < 4294967296) :
    ∃ t, s.display = .ok t ∧
      SshSignature.fromArmoredString t = .ok { s with pubkey := { s.pubkey with comment := none } } := by
  obtain ⟨kb, hkb, hw⟩ := writePubKey_blob hk
  have e := toBytes_blob hw
  unfold SshSignature.display
  rw [e]
  generalize hB : magic ++ (u32 1 ++ (str kb ++ (text s.namespace_ ++ (str [] ++ (text (hashName s.hashAlgorithm) ++
        str s.signature))))) = B
  refine ⟨_, rfl, fromArmored_ok.mpr ⟨B, B, [], "", [], ?_, (List.append_nil _).symm, ?_⟩⟩
  · have := armor_of (header := "-----BEGIN SSH SIGNATURE-----") (footer := "-----END SSH SIGNATURE-----") (k := 75)
      (b := B) (tail := "-----END SSH SIGNATURE-----".toList) (by simp [← hB, magic]) (by decide) (by decide)
      ⟨[], lines_last (by decide) (by decide)⟩
    have h : "-----BEGIN SSH SIGNATURE-----\n".toList = "-----BEGIN SSH SIGNATURE-----".toList ++ ['\n'] := by decide +kernel
    have h' : "\n-----END SSH SIGNATURE-----".toList = '\n' :: "-----END SSH SIGNATURE-----".toList := by decide +kernel
    rw [h, h']
    simpa only [List.append_assoc, List.cons_append, List.nil_append] using this
  · refine ⟨rfl, hn, kb, _, _, _, _, _, hB.symm, hkb, ?_, ?_, ?_, ?_, frame_str hs⟩
    · rw [List.append_nil]; exact frame_str (hb _ hkb)
    · exact frame_str (by rw [← strBytes_length] at hn'; exact hn')
    · exact frame_str (by decide)
    · exact frame_str (Nat.lt_trans (hashName_small _) (by decide))

theorem sampleSshSig_key : ∀ b, KeyBlob { sampleSshSig.pubkey with comment := none } b → b.length < 4294967296 := by
  rintro b ⟨_, w1, w2, rfl, h1, _, w3, w4, rfl, h3, h4⟩
  rw [h1.eq, h3.2]
  cases (show w4 = [] from h4)
  decide +kernel

example : ∃ t s, sampleSshSig.display = .ok t ∧ SshSignature.fromArmoredString t = .ok s :=
  have ⟨t, h1, h2⟩ :=
    C37_roundtrip sampleSshSig sampleEd_wf (by decide) (by decide) (by decide) sampleSshSig_key
  ⟨t, _, h1, h2⟩

/-- Every printed line has at most 76 characters. -/
theorem sig_width (s : SshSignature) (t : List Char) (h : s.display = .ok t) : ∀ l ∈ lines t, l.length ≤ 76 := by
  unfold SshSignature.display at h
  cases hb : s.toBytes with
  | err e => rw [hb] at h; cases h
  | panic => rw [hb] at h; cases h
  | ok b =>
    rw [hb, Res.ok_bind] at h
    cases h
    have h : "-----BEGIN SSH SIGNATURE-----\n".toList = "-----BEGIN SSH SIGNATURE-----".toList ++ ['\n'] := by decide +kernel
    have h' : "\n-----END SSH SIGNATURE-----".toList = '\n' :: "-----END SSH SIGNATURE-----".toList := by decide +kernel
    rw [h, h']
    simp only [List.append_assoc, List.cons_append, List.nil_append]
    rw [lines_cons (by decide) (by decide)]
    intro l hl
    rcases List.mem_cons.mp hl with rfl | hl
    · decide
    by_cases hc : chunks 75 (b64Encode b) = []
    · rw [hc] at hl
      simp only [joinNl, List.nil_append] at hl
      have := lines_cons (l := []) (by decide) (by decide) "-----END SSH SIGNATURE-----".toList
      rw [List.nil_append] at this
      rw [this, lines_last (by decide) (by decide)] at hl
      simp only [List.mem_cons, List.not_mem_nil, or_false] at hl
      rcases hl with rfl | rfl <;> decide
    · rw [lines_joinNl hc, lines_last (by decide) (by decide)] at hl
      · rcases List.mem_append.mp hl with hl | hl
        · exact (chunks_mem 75 _ _ hl).2.1
        · rw [List.mem_singleton.mp hl]; decide
      · intro l hl
        obtain ⟨_, _, h3⟩ := chunks_mem 75 _ l hl
        constructor
        · intro h
          exact (b64Encode_props b _ (h3 _ h)).2.2.2.1 rfl
        · intro h
          have := (b64Encode_props b _ (h3 _ (List.mem_of_getLast? h))).1
          exact absurd this (by decide)

/-- C37: every printed line has at most 76 characters. -/
theorem C37_width (s : SshSignature) (t : List Char) (h : s.display = .ok t) : ∀ ls, FileLines t ls → ∀ l ∈ ls, l.length ≤ 76 := by
  rintro _ hl
  obtain rfl := lines_iff.mp hl
  exact sig_width s t h

/-! ## C38 -/

/-- C38: what is accepted is exactly the armor of a blob with the magic, version 1, a key blob, a
non-empty namespace, an ignored field, hash `sha256` or `sha512`, and the signature. -/
theorem C38_exact (t : List Char) (s : SshSignature) : SshSignature.fromArmoredString t = .ok s ↔
    ∃ blob w rest res junk, Armor "-----BEGIN SSH SIGNATURE-----" "-----END SSH SIGNATURE-----" t blob ∧
      blob = w ++ rest ∧ SigBlob s res junk w := fromArmored_ok

/-- C38: parsing never panics. -/
theorem C38_total (t : List Char) : SshSignature.fromArmoredString t ≠ .panic := fromArmored_noPanic t

/-- C38: the field after the namespace is ignored: replacing its contents does not change the
result. -/
theorem C38_reserved_ignored (t t' : List Char) (s : SshSignature) (kb wKey wNs wRes wRes' post : Bytes)
    (ns res res' : String) (hk : Frame kb wKey) (hn : Text ns wNs) (hr : Text res wRes) (hr' : Text res' wRes')
    (ht : Armor "-----BEGIN SSH SIGNATURE-----" "-----END SSH SIGNATURE-----" t
      (magic ++ (u32 1 ++ (wKey ++ (wNs ++ (wRes ++ post))))))
    (ht' : Armor "-----BEGIN SSH SIGNATURE-----" "-----END SSH SIGNATURE-----" t'
      (magic ++ (u32 1 ++ (wKey ++ (wNs ++ (wRes' ++ post))))))
    (h : SshSignature.fromArmoredString t = .ok s) : SshSignature.fromArmoredString t' = .ok s := by
  obtain ⟨blob, w, rest, res0, junk, h1, h2, h3, h4, kb0, x1, x2, x3, x4, x5, rfl, h5, h6, h7, h8, h9, h10⟩ :=
    fromArmored_ok.mp h
  have e : blob = magic ++ (u32 1 ++ (wKey ++ (wNs ++ (wRes ++ post)))) := by
    have := (dearmor_ok (by decide)).mpr h1
    rw [(dearmor_ok (by decide)).mpr ht, Res.ok.injEq] at this
    exact this.symm
  rw [e] at h2
  simp only [List.append_assoc] at h2
  have e0 := List.append_cancel_left (List.append_cancel_left h2)
  obtain ⟨_, e1, e2⟩ := Reader.readBytes_parses.unique hk h6 e0
  obtain ⟨_, e3, e4⟩ := Reader.readString_parses.unique hn h7 e2
  obtain ⟨_, e5, e6⟩ := Reader.readString_parses.unique hr h8 e4
  subst e1 e3
  refine fromArmored_ok.mpr ⟨_, magic ++ (u32 1 ++ (wKey ++ (wNs ++ (wRes' ++ (x4 ++ x5))))), rest, res', junk, ht', ?_, h3, h4,
    kb0, _, _, _, _, _, rfl, h5, h6, h7, hr', h9, h10⟩
  simp only [List.append_assoc]
  rw [e6]

/-- C20 for signatures: the key of a parsed signature is well-formed, so printing it never panics. -/
theorem C20_sshsig (t : List Char) (s : SshSignature) (h : SshSignature.fromArmoredString t = .ok s) :
    WellFormedKey s.pubkey ∧ ∃ t', s.display = .ok t' := by
  obtain ⟨blob, w, rest, res, junk, _, _, h3, _, kb, x1, x2, x3, x4, x5, _, ⟨hk, y1, y2, _, _, h5⟩, _⟩ := fromArmored_ok.mp h
  have hw := material_wellFormed hk h5
  obtain ⟨kb', _, hw'⟩ := writePubKey_blob hw
  refine ⟨hw, ?_⟩
  unfold SshSignature.display
  rw [toBytes_blob hw']
  exact ⟨_, rfl⟩

/-! ## C39 -/

/-- C39: signing with a software key and verifying, for primitives that accept what they sign: either
`SigningError` or a signature by the key, for this message and namespace, which verifies. -/
theorem C39_sshsig (F : Features) (C : Crypto) (D : FidoDev) (k : PrivateKey) (msg : Bytes) (ns : String)
    (hash : Option HashAlgorithm) (hC : SignsCorrectly C) (hk : ConsistentKey k) :
    VerifiedSshSignature.newWithPrivateKey F C D msg ns k hash = .err .signingError ∨
    ∃ v, VerifiedSshSignature.newWithPrivateKey F C D msg ns k hash = .ok v ∧ v.message = msg ∧
      v.signature.pubkey = k.pubkey ∧ v.signature.namespace_ = ns ∧ v.signature.hashAlgorithm = hash.getD .sha512 ∧
      VerifiedSshSignature.fromSshSignature C msg v.signature ns (some k.pubkey) = .ok v := by
  unfold VerifiedSshSignature.newWithPrivateKey
  simp only
  rw [toSignedFormat_eq]
  rcases sign_accepts (F := F) (D := D) hC hk (signedData C ns (hash.getD .sha512) msg) with h | ⟨sig, h, ha⟩
  · rw [h]
    exact .inl rfl
  · rw [h]
    simp only [Res.ok_bind, Res.ofOption]
    right
    have e := (C35_exact C msg { pubkey := k.pubkey, namespace_ := ns, hashAlgorithm := hash.getD .sha512, signature := sig }
      ns (some k.pubkey) _).mpr ⟨rfl, fun _ h => (Option.some.inj h), ha, rfl⟩
    exact ⟨_, e, rfl, rfl, rfl, rfl, e⟩

/-- C39: whatever the primitives and the key, a returned signature verifies. -/
theorem C39_sound (F : Features) (C : Crypto) (D : FidoDev) (k : PrivateKey) (msg : Bytes) (ns : String)
    (hash : Option HashAlgorithm) (v : VerifiedSshSignature)
    (h : VerifiedSshSignature.newWithPrivateKey F C D msg ns k hash = .ok v) :
    v.message = msg ∧ v.signature.pubkey = k.pubkey ∧ v.signature.namespace_ = ns ∧
      v.signature.hashAlgorithm = hash.getD .sha512 ∧
      Accepts C k.pubkey (signedData C ns (hash.getD .sha512) msg) v.signature.signature := by
  unfold VerifiedSshSignature.newWithPrivateKey at h
  simp only at h
  cases hs : k.sign F C D (SshSignature.toSignedFormat C
      { pubkey := k.pubkey, namespace_ := ns, hashAlgorithm := hash.getD .sha512, signature := [] } msg) with
  | err e => rw [hs] at h; cases h
  | panic => rw [hs] at h; cases h
  | ok o =>
    rw [hs, Res.ok_bind] at h
    cases o with
    | none => cases h
    | some sig =>
      simp only [Res.ofOption, Res.ok_bind] at h
      obtain ⟨_, _, ha, rfl⟩ := (C35_exact _ _ _ _ _ _).mp h
      exact ⟨rfl, rfl, rfl, rfl, ha⟩

/-- C39: certificates signed with a software key: either `SigningError` or a certificate whose
serialised form parses back to the same contents. -/
theorem C39_certificate (F : Features) (C : Crypto) (D : FidoDev) (k : PrivateKey) (c : Certificate)
    (hC : SignsCorrectly C) (hk : ConsistentKey k) (hw : WellFormedCert c) (hca : c.signatureKey = k.pubkey) :
    c.sign C (k.sign F C D) = .err .signingError ∨
    ∃ c', c.sign C (k.sign F C D) = .ok c' ∧ (c'.signature.length < 4294967296 →
      ∃ c'', Certificate.fromBytes C c'.serialized = .ok c'' ∧ SameContent c'' c ∧ c''.signature = c'.signature) := by
  obtain ⟨p, pc, tbs, _, _, _, _, ht, _⟩ := tbs_wellFormed hw
  rcases sign_accepts (F := F) (D := D) hC hk tbs with h | ⟨sig, h, ha⟩
  · left
    unfold Certificate.sign
    rw [ht, Res.ok_bind, h]
    rfl
  · right
    rw [← hca] at ha
    have e := (C28_add_signature C c _ sig).mpr ⟨tbs, ht, ha, rfl⟩
    refine ⟨{ c with signature := sig, serialized := tbs ++ (u32 sig.length ++ sig) }, ?_, ?_⟩
    · unfold Certificate.sign
      rw [ht, Res.ok_bind, h]
      exact e
    · intro hl
      obtain ⟨c'', h1, h2, _, _, _, h3⟩ := signed_parses hw ht ha hl []
      rw [List.append_nil] at h1
      exact ⟨c'', h1, h2, h3⟩

/-- Primitives that sign everything, ECDSA with `r = s = 1`. -/
def signingCrypto : Crypto :=
  { laxCrypto with ecdsaSign := fun _ _ _ _ => some [0x30, 6, 2, 1, 1, 2, 1, 1] }

theorem signingCrypto_correct : SignsCorrectly signingCrypto := by
  refine ⟨?_, ?_, ?_⟩
  · intro seed pub m s h
    cases h
    exact ⟨by decide, rfl⟩
  · intro n e d p q exp exq co der m s _ h
    cases h
    exact ⟨by decide, fun _ _ _ _ => rfl⟩
  · intro alg secret pub m sig h
    cases h
    have hp : DerPositive 1 [1] := ⟨.plain 1 [] (by decide) (by decide), by decide, by decide⟩
    cases alg with
    | p256 =>
      exact ⟨1, 1, [1], [1], List.replicate 31 0 ++ [1], List.replicate 31 0 ++ [1], by decide, by decide, hp, hp,
        ⟨by decide, by decide⟩, ⟨by decide, by decide +kernel⟩, ⟨by decide, by decide +kernel⟩, rfl⟩
    | p384 =>
      exact ⟨1, 1, [1], [1], List.replicate 47 0 ++ [1], List.replicate 47 0 ++ [1], by decide, by decide, hp, hp,
        ⟨by decide, by decide⟩, ⟨by decide, by decide +kernel⟩, ⟨by decide, by decide +kernel⟩, rfl⟩

/-- An ECDSA key. -/
def sampleEcPriv : PrivateKey where
  keyType := ⟨"ecdsa-sha2-nistp256", "ecdsa-sha2-nistp256", "ECDSA", false, false, .ecdsa⟩
  kind := .ecdsa ⟨.nistp256, "nistp256"⟩ [0, 200]
  pubkey := ⟨⟨"ecdsa-sha2-nistp256", "ecdsa-sha2-nistp256", "ECDSA", false, false, .ecdsa⟩,
    .ecdsa ⟨.nistp256, "nistp256"⟩ [4, 5] none, none⟩
  magic := 1
  comment := "ec"

example : SignsCorrectly signingCrypto ∧ ConsistentKey samplePriv ∧ ConsistentKey sampleEcPriv ∧
    WellFormedCert sampleCert ∧ sampleCert.signatureKey = samplePriv.pubkey :=
  ⟨signingCrypto_correct, ⟨by decide +kernel, rfl, rfl, by decide⟩, ⟨by decide +kernel, rfl, by decide +kernel, rfl, by decide⟩,
    sampleCert_wf, rfl⟩

example : (match VerifiedSshSignature.newWithPrivateKey ⟨true, true, .none⟩ signingCrypto ⟨fun _ _ _ _ _ => none, fun _ _ _ _ => .panic⟩
    [1, 2, 3] "file" sampleEcPriv none with | .ok _ => true | _ => false) = true := by decide +kernel

/-! ## C49 -/

/-- Conversion of what a primitive or device returned does not panic. -/
theorem signOpt_noPanic (k : PublicKey) (o : Option Bytes) : signOpt k o ≠ .panic := by
  cases o with
  | none => simp [signOpt]
  | some s => exact formatSignature_noPanic k s

/-- The keys with which `sign` panics. -/
def SignPanics (F : Features) (C : Crypto) (D : FidoDev) (k : PrivateKey) (msg : Bytes) : Prop :=
  match k.kind with
  | .rsa r => F.rsaSigning = true ∧ (r.exp = none ∨ r.exq = none)
  | .ecdsa c key => ecAlg c.kind ≠ none ∧ key = [] ∧ ∃ c' pub app, k.pubkey.kind = .ecdsa c' pub app
  | .ed25519 key => key.length < 32 ∧ ∃ pub app, k.pubkey.kind = .ed25519 pub app
  | .ecdsaSk s => F.fido = .mozilla ∧ ((∃ e n, k.pubkey.kind = .rsa e n) → False) ∧
      (applicationOf k.pubkey = none ∨ ∃ a, applicationOf k.pubkey = some a ∧
        D.mozAssert (C.sha256 msg) a s.handle s.pin = .panic)
  | .ed25519Sk s => F.fido = .mozilla ∧ ((∃ e n, k.pubkey.kind = .rsa e n) → False) ∧
      (applicationOf k.pubkey = none ∨ ∃ a, applicationOf k.pubkey = some a ∧
        D.mozAssert (C.sha256 msg) a s.handle s.pin = .panic)

theorem signSk_panic {F : Features} {C : Crypto} {D : FidoDev} {k : PrivateKey} {s : SkPrivateKey} {msg : Bytes}
    (hk : PrivateKey.skFields k.kind = some s) : PrivateKey.signSk F C D k msg = .panic ↔
      F.fido = .mozilla ∧ ((∃ e n, k.pubkey.kind = .rsa e n) → False) ∧
      (applicationOf k.pubkey = none ∨ ∃ a, applicationOf k.pubkey = some a ∧
        D.mozAssert (C.sha256 msg) a s.handle s.pin = .panic) := by
  have hfa : ∀ a, PrivateKey.formatAssertion k.pubkey a ≠ .panic := by
    intro a h
    unfold PrivateKey.formatAssertion at h
    cases hf : formatSignatureForSsh k.pubkey a.signature with
    | panic => exact formatSignature_noPanic _ _ hf
    | err e => rw [hf] at h; cases h
    | ok o => rw [hf] at h; cases o <;> cases h
  unfold PrivateKey.signSk
  cases hf : F.fido with
  | none => simp
  | ctapHid =>
    simp only [reduceCtorEq, false_and, iff_false]
    unfold PrivateKey.signCtap
    rw [hk]
    simp only
    split
    · split
      · exact hfa _
      · simp
    · simp
  | mozilla =>
    simp only [true_and]
    unfold PrivateKey.signMozilla
    rw [hk]
    simp only
    have main : ∀ app, PrivateKey.skApplication k.pubkey.kind = some app → applicationOf k.pubkey = app →
        ((∃ e n, k.pubkey.kind = .rsa e n) → False) → _ := fun app h1 h2 h3 => (show
          (match PrivateKey.skApplication k.pubkey.kind with
            | none => Res.ok none
            | some none => .panic
            | some (some app) => do
              match ← D.mozAssert (C.sha256 msg) app s.handle s.pin with
              | some a => PrivateKey.formatAssertion k.pubkey a
              | none => return none) = .panic ↔ ((∃ e n, k.pubkey.kind = .rsa e n) → False) ∧
      (applicationOf k.pubkey = none ∨ ∃ a, applicationOf k.pubkey = some a ∧
        D.mozAssert (C.sha256 msg) a s.handle s.pin = .panic) from by
        rw [h1, h2]
        cases app with
        | none => simpa using h3
        | some a =>
          simp only [reduceCtorEq, Option.some.injEq, exists_eq_left', false_or]
          cases hm : D.mozAssert (C.sha256 msg) a s.handle s.pin with
          | panic => simpa using h3
          | err e => simp
          | ok o =>
            cases o with
            | none => simp
            | some x =>
              simp only [Res.ok_bind, reduceCtorEq, and_false, iff_false]
              exact hfa x)
    cases hp : k.pubkey.kind with
    | rsa e n => simp [PrivateKey.skApplication]
    | ecdsa c key app =>
      have := main app (by rw [hp]; rfl) (by unfold applicationOf; rw [hp]) (by rw [hp]; simp)
      rw [hp] at this
      exact this
    | ed25519 key app =>
      have := main app (by rw [hp]; rfl) (by unfold applicationOf; rw [hp]) (by rw [hp]; simp)
      rw [hp] at this
      exact this

/-- C49: `sign` panics exactly in these cases. -/
theorem C49_exact (F : Features) (C : Crypto) (D : FidoDev) (k : PrivateKey) (msg : Bytes) :
    k.sign F C D msg = .panic ↔ SignPanics F C D k msg := by
  unfold SignPanics
  cases hk : k.kind with
  | rsa r =>
    simp only
    cases h1 : r.exp with
    | none =>
      unfold PrivateKey.sign
      rw [hk]
      simp only [rsaToDer, h1, Res.unwrap, Res.panic_bind]
      cases F.rsaSigning <;> simp
    | some exp =>
      cases h2 : r.exq with
      | none =>
        unfold PrivateKey.sign
        rw [hk]
        simp only [rsaToDer, h1, h2, Res.unwrap, Res.ok_bind, Res.panic_bind]
        cases F.rsaSigning <;> simp
      | some exq =>
        obtain ⟨der, h3, _⟩ := rsaToDer_spec h1 h2
        rw [signRsa_eq hk h3]
        simp only [reduceCtorEq, or_self, and_false, iff_false]
        split
        · exact signOpt_noPanic _ _
        · simp
  | ecdsa c key =>
    simp only
    cases hp : k.pubkey.kind with
    | rsa e n =>
      unfold PrivateKey.sign
      rw [hk, hp]
      simp only
      split <;> simp
    | ed25519 e n =>
      unfold PrivateKey.sign
      rw [hk, hp]
      simp only
      split <;> simp
    | ecdsa c' pub app =>
      by_cases hne : key = []
      · subst hne
        unfold PrivateKey.sign
        rw [hk, hp]
        cases hc : c.kind with
        | nistp256 => dsimp only; rw [hc]; exact ⟨fun _ => ⟨nofun, rfl, c', pub, app, rfl⟩, fun _ => rfl⟩
        | nistp384 => dsimp only; rw [hc]; exact ⟨fun _ => ⟨nofun, rfl, c', pub, app, rfl⟩, fun _ => rfl⟩
        | nistp521 => dsimp only; rw [hc]; exact Iff.intro (fun h => nomatch h) (fun h => absurd rfl h.1)
      · rw [signEcdsa_eq hk hp hne]
        simp only [hne, false_and, and_false, iff_false]
        cases ecAlg c.kind with
        | none => simp
        | some alg => exact signOpt_noPanic _ _
  | ed25519 key =>
    simp only
    cases hp : k.pubkey.kind with
    | rsa e n =>
      unfold PrivateKey.sign
      rw [hk, hp]
      simp
    | ecdsa e n app =>
      unfold PrivateKey.sign
      rw [hk, hp]
      simp
    | ed25519 pub app =>
      by_cases hl : 32 ≤ key.length
      · rw [signEd_eq hk hp hl]
        have : ¬ key.length < 32 := by omega
        simp only [this, false_and, iff_false]
        exact signOpt_noPanic _ _
      · unfold PrivateKey.sign
        rw [hk, hp]
        have h2 : slice key 0 32 = .panic := by
          unfold slice
          rw [if_neg (by omega)]
        simp only [h2, Res.panic_bind, true_iff]
        exact ⟨by omega, pub, app, rfl⟩
  | ecdsaSk s =>
    have e : k.sign F C D msg = PrivateKey.signSk F C D k msg := by unfold PrivateKey.sign; rw [hk]
    rw [e]
    exact signSk_panic (by rw [hk]; rfl)
  | ed25519Sk s =>
    have e : k.sign F C D msg = PrivateKey.signSk F C D k msg := by unfold PrivateKey.sign; rw [hk]
    rw [e]
    exact signSk_panic (by rw [hk]; rfl)

/-- C49: `None` for a private and a public half of different kinds, and for P-521. -/
theorem C49_none (F : Features) (C : Crypto) (D : FidoDev) (k : PrivateKey) (msg : Bytes)
    (h : (∃ c key, k.kind = .ecdsa c key ∧ ((∀ c' pub app, k.pubkey.kind ≠ .ecdsa c' pub app) ∨ c.kind = .nistp521)) ∨
      (∃ key, k.kind = .ed25519 key ∧ ∀ pub app, k.pubkey.kind ≠ .ed25519 pub app)) :
    k.sign F C D msg = .ok none := by
  rcases h with ⟨c, key, hk, h⟩ | ⟨key, hk, h⟩
  · unfold PrivateKey.sign
    rw [hk]
    rcases h with h | h
    · cases hp : k.pubkey.kind with
      | ecdsa a b d => exact absurd hp (h a b d)
      | rsa a b => dsimp only; cases c.kind <;> rfl
      | ed25519 a b => dsimp only; cases c.kind <;> rfl
    · simp only [h]
  · unfold PrivateKey.sign
    rw [hk]
    cases hp : k.pubkey.kind with
    | ed25519 a b => exact absurd hp (h a b)
    | rsa a b => rfl
    | ecdsa a b d => rfl

/-- C49: software keys of the expected shape never make `sign` panic. -/
theorem C49_wellFormed (F : Features) (C : Crypto) (D : FidoDev) (k : PrivateKey) (msg : Bytes)
    (h : match k.kind with
      | .rsa r => r.exp ≠ none ∧ r.exq ≠ none
      | .ecdsa _ key => key ≠ []
      | .ed25519 key => 32 ≤ key.length
      | _ => False) : k.sign F C D msg ≠ .panic := by
  intro hp
  have := (C49_exact F C D k msg).mp hp
  unfold SignPanics at this
  cases hk : k.kind with
  | rsa r =>
    rw [hk] at this h
    rcases this.2 with e | e
    · exact h.1 e
    · exact h.2 e
  | ecdsa c key =>
    rw [hk] at this h
    exact h this.2.1
  | ed25519 key =>
    rw [hk] at this h
    exact absurd this.1 (by simp only at h; omega)
  | ecdsaSk s => rw [hk] at h; exact h
  | ed25519Sk s => rw [hk] at h; exact h

/-- C49, finding: a key whose Ed25519 secret is shorter than 32 bytes makes `sign` panic. -/
theorem C49_short_secret : ∃ k : PrivateKey, ∀ F C D msg, k.sign F C D msg = .panic :=
  ⟨{ samplePriv with kind := .ed25519 [1, 2, 3] }, fun _ _ _ _ => rfl⟩

example : ∃ k : PrivateKey, k.kind = .ed25519 (List.replicate 32 5) ∧ 32 ≤ (List.replicate 32 (5 : UInt8)).length :=
  ⟨samplePriv, rfl, by decide⟩

end Ssh
