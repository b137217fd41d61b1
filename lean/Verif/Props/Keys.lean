import Verif.Props.PrivKey

/-! # C79–C82: key sizes, generated keys, hardware keys and short ECDSA secrets -/

namespace Ssh

open Spec

/-! ## C79 -/

theorem natOf_lower {b : UInt8} {t : Bytes} (hb : b ≠ 0) : 256 ^ t.length ≤ natOf (b :: t) := by
  have e := natOf_append [b] t
  rw [List.cons_append, List.nil_append] at e
  rw [e]
  have h : 1 ≤ natOf [b] := by
    have h1 : natOf [b] = b.toNat := by simp [natOf]
    have h2 : b.toNat ≠ 0 := fun h => hb (UInt8.toNat_inj.mp h)
    omega
  calc 256 ^ t.length = 1 * 256 ^ t.length := (Nat.one_mul _).symm
    _ ≤ natOf [b] * 256 ^ t.length := Nat.mul_le_mul_right _ h
    _ ≤ _ := Nat.le_add_right _ _

/-- C79: the reported size of an RSA key is the bit length of the modulus rounded up to a multiple of 8. -/
theorem C79_rsa (k : PublicKey) (e n : Bytes) (hk : k.kind = .rsa e n) (hs : Shortest n) :
    k.bits % 8 = 0 ∧ natOf n < 2 ^ k.bits ∧ (n ≠ [] → 2 ^ (k.bits - 8) ≤ natOf n) := by
  unfold PublicKey.bits
  rw [hk]
  have h256 : ∀ m : Nat, (2 : Nat) ^ (m * 8) = 256 ^ m := fun m => by rw [Nat.mul_comm, Nat.pow_mul]
  refine ⟨by simp, by rw [h256]; exact natOf_lt n, fun hne => ?_⟩
  match n, hne with
  | b :: t, _ =>
    have e : (b :: t).length * 8 - 8 = t.length * 8 := by rw [List.length_cons]; omega
    dsimp only
    rw [e, h256]
    exact natOf_lower (fun hb => hs (by simp [hb]))

theorem curve_bits : ∀ c ∈ curves, c.identifier = "nistp" ++ toString (match c.kind with
    | .nistp256 => 256 | .nistp384 => 384 | .nistp521 => 521 : Nat) := by decide +kernel

/-- C79: for elliptic curve keys it is the size in the curve's name; for Ed25519 256. -/
theorem C79_curve (k : PublicKey) :
    (∀ c key app, k.kind = .ecdsa c key app → c ∈ curves → c.identifier = "nistp" ++ toString k.bits) ∧
    (∀ key app, k.kind = .ed25519 key app → k.bits = 256) := by
  refine ⟨fun c key app hk hc => ?_, fun key app hk => ?_⟩
  · unfold PublicKey.bits
    rw [hk]
    exact curve_bits c hc
  · unfold PublicKey.bits
    rw [hk]

example : ∃ k e n, PublicKey.kind k = .rsa e n ∧ Shortest n ∧ natOf n < 2 ^ 9 ∧ k.bits = 16 :=
  ⟨⟨sampleRsaPriv.keyType, .rsa [1, 0, 1] [1, 2], none⟩, _, _, rfl, by unfold Shortest; decide, by decide, rfl⟩

/-! ## C80 -/

/-- C80: `PrivateKey::new` makes Ed25519 keys only, and the key it makes: the seed as secret, the public key the
primitive derives from it, the random check integer and the given comment. -/
theorem C80_new (C : Crypto) (seed : Option (Vector UInt8 32)) (magic : Option (Vector UInt8 4))
    (kind : KeyTypeKind) (comment : String) (k : PrivateKey) :
    PrivateKey.new C seed magic kind comment = .ok k ↔
      kind = .ed25519 ∧ ∃ s m pub, seed = some s ∧ magic = some m ∧ C.ed25519Pub s.toList = some pub ∧
        k.keyType ∈ keyTypes ∧ k.keyType.name = "ssh-ed25519" ∧ k.kind = .ed25519 s.toList ∧
        k.pubkey.keyType = k.keyType ∧ k.pubkey.kind = .ed25519 pub none ∧ k.pubkey.comment = none ∧
        k.magic.toNat = natOf m.toList ∧ k.comment = comment := by
  have hkt : KeyType.fromName "ssh-ed25519" = .ok ⟨"ssh-ed25519", "ssh-ed25519", "ED25519", false, false, .ed25519⟩ := by
    decide +kernel
  have hname : ∀ kt ∈ keyTypes, kt.name = "ssh-ed25519" →
      kt = ⟨"ssh-ed25519", "ssh-ed25519", "ED25519", false, false, .ed25519⟩ := by decide +kernel
  have hmem : (⟨"ssh-ed25519", "ssh-ed25519", "ED25519", false, false, .ed25519⟩ : KeyType) ∈ keyTypes := by
    decide +kernel
  have hm : ∀ m : Vector UInt8 4, (UInt32.ofNat (beNat m.toList)).toNat = natOf m.toList := by
    intro m
    have := natOf_lt m.toList
    rw [Vector.length_toList] at this
    rw [beNat_eq_natOf, UInt32.toNat_ofNat']
    exact Nat.mod_eq_of_lt this
  unfold PrivateKey.new
  cases kind with
  | ed25519 =>
    rw [hkt]
    cases seed with
    | none => simp [Res.unwrap]
    | some s =>
      cases magic with
      | none => simp [Res.unwrap]
      | some m =>
        cases hp : C.ed25519Pub s.toList with
        | none => simp [Res.unwrap, hp]
        | some pub =>
          simp only [Res.unwrap, hp, Res.ok_bind, Res.pure_eq, Res.ok.injEq, true_and]
          constructor
          · rintro rfl
            exact ⟨s, m, pub, rfl, rfl, hp, hmem, rfl, rfl, rfl, rfl, rfl, hm m, rfl⟩
          · rintro ⟨s', m', pub', e1, e2, hp', h1, h2, h3, h4, h5, h6, h7, h8⟩
            cases e1
            cases e2
            rw [hp] at hp'
            cases hp'
            obtain ⟨kt, kd, ⟨pt, pk, pc⟩, mg, cm⟩ := k
            simp only at h1 h2 h3 h4 h5 h6 h7 h8
            have := hname kt h1 h2
            subst this h3 h4 h5 h6 h8
            have : mg = UInt32.ofNat (beNat m.toList) := UInt32.toNat_inj.mp (h7.trans (hm m).symm)
            rw [this]
  | _ => simp

/-- C80: it panics exactly when the random generator or the primitive fails; other types are refused. -/
theorem C80_panic (C : Crypto) (seed : Option (Vector UInt8 32)) (magic : Option (Vector UInt8 4))
    (kind : KeyTypeKind) (comment : String) :
    (PrivateKey.new C seed magic kind comment = .panic ↔
      kind = .ed25519 ∧ ∀ s, seed = some s → magic ≠ none → C.ed25519Pub s.toList = none) ∧
    (kind ≠ .ed25519 → ∃ e, PrivateKey.new C seed magic kind comment = .err e) := by
  have hkt : KeyType.fromName "ssh-ed25519" = .ok ⟨"ssh-ed25519", "ssh-ed25519", "ED25519", false, false, .ed25519⟩ := by
    decide +kernel
  unfold PrivateKey.new
  cases kind with
  | ed25519 =>
    rw [hkt]
    refine ⟨?_, fun h => absurd rfl h⟩
    cases seed with
    | none => simp [Res.unwrap]
    | some s =>
      cases magic with
      | none => simp [Res.unwrap]
      | some m => cases hp : C.ed25519Pub s.toList <;> simp [Res.unwrap, hp]
  | _ => simp

/-- C80: a generated key is written to a file and read back unchanged, with any passphrase. -/
theorem C80_file (F : Features) (C C' : Crypto) (seed : Option (Vector UInt8 32)) (magic : Option (Vector UInt8 4))
    (kind : KeyTypeKind) (comment : String) (k : PrivateKey) (pass : Option String)
    (h : PrivateKey.new C seed magic kind comment = .ok k) (hp : ∀ s p, C.ed25519Pub s = some p → p.length = 32)
    (hl : ∀ w, k.encode = .ok w → w.length < 4294967296) (hc : comment.utf8ByteSize < 4294967296) :
    ∃ t, k.write = .ok t ∧ PrivateKey.fromStringWithPassphrase F C' t pass = .ok k := by
  obtain ⟨_, s, m, pub, _, _, h3, h4, h5, h6, h7, h8, h9, h10, h11⟩ := (C80_new _ _ _ _ _ _).mp h
  have hed : ∀ kt ∈ keyTypes, kt.name = "ssh-ed25519" → kt.kind = .ed25519 ∧ kt.isSk = false := by decide +kernel
  obtain ⟨e1, e2⟩ := hed _ h4 h5
  have hw : WellFormedPriv F.rsaSigning k := by
    refine ⟨h4, h7, by rw [h11]; exact hc, ?_⟩
    rw [h6, h8]
    exact ⟨e1, by rw [Vector.length_toList]; decide, by rw [hp _ _ h3]; decide, e2, rfl⟩
  have := C41_roundtrip F C' pass k hw hl
  rwa [C40_software k h9 (fun x => by rw [h6]; exact ⟨by simp, by simp⟩)] at this

/-- C80: signing with a generated key gives no signature or one that verifies under its public half, for
primitives that accept what they sign. -/
theorem C80_signs (F : Features) (C : Crypto) (D : FidoDev) (seed : Option (Vector UInt8 32))
    (magic : Option (Vector UInt8 4)) (kind : KeyTypeKind) (comment : String) (k : PrivateKey) (msg : Bytes)
    (h : PrivateKey.new C seed magic kind comment = .ok k) (hC : SignsCorrectly C) :
    k.sign F C D msg = .ok none ∨
      ∃ sig, k.sign F C D msg = .ok (some sig) ∧ verifySignature C sig msg k.pubkey = .ok sig := by
  obtain ⟨_, s, m, pub, _, _, _, h4, h5, h6, h7, h8, _⟩ := (C80_new _ _ _ _ _ _).mp h
  have hk : ConsistentKey k := by
    refine ⟨by rw [h7]; exact h4, ?_⟩
    rw [h6, h8]
    exact ⟨rfl, by rw [h7]; exact h5, by rw [Vector.length_toList]; decide⟩
  rcases sign_accepts (F := F) (D := D) hC hk msg with h | ⟨sig, h1, h2⟩
  · exact .inl h
  · exact .inr ⟨sig, h1, (C21_accepts _ _ _ _ _).mpr ⟨h2, rfl⟩⟩

/-- C80, what fails: a generated key never has OpenSSH's layout, in which the secret field is 64 bytes, the seed
followed by the public key. -/
theorem C80_not_openssh (C : Crypto) (seed : Option (Vector UInt8 32)) (magic : Option (Vector UInt8 4))
    (kind : KeyTypeKind) (comment : String) (k : PrivateKey)
    (h : PrivateKey.new C seed magic kind comment = .ok k) : ¬ OpenSshEd25519 k := by
  obtain ⟨_, s, m, pub, _, _, _, _, _, h6, _⟩ := (C80_new _ _ _ _ _ _).mp h
  rintro ⟨sd, pb, h1, h2, h3, _⟩
  rw [h6] at h3
  have := congrArg List.length (PrivateKeyKind.ed25519.inj h3)
  rw [Vector.length_toList, List.length_append] at this
  omega

/-- Primitives for which the public key of a seed is the seed. -/
def seedCrypto : Crypto := { signingCrypto with ed25519Pub := fun s => some s }

example : ∃ k, PrivateKey.new seedCrypto (some (Vector.replicate 32 5)) (some #v[0, 0, 1, 2]) .ed25519 "me" = .ok k ∧
    k.magic = 258 ∧ k.comment = "me" := ⟨_, rfl, rfl, rfl⟩

example : SignsCorrectly seedCrypto := signingCrypto_correct

/-! ## C81 -/

theorem hardware_labels : ∀ kt ∈ keyTypes,
    (kt.name = "sk-ssh-ed25519@openssh.com" → kt.kind = .ed25519) ∧
    (kt.name = "sk-ecdsa-sha2-nistp256@openssh.com" →
      kt.kind = .ecdsa ∧ (kt.name, EcAlg.p256, 32) ∈ ecdsaLabels) := by decide +kernel

/-- Signing with a hardware key is asking the device and writing its answer. -/
theorem signHardware_eq {F : Features} {C : Crypto} {D : FidoDev} {k : PrivateKey} {s : SkPrivateKey} {app : String} {msg : Bytes}
    (hk : HardwareKey k s app) : k.sign F C D msg = match deviceAnswer F C D s app msg with
      | .panic => .panic
      | .err e => .err e
      | .ok none => .ok none
      | .ok (some a) => PrivateKey.formatAssertion k.pubkey a := by
  have hk1 : k.kind = .ed25519Sk s ∨ k.kind = .ecdsaSk s := by
    rcases hk.2 with ⟨h, _⟩ | ⟨h, _⟩
    · exact .inl h
    · exact .inr h
  have hk2 : PrivateKey.skApplication k.pubkey.kind = some (some app) := by
    rcases hk.2 with ⟨_, _, key, h⟩ | ⟨_, _, c, key, h⟩ <;> rw [h] <;> rfl
  have hsk : PrivateKey.skFields k.kind = some s := by
    rcases hk1 with h | h <;> rw [h] <;> rfl
  have h1 : k.sign F C D msg = PrivateKey.signSk F C D k msg := by
    unfold PrivateKey.sign
    rcases hk1 with h | h <;> rw [h]
  rw [h1]
  unfold PrivateKey.signSk deviceAnswer
  cases F.fido with
  | none => rfl
  | ctapHid =>
    dsimp only
    unfold PrivateKey.signCtap
    rw [hsk, hk2]
    dsimp only
    cases D.ctapAssert app msg s.handle s.pin s.devicePath <;> rfl
  | mozilla =>
    dsimp only
    unfold PrivateKey.signMozilla
    rw [hsk, hk2]
    dsimp only
    cases D.mozAssert (C.sha256 msg) app s.handle s.pin with
    | panic => rfl
    | err e => rfl
    | ok o => cases o <;> rfl

/-- C81: signing with a hardware key asks the device once, for the application of the public half, the message and
the handle; the result is the device's refusal or failure, or, when the assertion is a correct answer for the key,
a signature that the library verifies. -/
theorem C81_verifies (F : Features) (C : Crypto) (D : FidoDev) (k : PrivateKey) (s : SkPrivateKey) (app : String)
    (msg : Bytes) (hk : HardwareKey k s app)
    (hd : ∀ a, deviceAnswer F C D s app msg = .ok (some a) → AssertionFor C k.pubkey msg a) :
    match deviceAnswer F C D s app msg with
    | .panic => k.sign F C D msg = .panic
    | .err e => k.sign F C D msg = .err e
    | .ok none => k.sign F C D msg = .ok none
    | .ok (some _) => ∃ sig, k.sign F C D msg = .ok (some sig) ∧ verifySignature C sig msg k.pubkey = .ok sig := by
  have hsign := signHardware_eq (F := F) (C := C) (D := D) (msg := msg) hk
  cases ha : deviceAnswer F C D s app msg with
  | panic => rw [ha] at hsign; exact hsign
  | err e => rw [ha] at hsign; exact hsign
  | ok o =>
    cases o with
    | none => rw [ha] at hsign; exact hsign
    | some a =>
      rw [ha] at hsign
      dsimp only at hsign ⊢
      rw [hsign]
      have had := hd a ha
      unfold AssertionFor at had
      unfold PrivateKey.formatAssertion
      obtain ⟨hkt, hk⟩ := hk
      obtain ⟨t1, t2⟩ := hardware_labels _ hkt
      rcases hk with ⟨_, hn, key, hp⟩ | ⟨_, hn, c, key, hp⟩
      · rw [hp] at had
        obtain ⟨hl, hv⟩ := had
        rw [formatSignature_ed25519 hp]
        refine ⟨_, rfl, (C21_accepts _ _ _ _ _).mpr ⟨?_, rfl⟩⟩
        refine ⟨k.pubkey.keyType.name, text k.pubkey.keyType.name, str a.signature, [a.flags] ++ u32 a.counter.toNat, [],
          by simp [u32_eq], text_table hkt, ?_⟩
        rw [hp]
        exact ⟨t1 hn, a.signature, _, by rw [hn]; decide, frame_str hl, ⟨a.flags, a.counter, rfl, rfl⟩, hv⟩
      · rw [hp] at had
        obtain ⟨r, t, cr, ct, fr, ft, hcr, hct, hder, hfr, hft, hv⟩ := had
        rw [formatSignature_ecdsa hp hder (derPositive_ne hct)]
        refine ⟨_, rfl, (C21_accepts _ _ _ _ _).mpr ⟨?_, rfl⟩⟩
        have hlen := hder.1
        obtain ⟨t3, t4⟩ := t2 hn
        have e := (accepts_ecdsa (C := C) hp t3 t4 hcr.1 hct.1 (by omega) (by omega)
          (by rw [hcr.2.1]; exact hfr) (by rw [hct.2.1]; exact hft) msg ([a.flags] ++ u32 a.counter.toNat)).mpr
          ⟨_, [a.flags] ++ u32 a.counter.toNat, [], (List.append_nil _).symm, ⟨a.flags, a.counter, rfl, rfl⟩, hv⟩
        simpa [u32_eq, List.append_assoc] using e


/-- C81: so for SSHSIG signatures: with a device that answers correctly, making one with a hardware key gives
`SigningError` or one that verifies. -/
theorem C81_sshsig (F : Features) (C : Crypto) (D : FidoDev) (k : PrivateKey) (s : SkPrivateKey) (app : String)
    (msg : Bytes) (ns : String) (hash : Option HashAlgorithm) (hk : HardwareKey k s app)
    (hd : ∀ m, ∃ o, deviceAnswer F C D s app m = .ok o ∧ ∀ a, o = some a → AssertionFor C k.pubkey m a) :
    VerifiedSshSignature.newWithPrivateKey F C D msg ns k hash = .err .signingError ∨
    ∃ v, VerifiedSshSignature.newWithPrivateKey F C D msg ns k hash = .ok v ∧ v.message = msg ∧
      v.signature.pubkey = k.pubkey ∧ v.signature.namespace_ = ns ∧
      VerifiedSshSignature.fromSshSignature C msg v.signature ns (some k.pubkey) = .ok v := by
  unfold VerifiedSshSignature.newWithPrivateKey
  simp only
  rw [toSignedFormat_eq]
  obtain ⟨o, ho, ha⟩ := hd (signedData C ns (hash.getD .sha512) msg)
  have h := C81_verifies F C D k s app (signedData C ns (hash.getD .sha512) msg) hk
    (fun a h => ha a (Res.ok.inj (ho.symm.trans h)))
  rw [ho] at h
  cases o with
  | none =>
    dsimp only at h
    rw [h]
    exact .inl rfl
  | some a =>
    obtain ⟨sig, h, hv⟩ := h
    rw [h]
    simp only [Res.ok_bind, Res.ofOption]
    right
    have e := (C35_exact C msg { pubkey := k.pubkey, namespace_ := ns, hashAlgorithm := hash.getD .sha512, signature := sig }
      ns (some k.pubkey) _).mpr ⟨rfl, fun _ h => (Option.some.inj h), ((C21_accepts _ _ _ _ _).mp hv).1, rfl⟩
    exact ⟨_, e, rfl, rfl, rfl, e⟩

/-- C81: and for certificates signed with a hardware key. -/
theorem C81_certificate (F : Features) (C : Crypto) (D : FidoDev) (k : PrivateKey) (s : SkPrivateKey) (app : String)
    (c : Certificate) (hk : HardwareKey k s app)
    (hd : ∀ m, ∃ o, deviceAnswer F C D s app m = .ok o ∧ ∀ a, o = some a → AssertionFor C k.pubkey m a)
    (hw : WellFormedCert c) (hca : c.signatureKey = k.pubkey) :
    c.sign C (k.sign F C D) = .err .signingError ∨
    ∃ c', c.sign C (k.sign F C D) = .ok c' ∧ (c'.signature.length < 4294967296 →
      ∃ c'', Certificate.fromBytes C c'.serialized = .ok c'' ∧ SameContent c'' c ∧ c''.signature = c'.signature) := by
  obtain ⟨p, pc, tbs, _, _, _, _, ht, _⟩ := tbs_wellFormed hw
  obtain ⟨o, ho, ha⟩ := hd tbs
  have h := C81_verifies F C D k s app tbs hk (fun a h => ha a (Res.ok.inj (ho.symm.trans h)))
  rw [ho] at h
  cases o with
  | none =>
    dsimp only at h
    left
    unfold Certificate.sign
    rw [ht, Res.ok_bind, h]
    rfl
  | some a =>
    right
    obtain ⟨sig, h, hv⟩ := h
    have ha := ((C21_accepts _ _ _ _ _).mp hv).1
    rw [← hca] at ha
    have e := (C28_add_signature C c _ sig).mpr ⟨tbs, ht, ha, rfl⟩
    refine ⟨{ c with signature := sig, serialized := tbs ++ (u32 sig.length ++ sig) }, ?_, ?_⟩
    · unfold Certificate.sign
      rw [ht, Res.ok_bind, h]
      exact e
    · intro hl
      obtain ⟨c'', h1, h2, _, _, _, h3⟩ := signed_parses hw ht ha hl []
      rw [List.append_nil] at h1
      exact ⟨c'', h1, h2, h3⟩

/-- A device that answers every request with `r = s = 1`. -/
def sampleDevice : FidoDev where
  ctapAssert := fun _ _ _ _ _ => some ⟨[0x30, 6, 2, 1, 1, 2, 1, 1], 5, 77⟩
  mozAssert := fun _ _ _ _ => .ok (some ⟨[0x30, 6, 2, 1, 1, 2, 1, 1], 5, 77⟩)

example : HardwareKey sampleSkPriv ⟨1, [1, 2, 3, 4], [0, 0], some "1234", none⟩ "ssh:" :=
  ⟨by decide +kernel, .inr ⟨rfl, rfl, _, _, rfl⟩⟩

example (m : Bytes) : ∃ o, deviceAnswer ⟨true, true, .mozilla⟩ laxCrypto sampleDevice
      ⟨1, [1, 2, 3, 4], [0, 0], some "1234", none⟩ "ssh:" m = .ok o ∧
    ∀ a, o = some a → AssertionFor laxCrypto sampleSkPriv.pubkey m a := by
  refine ⟨_, rfl, fun a h => ?_⟩
  cases h
  refine ⟨1, 1, [1], [1], List.replicate 31 0 ++ [1], List.replicate 31 0 ++ [1], ?_, ?_, ?_, ?_, ?_, ?_⟩
  · exact ⟨.plain 1 [] (by decide) (by decide), by decide, by decide⟩
  · exact ⟨.plain 1 [] (by decide) (by decide), by decide, by decide⟩
  · exact ⟨by decide, by decide⟩
  · exact ⟨by decide, by decide⟩
  · exact ⟨by decide, by decide⟩
  · rfl

/-! ## C82 -/

/-- The secret integer without leading zero bytes. -/
theorem dropZero_spec {key : Bytes} (h : MpintPayload key) : Shortest (dropZero key) ∧ natOf (dropZero key) = natOf key := by
  cases h with
  | zero => exact ⟨by simp [Shortest, dropZero], rfl⟩
  | plain b bs h0 h1 =>
    have e : dropZero (b :: bs) = b :: bs := if_neg h0
    rw [e]
    exact ⟨by simpa [Shortest] using h0, rfl⟩
  | padded b bs h =>
    have e : dropZero (0 :: b :: bs) = b :: bs := by simp [dropZero]
    rw [e]
    refine ⟨?_, by simp [natOf]⟩
    intro h'
    simp at h'
    subst h'
    exact absurd h (by decide)

theorem signEcdsa_match (F : Features) (C : Crypto) (D : FidoDev) (k : PrivateKey) (curve c : Curve) (key pub : Bytes)
    (app : Option String) (hk : k.kind = .ecdsa curve key) (hp : k.pubkey.kind = .ecdsa c pub app) (hm : MpintPayload key)
    (hne : key ≠ []) (msg : Bytes) :
    ∃ secret, Shortest secret ∧ natOf secret = natOf key ∧
      ∀ alg, ecAlg curve.kind = some alg → k.sign F C D msg =
        (match C.ecdsaSign alg secret pub msg with
         | none => .ok none
         | some sig => formatSignatureForSsh k.pubkey sig) := by
  refine ⟨dropZero key, (dropZero_spec hm).1, (dropZero_spec hm).2, fun alg h => ?_⟩
  rw [signEcdsa_eq hk hp hne, h]
  dsimp only
  cases C.ecdsaSign alg (dropZero key) pub msg <;> rfl

/-- C82: what the ECDSA primitive is given for a stored secret (an `mpint`): the curve of the key, the shortest
big-endian form of the secret integer and the public point.  Its answer, in SSH form, is the signature. -/
theorem C82_secret (F : Features) (C : Crypto) (D : FidoDev) (k : PrivateKey) (curve c : Curve) (key pub : Bytes)
    (app : Option String) (hk : k.kind = .ecdsa curve key) (hp : k.pubkey.kind = .ecdsa c pub app) (hm : MpintPayload key)
    (hne : key ≠ []) (msg : Bytes) :
    ∃ secret, Shortest secret ∧ natOf secret = natOf key ∧
      ∀ alg, ecAlg curve.kind = some alg → ∃ o, k.sign F C D msg = .ok o ∧
        ∀ blob, o = some blob ↔ ∃ sig, C.ecdsaSign alg secret pub msg = some sig ∧ SshForm k.pubkey sig blob := by
  obtain ⟨secret, h1, h2, h3⟩ := signEcdsa_match F C D k curve c key pub app hk hp hm hne msg
  refine ⟨secret, h1, h2, fun alg ha => ?_⟩
  rw [h3 alg ha]
  cases C.ecdsaSign alg secret pub msg with
  | none => exact ⟨none, rfl, by simp⟩
  | some sig =>
    obtain ⟨o, h4, h5⟩ := C51_exact k.pubkey sig
    exact ⟨o, h4, by simpa using h5⟩

/-- C82, what fails: with a primitive that wants the secret at the full width of the curve (an assumption; ring
is believed to behave so), no key whose secret integer is short can sign, although the key is valid. -/
theorem C82_short (F : Features) (C : Crypto) (D : FidoDev) (k : PrivateKey) (curve c : Curve) (key pub : Bytes)
    (app : Option String) (alg : EcAlg) (hk : k.kind = .ecdsa curve key) (hp : k.pubkey.kind = .ecdsa c pub app)
    (hm : MpintPayload key) (hne : key ≠ []) (ha : ecAlg curve.kind = some alg) (msg : Bytes)
    (hC : ∀ secret m sig, C.ecdsaSign alg secret pub m = some sig → secret.length = ecWidth alg)
    (hs : natOf key < 256 ^ (ecWidth alg - 1)) : k.sign F C D msg = .ok none := by
  obtain ⟨secret, h1, h2, h3⟩ := signEcdsa_match F C D k curve c key pub app hk hp hm hne msg
  rw [h3 alg ha]
  cases hsig : C.ecdsaSign alg secret pub msg with
  | none => rfl
  | some sig =>
    exfalso
    have hl := hC _ _ _ hsig
    rw [← h2] at hs
    match secret, hl with
    | [], hl => cases alg <;> cases hl
    | b :: t, hl =>
      have := natOf_lower (t := t) (fun hb : b = 0 => h1 (by simp [hb]))
      rw [List.length_cons] at hl
      rw [← hl, Nat.add_sub_cancel] at hs
      omega

/-- C82: a secret of full size reaches the primitive at exactly the width of the curve. -/
theorem C82_full (F : Features) (C : Crypto) (D : FidoDev) (k : PrivateKey) (curve c : Curve) (key pub : Bytes)
    (app : Option String) (alg : EcAlg) (hk : k.kind = .ecdsa curve key) (hp : k.pubkey.kind = .ecdsa c pub app)
    (hm : MpintPayload key) (ha : ecAlg curve.kind = some alg) (msg : Bytes)
    (hs : 256 ^ (ecWidth alg - 1) ≤ natOf key) (hs' : natOf key < 256 ^ ecWidth alg) :
    ∃ secret o, NatWidth (ecWidth alg) (natOf key) secret ∧ k.sign F C D msg = .ok o ∧
      ∀ blob, o = some blob ↔ ∃ sig, C.ecdsaSign alg secret pub msg = some sig ∧ SshForm k.pubkey sig blob := by
  have hne : key ≠ [] := by
    rintro rfl
    simp [natOf] at hs
  obtain ⟨secret, h1, h2, h3⟩ := C82_secret F C D k curve c key pub app hk hp hm hne msg
  obtain ⟨o, h3, h4⟩ := h3 alg ha
  refine ⟨secret, o, ⟨?_, h2⟩, h3, h4⟩
  rw [← h2] at hs hs'
  have hw : 0 < ecWidth alg := by cases alg <;> decide
  match secret with
  | [] =>
    simp [natOf] at hs
  | b :: t =>
    have l1 := natOf_lower (t := t) (fun hb : b = 0 => h1 (by simp [hb]))
    have l2 := natOf_lt (b :: t)
    have a1 : 256 ^ t.length < 256 ^ ecWidth alg := Nat.lt_of_le_of_lt l1 hs'
    have a2 : 256 ^ (ecWidth alg - 1) < 256 ^ (b :: t).length := Nat.lt_of_le_of_lt hs l2
    have a1 := (Nat.pow_lt_pow_iff_right (by decide)).mp a1
    have a2 := (Nat.pow_lt_pow_iff_right (by decide)).mp a2
    rw [List.length_cons] at *
    omega

/-- Primitives that want secrets at full width. -/
def strictCrypto : Crypto :=
  { signingCrypto with ecdsaSign := fun alg secret _ _ =>
      if secret.length = ecWidth alg then some [0x30, 6, 2, 1, 1, 2, 1, 1] else none }

/-- `sampleEcPriv` has the secret 200, a valid secret for the curve. -/
example : ∃ curve c key pub app, sampleEcPriv.kind = .ecdsa curve key ∧ sampleEcPriv.pubkey.kind = .ecdsa c pub app ∧
    MpintPayload key ∧ ecAlg curve.kind = some .p256 ∧ natOf key = 200 :=
  ⟨_, _, _, _, _, rfl, rfl, .padded 200 [] (by decide), rfl, by decide⟩

example (pub secret m sig : Bytes) (h : strictCrypto.ecdsaSign .p256 secret pub m = some sig) :
    secret.length = ecWidth .p256 := by
  unfold strictCrypto at h
  simp only at h
  split at h
  · assumption
  · cases h

/-- A key whose secret has the full 32 bytes signs with them. -/
example : (match ({ sampleEcPriv with kind := .ecdsa ⟨.nistp256, "nistp256"⟩ (7 :: List.replicate 31 1) }).sign
      ⟨true, true, .none⟩ strictCrypto sampleDevice [1] with | .ok (some _) => true | _ => false) = true ∧
    MpintPayload (7 :: List.replicate 31 1) ∧ 256 ^ 31 ≤ natOf (7 :: List.replicate 31 1) :=
  ⟨by decide +kernel, .plain _ _ (by decide) (by decide), by decide +kernel⟩

/-! ## C83 -/

/-- C83: what an RSA key loaded from a file signs with.  The signing primitive is given the PKCS#1 form of the
key's modulus, exponents, primes and coefficient and of `d mod (p-1)` and `d mod (q-1)`; its answer becomes the
signature and its refusal becomes `None`. -/
theorem C83_pkcs1 (F : Features) (C : Crypto) (D : FidoDev) (pass : Option String) (t : List Char) (k : PrivateKey)
    (r : RsaPrivateKey) (hF : F.rsaSigning = true)
    (h : PrivateKey.fromStringWithPassphrase F C t pass = .ok k) (hk : k.kind = .rsa r) :
    ∃ der, Pkcs1 (natOf r.n) (natOf r.e) (natOf r.d) (natOf r.p) (natOf r.q) (natOf r.d % (natOf r.p - 1))
        (natOf r.d % (natOf r.q - 1)) (natOf r.coefficient) der ∧
      ∀ msg, (C.rsaSign der msg = none → k.sign F C D msg = .ok none) ∧
        ∀ s, C.rsaSign der msg = some s → k.sign F C D msg = .ok (some (text "rsa-sha2-512" ++ str s)) := by
  obtain ⟨hp, h1, _⟩ := C48_crt F C pass t k r h hk
  obtain ⟨_, _, x, y, hx, hy, hxn, hyn⟩ := h1 hF
  obtain ⟨der, h2, h3⟩ := rsaToDer_spec hx hy
  rw [hxn.1, hyn.1] at h3
  refine ⟨der, h3, fun msg => ?_⟩
  rw [signRsa_eq hk h2, if_pos hF]
  refine ⟨fun e => by rw [e]; rfl, fun s e => ?_⟩
  rw [e]
  exact formatSignature_rsa hp s

/-- C83: that form determines the numbers (for every key that fits in memory). -/
theorem C83_unique (n e d p q dp dq qinv n' e' d' p' q' dp' dq' qinv' : Nat) (der : Bytes) (hl : der.length < 256 ^ 8)
    (h : Pkcs1 n e d p q dp dq qinv der) (h' : Pkcs1 n' e' d' p' q' dp' dq' qinv' der) :
    n = n' ∧ e = e' ∧ d = d' ∧ p = p' ∧ q = q' ∧ dp = dp' ∧ dq = dq' ∧ qinv = qinv' := by
  obtain ⟨l, v, w1, w2, w3, w4, w5, w6, w7, w8, rfl, hlen, hv, h1, h2, h3, h4, h5, h6, h7, h8⟩ := h
  obtain ⟨l', v', w1', w2', w3', w4', w5', w6', w7', w8', ed, hlen', hv', h1', h2', h3', h4', h5', h6', h7', h8'⟩ := h'
  have hl' := hl
  rw [ed] at hl'
  simp only [List.length_append] at hl hl'
  simp only [List.cons_append, List.nil_append, List.cons.injEq, true_and] at ed
  obtain ⟨_, e0⟩ := derLength_unique hlen hlen' (by simp only [List.length_append]; omega)
    (by simp only [List.length_append]; omega) ed
  obtain ⟨_, e1⟩ := derInteger_unique hv hv' (by omega) (by omega) e0
  obtain ⟨r1, e2⟩ := derInteger_unique h1 h1' (by omega) (by omega) e1
  obtain ⟨r2, e3⟩ := derInteger_unique h2 h2' (by omega) (by omega) e2
  obtain ⟨r3, e4⟩ := derInteger_unique h3 h3' (by omega) (by omega) e3
  obtain ⟨r4, e5⟩ := derInteger_unique h4 h4' (by omega) (by omega) e4
  obtain ⟨r5, e6⟩ := derInteger_unique h5 h5' (by omega) (by omega) e5
  obtain ⟨r6, e7⟩ := derInteger_unique h6 h6' (by omega) (by omega) e6
  obtain ⟨r7, e8⟩ := derInteger_unique h7 h7' (by omega) (by omega) e7
  rw [← List.append_nil w8, ← List.append_nil w8'] at e8
  obtain ⟨r8, _⟩ := derInteger_unique h8 h8' (by omega) (by omega) e8
  exact ⟨r1, r2, r3, r4, r5, r6, r7, r8⟩

-- A loaded RSA key (the hypotheses of `C83_pkcs1`), and the bytes for a key with a modulus of 200 bytes.
example : ∃ t k r, PrivateKey.fromStringWithPassphrase ⟨true, true, .none⟩ laxCrypto t none = .ok k ∧ k.kind = .rsa r := by
  obtain ⟨t, _, h⟩ := C41_roundtrip ⟨true, true, .none⟩ laxCrypto none sampleRsaPriv sampleRsaPriv_wf (fun w h => by
    have e : sampleRsaPriv.encode = .ok (okOf [] sampleRsaPriv.encode) := okOf_eq (d := []) (by decide +kernel)
    rw [e] at h
    rw [← Res.ok.inj h]
    decide +kernel)
  exact ⟨t, _, _, h, rfl⟩

example : (okOf [] (rsaToDer ⟨0x81 :: List.replicate 199 7, [1, 0, 1], [5], [3], [11], [13], some [5], some [0]⟩)).take 10 =
    [0x30, 0x81, 0xe6, 2, 1, 0, 2, 0x81, 0xc9, 0] := by decide +kernel

end Ssh
