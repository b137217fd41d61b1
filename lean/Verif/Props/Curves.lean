import Verif.Lemmas.Curves
import Verif.Concrete.Ed25519
import Verif.Props.Keys
import Verif.Props.SshSig
import Verif.Props.Policy
import Verif.Props.PrivText
import Verif.Props.EndToEnd

/-! # C146: the numbers of elliptic curve keys give signatures that verify -/

namespace Ssh

open Spec

variable {E : Type} [AddCommGroup E]

theorem dropZero_cases (key : Bytes) : ∀ f, dropZero key = f ∧ key ≠ [] ↔ key ≠ [] ∧ (key = f ∧ key.head? ≠ some 0 ∨ key = 0 :: f) := by
  intro f
  cases key with
  | nil => simp
  | cons b t =>
    by_cases hb : b = 0
    · subst hb
      simp [dropZero]
    · simp [dropZero, hb]

theorem ecPair_iff {alg : EcAlg} {c : EcDomain E} {key pub : Bytes} (hne : key ≠ []) : EcPair alg c key pub ↔
    ∃ d, NatWidth (ecWidth alg) d (dropZero key) ∧ 0 < d ∧ d < c.order ∧ c.decode pub = some (d • c.base) := by
  constructor
  · rintro ⟨d, f, h1, h2, h3⟩
    have := ((dropZero_cases key f).mpr ⟨hne, h1⟩).1
    exact ⟨d, by rw [this]; exact h2, h3⟩
  · rintro ⟨d, h2, h3⟩
    exact ⟨d, _, ((dropZero_cases key _).mp ⟨rfl, hne⟩).2, h2, h3⟩

/-- C146: an ECDSA key signs exactly if its halves belong together and its secret needs all its bytes; the public half
accepts every signature it makes.  The primitives are those of FIPS 186-5 on any curve. -/
theorem C146_ecdsa (F : Features) (C : Crypto) (D : FidoDev) (alg : EcAlg) (c : EcDomain E) (hs : SignsEcdsa C alg c)
    (hv : VerifiesEcdsa C alg c) (hn : c.order ≤ 256 ^ ecWidth alg) (k : PrivateKey) (curve cp : Curve) (key pub : Bytes)
    (hk : k.kind = .ecdsa curve key) (hp : k.pubkey.kind = .ecdsa cp pub none) (hkt : k.pubkey.keyType ∈ keyTypes)
    (hc : curve ∈ curves) (hname : k.pubkey.keyType.name = "ecdsa-sha2-" ++ curve.identifier) (ha : ecAlg curve.kind = some alg)
    (hne : key ≠ []) (msg : Bytes) :
    ((∃ sig, k.sign F C D msg = .ok (some sig)) ↔ EcPair alg c key pub) ∧
    (¬ EcPair alg c key pub → k.sign F C D msg = .ok none) ∧
    ∀ sig, k.sign F C D msg = .ok (some sig) → verifySignature C sig msg k.pubkey = .ok sig := by
  obtain ⟨s1, s2⟩ := hs (dropZero key) pub msg
  have heq := signEcdsa_eq (F := F) (C := C) (D := D) hk hp hne msg
  rw [ha] at heq
  dsimp only at heq
  obtain ⟨t1, t2, t3⟩ := table_curve _ hkt _ hc hname
  have hlab : (k.pubkey.keyType.name, alg, ecWidth alg) ∈ ecdsaLabels := by
    cases hck : curve.kind with
    | nistp256 => rw [hck] at ha; cases ha; exact t2 hck
    | nistp384 => rw [hck] at ha; cases ha; exact t3 hck
    | nistp521 => rw [hck] at ha; cases ha
  cases hsg : C.ecdsaSign alg (dropZero key) pub msg with
  | none =>
    have hno : ¬ EcPair alg c key pub := by
      rw [ecPair_iff hne, s1, hsg]
      simp
    rw [hsg] at heq
    refine ⟨?_, fun _ => heq, ?_⟩
    · rw [heq]
      simp [signOpt, hno]
    · rw [heq]
      intro sig h
      cases h
  | some der =>
    have hpair := s1.mpr ⟨der, hsg⟩
    have hyes : EcPair alg c key pub := (ecPair_iff hne).mpr hpair
    obtain ⟨d, hw, hd0, hdn, hdec⟩ := hpair
    obtain ⟨r, s, cr, cs, hsig, hcr, hcs, hd⟩ := s2 der hsg
    rw [hsg] at heq
    have hform : k.sign F C D msg = .ok (some (text k.pubkey.keyType.name ++ str (str cr ++ str cs))) :=
      heq.trans (formatSignature_ecdsa hp hd (derPositive_ne hcs))
    have hval := ecdsa_valid c hsig
    refine ⟨⟨fun _ => hyes, fun _ => ⟨_, hform⟩⟩, fun h => absurd hyes h, fun sig h => ?_⟩
    rw [hform] at h
    cases h
    rw [C21_accepts]
    refine ⟨?_, rfl⟩
    have hl := hd.1
    have hfr : NatWidth (ecWidth alg) r (beBytes (ecWidth alg) r) := ⟨beBytes_length _ _, by
      rw [natOf_beBytes]; exact Nat.mod_eq_of_lt (Nat.lt_of_lt_of_le hval.2.1 hn)⟩
    have hfs : NatWidth (ecWidth alg) s (beBytes (ecWidth alg) s) := ⟨beBytes_length _ _, by
      rw [natOf_beBytes]; exact Nat.mod_eq_of_lt (Nat.lt_of_lt_of_le hval.2.2.2.1 hn)⟩
    have e := (accepts_ecdsa (C := C) hp t1 hlab hcr.1 hcs.1 (by omega) (by omega)
      (by rw [hcr.2.1]; exact hfr) (by rw [hcs.2.1]; exact hfs) msg []).mpr ⟨msg, [], [], rfl, ⟨rfl, rfl⟩,
        (hv _ _ _).mpr ⟨_, r, s, _, _, hdec, rfl, hfr, hfs, by rw [hw.2] at hval; exact hval⟩⟩
    rw [List.append_nil] at e
    exact e

/-- C146: an Ed25519 key signs exactly if the public key belongs to its seed, and the public half accepts the signature.  The
primitives are those of RFC 8032 on any curve. -/
theorem C146_ed25519 (F : Features) (C : Crypto) (D : FidoDev) (c : EdDomain E) (hs : SignsEd25519 C c) (hv : VerifiesEd25519 C c)
    (k : PrivateKey) (key pub : Bytes) (hk : k.kind = .ed25519 key) (hp : k.pubkey.kind = .ed25519 pub none)
    (hkt : k.pubkey.keyType ∈ keyTypes) (hname : k.pubkey.keyType.name = "ssh-ed25519") (hl : 32 ≤ key.length) (msg : Bytes) :
    ((∃ sig, k.sign F C D msg = .ok (some sig)) ↔ pub = edPublic C c (key.take 32)) ∧
    (pub ≠ edPublic C c (key.take 32) → k.sign F C D msg = .ok none) ∧
    ∀ sig, k.sign F C D msg = .ok (some sig) → verifySignature C sig msg k.pubkey = .ok sig := by
  have hlen : (key.take 32).length = 32 := by rw [List.length_take]; omega
  have heq := signEd_eq (F := F) (C := C) (D := D) hk hp hl msg
  cases hsg : C.ed25519Sign (key.take 32) pub msg with
  | none =>
    have hno : pub ≠ edPublic C c (key.take 32) := by
      intro h
      obtain ⟨s, hs'⟩ := edSignature_exists (C := C) c (key.take 32) msg
      rw [(hs _ _ _ _).mpr ⟨hlen, h, hs'⟩] at hsg
      cases hsg
    rw [hsg] at heq
    refine ⟨?_, fun _ => heq, ?_⟩
    · rw [heq]
      simp [signOpt, hno]
    · rw [heq]
      intro sig h
      cases h
  | some s =>
    obtain ⟨_, h1, h2⟩ := (hs _ _ _ _).mp hsg
    rw [hsg] at heq
    have hform : k.sign F C D msg = .ok (some (text k.pubkey.keyType.name ++ str s)) :=
      heq.trans (formatSignature_ed25519 hp s)
    refine ⟨⟨fun _ => h1, fun _ => ⟨_, hform⟩⟩, fun h => absurd h1 h, fun sig h => ?_⟩
    rw [hform] at h
    cases h
    rw [C21_accepts]
    refine ⟨accepts_ed25519 hp hkt hname (by rw [edSignature_length h2]; decide) ((hv _ _ _).mpr ?_), rfl⟩
    rw [h1]
    exact ed_valid c h2

/-- A signature that verifies becomes an SSHSIG signature that is accepted. -/
theorem sshsig_of_sign {F : Features} {C : Crypto} {D : FidoDev} {k : PrivateKey} {msg sig : Bytes} {ns : String}
    {hash : Option HashAlgorithm} (h1 : k.sign F C D (signedData C ns (hash.getD .sha512) msg) = .ok (some sig))
    (h2 : verifySignature C sig (signedData C ns (hash.getD .sha512) msg) k.pubkey = .ok sig) :
    ∃ v, VerifiedSshSignature.newWithPrivateKey F C D msg ns k hash = .ok v ∧ v.message = msg ∧ v.signature.pubkey = k.pubkey ∧
      v.signature.namespace_ = ns ∧ VerifiedSshSignature.fromSshSignature C msg v.signature ns (some k.pubkey) = .ok v := by
  have ha := ((C21_accepts ..).mp h2).1
  unfold VerifiedSshSignature.newWithPrivateKey
  simp only
  rw [toSignedFormat_eq, h1]
  simp only [Res.ok_bind, Res.ofOption]
  have e := (C35_exact C msg { pubkey := k.pubkey, namespace_ := ns, hashAlgorithm := hash.getD .sha512, signature := sig }
    ns (some k.pubkey) _).mpr ⟨rfl, fun _ h => (Option.some.inj h), ha, rfl⟩
  exact ⟨_, e, rfl, rfl, rfl, e⟩

theorem sshsig_none {F : Features} {C : Crypto} {D : FidoDev} {k : PrivateKey} {msg : Bytes} {ns : String}
    {hash : Option HashAlgorithm} (h : k.sign F C D (signedData C ns (hash.getD .sha512) msg) = .ok none) :
    VerifiedSshSignature.newWithPrivateKey F C D msg ns k hash = .err .signingError := by
  unfold VerifiedSshSignature.newWithPrivateKey
  simp only
  rw [toSignedFormat_eq, h]
  rfl

/-- C146: an ECDSA key makes an SSHSIG signature exactly if its halves belong together; otherwise the error says that
signing failed.  The signature is accepted as one of its namespace. -/
theorem C146_sshsig_ecdsa (F : Features) (C : Crypto) (D : FidoDev) (alg : EcAlg) (c : EcDomain E) (hs : SignsEcdsa C alg c)
    (hv : VerifiesEcdsa C alg c) (hn : c.order ≤ 256 ^ ecWidth alg) (k : PrivateKey) (curve cp : Curve) (key pub : Bytes)
    (hk : k.kind = .ecdsa curve key) (hp : k.pubkey.kind = .ecdsa cp pub none) (hkt : k.pubkey.keyType ∈ keyTypes)
    (hc : curve ∈ curves) (hname : k.pubkey.keyType.name = "ecdsa-sha2-" ++ curve.identifier) (ha : ecAlg curve.kind = some alg)
    (hne : key ≠ []) (msg : Bytes) (ns : String) (hash : Option HashAlgorithm) :
    (EcPair alg c key pub → ∃ v, VerifiedSshSignature.newWithPrivateKey F C D msg ns k hash = .ok v ∧ v.message = msg ∧
      v.signature.pubkey = k.pubkey ∧ v.signature.namespace_ = ns ∧
      VerifiedSshSignature.fromSshSignature C msg v.signature ns (some k.pubkey) = .ok v) ∧
    (¬ EcPair alg c key pub → VerifiedSshSignature.newWithPrivateKey F C D msg ns k hash = .err .signingError) := by
  obtain ⟨h1, h2, h3⟩ := C146_ecdsa F C D alg c hs hv hn k curve cp key pub hk hp hkt hc hname ha hne (signedData C ns (hash.getD .sha512) msg)
  refine ⟨fun h => ?_, fun h => sshsig_none (h2 h)⟩
  obtain ⟨sig, e⟩ := h1.mpr h
  exact sshsig_of_sign e (h3 sig e)

/-- C146: the same for Ed25519. -/
theorem C146_sshsig_ed25519 (F : Features) (C : Crypto) (D : FidoDev) (c : EdDomain E) (hs : SignsEd25519 C c) (hv : VerifiesEd25519 C c)
    (k : PrivateKey) (key pub : Bytes) (hk : k.kind = .ed25519 key) (hp : k.pubkey.kind = .ed25519 pub none)
    (hkt : k.pubkey.keyType ∈ keyTypes) (hname : k.pubkey.keyType.name = "ssh-ed25519") (hl : 32 ≤ key.length) (msg : Bytes)
    (ns : String) (hash : Option HashAlgorithm) :
    (pub = edPublic C c (key.take 32) → ∃ v, VerifiedSshSignature.newWithPrivateKey F C D msg ns k hash = .ok v ∧ v.message = msg ∧
      v.signature.pubkey = k.pubkey ∧ v.signature.namespace_ = ns ∧
      VerifiedSshSignature.fromSshSignature C msg v.signature ns (some k.pubkey) = .ok v) ∧
    (pub ≠ edPublic C c (key.take 32) → VerifiedSshSignature.newWithPrivateKey F C D msg ns k hash = .err .signingError) := by
  obtain ⟨h1, h2, h3⟩ := C146_ed25519 F C D c hs hv k key pub hk hp hkt hname hl (signedData C ns (hash.getD .sha512) msg)
  refine ⟨fun h => ?_, fun h => sshsig_none (h2 h)⟩
  obtain ⟨sig, e⟩ := h1.mpr h
  exact sshsig_of_sign e (h3 sig e)

/-- C146: keys are made from every seed, and every key that is made signs every message with a signature that its public
half accepts. -/
theorem C146_generated (F : Features) (C : Crypto) (D : FidoDev) (c : EdDomain E) (hs : SignsEd25519 C c) (hv : VerifiesEd25519 C c)
    (hpub : PublicEd25519 C c) (comment : String) :
    (∀ s m, ∃ k, PrivateKey.new C (some s) (some m) .ed25519 comment = .ok k) ∧
    ∀ seed magic kind k, PrivateKey.new C seed magic kind comment = .ok k → ∀ msg,
      ∃ sig, k.sign F C D msg = .ok (some sig) ∧ verifySignature C sig msg k.pubkey = .ok sig := by
  have hlen : ∀ s : Vector UInt8 32, s.toList.length = 32 := fun s => by simp
  constructor
  · intro s m
    have hp := (hpub s.toList _).mpr ⟨hlen s, rfl⟩
    have hkt : KeyType.fromName "ssh-ed25519" = .ok ⟨"ssh-ed25519", "ssh-ed25519", "ED25519", false, false, .ed25519⟩ := by
      decide +kernel
    unfold PrivateKey.new
    simp only [hkt, Res.ok_bind, Res.unwrap, hp]
    exact ⟨_, rfl⟩
  · intro seed magic kind k h msg
    obtain ⟨_, s, m, pub, _, _, h1, h2, h3, h4, h5, h6, _⟩ := (C80_new ..).mp h
    obtain ⟨_, h7⟩ := (hpub _ _).mp h1
    obtain ⟨e1, _, e3⟩ := C146_ed25519 F C D c hs hv k s.toList pub h4 h6 (by rw [h5]; exact h2) (by rw [h5]; exact h3)
      (by rw [hlen]) msg
    obtain ⟨sig, e⟩ := e1.mpr (by rw [List.take_of_length_le (by rw [hlen])]; exact h7)
    exact ⟨sig, e, e3 sig e⟩

/-- C146: if the authenticator signs with the secret of the public key, its answers become signatures that verify. -/
theorem C146_hardware {E' : Type} [AddCommGroup E'] (F : Features) (C : Crypto) (D : FidoDev) (c : EcDomain E) (c' : EdDomain E')
    (hv : VerifiesEcdsa C .p256 c) (hn : c.order ≤ 256 ^ 32) (hv' : VerifiesEd25519 C c') (k : PrivateKey) (s : SkPrivateKey)
    (app : String) (msg : Bytes) (hk : HardwareKey k s app)
    (hd : ∀ a, deviceAnswer F C D s app msg = .ok (some a) → MadeBy C c c' k.pubkey msg a) (a : Assertion)
    (ha : deviceAnswer F C D s app msg = .ok (some a)) :
    ∃ sig, k.sign F C D msg = .ok (some sig) ∧ verifySignature C sig msg k.pubkey = .ok sig := by
  have := C81_verifies F C D k s app msg hk (fun a h => by
    have hm := hd a h
    unfold MadeBy at hm
    unfold AssertionFor
    split at hm
    · rename_i hkind
      obtain ⟨seed, rfl, hm⟩ := hm
      simp only [hkind]
      exact ⟨by rw [edSignature_length hm]; decide, (hv' _ _ _).mpr (ed_valid c' hm)⟩
    · rename_i hkind
      obtain ⟨d, r, s', cr, cs, hdec, hsig, h1, h2, h3⟩ := hm
      simp only [hkind]
      have hval := ecdsa_valid c hsig
      have hw : ∀ x, x < c.order → NatWidth 32 x (beBytes 32 x) := fun x hx => ⟨beBytes_length _ _, by
        rw [natOf_beBytes]; exact Nat.mod_eq_of_lt (Nat.lt_of_lt_of_le hx hn)⟩
      have w1 := hw r hval.2.1
      have w2 := hw s' hval.2.2.2.1
      exact ⟨r, s', cr, cs, _, _, h1, h2, h3, w1, w2, (hv _ _ _).mpr ⟨_, r, s', _, _, hdec, rfl, w1, w2, hval⟩⟩
    · exact hm.elim)
  rw [ha] at this
  exact this

/-! ### Real P-256 -/

/-- The secret of RFC 6979, A.2.5. -/
def rfcSecret : Bytes := Concrete.natBytes 32 0xC9AFA9D845BA75166B5C215767B1D6934E50C3DB36E89B127B8A622B120F6721

def otherSecret : Bytes := Concrete.natBytes 32 0xC9AFA9D845BA75166B5C215767B1D6934E50C3DB36E89B127B8A622B120F6722

/-- Its key, as stored. -/
def rfcEcPriv : PrivateKey where
  keyType := ⟨"ecdsa-sha2-nistp256", "ecdsa-sha2-nistp256", "ECDSA", false, false, .ecdsa⟩
  kind := .ecdsa ⟨.nistp256, "nistp256"⟩ (0 :: rfcSecret)
  pubkey := ⟨⟨"ecdsa-sha2-nistp256", "ecdsa-sha2-nistp256", "ECDSA", false, false, .ecdsa⟩,
    .ecdsa ⟨.nistp256, "nistp256"⟩ Concrete.rfcK256 none, none⟩
  magic := 1
  comment := ""

/-- Its halves belong together on the curve P-256. -/
theorem rfcEc_pair : EcPair .p256 Concrete.p256_good.domain
    (0 :: rfcSecret) Concrete.rfcK256 := by
  rw [ecPair_iff (by simp)]
  refine (Concrete.p256_signs [] _ _ []).1.mpr ?_
  refine ⟨Concrete.ecdsaSign Concrete.p256 rfcSecret
    Concrete.rfcK256 [] |>.getD [], ?_⟩
  decide +kernel

/-- With another secret they do not. -/
theorem otherEc_pair : ¬ EcPair .p256 Concrete.p256_good.domain
    (0 :: otherSecret) Concrete.rfcK256 := by
  rw [ecPair_iff (by simp)]
  intro h
  obtain ⟨sig, h⟩ := (Concrete.p256_signs [] _ _ []).1.mp h
  have e : Concrete.ecdsaSign Concrete.p256 otherSecret
    Concrete.rfcK256 [] = none := by decide +kernel
  rw [Concrete.p256_sign, show dropZero (0 :: otherSecret) = otherSecret from rfl, e] at h
  cases h

theorem p256_width : Concrete.p256_good.domain.order ≤ 256 ^ ecWidth .p256 := by
  show Concrete.p256.n ≤ 256 ^ 32
  decide +kernel

/-- The key signs every message, with the real P-256 and SHA-256, and the signatures verify. -/
example (D : FidoDev) (msg : Bytes) : ∃ sig, rfcEcPriv.sign ⟨true, true, .none⟩ (Concrete.realCrypto []) D msg = .ok (some sig) ∧
    verifySignature (Concrete.realCrypto []) sig msg rfcEcPriv.pubkey = .ok sig := by
  obtain ⟨h1, _, h3⟩ := C146_ecdsa ⟨true, true, .none⟩ (Concrete.realCrypto []) D .p256 Concrete.p256_good.domain (Concrete.p256_signs [])
    (Concrete.p256_verifies []) p256_width rfcEcPriv _ _ _ _ rfl rfl (by decide +kernel) (by decide +kernel) rfl rfl (by simp) msg
  obtain ⟨sig, e⟩ := h1.mpr rfcEc_pair
  exact ⟨sig, e, h3 sig e⟩

/-- It makes SSHSIG signatures, and with another secret it does not. -/
example (D : FidoDev) (msg : Bytes) :
    (∃ v, VerifiedSshSignature.newWithPrivateKey ⟨true, true, .none⟩ (Concrete.realCrypto []) D msg "git" rfcEcPriv none = .ok v) ∧
    VerifiedSshSignature.newWithPrivateKey ⟨true, true, .none⟩ (Concrete.realCrypto []) D msg "git"
      { rfcEcPriv with kind := .ecdsa ⟨.nistp256, "nistp256"⟩ (0 :: otherSecret) } none = .err .signingError := by
  constructor
  · obtain ⟨v, h, _⟩ := (C146_sshsig_ecdsa ⟨true, true, .none⟩ (Concrete.realCrypto []) D .p256 Concrete.p256_good.domain
      (Concrete.p256_signs []) (Concrete.p256_verifies []) p256_width rfcEcPriv _ _ _ _ rfl rfl (by decide +kernel) (by decide +kernel)
      rfl rfl (by simp) msg "git" none).1 rfcEc_pair
    exact ⟨v, h⟩
  · exact (C146_sshsig_ecdsa ⟨true, true, .none⟩ (Concrete.realCrypto []) D .p256 Concrete.p256_good.domain
      (Concrete.p256_signs []) (Concrete.p256_verifies []) p256_width _ _ _ _ _ rfl rfl (by decide +kernel) (by decide +kernel)
      rfl rfl (by simp) msg "git" none).2 otherEc_pair

/-! ### The real Ed25519 -/

/-- Keys are made and sign, SSHSIG included. -/
example (D : FidoDev) (msg : Bytes) : ∃ k, PrivateKey.new (Concrete.realCrypto []) (some (Vector.replicate 32 7)) (some (Vector.replicate 4 1)) .ed25519 "me" = .ok k ∧
    (∃ sig, k.sign ⟨true, true, .none⟩ (Concrete.realCrypto []) D msg = .ok (some sig) ∧ verifySignature (Concrete.realCrypto []) sig msg k.pubkey = .ok sig) ∧
    ∃ v, VerifiedSshSignature.newWithPrivateKey ⟨true, true, .none⟩ (Concrete.realCrypto []) D msg "git" k none = .ok v := by
  obtain ⟨h1, h2⟩ := C146_generated ⟨true, true, .none⟩ (Concrete.realCrypto []) D Concrete.edDomain (Concrete.ed_signs []) (Concrete.ed_verifies []) (Concrete.ed_public []) "me"
  obtain ⟨k, h⟩ := h1 (Vector.replicate 32 7) (Vector.replicate 4 1)
  obtain ⟨sig, e1, e2⟩ := h2 _ _ _ k h (signedData (Concrete.realCrypto []) "git" .sha512 msg)
  obtain ⟨v, e3, _⟩ := sshsig_of_sign (hash := none) e1 e2
  exact ⟨k, h, h2 _ _ _ k h msg, v, e3⟩

/-- An Ed25519 key of which the public half is another one does not sign. -/
example (D : FidoDev) (msg : Bytes) : VerifiedSshSignature.newWithPrivateKey ⟨true, true, .none⟩ (Concrete.realCrypto []) D msg "git"
    { samplePriv with
      kind := .ed25519 (List.replicate 64 7)
      pubkey := ⟨⟨"ssh-ed25519", "ssh-ed25519", "ED25519", false, false, .ed25519⟩, .ed25519 [] none, none⟩ } none = .err .signingError := by
  refine (C146_sshsig_ed25519 ⟨true, true, .none⟩ (Concrete.realCrypto []) D Concrete.edDomain (Concrete.ed_signs []) (Concrete.ed_verifies []) _ _ [] rfl rfl (by decide +kernel) rfl
    (by decide) msg "git" none).2 ?_
  intro h
  have := congrArg List.length h
  rw [edPublic, Concrete.edDomain.written_length] at this
  cases this

/-- A hardware key that holds the secret of RFC 6979. -/
def rfcSkPriv : PrivateKey where
  keyType := ⟨"sk-ecdsa-sha2-nistp256@openssh.com", "sk-ecdsa-sha2-nistp256@openssh.com", "ECDSA-SK", false, true, .ecdsa⟩
  kind := .ecdsaSk ⟨1, [1, 2, 3, 4], [], none, none⟩
  pubkey := ⟨⟨"sk-ecdsa-sha2-nistp256@openssh.com", "sk-ecdsa-sha2-nistp256@openssh.com", "ECDSA-SK", false, true, .ecdsa⟩,
    .ecdsa ⟨.nistp256, "nistp256"⟩ Concrete.rfcK256 (some "ssh:"), none⟩
  magic := 1
  comment := ""

/-- Its authenticator: it signs with that secret. -/
def rfcDevice : FidoDev where
  ctapAssert := fun _ _ _ _ _ => none
  mozAssert := fun digest app _ _ =>
    .ok ((Concrete.ecdsaSign Concrete.p256 rfcSecret
      Concrete.rfcK256 (Concrete.sha256 app.toByteArray.data.toList ++ [5] ++ u32 77 ++ digest)).map fun s => ⟨s, 5, 77⟩)

example (msg : Bytes) : ∃ sig, rfcSkPriv.sign ⟨true, true, .mozilla⟩ (Concrete.realCrypto []) rfcDevice msg = .ok (some sig) ∧
    verifySignature (Concrete.realCrypto []) sig msg rfcSkPriv.pubkey = .ok sig := by
  have hp := rfcEc_pair
  rw [ecPair_iff (by simp)] at hp
  obtain ⟨d, hw, h0, hd, hdec⟩ := hp
  obtain ⟨s1, s2⟩ := Concrete.p256_signs [] rfcSecret
    Concrete.rfcK256 (Concrete.sha256 "ssh:".toByteArray.data.toList ++ [5] ++ u32 77 ++ Concrete.sha256 msg)
  obtain ⟨sig, hsig⟩ := s1.mp ⟨d, hw, h0, hd, hdec⟩
  have hsig' := hsig
  rw [Concrete.p256_sign] at hsig'
  have ha : deviceAnswer ⟨true, true, .mozilla⟩ (Concrete.realCrypto []) rfcDevice ⟨1, [1, 2, 3, 4], [], none, none⟩ "ssh:" msg =
      .ok (some ⟨sig, 5, 77⟩) := by
    show Res.ok (Option.map _ (Concrete.ecdsaSign _ _ _ _)) = _
    rw [show (Concrete.realCrypto []).sha256 msg = Concrete.sha256 msg from rfl, hsig']
    rfl
  refine C146_hardware ⟨true, true, .mozilla⟩ (Concrete.realCrypto []) rfcDevice Concrete.p256_good.domain Concrete.edDomain Concrete.p256_good.verifies p256_width
    (Concrete.ed_verifies []) rfcSkPriv _ "ssh:" msg ⟨by decide +kernel, .inr ⟨rfl, rfl, _, _, rfl⟩⟩ (fun a h => ?_) _ ha
  rw [ha] at h
  cases h
  obtain ⟨r, s, cr, cs, h1, h2, h3, h4⟩ := s2 sig hsig
  refine ⟨d, r, s, cr, cs, hdec, ?_, h2, h3, h4⟩
  rw [← hw.2]
  exact h1

end Ssh
