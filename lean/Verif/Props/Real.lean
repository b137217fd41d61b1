import Verif.Props.Issue
import Verif.Concrete.P384

/-!
# Nothing left to assume

C143, C146 and C147 suppose that the primitives follow their standards.  Here they are SHA-2, Ed25519, P-256, P-384 and RSA as computed by
Concrete/Sha.lean, Concrete/Ec.lean and Concrete/Crypto.lean, about which Concrete/Ed25519.lean, Concrete/Domain.lean,
Concrete/P384.lean and Concrete/Rsa.lean have shown just that; the statements about made and read keys then hold without assumptions on the primitives.
-/

namespace Ssh

open Spec

variable (table : List ((String × Bytes × UInt32) × (Bytes × Bytes)))

/-- The file of a made key is as long as its comment and a few hundred bytes. -/
theorem new_encode_length {C : Crypto} {seed : Option (Vector UInt8 32)} {magic : Option (Vector UInt8 4)} {kind : KeyTypeKind} {comment : String}
    {k : PrivateKey} (h : PrivateKey.new C seed magic kind comment = .ok k) (hp : ∀ s p, C.ed25519Pub s = some p → p.length = 32)
    {w : Bytes} (hw : k.encode = .ok w) : w.length ≤ comment.utf8ByteSize + 1000 := by
  obtain ⟨_, s, m, pub, _, _, h3, h4, h5, h6, h7, h8, h9, h10, h11⟩ := (C80_new _ _ _ _ _ _).mp h
  have hsk : ∀ kt ∈ keyTypes, kt.name = "ssh-ed25519" → kt.isSk = false := by decide +kernel
  have hs := hsk _ h4 h5
  rw [privkey_encode_eq, encodeSection_eq] at hw
  unfold privFields at hw
  rw [h6, h8, h7, hs, h5, h11] at hw
  simp only [keyMaterial, Option.map, Res.unwrap] at hw
  cases hw
  have hc : (strBytes comment).length = comment.utf8ByteSize := strBytes_length comment
  have h1 : (strBytes "ssh-ed25519").length = 11 := by decide +kernel
  have h2 : (text "none").length = 8 := by decide +kernel
  have h3' : preamble.length = 15 := by decide +kernel
  have h4 : pub.length = 32 := hp _ _ h3
  have hpad : ∀ n, (padTo8 n).length ≤ 8 := fun n => by rw [padTo8_len]; omega
  simp only [List.length_append, str, u32_length, frame_len, frameStr_len, hc, h1, h2, h3', h4, Vector.length_toList, List.length_nil]
  have := hpad (4 + (4 + (4 + 11 + (4 + 32 + (4 + 32) + (4 + comment.utf8ByteSize)))))
  omega

theorem real_pub (s p : Bytes) (h : (Concrete.realCrypto table).ed25519Pub s = some p) : p.length = 32 := by
  obtain ⟨_, rfl⟩ := (Concrete.ed_public table s p).mp h
  exact Concrete.edDomain.written_length _

/-- Made keys work. -/
theorem real_works (F : Features) (D : FidoDev) (s : Vector UInt8 32) (m : Vector UInt8 4) (comment : String) : ∃ k,
    PrivateKey.new (Concrete.realCrypto table) (some s) (some m) .ed25519 comment = .ok k ∧ WellFormedKey k.pubkey ∧
      Works F (Concrete.realCrypto table) D k := by
  obtain ⟨k, h⟩ := (C146_generated F (Concrete.realCrypto table) D Concrete.edDomain (Concrete.ed_signs table) (Concrete.ed_verifies table)
    (Concrete.ed_public table) comment).1 s m
  obtain ⟨_, s', m', pub, _, _, h1, h2, h3, h4, h5, h6, _⟩ := (C80_new ..).mp h
  obtain ⟨_, h7⟩ := (Concrete.ed_public table _ _).mp h1
  have hkind : ∀ kt ∈ keyTypes, kt.name = "ssh-ed25519" → family kt.kind = .ed25519 ∧ kt.isSk = false := by decide +kernel
  obtain ⟨g1, g2⟩ := hkind _ h2 h3
  refine ⟨k, h, ⟨by rw [h5]; exact h2, ?_⟩, .ed25519 _ Concrete.edDomain _ _ (Concrete.ed_signs table) (Concrete.ed_verifies table) h4 h6
    (by rw [h5]; exact h3) (by simp) ?_⟩
  · rw [h6, h5]
    exact ⟨g1, by rw [h7, edPublic, Concrete.edDomain.written_length]; decide, g2⟩
  · rw [List.take_of_length_le (by simp)]
    exact h7

/-- C148: with the real hash and curve: from any 32 random bytes a key is made; its file is read back as the same key, with any
passphrase; it signs every message for every namespace and hash, and the armored signature is read and verified. -/
theorem C148_message (F : Features) (D : FidoDev) (seed : Vector UInt8 32) (magic : Vector UInt8 4) (comment : String) (pass : Option String)
    (msg : Bytes) (ns : String) (hash : Option HashAlgorithm) (hc : comment.utf8ByteSize < 4294966000) (hn : ns ≠ "")
    (hn' : ns.utf8ByteSize < 4294967296) :
    ∃ k file v text sig, PrivateKey.new (Concrete.realCrypto table) (some seed) (some magic) .ed25519 comment = .ok k ∧
      k.write = .ok file ∧ PrivateKey.fromStringWithPassphrase F (Concrete.realCrypto table) file pass = .ok k ∧
      VerifiedSshSignature.newWithPrivateKey F (Concrete.realCrypto table) D msg ns k hash = .ok v ∧
      v.signature.display = .ok text ∧ SshSignature.fromArmoredString text = .ok sig ∧
      VerifiedSshSignature.fromSshSignature (Concrete.realCrypto table) msg sig ns (some k.pubkey) = .ok v ∧ v.message = msg := by
  obtain ⟨k, h, hwf, hworks⟩ := real_works table F D seed magic comment
  obtain ⟨file, hw, hr⟩ := C80_file F (Concrete.realCrypto table) (Concrete.realCrypto table) _ _ _ _ k pass h (real_pub table)
    (fun w hw => by have := new_encode_length h (real_pub table) hw; omega) (by omega)
  obtain ⟨hcom, kb, hkb, hkl⟩ := privkey_blob hr
  obtain ⟨sig, h1, h2, h3⟩ := works_signs hworks hwf
    (keyBlob_encode hkb hkl) (signedData (Concrete.realCrypto table) ns (hash.getD .sha512) msg)
  have hv := ((C133_signature F (Concrete.realCrypto table) D msg ns k hash _ rfl).1 ⟨⟨k.pubkey, ns, hash.getD .sha512, sig⟩, msg⟩).mpr
    ⟨sig, ((C132_exact F _ D k _).1 _).mp h1, ((C21_accepts ..).mp h3).1, rfl⟩
  obtain ⟨t, ht, hp, hf⟩ := carried hcom hkb hkl hwf hn hn' hv h2
  exact ⟨k, file, _, t, _, h, hw, hr, hv, ht, hp, hf, rfl⟩

/-- C148: so for a certificate authority: its made key, read back from its file, issues every certificate that fits, and the text
of the certificate is read back with what was set. -/
theorem C148_certificate (F : Features) (D : FidoDev) (seed : Vector UInt8 32) (magic : Vector UInt8 4) (comment : String) (pass : Option String)
    (nonce : Vector UInt8 32) (serial : Vector UInt8 8) (key : PublicKey) (role : CertType) (calls : List BuilderCall)
    (hc : comment.utf8ByteSize < 4294966000) (hkey : WellFormedKey key) (hcalls : ∀ x ∈ calls, x.Valid) :
    ∃ k file c0, PrivateKey.new (Concrete.realCrypto table) (some seed) (some magic) .ed25519 comment = .ok k ∧
      k.write = .ok file ∧ PrivateKey.fromStringWithPassphrase F (Concrete.realCrypto table) file pass = .ok k ∧
      Certificate.builder (some nonce) (some serial) key role k.pubkey = .ok c0 ∧
      (CertFits (runCalls c0 calls) → ∀ critical extensions, critical.Perm (runCalls c0 calls).criticalOptions →
        extensions.Perm (runCalls c0 calls).extensions →
        ∃ c', Certificate.sign (Concrete.realCrypto table) (k.sign F (Concrete.realCrypto table) D)
            { runCalls c0 calls with criticalOptions := critical, extensions := extensions } = .ok c' ∧
          ∃ c'', Certificate.fromString (Concrete.realCrypto table) c'.display = .ok c'' ∧ SameContent c'' (runCalls c0 calls) ∧
            c''.signature = c'.signature) := by
  obtain ⟨k, h, hwf, hworks⟩ := real_works table F D seed magic comment
  obtain ⟨file, hw, hr⟩ := C80_file F (Concrete.realCrypto table) (Concrete.realCrypto table) _ _ _ _ k pass h (real_pub table)
    (fun w hw => by have := new_encode_length h (real_pub table) hw; omega) (by omega)
  obtain ⟨c0, h1, h2⟩ := C147_built F (Concrete.realCrypto table) D k nonce serial key role calls hworks hkey hwf hcalls
  exact ⟨k, file, c0, h, hw, hr, h1, h2⟩

/-- The private numbers of a key belong to its public key: on the curve of Ed25519, on P-256 or P-384, those of RSA with 2041 to
8192 bits, or an authenticator that holds the private key and answers. -/
inductive RightKey (F : Features) (D : FidoDev) (k : PrivateKey) : Prop where
  | rsa (r : RsaPrivateKey) : k.kind = .rsa r →
      RsaNumbers (natOf r.n) (natOf r.e) (natOf r.d) (natOf r.p) (natOf r.q) (natOf r.coefficient) →
      Concrete.rsaSupported (natOf r.n) (natOf r.e) → RightKey F D k
  | p256 (cp : Curve) (key pub : Bytes) : k.kind = .ecdsa ⟨.nistp256, "nistp256"⟩ key → k.pubkey.kind = .ecdsa cp pub none →
      k.pubkey.keyType.name = "ecdsa-sha2-nistp256" → EcPair .p256 Concrete.p256_good.domain key pub → RightKey F D k
  | p384 (cp : Curve) (key pub : Bytes) : k.kind = .ecdsa ⟨.nistp384, "nistp384"⟩ key → k.pubkey.kind = .ecdsa cp pub none →
      k.pubkey.keyType.name = "ecdsa-sha2-nistp384" → EcPair .p384 Concrete.p384_good.domain key pub → RightKey F D k
  | ed25519 (key pub : Bytes) : k.kind = .ed25519 key → k.pubkey.kind = .ed25519 pub none → k.pubkey.keyType.name = "ssh-ed25519" →
      32 ≤ key.length → pub = edPublic (Concrete.realCrypto table) Concrete.edDomain (key.take 32) → RightKey F D k
  | hardware (s : SkPrivateKey) (app : String) : HardwareKey k s app →
      (∀ msg, ∃ a, deviceAnswer F (Concrete.realCrypto table) D s app msg = .ok (some a) ∧
        MadeBy (Concrete.realCrypto table) Concrete.p256_good.domain Concrete.edDomain k.pubkey msg a) → RightKey F D k

theorem ecPair_ne {E : Type} [AddCommGroup E] {alg : EcAlg} {c : EcDomain E} {key pub : Bytes} (h : EcPair alg c key pub) : key ≠ [] := by
  rintro rfl
  obtain ⟨d, f, h1 | h1, h2, _⟩ := h
  · rw [← h1.1] at h2
    cases alg <;> exact absurd h2.1 (by decide)
  · exact absurd h1 (by simp)

theorem right_works {F : Features} {D : FidoDev} {pass : Option String} {t : List Char} {k : PrivateKey} (hF : F.rsaSigning = true)
    (h : PrivateKey.fromStringWithPassphrase F (Concrete.realCrypto table) t pass = .ok k) (hk : RightKey table F D k) :
    Works F (Concrete.realCrypto table) D k := by
  cases hk with
  | rsa r hk hn hs =>
    have hw := C93_wellFormed F _ pass t k h
    rw [hF] at hw
    exact .rsa r _ _ (Concrete.rsa_signs table) (Concrete.rsa_verifies table) hF hw hk hn
      (Nat.le_trans (Nat.pow_le_pow_right (by decide) (by decide)) hs.1) hs
  | p256 cp key pub hk hp hname hpair =>
    exact .ecdsa _ .p256 Concrete.p256_good.domain _ cp key pub (Concrete.p256_signs table) (Concrete.p256_verifies table) p256_width hk hp
      (by decide) hname rfl (ecPair_ne hpair) hpair
  | p384 cp key pub hk hp hname hpair =>
    exact .ecdsa _ .p384 Concrete.p384_good.domain _ cp key pub (Concrete.p384_signs table) (Concrete.p384_verifies table) Concrete.p384_width hk hp
      (by decide) hname rfl (ecPair_ne hpair) hpair
  | ed25519 key pub hk hp hname hl hpub =>
    exact .ed25519 _ Concrete.edDomain key pub (Concrete.ed_signs table) (Concrete.ed_verifies table) hk hp hname hl hpub
  | hardware s app hk hd =>
    exact .hardware _ _ Concrete.p256_good.domain Concrete.edDomain s app (Concrete.p256_verifies table) p256_width (Concrete.ed_verifies table) hk hd

/-- C148 for keys that are read from a file and have the right numbers: every message is signed for every
namespace and hash and the armored signature is read and verified, and every certificate that fits is issued and read back. -/
theorem C148_read (F : Features) (D : FidoDev) (pass : Option String) (t : List Char) (k : PrivateKey) (hF : F.rsaSigning = true)
    (h : PrivateKey.fromStringWithPassphrase F (Concrete.realCrypto table) t pass = .ok k) (hk : RightKey table F D k) :
    (∀ msg ns hash, ns ≠ "" → ns.utf8ByteSize < 4294967296 →
      ∃ v text sig, VerifiedSshSignature.newWithPrivateKey F (Concrete.realCrypto table) D msg ns k hash = .ok v ∧
        v.signature.display = .ok text ∧ SshSignature.fromArmoredString text = .ok sig ∧
        VerifiedSshSignature.fromSshSignature (Concrete.realCrypto table) msg sig ns (some k.pubkey) = .ok v ∧ v.message = msg) ∧
    ∀ nonce serial key role calls, WellFormedKey key → (∀ x ∈ calls, BuilderCall.Valid x) →
      ∃ c0, Certificate.builder (some nonce) (some serial) key role k.pubkey = .ok c0 ∧
        (CertFits (runCalls c0 calls) → ∀ critical extensions, critical.Perm (runCalls c0 calls).criticalOptions →
          extensions.Perm (runCalls c0 calls).extensions →
          ∃ c', Certificate.sign (Concrete.realCrypto table) (k.sign F (Concrete.realCrypto table) D)
              { runCalls c0 calls with criticalOptions := critical, extensions := extensions } = .ok c' ∧
            ∃ c'', Certificate.fromString (Concrete.realCrypto table) c'.display = .ok c'' ∧ SameContent c'' (runCalls c0 calls) ∧
              c''.signature = c'.signature) := by
  have hworks := right_works table (D := D) hF h hk
  have hwf := (C20_privkey F _ pass t k h).1
  refine ⟨fun msg ns hash hn hn' => ?_, fun nonce serial key role calls hkey hcalls =>
    C147_built F (Concrete.realCrypto table) D k nonce serial key role calls hworks hkey hwf hcalls⟩
  obtain ⟨hcom, kb, hkb, hkl⟩ := privkey_blob h
  obtain ⟨sig, h1, h2, h3⟩ := works_signs hworks hwf
    (keyBlob_encode hkb hkl) (signedData (Concrete.realCrypto table) ns (hash.getD .sha512) msg)
  have hv := ((C133_signature F (Concrete.realCrypto table) D msg ns k hash _ rfl).1 ⟨⟨k.pubkey, ns, hash.getD .sha512, sig⟩, msg⟩).mpr
    ⟨sig, ((C132_exact F _ D k _).1 _).mp h1, ((C21_accepts ..).mp h3).1, rfl⟩
  obtain ⟨t, ht, hp, hf⟩ := carried hcom hkb hkl hwf hn hn' hv h2
  exact ⟨_, t, _, hv, ht, hp, hf, rfl⟩

/-- The RSA key of C145, read from its file, signs a message in a namespace. -/
example (D : FidoDev) (msg : Bytes) : ∃ t, PrivateKey.fromStringWithPassphrase ⟨true, true, .none⟩ (Concrete.realCrypto []) t none = .ok mersennePriv ∧
    ∃ v text sig, VerifiedSshSignature.newWithPrivateKey ⟨true, true, .none⟩ (Concrete.realCrypto []) D msg "git" mersennePriv none = .ok v ∧
      v.signature.display = .ok text ∧ SshSignature.fromArmoredString text = .ok sig ∧
      VerifiedSshSignature.fromSshSignature (Concrete.realCrypto []) msg sig "git" (some mersennePriv.pubkey) = .ok v ∧ v.message = msg := by
  obtain ⟨t, h⟩ := mersenne_file
  exact ⟨t, h, (C148_read [] ⟨true, true, .none⟩ D none t _ rfl h (.rsa _ rfl mersenne_numbers mersenne_supported)).1 msg "git" none (by decide)
    (by decide)⟩

/-- The P-256 key of RFC 6979, and the hardware key of C146 on its authenticator. -/
example (F : Features) (D : FidoDev) : RightKey [] F D rfcEcPriv := .p256 _ _ _ rfl rfl rfl rfcEc_pair

example : RightKey [] ⟨true, true, .mozilla⟩ rfcDevice rfcSkPriv := .hardware _ _ rfcSk_hardware rfcSk_answers

/-- The P-384 key of RFC 6979, A.2.6. -/
def rfcSecret384 : Bytes :=
  Concrete.natBytes 48 0x6B9D3DAD2E1B8C1C05B19875B6659F4DE23C3B667BF297BA9AA47740787137D896D5724E4C70A825F872C9EA60D2EDF5

def rfcEc384 : PrivateKey where
  keyType := ⟨"ecdsa-sha2-nistp384", "ecdsa-sha2-nistp384", "ECDSA", false, false, .ecdsa⟩
  kind := .ecdsa ⟨.nistp384, "nistp384"⟩ rfcSecret384
  pubkey := ⟨⟨"ecdsa-sha2-nistp384", "ecdsa-sha2-nistp384", "ECDSA", false, false, .ecdsa⟩,
    .ecdsa ⟨.nistp384, "nistp384"⟩ Concrete.rfcK384 none, none⟩
  magic := 1
  comment := ""

theorem rfcEc384_pair : EcPair .p384 Concrete.p384_good.domain rfcSecret384 Concrete.rfcK384 := by
  rw [ecPair_iff (by decide +kernel)]
  refine (Concrete.p384_signs [] _ _ []).1.mpr ?_
  refine ⟨Concrete.ecdsaSign Concrete.p384 rfcSecret384 Concrete.rfcK384 [] |>.getD [], ?_⟩
  decide +kernel

/-- It is read from its file and signs. -/
example (D : FidoDev) (msg : Bytes) : ∃ t, PrivateKey.fromStringWithPassphrase ⟨true, true, .none⟩ (Concrete.realCrypto []) t none = .ok rfcEc384 ∧
    ∃ v text sig, VerifiedSshSignature.newWithPrivateKey ⟨true, true, .none⟩ (Concrete.realCrypto []) D msg "git" rfcEc384 none = .ok v ∧
      v.signature.display = .ok text ∧ SshSignature.fromArmoredString text = .ok sig ∧
      VerifiedSshSignature.fromSshSignature (Concrete.realCrypto []) msg sig "git" (some rfcEc384.pubkey) = .ok v ∧ v.message = msg := by
  have hw : WellFormedPriv true rfcEc384 :=
    ⟨by decide +kernel, rfl, by decide, rfl, rfl, by decide, by decide +kernel, by decide +kernel, rfl, rfl⟩
  obtain ⟨t, _, h⟩ := C41_roundtrip ⟨true, true, .none⟩ (Concrete.realCrypto []) none rfcEc384 hw (fun w h => by
    have e : rfcEc384.encode = .ok (okOf [] rfcEc384.encode) := okOf_eq (d := []) (by decide +kernel)
    rw [e] at h
    rw [← Res.ok.inj h]
    decide +kernel)
  exact ⟨t, h, (C148_read [] ⟨true, true, .none⟩ D none t _ rfl h (.p384 _ _ _ rfl rfl rfl rfcEc384_pair)).1 msg "git" none (by decide)
    (by decide)⟩

/-- C148 for halves that do not belong together: the key does not sign, whatever the message. -/
theorem C148_wrong (F : Features) (D : FidoDev) (k : PrivateKey) (hkt : k.pubkey.keyType ∈ keyTypes) (msg : Bytes) (ns : String)
    (hash : Option HashAlgorithm) :
    (∀ cp key pub, k.kind = .ecdsa ⟨.nistp256, "nistp256"⟩ key → k.pubkey.kind = .ecdsa cp pub none →
      k.pubkey.keyType.name = "ecdsa-sha2-nistp256" → key ≠ [] → ¬ EcPair .p256 Concrete.p256_good.domain key pub →
      VerifiedSshSignature.newWithPrivateKey F (Concrete.realCrypto table) D msg ns k hash = .err .signingError) ∧
    (∀ cp key pub, k.kind = .ecdsa ⟨.nistp384, "nistp384"⟩ key → k.pubkey.kind = .ecdsa cp pub none →
      k.pubkey.keyType.name = "ecdsa-sha2-nistp384" → key ≠ [] → ¬ EcPair .p384 Concrete.p384_good.domain key pub →
      VerifiedSshSignature.newWithPrivateKey F (Concrete.realCrypto table) D msg ns k hash = .err .signingError) ∧
    ∀ key pub, k.kind = .ed25519 key → k.pubkey.kind = .ed25519 pub none → k.pubkey.keyType.name = "ssh-ed25519" → 32 ≤ key.length →
      pub ≠ edPublic (Concrete.realCrypto table) Concrete.edDomain (key.take 32) →
      VerifiedSshSignature.newWithPrivateKey F (Concrete.realCrypto table) D msg ns k hash = .err .signingError := by
  refine ⟨fun cp key pub hk hp hn hne h => ?_, fun cp key pub hk hp hn hne h => ?_, fun key pub hk hp hn hl h => ?_⟩
  · exact (C146_sshsig_ecdsa F _ D .p256 Concrete.p256_good.domain (Concrete.p256_signs table) (Concrete.p256_verifies table) p256_width k _ cp key
      pub hk hp hkt (by decide) hn rfl hne msg ns hash).2 h
  · exact (C146_sshsig_ecdsa F _ D .p384 Concrete.p384_good.domain (Concrete.p384_signs table) (Concrete.p384_verifies table) Concrete.p384_width k
      _ cp key pub hk hp hkt (by decide) hn rfl hne msg ns hash).2 h
  · exact (C146_sshsig_ed25519 F _ D Concrete.edDomain (Concrete.ed_signs table) (Concrete.ed_verifies table) k key pub hk hp hkt hn hl msg ns
      hash).2 h

/-- The key of RFC 6979 with another secret. -/
example (F : Features) (D : FidoDev) (msg : Bytes) : VerifiedSshSignature.newWithPrivateKey F (Concrete.realCrypto []) D msg "git"
    { rfcEcPriv with kind := .ecdsa ⟨.nistp256, "nistp256"⟩ (0 :: otherSecret) } none = .err .signingError :=
  (C148_wrong [] F D _ (by decide +kernel) msg "git" none).1 _ _ _ rfl rfl rfl (by simp) otherEc_pair

/-! ### The first key of RFC 8032 -/

def rfcSeed : Vector UInt8 32 := #v[0x9d, 0x61, 0xb1, 0x9d, 0xef, 0xfd, 0x5a, 0x60, 0xba, 0x84, 0x4a, 0xf4, 0x92, 0xec, 0x2c, 0xc4, 0x44, 0x49,
  0xc5, 0x69, 0x7b, 0x32, 0x69, 0x19, 0x70, 0x3b, 0xac, 0x03, 0x1c, 0xae, 0x7f, 0x60]

def rfcEdPublic : Bytes := [0xd7, 0x5a, 0x98, 0x01, 0x82, 0xb1, 0x0a, 0xb7, 0xd5, 0x4b, 0xfe, 0xd3, 0xc9, 0x64, 0x07, 0x3a, 0x0e, 0xe1, 0x72,
  0xf3, 0xda, 0xa6, 0x23, 0x25, 0xaf, 0x02, 0x1a, 0x68, 0xf7, 0x07, 0x51, 0x1a]

def rfcEdKey : PublicKey := ⟨⟨"ssh-ed25519", "ssh-ed25519", "ED25519", false, false, .ed25519⟩, .ed25519 rfcEdPublic none, none⟩

theorem rfcEd_new (k : PrivateKey) (h : PrivateKey.new (Concrete.realCrypto []) (some rfcSeed) (some #v[1, 2, 3, 4]) .ed25519 "ca" = .ok k) :
    k.pubkey = rfcEdKey := by
  have e : (match PrivateKey.new (Concrete.realCrypto []) (some rfcSeed) (some #v[1, 2, 3, 4]) .ed25519 "ca" with
    | .ok k => decide (k.pubkey = rfcEdKey)
    | _ => false) = true := by decide +kernel
  rw [h] at e
  exact of_decide_eq_true e

/-- The key of RFC 8032 7.1 signs a message in a namespace. -/
example (F : Features) (D : FidoDev) (msg : Bytes) : ∃ v text sig,
    v.signature.display = .ok text ∧ SshSignature.fromArmoredString text = .ok sig ∧
      VerifiedSshSignature.fromSshSignature (Concrete.realCrypto []) msg sig "git" (some rfcEdKey) = .ok v ∧ v.message = msg := by
  obtain ⟨k, _, v, text, sig, h, _, _, _, h1, h2, h3, h4⟩ := C148_message [] F D rfcSeed #v[1, 2, 3, 4] "ca" none msg "git" none (by decide)
    (by decide) (by decide)
  rw [rfcEd_new k h] at h3
  exact ⟨v, text, sig, h1, h2, h3, h4⟩

/-- It issues a certificate for two principals. -/
example (F : Features) (D : FidoDev) : ∃ k, PrivateKey.new (Concrete.realCrypto []) (some rfcSeed) (some #v[1, 2, 3, 4]) .ed25519 "ca" = .ok k ∧
    ∃ c0, Certificate.builder (some (Vector.replicate 32 1)) (some (Vector.replicate 8 2)) sampleEd .user rfcEdKey = .ok c0 ∧
    ∃ c', Certificate.sign (Concrete.realCrypto []) (k.sign F (Concrete.realCrypto []) D)
      (runCalls c0 [.principal "a", .extension "x" "y", .setPrincipals ["b"], .principal "d"]) = .ok c' ∧
    ∃ c'', Certificate.fromString (Concrete.realCrypto []) c'.display = .ok c'' ∧ c''.principals = ["b", "d"] := by
  obtain ⟨k, _, c0, hk, _, _, h0, h⟩ := C148_certificate [] F D rfcSeed #v[1, 2, 3, 4] "ca" none (Vector.replicate 32 1) (Vector.replicate 8 2)
    sampleEd .user [.principal "a", .extension "x" "y", .setPrincipals ["b"], .principal "d"] (by decide) sampleEd_wf (by simp [BuilderCall.Valid])
  rw [rfcEd_new k hk] at h0
  have e0 : Certificate.builder (some (Vector.replicate 32 1)) (some (Vector.replicate 8 2)) sampleEd .user rfcEdKey =
      .ok (okOf sampleCert (Certificate.builder (some (Vector.replicate 32 1)) (some (Vector.replicate 8 2)) sampleEd .user rfcEdKey)) :=
    okOf_eq (by decide +kernel)
  have ec : c0 = okOf sampleCert (Certificate.builder (some (Vector.replicate 32 1)) (some (Vector.replicate 8 2)) sampleEd .user rfcEdKey) :=
    Res.ok.inj (h0.symm.trans e0)
  have hp : (runCalls c0 [.principal "a", .extension "x" "y", .setPrincipals ["b"], .principal "d"]).principals = ["b", "d"] := by
    rw [ec]; decide +kernel
  have hfit : CertFits (runCalls c0 [.principal "a", .extension "x" "y", .setPrincipals ["b"], .principal "d"]) := by
    rw [ec]
    refine ⟨by decide +kernel, by decide +kernel, by decide +kernel, by decide +kernel, by decide +kernel, fun b hb => ?_⟩
    have e : rfcEdKey.encode = .ok (okOf [] rfcEdKey.encode) := okOf_eq (d := []) (by decide +kernel)
    have ek : (runCalls (okOf sampleCert (Certificate.builder (some (Vector.replicate 32 1)) (some (Vector.replicate 8 2)) sampleEd .user
        rfcEdKey)) [.principal "a", .extension "x" "y", .setPrincipals ["b"], .principal "d"]).signatureKey = rfcEdKey := by decide +kernel
    rw [ek, e] at hb
    rw [← Res.ok.inj hb]
    decide +kernel
  obtain ⟨c', h1, c'', h2, h3, _⟩ := h hfit _ _ (List.Perm.refl _) (List.Perm.refl _)
  exact ⟨k, hk, c0, h0, c', h1, c'', h2, h3.2.2.2.2.2.2.2.1.trans hp⟩

end Ssh
