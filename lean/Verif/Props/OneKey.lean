import Verif.Spec.OneKey
import Verif.Props.Cert
import Verif.Props.SshSig
import Verif.Props.Verify
import Verif.Concrete.Facts

/-!
# C139: one secret used for certificates, messages and a security key
-/

namespace Ssh
open Spec

/-! ## Lengths -/

theorem table_cert_len : ∀ a ∈ keyTypes, a.isCert = true → 28 ≤ a.name.utf8ByteSize := by decide +kernel

theorem certBody_length {c : Certificate} {w : Bytes} (h : CertBody c w) : 84 ≤ w.length := by
  obtain ⟨h1, h2, _, _, _, _, wName, wNonce, wKey, wId, pBuf, wPr, cBuf, wCr, eBuf, wEx, wRes, caB, caJ, wCa, _, _,
    rfl, a1, a2, _, a4, _, a5, _, a6, _, _, a7, _, a8, _, a9⟩ := h
  have n1 := Reader.frame_length a1
  have n2 := Reader.frame_length a2
  have n4 := Reader.frame_length a4
  have n5 := Reader.frame_length a5
  have n6 := Reader.frame_length a6
  have n7 := Reader.frame_length a7
  have n8 := Reader.frame_length a8
  have n9 := Reader.frame_length a9
  have n0 := table_cert_len _ h1 h2
  rw [← strBytes_length] at n0
  have n1' : wName.length = 4 + (strBytes c.keyType.name).length := n1
  simp only [List.length_append, u64_length, u32_length] at n9 ⊢
  omega

theorem assertionData_length {C : Crypto} (h32 : ∀ x, (C.sha256 x).length = 32) (app : String) (f : UInt8) (n : UInt32)
    (m : Bytes) : (assertionData C app f n m).length = 69 := by
  simp [assertionData, h32]

/-- C139: the signed part of a certificate never is what an authenticator signs. -/
theorem C139_certificate_assertion (C : Crypto) (h32 : ∀ x, (C.sha256 x).length = 32) (c : Certificate) (w : Bytes)
    (h : CertBody c w) (app : String) (flags : UInt8) (counter : UInt32) (msg : Bytes) :
    w ≠ assertionData C app flags counter msg := by
  intro e
  have h1 := certBody_length h
  have h2 := assertionData_length h32 app flags counter msg
  rw [← e] at h2
  omega

/-- C139: the signed part of a certificate never is what is signed for a message. -/
theorem C139_certificate_message (C : Crypto) (c : Certificate) (w : Bytes) (h : CertBody c w) (ns : String)
    (ha : HashAlgorithm) (msg : Bytes) : w ≠ signedData C ns ha msg := by
  obtain ⟨h1, _, _, _, _, _, wName, wNonce, wKey, wId, pBuf, wPr, cBuf, wCr, eBuf, wEx, wRes, caB, caJ, wCa, _, _,
    rfl, a1, _⟩ := h
  intro e
  have h2 := (table_name_len _ h1).1
  have e1 := congrArg List.head? e
  have e2 : (strBytes c.keyType.name).length / 16777216 = 0 := by rw [strBytes_length]; omega
  have e3 : wName.head? = some 0 := by
    rw [a1.2]
    show some (UInt8.ofNat ((strBytes c.keyType.name).length / 16777216)) = some 0
    rw [e2]
    rfl
  rw [List.head?_append, e3] at e1
  exact absurd e1 (by simp [signedData, magic])

/-- The last part of the hash name, with what comes before it: the 32 bytes an application would have to
hash to. -/
theorem signedData_sha256 (C : Crypto) (h32 : ∀ x, (C.sha256 x).length = 32) (ns : String) (msg : Bytes) :
    signedData C ns .sha256 msg =
      (magic ++ (text ns ++ (str [] ++ (u32 6 ++ [0x73, 0x68, 0x61, 0x32, 0x35])))) ++ [0x36] ++ u32 32 ++ C.sha256 msg := by
  have e : text (hashName .sha256) = u32 6 ++ [0x73, 0x68, 0x61, 0x32, 0x35] ++ [0x36] := by decide +kernel
  simp only [signedData, e, digest, str, h32, List.append_assoc]

theorem text_length (s : String) : (text s).length = 4 + s.utf8ByteSize := by
  rw [← strBytes_length]; simp [text, str, strBytes]

/-- C139: what is signed for a message is what an authenticator signs in one case only: the hash of the
application spells the beginning of the message data up to the fifth letter of the hash name `sha256`, the flags
are its last letter and the counter is 32. -/
theorem C139_message_assertion (C : Crypto) (h32 : ∀ x, (C.sha256 x).length = 32) (h64 : ∀ x, (C.sha512 x).length = 64)
    (ns : String) (h : HashAlgorithm) (msg : Bytes) (app : String) (flags : UInt8) (counter : UInt32) (msg' : Bytes) :
    signedData C ns h msg = assertionData C app flags counter msg' ↔
      h = .sha256 ∧ flags = 0x36 ∧ counter = 32 ∧ C.sha256 msg = C.sha256 msg' ∧
        C.sha256 app.toByteArray.data.toList =
          magic ++ (text ns ++ (str [] ++ (u32 6 ++ [0x73, 0x68, 0x61, 0x32, 0x35]))) := by
  constructor
  · intro e
    cases h with
    | sha512 =>
      have e1 := congrArg List.length e
      rw [assertionData_length h32] at e1
      have e2 := text_length (hashName .sha512)
      have e3 : (hashName .sha512).utf8ByteSize = 6 := by decide +kernel
      have e4 := text_length ns
      simp only [signedData, digest, str, List.length_append, h64, u32_length] at e1
      omega
    | sha256 =>
      rw [signedData_sha256 C h32] at e
      unfold assertionData at e
      obtain ⟨e1, e2⟩ := List.append_inj' e (by rw [h32, h32])
      obtain ⟨e3, e4⟩ := List.append_inj' e1 rfl
      obtain ⟨e5, e6⟩ := List.append_inj' e3 rfl
      have e7 := u32_inj (by omega) (UInt32.toNat_lt counter) e4
      refine ⟨rfl, ?_, ?_, e2, e5.symm⟩
      · simpa using e6.symm
      · exact UInt32.toNat_inj.mp e7.symm
  · rintro ⟨rfl, rfl, rfl, e1, e2⟩
    rw [signedData_sha256 C h32, assertionData, e1, e2]
    rfl

-- What is assumed of the hashes is true of the real SHA-256 and SHA-512.
example : (∀ x, ((Concrete.realCrypto []).sha256 x).length = 32) ∧ ∀ x, ((Concrete.realCrypto []).sha512 x).length = 64 :=
  ⟨fun x => (Concrete.realCrypto_lengths [] x).1, fun x => (Concrete.realCrypto_lengths [] x).2.2⟩

/-- Consequence: then the namespace has nine bytes and the application is one whose hash begins with `SSHSIG`. -/
theorem C139_collision (C : Crypto) (h32 : ∀ x, (C.sha256 x).length = 32) (h64 : ∀ x, (C.sha512 x).length = 64)
    (ns : String) (h : HashAlgorithm) (msg : Bytes) (app : String) (flags : UInt8) (counter : UInt32) (msg' : Bytes)
    (e : signedData C ns h msg = assertionData C app flags counter msg') :
    ns.utf8ByteSize = 9 ∧ Unlucky C app := by
  obtain ⟨_, _, _, _, e⟩ := (C139_message_assertion C h32 h64 ns h msg app flags counter msg').mp e
  refine ⟨?_, _, e.symm⟩
  have e1 := congrArg List.length e
  have e4 := text_length ns
  simp only [str, magic, List.length_append, List.length_cons, List.length_nil, h32, u32_length] at e1
  omega

/-- A hash function for which the exceptional case occurs. -/
example : ∃ C : Crypto, (∀ x, (C.sha256 x).length = 32) ∧ (∀ x, (C.sha512 x).length = 64) ∧
    signedData C "namespace" .sha256 [1, 2] = assertionData C "ssh:" 0x36 32 [1, 2] :=
  ⟨{ laxCrypto with
      sha256 := fun _ => magic ++ (text "namespace" ++ (str [] ++ (u32 6 ++ [0x73, 0x68, 0x61, 0x32, 0x35]))),
      sha512 := fun _ => List.replicate 64 0 },
    fun _ => (by decide +kernel : (magic ++ (text "namespace" ++ (str [] ++ (u32 6 ++ [0x73, 0x68, 0x61, 0x32, 0x35])))).length = 32),
    fun _ => List.length_replicate, by decide +kernel⟩

/-- What is accepted under a key was accepted by a primitive. -/
theorem accepts_passes {C : Crypto} {key msg sig : Bytes} {app : Option String} {k : PublicKey} (hk : KeyIs key app k)
    (h : Accepts C k msg sig) : ∃ m w s, PrimitiveMessage C app msg m w ∧ Carries sig s ∧ Passes C key m s := by
  obtain ⟨label, w1, w2, w3, rest, hs, ht, hv⟩ := h
  rcases hk with hk | ⟨c, hk⟩ <;> rw [hk] at hv
  · obtain ⟨_, s, m, _, hf, hm, hv⟩ := hv
    exact ⟨m, w3, s, hm, ⟨label, w1, w2, _, hs, ht, .inl hf⟩, .inl hv⟩
  · obtain ⟨_, alg, len, x1, x2, junk, r, s, fr, fs, m, _, hf, hx1, hx2, hr, hs', hm, hv⟩ := hv
    exact ⟨m, w3, _, hm,
      ⟨label, w1, w2, _, hs, ht, .inr ⟨x1, x2, junk, r, s, fr, fs, hf, hx1, hx2, by rw [hs'.1]; exact hr, hs'.2, rfl⟩⟩, .inr ⟨alg, hv⟩⟩

/-- C139: let one secret sign certificates, messages and authenticator assertions.  Unless its signature is a forgery,
an accepted certificate is one of the signed certificates. -/
theorem C139_certificate (C : Crypto) (h32 : ∀ x, (C.sha256 x).length = 32) (key : Bytes) (S : Uses)
    (data : Bytes) (c : Certificate) (hS : OnlyThese C key S c.signature)
    (h : Certificate.fromBytes C data = .ok c) (hk : KeyIs key none c.signatureKey) :
    ∃ w wsig rest, data = w ++ (wsig ++ rest) ∧ CertBody c w ∧ Frame c.signature wsig ∧ S.certificate w := by
  obtain ⟨w, wsig, rest, e, hb, hf, ha, _⟩ := C25_signed C data c h
  obtain ⟨m, _, s', ⟨rfl, _⟩, hcs, hp⟩ := accepts_passes hk ha
  rcases hS m s' hcs hp with h1 | ⟨ns, hh, msg, _, h1⟩ | ⟨app, f, n, msg, _, h1⟩
  · exact ⟨m, wsig, rest, e, hb, hf, h1⟩
  · exact absurd h1 (C139_certificate_message C c m hb ns hh msg)
  · exact absurd h1 (C139_certificate_assertion C h32 c m hb app f n msg)

/-- C139: if moreover no application used hashes to something beginning with `SSHSIG`, an accepted message signature
stands for a message signed with the namespace and the hash, of the same digest. -/
theorem C139_message (C : Crypto) (h32 : ∀ x, (C.sha256 x).length = 32) (h64 : ∀ x, (C.sha512 x).length = 64)
    (key : Bytes) (S : Uses) (hc : ∀ w, S.certificate w → ∃ c, CertBody c w)
    (hn : ∀ ns h msg, S.message ns h msg → ns.utf8ByteSize < 4294967296)
    (hu : ∀ app f n msg, S.assertion app f n msg → ¬ Unlucky C app)
    (msg : Bytes) (s : SshSignature) (ns : String) (k : Option PublicKey) (v : VerifiedSshSignature)
    (hS : OnlyThese C key S s.signature) (hns : ns.utf8ByteSize < 4294967296)
    (h : VerifiedSshSignature.fromSshSignature C msg s ns k = .ok v) (hk : KeyIs key none s.pubkey) :
    ∃ msg', S.message ns s.hashAlgorithm msg' ∧ digest C s.hashAlgorithm msg' = digest C s.hashAlgorithm msg := by
  obtain ⟨rfl, _, ha, _⟩ := (C35_exact C msg s ns k v).mp h
  obtain ⟨m, _, s', ⟨rfl, _⟩, hcs, hp⟩ := accepts_passes hk ha
  have hl : ∀ h x, (digest C h x).length < 4294967296 := by
    intro h x; cases h <;> simp [digest, h32, h64]
  rcases hS _ _ hcs hp with h1 | ⟨ns', h', msg', hm, h1⟩ | ⟨app, f, n, msg', hm, h1⟩
  · obtain ⟨c, hb⟩ := hc _ h1
    exact absurd rfl (C139_certificate_message C c _ hb s.namespace_ s.hashAlgorithm msg)
  · obtain ⟨e1, e2, e3⟩ := C36_injective C C s { s with namespace_ := ns', hashAlgorithm := h' } msg msg' hns (hn _ _ _ hm)
      (hl _ _) (hl _ _) (by rw [toSignedFormat_eq, toSignedFormat_eq]; exact h1)
    simp only at e1 e2 e3
    subst e1 e2
    exact ⟨msg', hm, e3.symm⟩
  · exact absurd (C139_collision C h32 h64 _ _ _ _ _ _ _ h1).2 (hu _ _ _ _ hm)

/-- C139: likewise a signature accepted for a security key stands for an assertion of an application and a message
with the same hashes, with the flags and the counter read from the signature. -/
theorem C139_assertion (C : Crypto) (h32 : ∀ x, (C.sha256 x).length = 32) (h64 : ∀ x, (C.sha512 x).length = 64)
    (key : Bytes) (S : Uses) (hc : ∀ w, S.certificate w → ∃ c, CertBody c w)
    (app : String) (hu : ¬ Unlucky C app) (sig msg b : Bytes) (k : PublicKey)
    (hS : OnlyThese C key S sig) (h : verifySignature C sig msg k = .ok b) (hk : KeyIs key (some app) k) :
    ∃ app' flags counter msg' label s w1 w2 rest, S.assertion app' flags counter msg' ∧
      sig = w1 ++ w2 ++ [flags] ++ u32 counter.toNat ++ rest ∧ Text label w1 ∧ Frame s w2 ∧
      C.sha256 app'.toByteArray.data.toList = C.sha256 app.toByteArray.data.toList ∧ C.sha256 msg' = C.sha256 msg := by
  obtain ⟨label, s, w1, w2, f, n, rest, e, ht, hf, hv⟩ := C22_message C sig msg b key k app hk.symm h
  have hp : ∃ s, Carries sig s ∧ Passes C key (assertionData C app f n msg) s := by
    rcases hv with ⟨hc, hv⟩ | ⟨alg, x, hc, hv⟩
    · exact ⟨_, hc, .inl hv⟩
    · exact ⟨x, hc, .inr ⟨alg, hv⟩⟩
  obtain ⟨s', hcs, hp⟩ := hp
  rcases hS _ _ hcs hp with h1 | ⟨ns', h', msg', hm, h1⟩ | ⟨app', f', n', msg', hm, h1⟩
  · obtain ⟨c, hb⟩ := hc _ h1
    exact absurd rfl (C139_certificate_assertion C h32 c _ hb app f n msg)
  · exact absurd (C139_collision C h32 h64 _ _ _ _ _ _ _ h1.symm).2 hu
  · unfold assertionData at h1
    obtain ⟨e1, e2⟩ := List.append_inj' h1 (by rw [h32, h32])
    obtain ⟨e3, e4⟩ := List.append_inj' e1 rfl
    obtain ⟨e5, e6⟩ := List.append_inj' e3 rfl
    have e7 : f = f' := by simpa using e6
    have e8 := UInt32.toNat_inj.mp (u32_inj (UInt32.toNat_lt n) (UInt32.toNat_lt n') e4)
    subst e7 e8
    exact ⟨app', f, n, msg', label, s, w1, w2, rest, hm, e, ht, hf, e5.symm, e2.symm⟩

/-! ## One key in all three uses -/

/-- The signed part of the sample certificate. -/
def sampleTbs : Bytes := okOf [] sampleCert.tbsCertificate

/-- The sample key as a security key. -/
def sampleEdSk : PublicKey :=
  ⟨⟨"sk-ssh-ed25519@openssh.com", "sk-ssh-ed25519@openssh.com", "ED25519-SK", false, true, .ed25519⟩,
    .ed25519 [1, 2, 3] (some "ssh:"), none⟩

/-- Hashes that pad the message, with nothing signed yet. -/
def padCrypto : Crypto :=
  { laxCrypto with sha256 := fun x => (x ++ List.replicate 32 0).take 32, sha512 := fun x => (x ++ List.replicate 64 0).take 64 }

/-- Primitives that accept one signature for a certificate, a message and an assertion under the key, and one of another
form for each message. -/
def threeCrypto : Crypto :=
  { padCrypto with
    ed25519Verify := fun _ m s => s == [5, 6, 7] && (m == sampleTbs || m == signedData padCrypto "file" .sha512 [1, 2] ||
      m == assertionData padCrypto "ssh:" 1 9 [4, 5]) || s == 9 :: m
    ecdsaVerify := fun _ _ _ _ => false }

/-- What was signed in the sample. -/
def threeSigned : Uses where
  certificate w := w = sampleTbs
  message ns h m := ns = "file" ∧ h = .sha512 ∧ m = [1, 2]
  assertion a f n m := a = "ssh:" ∧ f = 1 ∧ n = 9 ∧ m = [4, 5]

/-- A signature of the sample key as a security key. -/
def sampleSkSig : Bytes :=
  (u32 26 ++ "sk-ssh-ed25519@openssh.com".toUTF8.data.toList) ++ ((u32 3 ++ [5, 6, 7]) ++ ([1] ++ u32 9))

/-- The hypotheses can be met by one key used in all three ways, and all three are accepted. -/
example : (∀ x, (threeCrypto.sha256 x).length = 32) ∧ (∀ x, (threeCrypto.sha512 x).length = 64) ∧
    (∀ m, ∃ s, Passes threeCrypto [1, 2, 3] m s) ∧ (∀ w, threeSigned.certificate w → ∃ c, CertBody c w) ∧
    (∀ a f n m, threeSigned.assertion a f n m → ¬ Unlucky threeCrypto a) ∧
    (∃ data c, Certificate.fromBytes threeCrypto data = .ok c ∧ KeyIs [1, 2, 3] none c.signatureKey ∧
      OnlyThese threeCrypto [1, 2, 3] threeSigned c.signature) ∧
    (∃ v, VerifiedSshSignature.fromSshSignature threeCrypto [1, 2] sampleSshSig "file" none = .ok v) ∧
    KeyIs [1, 2, 3] none sampleSshSig.pubkey ∧ OnlyThese threeCrypto [1, 2, 3] threeSigned sampleSshSig.signature ∧
    (∃ b, verifySignature threeCrypto sampleSkSig [4, 5] sampleEdSk = .ok b) ∧ KeyIs [1, 2, 3] (some "ssh:") sampleEdSk ∧
    OnlyThese threeCrypto [1, 2, 3] threeSigned sampleSkSig := by
  have hp : Certificate.fromBytes threeCrypto (sampleTbs ++ (u32 sampleSig.length ++ sampleSig)) =
      .ok (okOf sampleCert (Certificate.fromBytes threeCrypto (sampleTbs ++ (u32 sampleSig.length ++ sampleSig)))) :=
    okOf_eq (by decide +kernel)
  have h32 : ∀ x, (threeCrypto.sha256 x).length = 32 := fun x => by simp [threeCrypto, padCrypto]
  have hk : KeyIs [1, 2, 3] none
      (okOf sampleCert (Certificate.fromBytes threeCrypto (sampleTbs ++ (u32 sampleSig.length ++ sampleSig)))).signatureKey :=
    .inl (by decide +kernel)
  have hS : ∀ sig, (∀ s, Carries sig s → s = [5, 6, 7]) → OnlyThese threeCrypto [1, 2, 3] threeSigned sig := by
    intro sig hc m s hs hv
    obtain rfl := hc s hs
    rcases hv with hs | ⟨_, hs⟩
    · have hs : m = sampleTbs ∨ m = signedData padCrypto "file" .sha512 [1, 2] ∨ m = assertionData padCrypto "ssh:" 1 9 [4, 5] := by
        simpa [threeCrypto, or_assoc] using hs
      rcases hs with rfl | rfl | rfl
      · exact .inl rfl
      · exact .inr (.inl ⟨_, _, _, ⟨rfl, rfl, rfl⟩, rfl⟩)
      · exact .inr (.inr ⟨_, _, _, _, ⟨rfl, rfl, rfl, rfl⟩, rfl⟩)
    · cases hs
  have hS1 := hS sampleSig fun _ => sampleSig_carries
  have hsig : (okOf sampleCert (Certificate.fromBytes threeCrypto (sampleTbs ++ (u32 sampleSig.length ++ sampleSig)))).signature =
      sampleSig := by decide +kernel
  refine ⟨h32, fun x => by simp [threeCrypto, padCrypto], fun m => ⟨9 :: m, .inl (by simp [threeCrypto])⟩, ?_, ?_,
    ⟨_, _, hp, hk, by rw [hsig]; exact hS1⟩, ⟨⟨sampleSshSig, [1, 2]⟩, by decide +kernel⟩, .inl rfl, hS1,
    ⟨sampleSkSig, by decide +kernel⟩, .inl rfl, hS sampleSkSig fun _ h =>
      carries_short (label := "sk-ssh-ed25519@openssh.com".toUTF8.data.toList) (s := [5, 6, 7]) (rest := [1] ++ u32 9)
        ⟨by decide +kernel, rfl⟩ ⟨by decide, rfl⟩ (by decide) h⟩
  · rintro w rfl
    obtain ⟨w, _, _, _, hb, _, hw⟩ := C139_certificate threeCrypto h32 _ _ _ _ (by rw [hsig]; exact hS1) hp hk
    exact ⟨_, hw ▸ hb⟩
  · rintro a f n m ⟨rfl, _⟩
    unfold Unlucky
    decide +kernel

end Ssh
