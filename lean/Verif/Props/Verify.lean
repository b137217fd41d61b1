import Verif.Lemmas.Verify
import Verif.Props.Key

/-! # C21–C24: signature verification -/

namespace Ssh

open Spec

/-- Primitives that accept everything (used only to exhibit cases). -/
def laxCrypto : Crypto where
  sha256 _ := List.replicate 32 7
  sha384 _ := []
  sha512 _ := []
  ecdsaVerify _ _ _ _ := true
  ed25519Verify _ _ _ := true
  rsaVerify _ _ _ _ _ := true
  ecdsaAsn1Verify _ _ _ := true
  ecdsaSign _ _ _ _ := some []
  ed25519Sign _ _ _ := some []
  ed25519Pub _ := some []
  rsaSign _ _ := some []
  bcryptPbkdf _ _ _ := some ([], [])
  aesKeystream _ _ _ := 0
  aesCtrOk _ _ _ := true

/-! ## C21 -/

/-- C21: a blob is accepted exactly when it is a signature in the sense of `Spec.Accepts`: one label
of the key's family, one framed signature, one successful call of the primitive the label selects. -/
theorem C21_accepts (C : Crypto) (sig msg b : Bytes) (k : PublicKey) :
    verifySignature C sig msg k = .ok b ↔ Accepts C k msg sig ∧ b = sig := verifySignature_ok

/-- C21: nothing panics. -/
theorem C21_total (C : Crypto) (sig msg : Bytes) (k : PublicKey) : verifySignature C sig msg k ≠ .panic :=
  verifySignature_noPanic C sig msg k

/-- C21: where the primitives accept nothing, nothing is accepted. -/
theorem C21_primitive_needed (C : Crypto) (sig msg b : Bytes) (k : PublicKey)
    (h1 : ∀ a key m s, C.ecdsaVerify a key m s = false) (h2 : ∀ key m s, C.ed25519Verify key m s = false)
    (h3 : ∀ a n e m s, C.rsaVerify a n e m s = false) : verifySignature C sig msg k ≠ .ok b := by
  intro h
  obtain ⟨⟨label, w1, w2, w3, rest, _, _, hk⟩, _⟩ := verifySignature_ok.mp h
  cases hkind : k.kind with
  | rsa e n =>
    rw [hkind] at hk
    obtain ⟨_, _, alg, s, _, _, hv⟩ := hk
    simp [h3] at hv
  | ed25519 key app =>
    rw [hkind] at hk
    obtain ⟨_, s, m, _, _, _, hv⟩ := hk
    simp [h2] at hv
  | ecdsa c key app =>
    rw [hkind] at hk
    obtain ⟨_, alg, len, x1, x2, junk, r, s, fr, fs, m, _, _, _, _, _, _, _, hv⟩ := hk
    simp [h1] at hv

/-- A blob that is accepted when the primitive accepts. -/
def sampleSig : Bytes := u32 11 ++ "ssh-ed25519".toUTF8.data.toList ++ (u32 3 ++ [5, 6, 7])

theorem sampleSig_accepted : verifySignature laxCrypto sampleSig [1, 2] sampleEd = .ok sampleSig := by
  decide +kernel

/-- Framed strings at the beginning of the same bytes are equal. -/
theorem frame_prefix {b b' w w' r r' : Bytes} (h : Frame b w) (h' : Frame b' w') (e : w ++ r = w' ++ r') : b = b' ∧ r = r' := by
  obtain ⟨h1, rfl⟩ := h
  obtain ⟨h2, rfl⟩ := h'
  simp only [List.append_assoc] at e
  obtain ⟨e1, e2⟩ := List.append_inj e (by simp)
  exact List.append_inj e2 (u32_inj h1 h2 e1)

/-- A blob whose second string is too short for two numbers carries that string only. -/
theorem carries_short {label s s' w1 w2 rest : Bytes} (h1 : Frame label w1) (h2 : Frame s w2) (hs : s.length < 4)
    (h : Carries (w1 ++ (w2 ++ rest)) s') : s' = s := by
  obtain ⟨_, x1, x2, r, e, h3, h4⟩ := h
  have e1 := (frame_prefix h1 h3 e).2
  rcases h4 with h4 | ⟨y1, y2, junk, _, _, _, _, h4, ⟨_, p, hp, _⟩, _⟩
  · exact (frame_prefix h4 h2 e1.symm).1
  · have e2 := congrArg List.length (frame_prefix h4 h2 e1.symm).1
    have e3 := Reader.frame_length hp
    simp only [List.length_append] at e2
    omega

/-- The sample carries one signature. -/
theorem sampleSig_carries {s : Bytes} (h : Carries sampleSig s) : s = [5, 6, 7] :=
  carries_short (label := "ssh-ed25519".toUTF8.data.toList) (rest := []) ⟨by decide +kernel, rfl⟩ ⟨by decide, rfl⟩ (by decide) h

example : Carries sampleSig [5, 6, 7] :=
  ⟨"ssh-ed25519", _, u32 3 ++ [5, 6, 7], [], by decide +kernel, ⟨by decide +kernel, rfl⟩, .inl ⟨by decide, rfl⟩⟩

example : Accepts laxCrypto sampleEd [1, 2] sampleSig := (C21_accepts _ _ _ _ _).mp sampleSig_accepted |>.1

/-! ## C22 -/

/-- C22: for a key with an application string an accepted blob is label, framed signature, flags
byte, counter; and the primitive accepted the message made of the hash of the application, these
flags, this counter and the hash of the message. -/
theorem C22_message (C : Crypto) (sig msg b key : Bytes) (k : PublicKey) (a : String)
    (hk : (∃ c, k.kind = .ecdsa c key (some a)) ∨ k.kind = .ed25519 key (some a))
    (h : verifySignature C sig msg k = .ok b) :
    ∃ label s w1 w2 flags, ∃ counter : UInt32, ∃ rest, sig = w1 ++ w2 ++ [flags] ++ u32 counter.toNat ++ rest ∧
      Text label w1 ∧ Frame s w2 ∧
      let m := C.sha256 a.toByteArray.data.toList ++ [flags] ++ u32 counter.toNat ++ C.sha256 msg
      Carries sig s ∧ C.ed25519Verify key m s = true ∨ ∃ alg fixed, Carries sig fixed ∧ C.ecdsaVerify alg key m fixed = true := by
  obtain ⟨⟨label, w1, w2, w3, rest, hs, ht, hv⟩, _⟩ := verifySignature_ok.mp h
  rcases hk with ⟨c, hk⟩ | hk
  · rw [hk] at hv
    obtain ⟨_, alg, len, x1, x2, junk, r, s, fr, fs, m, _, hf, hx1, hx2, hr, hs', ⟨flags, counter, rfl, rfl⟩, hv⟩ := hv
    exact ⟨label, _, w1, w2, flags, counter, rest, by simp [hs], ht, hf, .inr ⟨alg, _,
      ⟨label, w1, w2, _, hs, ht, .inr ⟨x1, x2, junk, r, s, fr, fs, hf, hx1, hx2, by rw [hs'.1]; exact hr, hs'.2, rfl⟩⟩, hv⟩⟩
  · rw [hk] at hv
    obtain ⟨_, s, m, _, hf, ⟨flags, counter, rfl, rfl⟩, hv⟩ := hv
    exact ⟨label, s, w1, w2, flags, counter, rest, by simp [hs], ht, hf, .inl ⟨⟨label, w1, w2, _, hs, ht, .inl hf⟩, hv⟩⟩

/-- C22: if the signatures two accepted blobs carry are accepted for one message only, the blobs and messages agree
on flags, counter, hash of the application and hash of the message. -/
theorem C22_binding (C : Crypto) (h32 : ∀ x, (C.sha256 x).length = 32) (key m0 : Bytes)
    (sig sig' msg msg' b b' : Bytes) (k k' : PublicKey) (a a' : String)
    (honly : ∀ m s, Carries sig s ∨ Carries sig' s → C.ed25519Verify key m s = true → m = m0)
    (hoec : ∀ a m s, Carries sig s ∨ Carries sig' s → C.ecdsaVerify a key m s = true → m = m0)
    (hk : (∃ c, k.kind = .ecdsa c key (some a)) ∨ k.kind = .ed25519 key (some a))
    (hk' : (∃ c, k'.kind = .ecdsa c key (some a')) ∨ k'.kind = .ed25519 key (some a'))
    (h : verifySignature C sig msg k = .ok b) (h' : verifySignature C sig' msg' k' = .ok b') :
    C.sha256 a.toByteArray.data.toList = C.sha256 a'.toByteArray.data.toList ∧
    C.sha256 msg = C.sha256 msg' ∧
    ∃ pre pre' rest rest' flags, ∃ counter : UInt32, sig = pre ++ [flags] ++ u32 counter.toNat ++ rest ∧
      sig' = pre' ++ [flags] ++ u32 counter.toNat ++ rest' := by
  obtain ⟨label, s, w1, w2, flags, counter, rest, hs, _, _, hv⟩ := C22_message C sig msg b key k a hk h
  obtain ⟨label', s', w1', w2', flags', counter', rest', hs', _, _, hv'⟩ := C22_message C sig' msg' b' key k' a' hk' h'
  have e : ∀ {m s y}, y = sig ∨ y = sig' →
      (Carries y s ∧ C.ed25519Verify key m s = true ∨ ∃ alg fixed, Carries y fixed ∧ C.ecdsaVerify alg key m fixed = true) → m = m0 := by
    rintro m s y hy (⟨hc, h⟩ | ⟨_, _, hc, h⟩)
    · exact honly _ _ (hy.imp (· ▸ hc) (· ▸ hc)) h
    · exact hoec _ _ _ (hy.imp (· ▸ hc) (· ▸ hc)) h
  have e1 := (e (.inl rfl) hv).trans (e (.inr rfl) hv').symm
  simp only [List.append_assoc] at e1
  obtain ⟨e2, e3⟩ := List.append_inj e1 (by rw [h32, h32])
  simp only [List.cons_append, List.nil_append, List.cons.injEq] at e3
  obtain ⟨rfl, e3⟩ := e3
  obtain ⟨e4, e5⟩ := List.append_inj e3 (by simp)
  have e6 : counter = counter' := by
    apply UInt32.toNat_inj.mp
    exact u32_inj counter.toNat_lt counter'.toNat_lt e4
  subst e6
  exact ⟨e2, e5, w1 ++ w2, w1' ++ w2', rest, rest', flags, counter, hs, hs'⟩

/-- C22, finding: the flags byte is authenticated but never inspected, so a signature made without
user presence (flags 0) is accepted like any other. -/
theorem C22_presence_not_required : ∃ (C : Crypto) (k : PublicKey) (sig msg : Bytes),
    (∃ c key a, k.kind = .ecdsa c key (some a)) ∧ verifySignature C sig msg k = .ok sig ∧
    ∃ pre, sig = pre ++ [0] ++ u32 1 :=
  ⟨laxCrypto, sampleSk, u32 34 ++ "sk-ecdsa-sha2-nistp256@openssh.com".toUTF8.data.toList ++
    (u32 10 ++ (u32 1 ++ [5] ++ u32 1 ++ [6])) ++ [0] ++ u32 1, [1], ⟨_, _, _, rfl⟩, by decide +kernel, _, rfl⟩

/-- The hypotheses of `C22_binding` can be met, with primitives for which every message has a signature. -/
example : ∃ C : Crypto, (∀ x, (C.sha256 x).length = 32) ∧ (∀ m, ∃ s, C.ed25519Verify [1] m s = true) ∧
    ∃ k : PublicKey, k.kind = .ed25519 [1] (some "ssh:") ∧ ∃ sig m0, verifySignature C sig [3] k = .ok sig ∧
      (∀ m s, Carries sig s ∨ Carries sig s → C.ed25519Verify [1] m s = true → m = m0) ∧
      (∀ a m s, Carries sig s ∨ Carries sig s → C.ecdsaVerify a [1] m s = true → m = m0) :=
  ⟨{ laxCrypto with
      ed25519Verify := fun _ m s => s == [9] && m == List.replicate 32 7 ++ [1] ++ u32 9 ++ List.replicate 32 7 || s == 0 :: m
      ecdsaVerify := fun _ _ _ _ => false }, by simp [laxCrypto], fun m => ⟨0 :: m, by simp⟩,
    ⟨⟨"sk-ssh-ed25519@openssh.com", "sk-ssh-ed25519@openssh.com", "ED25519-SK", false, true, .ed25519⟩,
      .ed25519 [1] (some "ssh:"), none⟩, rfl,
    u32 26 ++ "sk-ssh-ed25519@openssh.com".toUTF8.data.toList ++ ((u32 1 ++ [9]) ++ ([1] ++ u32 9)),
    List.replicate 32 7 ++ [1] ++ u32 9 ++ List.replicate 32 7, by decide +kernel, by
      rintro m s hc hs
      obtain rfl := carries_short (label := "sk-ssh-ed25519@openssh.com".toUTF8.data.toList) (s := [9]) (rest := [1] ++ u32 9)
        ⟨by decide +kernel, rfl⟩ ⟨by decide, rfl⟩ (by decide) (hc.elim id id)
      simpa using hs, by simp⟩

/-! ## C23 -/

/-- C23: for an accepted ECDSA blob the primitive was called with two integers of 32 bytes (P-256) or
48 bytes (P-384) each, the numbers of the blob. -/
theorem C23_fixed_width (C : Crypto) (sig msg b key : Bytes) (k : PublicKey) (c : Curve) (app : Option String)
    (hk : k.kind = .ecdsa c key app) (h : verifySignature C sig msg k = .ok b) :
    ∃ label w1 x1 x2 junk tail r s arg m alg len, sig = w1 ++ (u32 (x1 ++ x2 ++ junk).length ++ (x1 ++ x2 ++ junk)) ++ tail ∧
      Text label w1 ∧ Mpint r x1 ∧ Mpint s x2 ∧ C.ecdsaVerify alg key m arg = true ∧
      ((alg = .p256 ∧ len = 32) ∨ (alg = .p384 ∧ len = 48)) ∧ arg.length = 2 * len ∧
      natOf (arg.take len) = natOf r ∧ natOf (arg.drop len) = natOf s := by
  obtain ⟨⟨label, w1, w2, w3, rest, hs, ht, hv⟩, _⟩ := verifySignature_ok.mp h
  rw [hk] at hv
  obtain ⟨_, alg, len, x1, x2, junk, r, s, fr, fs, m, hl, hf, hr, hss, h1, h2, _, hv⟩ := hv
  refine ⟨label, w1, x1, x2, junk, w3 ++ rest, r, s, fr ++ fs, m, alg, len, ?_, ht, hr, hss, hv, ?_, ?_, ?_, ?_⟩
  · rw [hs, hf.2]; simp
  · simp only [ecdsaLabels, List.mem_cons, List.not_mem_nil, or_false, Prod.mk.injEq] at hl
    rcases hl with ⟨_, rfl, rfl⟩ | ⟨_, rfl, rfl⟩ | ⟨_, rfl, rfl⟩ <;> simp
  · simp [h1.1, h2.1]; omega
  · rw [← h1.1, List.take_left]; exact h1.2
  · rw [← h1.1, List.drop_left]; exact h2.2

/-- C23: a blob with an integer that does not fit is rejected. -/
theorem C23_too_long (C : Crypto) (msg key : Bytes) (k : PublicKey) (c : Curve) (app : Option String)
    (hk : k.kind = .ecdsa c key app) (hkk : k.keyType.kind = .ecdsa) (label : String) (alg : EcAlg) (len : Nat)
    (hl : (label, alg, len) ∈ ecdsaLabels) (w1 w2 x1 x2 junk rest r s : Bytes) (h1 : Text label w1)
    (h2 : Frame (x1 ++ x2 ++ junk) w2) (h3 : Mpint r x1) (h4 : Mpint s x2)
    (hlen : len < r.length ∨ len < s.length) :
    verifySignature C (w1 ++ w2 ++ rest) msg k = .err .invalidFormat := by
  obtain ⟨t, ht1, ht2, ht3⟩ := label_kinds.2.1 _ hl
  unfold verifySignature
  have e1 : Reader.readString (Reader.new (w1 ++ w2 ++ rest)) = (.ok label, adv (Reader.new (w1 ++ w2 ++ rest)) w1) :=
    (Reader.readString_parses _ _ _).mpr ⟨w1, h1, at_new.mpr ⟨w2 ++ rest, by simp⟩, rfl⟩
  have e2 : Reader.readBytes (adv (Reader.new (w1 ++ w2 ++ rest)) w1) = (.ok (x1 ++ x2 ++ junk), _) :=
    (Reader.readBytes_parses _ _ _).mpr ⟨w2, h2, (at_append.mp (at_new.mpr ⟨rest, rfl⟩)).2, rfl⟩
  have e3 : Reader.readPositiveMpint (Reader.new (x1 ++ x2 ++ junk)) = (.ok r, adv (Reader.new (x1 ++ x2 ++ junk)) x1) :=
    (Reader.readPositiveMpint_parses _ _ _).mpr ⟨x1, h3, at_new.mpr ⟨x2 ++ junk, by simp⟩, rfl⟩
  have e4 : Reader.readPositiveMpint (adv (Reader.new (x1 ++ x2 ++ junk)) x1) = (.ok s, _) :=
    (Reader.readPositiveMpint_parses _ _ _).mpr ⟨x2, h4, (at_append.mp (at_new.mpr ⟨junk, rfl⟩)).2, rfl⟩
  have e5 : (readFixedRS len (Reader.new (x1 ++ x2 ++ junk))).1 = .err .invalidFormat := by
    unfold readFixedRS
    rw [Rd.bind_of_ok e3, Rd.bind_of_ok e4, if_pos (by omega)]
    rfl
  rw [Rd.bind_of_ok e1]
  simp only [fromName_ok.mpr ⟨ht1, ht2⟩]
  rw [Rd.bind_of_ok (Rd.lift_eq _ _), if_neg (by simp [hkk, ht3]), hk]
  simp only
  rw [Rd.bind_of_ok e2, ht2, ecdsaSigAlg_ok.mpr hl, Rd.bind_of_ok (Rd.lift_eq _ _)]
  simp only [e5]
  rfl

example : (∃ label w1, Text label w1 ∧ (label, .p256, 32) ∈ ecdsaLabels) ∧
    (∃ x, Mpint (List.replicate 33 1) x) ∧ 32 < (List.replicate 33 (1 : UInt8)).length :=
  ⟨⟨"ecdsa-sha2-nistp256", _, ⟨by decide, rfl⟩, by decide⟩, fitsMpint_mpint.mp ⟨by simp [Shortest], by decide⟩, by decide⟩

example : verifySignature laxCrypto (u32 34 ++ "sk-ecdsa-sha2-nistp256@openssh.com".toUTF8.data.toList ++
    (u32 10 ++ (u32 1 ++ [5] ++ u32 1 ++ [6])) ++ [1] ++ u32 1) [1] sampleSk ≠ .err .invalidFormat := by decide +kernel

/-! ## C24 -/

/-- C24: a label of another family is rejected without asking any primitive. -/
theorem C24_family (C : Crypto) (msg w rest : Bytes) (k : PublicKey) (label : String) (t : KeyType)
    (hl : Text label w) (ht : KeyType.fromName label = .ok t) (hf : family t.kind ≠ family k.keyType.kind) :
    verifySignature C (w ++ rest) msg k = .err .keyTypeMismatch := by
  unfold verifySignature
  have e1 : Reader.readString (Reader.new (w ++ rest)) = (.ok label, adv (Reader.new (w ++ rest)) w) :=
    (Reader.readString_parses _ _ _).mpr ⟨w, hl, at_new.mpr ⟨rest, rfl⟩, rfl⟩
  rw [Rd.bind_of_ok e1]
  simp only [ht]
  rw [Rd.bind_of_ok (Rd.lift_eq _ _), if_pos (fun e => hf (by rw [e]))]
  rfl

/-- C24: a label that names a certificate type, or no key type at all, is never accepted. -/
theorem C24_label (C : Crypto) (msg w rest b : Bytes) (k : PublicKey) (label : String)
    (hl : Text label w) (ht : ∀ t, KeyType.fromName label = .ok t → t.isCert = true) :
    verifySignature C (w ++ rest) msg k ≠ .ok b := by
  intro h
  obtain ⟨⟨label', w1, w2, w3, rest', hs, ht', hv⟩, _⟩ := verifySignature_ok.mp h
  obtain ⟨rfl, rfl, _⟩ := Reader.readString_parses.unique hl ht' hs
  have hlab : ∀ l ∈ rsaLabels.map (·.1) ++ ecdsaLabels.map (·.1) ++ ed25519Labels,
      ∃ t ∈ keyTypes, t.name = l ∧ t.isCert = false := by decide +kernel
  have : label ∈ rsaLabels.map (·.1) ++ ecdsaLabels.map (·.1) ++ ed25519Labels := by
    simp only [List.mem_append, List.mem_map]
    cases hk : k.kind with
    | rsa e n =>
      rw [hk] at hv
      obtain ⟨_, _, alg, s, hm, _⟩ := hv
      exact .inl (.inl ⟨_, hm, rfl⟩)
    | ed25519 key app =>
      rw [hk] at hv
      obtain ⟨_, s, m, hm, _⟩ := hv
      exact .inr hm
    | ecdsa c key app =>
      rw [hk] at hv
      obtain ⟨_, alg, len, x1, x2, junk, r, s, fr, fs, m, hm, _⟩ := hv
      exact .inl (.inr ⟨_, hm, rfl⟩)
  obtain ⟨t, h1, h2, h3⟩ := hlab _ this
  rw [ht t (fromName_ok.mpr ⟨h1, h2⟩)] at h3
  cases h3

/-- C24: the key's own type must not be an RSA, ECDSA or Ed25519 certificate type either. -/
theorem C24_key_type (C : Crypto) (sig msg b : Bytes) (k : PublicKey)
    (h : verifySignature C sig msg k = .ok b) :
    k.keyType.kind = .rsa ∨ k.keyType.kind = .ecdsa ∨ k.keyType.kind = .ed25519 := by
  obtain ⟨⟨label, w1, w2, w3, rest, hs, ht, hv⟩, _⟩ := verifySignature_ok.mp h
  cases hk : k.kind <;> rw [hk] at hv
  · exact .inl hv.1
  · exact .inr (.inl hv.1)
  · exact .inr (.inr hv.1)

/-- C24, finding: within the ECDSA family the curve of the key plays no role; the label alone selects
the primitive. -/
theorem C24_curve_ignored (C : Crypto) (sig msg key : Bytes) (kt : KeyType) (c c' : Curve) (app : Option String)
    (cm : Option String) : verifySignature C sig msg ⟨kt, .ecdsa c key app, cm⟩ =
      verifySignature C sig msg ⟨kt, .ecdsa c' key app, cm⟩ := rfl

example : ∃ w t, Text "rsa-sha2-512" w ∧ KeyType.fromName "rsa-sha2-512" = .ok t ∧
    family t.kind ≠ family sampleEd.keyType.kind := ⟨_, _, ⟨by decide, rfl⟩, rfl, by decide⟩

example : ∃ w, Text "ssh-ed25519-cert-v01@openssh.com" w ∧
    ∀ t, KeyType.fromName "ssh-ed25519-cert-v01@openssh.com" = .ok t → t.isCert = true := by
  refine ⟨_, ⟨by decide, rfl⟩, ?_⟩
  intro t ht
  obtain ⟨h1, h2⟩ := fromName_ok.mp ht
  have : ∀ t ∈ keyTypes, t.name = "ssh-ed25519-cert-v01@openssh.com" → t.isCert = true := by decide +kernel
  exact this t h1 h2

end Ssh
