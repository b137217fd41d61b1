import Verif.Props.Cert
import Verif.Props.SshSig

/-! # C99: many signatures for one; signed objects are not identified by their bytes -/

namespace Ssh

open Spec

/-- C99 (finding): whatever is appended to an accepted signature blob, it stays accepted. -/
theorem C99_suffix (C : Crypto) (sig msg b junk : Bytes) (k : PublicKey) (h : verifySignature C sig msg k = .ok b) :
    verifySignature C (sig ++ junk) msg k = .ok (sig ++ junk) := by
  obtain ⟨⟨label, w1, w2, w3, rest, rfl, ht, hv⟩, _⟩ := verifySignature_ok.mp h
  exact verifySignature_ok.mpr ⟨⟨label, w1, w2, w3, rest ++ junk, by simp, ht, hv⟩, rfl⟩

/-- C99 (finding): for Ed25519 keys the two labels (plain and hardware) are interchangeable. -/
theorem C99_label_ed25519 (C : Crypto) (msg tail key : Bytes) (k : PublicKey) (app : Option String)
    (hk : k.kind = .ed25519 key app) (l l' : String) (w w' : Bytes) (hl' : l' ∈ ed25519Labels)
    (hw : Text l w) (hw' : Text l' w') (h : ∃ b, verifySignature C (w ++ tail) msg k = .ok b) :
    verifySignature C (w' ++ tail) msg k = .ok (w' ++ tail) := by
  obtain ⟨b, h⟩ := h
  obtain ⟨⟨label, w1, w2, w3, rest, hs, ht, hv⟩, _⟩ := verifySignature_ok.mp h
  obtain ⟨rfl, rfl, rfl⟩ := Reader.readString_parses.unique hw ht hs
  refine verifySignature_ok.mpr ⟨⟨l', w', w2, w3, rest, rfl, hw', ?_⟩, rfl⟩
  rw [hk] at hv ⊢
  obtain ⟨h1, s, m, _, h2, h3, h4⟩ := hv
  exact ⟨h1, s, m, hl', h2, h3, h4⟩

/-- C99 (finding): the same for the P-256 labels. -/
theorem C99_label_p256 (C : Crypto) (msg tail key : Bytes) (k : PublicKey) (c : Curve) (app : Option String)
    (hk : k.kind = .ecdsa c key app) (l l' : String) (w w' : Bytes) (hl : (l, .p256, 32) ∈ ecdsaLabels)
    (hl' : (l', .p256, 32) ∈ ecdsaLabels) (hw : Text l w) (hw' : Text l' w')
    (h : ∃ b, verifySignature C (w ++ tail) msg k = .ok b) :
    verifySignature C (w' ++ tail) msg k = .ok (w' ++ tail) := by
  obtain ⟨b, h⟩ := h
  obtain ⟨⟨label, w1, w2, w3, rest, hs, ht, hv⟩, _⟩ := verifySignature_ok.mp h
  obtain ⟨rfl, rfl, rfl⟩ := Reader.readString_parses.unique hw ht hs
  refine verifySignature_ok.mpr ⟨⟨l', w', w2, w3, rest, rfl, hw', ?_⟩, rfl⟩
  rw [hk] at hv ⊢
  obtain ⟨h1, alg, len, x1, x2, junk, r, s, fr, fs, m, h2, h3⟩ := hv
  have : alg = .p256 ∧ len = 32 := by
    have t : ∀ x ∈ ecdsaLabels, ∀ y ∈ ecdsaLabels, x.1 = y.1 → x = y := by decide +kernel
    have := t _ h2 _ hl rfl
    simp only [Prod.mk.injEq, true_and] at this
    exact this
  obtain ⟨rfl, rfl⟩ := this
  exact ⟨h1, .p256, 32, x1, x2, junk, r, s, fr, fs, m, hl', h3⟩

/-- C99 (finding): bytes after the two integers inside an ECDSA signature are not looked at either. -/
theorem C99_ecdsa_junk (C : Crypto) (msg key r s x1 x2 junk junk' w1 w2 tail : Bytes) (k : PublicKey) (c : Curve)
    (app : Option String) (label : String) (hk : k.kind = .ecdsa c key app) (hl : Text label w1)
    (hf : Frame (x1 ++ (x2 ++ junk)) w2) (h1 : Mpint r x1) (h2 : Mpint s x2)
    (hj : (x1 ++ (x2 ++ junk')).length < 4294967296)
    (h : ∃ b, verifySignature C (w1 ++ (w2 ++ tail)) msg k = .ok b) :
    ∃ sig', sig' = w1 ++ (frame (x1 ++ (x2 ++ junk')) ++ tail) ∧ verifySignature C sig' msg k = .ok sig' := by
  obtain ⟨b, h⟩ := h
  obtain ⟨⟨label', v1, v2, v3, rest, hs, ht, hv⟩, _⟩ := verifySignature_ok.mp h
  obtain ⟨rfl, rfl, hs2⟩ := Reader.readString_parses.unique hl ht hs
  refine ⟨_, rfl, ?_⟩
  rw [hk] at hv
  obtain ⟨g1, alg, len, y1, y2, jk, r', s', fr, fs, m, g2, g3, g4, g5, g6, g7, g8, g9⟩ := hv
  obtain ⟨e, rfl, hs3⟩ := Reader.readBytes_parses.unique hf g3 hs2
  obtain ⟨rfl, rfl, e2⟩ := Reader.readPositiveMpint_parses.unique h1 g4 e
  obtain ⟨rfl, rfl, _⟩ := Reader.readPositiveMpint_parses.unique h2 g5 e2
  subst hs3
  refine verifySignature_ok.mpr ⟨⟨label, w1, _, v3, rest, rfl, hl, ?_⟩, rfl⟩
  rw [hk]
  exact ⟨g1, alg, len, x1, x2, junk', r, s, fr, fs, m, g2, Frame.of hj, h1, h2, g6, g7, g8, g9⟩

/-- C99 (finding): from an accepted certificate anybody makes others with all fields unchanged: bytes may be appended to
the signature and behind it. -/
theorem C99_certificate (C : Crypto) (data : Bytes) (c : Certificate) (h : Certificate.fromBytes C data = .ok c)
    (junk tail : Bytes) (hj : (c.signature ++ junk).length < 4294967296) :
    ∃ w wsig rest, data = w ++ (wsig ++ rest) ∧ Frame c.signature wsig ∧
      Certificate.fromBytes C (w ++ (frame (c.signature ++ junk) ++ tail)) =
        .ok { c with signature := c.signature ++ junk, serialized := w ++ (frame (c.signature ++ junk) ++ tail) } := by
  obtain ⟨w, wsig, rest, h1, h2, h3, h4, h5, _⟩ := certFromBytes_ok.mp h
  refine ⟨w, wsig, rest, h1, h3, certFromBytes_ok.mpr ⟨w, _, tail, rfl, h2, Frame.of hj, ?_, h5, rfl⟩⟩
  have := C99_suffix C c.signature w c.signature junk c.signatureKey (verifySignature_ok.mpr ⟨h4, rfl⟩)
  exact (verifySignature_ok.mp this).1

/-- C99: so no finite list of refused certificate bytes refuses a certificate: some accepted bytes with the same fields
are not on it. -/
theorem C99_deny_list (C : Crypto) (data : Bytes) (c : Certificate) (h : Certificate.fromBytes C data = .ok c)
    (denied : List Bytes) : ∃ data' c', data' ∉ denied ∧ Certificate.fromBytes C data' = .ok c' ∧ SameFields c' c ∧
      c'.signature = c.signature := by
  obtain ⟨w, wsig, rest, h1, h2, h3, h4, h5, _⟩ := certFromBytes_ok.mp h
  have hb : ∃ n, ∀ d ∈ denied, d.length < n := by
    clear h
    induction denied with
    | nil => exact ⟨0, by simp⟩
    | cons a l ih =>
      obtain ⟨n, hn⟩ := ih
      refine ⟨a.length + 1 + n, fun d hd => ?_⟩
      rcases List.mem_cons.mp hd with rfl | hd
      · omega
      · have := hn d hd; omega
  obtain ⟨n, hn⟩ := hb
  refine ⟨w ++ (wsig ++ List.replicate n 0), { c with serialized := w ++ (wsig ++ List.replicate n 0) }, fun hm => ?_,
    certFromBytes_ok.mpr ⟨w, wsig, _, rfl, h2, h3, h4, h5, rfl⟩, sameFields_of_eq rfl, rfl⟩
  have := hn _ hm
  simp at this
  omega

/-- C99 (finding): the same for SSHSIG signatures. -/
theorem C99_sshsig (C : Crypto) (msg junk : Bytes) (s : SshSignature) (ns : String) (k : Option PublicKey)
    (v : VerifiedSshSignature) (h : VerifiedSshSignature.fromSshSignature C msg s ns k = .ok v) :
    VerifiedSshSignature.fromSshSignature C msg { s with signature := s.signature ++ junk } ns k =
      .ok ⟨{ s with signature := s.signature ++ junk }, msg⟩ := by
  unfold VerifiedSshSignature.fromSshSignature at h ⊢
  split at h
  · cases h
  · rename_i h1
    split at h
    · cases h
    · rename_i h2
      rw [if_neg h1, if_neg h2]
      have e : SshSignature.toSignedFormat C { s with signature := s.signature ++ junk } msg = s.toSignedFormat C msg := rfl
      simp only [e]
      split at h
      · rename_i b hb
        rw [C99_suffix C _ _ _ junk _ hb]
      · cases h
      · cases h

example : (∃ c, Certificate.fromBytes laxCrypto sampleSigned.serialized = .ok c) ∧
    (∃ b, verifySignature laxCrypto sampleSig [1, 2] sampleEd = .ok b) := ⟨⟨_, sampleSigned_parses⟩, _, sampleSig_accepted⟩

example : ∃ w w' tail, Text "ssh-ed25519" w ∧ Text "sk-ssh-ed25519@openssh.com" w' ∧
    ∃ b, verifySignature laxCrypto (w ++ tail) [1, 2] sampleEd = .ok b :=
  ⟨_, _, u32 3 ++ [5, 6, 7], ⟨by decide +kernel, rfl⟩, ⟨by decide +kernel, rfl⟩, _, sampleSig_accepted⟩

example : ∃ w1 w2 x1 x2 tail, Text "sk-ecdsa-sha2-nistp256@openssh.com" w1 ∧ Frame (x1 ++ (x2 ++ [])) w2 ∧ Mpint [5] x1 ∧
    Mpint [6] x2 ∧ verifySignature laxCrypto (w1 ++ (w2 ++ tail)) [1] sampleSk = .ok (w1 ++ (w2 ++ tail)) :=
  ⟨_, _, u32 1 ++ [5], u32 1 ++ [6], [1] ++ u32 1, ⟨by decide +kernel, rfl⟩, ⟨by decide +kernel, rfl⟩,
    ⟨by simp [Shortest], [5], ⟨by decide, rfl⟩, .plain _ _ (by decide) (by decide), rfl⟩,
    ⟨by simp [Shortest], [6], ⟨by decide, rfl⟩, .plain _ _ (by decide) (by decide), rfl⟩, by decide +kernel⟩

end Ssh
