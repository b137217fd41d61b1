import Verif.Spec.Sign
import Verif.Lemmas.SshSig
import Verif.Lemmas.Asn1

/-! # Signing with a private key -/

namespace Ssh

open Spec Reader

theorem frame_str {b : Bytes} (h : b.length < 4294967296) : Frame b (str b) := ⟨h, rfl⟩

theorem text_table {kt : KeyType} (h : kt ∈ keyTypes) : Text kt.name (text kt.name) := frameStr_name h

theorem table_curve : ∀ kt ∈ keyTypes, ∀ c ∈ curves, kt.name = "ecdsa-sha2-" ++ c.identifier →
    kt.kind = .ecdsa ∧ (c.kind = .nistp256 → (kt.name, EcAlg.p256, 32) ∈ ecdsaLabels) ∧
      (c.kind = .nistp384 → (kt.name, EcAlg.p384, 48) ∈ ecdsaLabels) := by decide +kernel

theorem table_ed : ∀ kt ∈ keyTypes, kt.name = "ssh-ed25519" → kt.kind = .ed25519 := by decide +kernel

theorem accepts_rsa {C : Crypto} {k : PublicKey} {e n msg s : Bytes} (hk : k.kind = .rsa e n)
    (hkt : k.keyType.kind = .rsa) (hs : s.length < 4294967296) (hv : C.rsaVerify .sha512 n e msg s = true) :
    Accepts C k msg (text "rsa-sha2-512" ++ str s) := by
  refine ⟨"rsa-sha2-512", _, str s, [], [], by simp; rfl, Text.of (by decide +kernel), ?_⟩
  rw [hk]
  exact ⟨hkt, rfl, .sha512, s, by decide, frame_str hs, hv⟩

theorem accepts_ed25519 {C : Crypto} {k : PublicKey} {key msg s : Bytes} (hk : k.kind = .ed25519 key none)
    (hkt : k.keyType ∈ keyTypes) (hn : k.keyType.name = "ssh-ed25519") (hs : s.length < 4294967296)
    (hv : C.ed25519Verify key msg s = true) : Accepts C k msg (text k.keyType.name ++ str s) := by
  refine ⟨k.keyType.name, _, str s, [], [], by simp, text_table hkt, ?_⟩
  rw [hk]
  exact ⟨table_ed _ hkt hn, s, msg, by rw [hn]; decide, frame_str hs, ⟨rfl, rfl⟩, hv⟩

theorem derPositive_ne {n : Nat} {c : Bytes} (h : DerPositive n c) : c ≠ [] := by
  rintro rfl
  obtain ⟨_, h1, h2⟩ := h
  exact h2 (by rw [← h1]; rfl)

/-- SSH form of a signature if there is one. -/
def signOpt (k : PublicKey) : Option Bytes → Res (Option Bytes)
  | some s => formatSignatureForSsh k s
  | none => .ok none

theorem signEcdsa_eq {F : Features} {C : Crypto} {D : FidoDev} {k : PrivateKey} {curve c : Curve} {key pub : Bytes}
    {app : Option String} (hk : k.kind = .ecdsa curve key) (hp : k.pubkey.kind = .ecdsa c pub app) (hne : key ≠ [])
    (msg : Bytes) : k.sign F C D msg = match ecAlg curve.kind with
      | none => .ok none
      | some alg => signOpt k.pubkey (C.ecdsaSign alg (dropZero key) pub msg) := by
  unfold PrivateKey.sign
  rw [hk, hp]
  dsimp only
  have main : ∀ alg, (do
      let b0 ← index key 0
      let secret ← if b0 = 0 then sliceFrom key 1 else pure key
      match C.ecdsaSign alg secret pub msg with
      | some s => formatSignatureForSsh k.pubkey s
      | none => return none : Res (Option Bytes)) = signOpt k.pubkey (C.ecdsaSign alg (dropZero key) pub msg) := by
    intro alg
    match key, hne with
    | b :: t, _ =>
      rw [index_ok (by simp)]
      simp only [List.getElem_cons_zero, Res.ok_bind, dropZero]
      split
      · rw [sliceFrom_ok (by simp)]
        simp only [Res.ok_bind, List.drop_succ_cons, List.drop_zero]
        cases C.ecdsaSign alg t pub msg <;> rfl
      · simp only [Res.pure_eq, Res.ok_bind]
        cases C.ecdsaSign alg (b :: t) pub msg <;> rfl
  cases curve.kind with
  | nistp256 => exact main .p256
  | nistp384 => exact main .p384
  | nistp521 => rfl

theorem signRsa_eq {F : Features} {C : Crypto} {D : FidoDev} {k : PrivateKey} {r : RsaPrivateKey} {der : Bytes}
    (hk : k.kind = .rsa r) (h : rsaToDer r = .ok der) (msg : Bytes) :
    k.sign F C D msg = if F.rsaSigning then signOpt k.pubkey (C.rsaSign der msg) else .ok none := by
  unfold PrivateKey.sign
  rw [hk]
  dsimp only
  rw [h]
  simp only [Res.ok_bind]
  cases C.rsaSign der msg <;> rfl

theorem signEd_eq {F : Features} {C : Crypto} {D : FidoDev} {k : PrivateKey} {key pub : Bytes} {app : Option String}
    (hk : k.kind = .ed25519 key) (hp : k.pubkey.kind = .ed25519 pub app) (hl : 32 ≤ key.length) (msg : Bytes) :
    k.sign F C D msg = signOpt k.pubkey (C.ed25519Sign (key.take 32) pub msg) := by
  unfold PrivateKey.sign
  rw [hk, hp]
  dsimp only
  rw [slice_ok (by omega) hl]
  simp only [Res.ok_bind, List.drop_zero, Nat.sub_zero]
  cases C.ed25519Sign (key.take 32) pub msg <;> rfl

/-- Signing with a consistent software key gives a signature acceptable for the public key, or none. -/
theorem sign_accepts {F : Features} {C : Crypto} {D : FidoDev} {k : PrivateKey} (hC : SignsCorrectly C)
    (hk : ConsistentKey k) (msg : Bytes) : k.sign F C D msg = .ok none ∨
    ∃ sig, k.sign F C D msg = .ok (some sig) ∧ Accepts C k.pubkey msg sig := by
  obtain ⟨hed, hrsa, hec⟩ := hC
  obtain ⟨hkt, hk⟩ := hk
  cases hkind : k.kind with
  | rsa r =>
    rw [hkind] at hk
    cases hpub : k.pubkey.kind with
    | ecdsa c key app => rw [hpub] at hk; exact hk.elim
    | ed25519 key app => rw [hpub] at hk; exact hk.elim
    | rsa e n =>
      rw [hpub] at hk
      obtain ⟨h1, h2, h3, h4, h5⟩ := hk
      obtain ⟨exp, h4⟩ := Option.isSome_iff_exists.mp h4
      obtain ⟨exq, h5⟩ := Option.isSome_iff_exists.mp h5
      obtain ⟨der, h6, h7⟩ := rsaToDer_spec h4 h5
      rw [signRsa_eq hkind h6]
      split
      · cases hs : C.rsaSign der msg with
        | none => exact .inl rfl
        | some s =>
          obtain ⟨hl, hv⟩ := hrsa _ _ _ _ _ _ _ _ _ _ _ h7 hs
          exact .inr ⟨_, formatSignature_rsa hpub s, accepts_rsa hpub h1 hl (hv n e h2.symm h3.symm)⟩
      · exact .inl rfl
  | ecdsa curve key =>
    rw [hkind] at hk
    cases hpub : k.pubkey.kind with
    | rsa e n => rw [hpub] at hk; exact hk.elim
    | ed25519 key app => rw [hpub] at hk; exact hk.elim
    | ecdsa c pub app =>
      rw [hpub] at hk
      obtain ⟨rfl, h2, h3, h4⟩ := hk
      obtain ⟨t1, t2, t3⟩ := table_curve _ hkt _ h2 h3
      rw [signEcdsa_eq hkind hpub h4]
      have main : ∀ alg, (k.pubkey.keyType.name, alg, ecWidth alg) ∈ ecdsaLabels →
          signOpt k.pubkey (C.ecdsaSign alg (dropZero key) pub msg) = .ok none ∨
          ∃ sig, signOpt k.pubkey (C.ecdsaSign alg (dropZero key) pub msg) = .ok (some sig) ∧ Accepts C k.pubkey msg sig := by
        intro alg hlab
        cases hs : C.ecdsaSign alg (dropZero key) pub msg with
        | none => exact .inl rfl
        | some sig =>
          obtain ⟨r, s, cr, cs, fr, fs, hr, hs', hcr, hcs, hd, hfr, hfs, hv⟩ := hec _ _ _ _ _ hs
          right
          refine ⟨_, formatSignature_ecdsa hpub hd (derPositive_ne hcs), ?_⟩
          have hlen := hd.1
          have e := (accepts_ecdsa (C := C) hpub t1 hlab hcr.1 hcs.1 (by omega) (by omega)
            (by rw [hcr.2.1]; exact hfr) (by rw [hcs.2.1]; exact hfs) msg []).mpr ⟨msg, [], [], rfl, ⟨rfl, rfl⟩, hv⟩
          rw [List.append_nil] at e
          exact e
      cases hck : curve.kind with
      | nistp256 => exact main .p256 (t2 hck)
      | nistp384 => exact main .p384 (t3 hck)
      | nistp521 => exact .inl rfl
  | ed25519 key =>
    rw [hkind] at hk
    cases hpub : k.pubkey.kind with
    | rsa e n => rw [hpub] at hk; exact hk.elim
    | ecdsa c key app => rw [hpub] at hk; exact hk.elim
    | ed25519 pub app =>
      rw [hpub] at hk
      obtain ⟨rfl, h2, h3⟩ := hk
      rw [signEd_eq hkind hpub h3]
      cases hs : C.ed25519Sign (key.take 32) pub msg with
      | none => exact .inl rfl
      | some s =>
        obtain ⟨hl, hv⟩ := hed _ _ _ _ hs
        exact .inr ⟨_, formatSignature_ed25519 hpub s, accepts_ed25519 hpub hkt h2 hl hv⟩
  | ecdsaSk s => rw [hkind] at hk; cases k.pubkey.kind <;> exact hk.elim
  | ed25519Sk s => rw [hkind] at hk; cases k.pubkey.kind <;> exact hk.elim

end Ssh
