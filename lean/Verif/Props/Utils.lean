import Verif.Lemmas.Utils
import Verif.Props.Verify

/-! # C50, C51 -/

namespace Ssh

open Spec

/-! ## C50 -/

/-- C50: `asn_der_to_r_s` never panics (no index or slice out of range). -/
theorem C50_total (buf : Bytes) : ∃ o, asnDerToRS buf = .ok o := by
  obtain ⟨o, h, _⟩ := signatureConvert_eq buf
  exact ⟨o, h⟩

/-- C50: it returns `(r, s)` exactly for: tag 0x30, one arbitrary byte (the sequence length is not
checked), then two integers with one-byte lengths, the second non-empty and ending the input. -/
theorem C50_exact (buf r s : Bytes) : asnDerToRS buf = .ok (some (r, s)) ↔
    ∃ l : UInt8, r.length < 256 ∧ s.length < 256 ∧ s ≠ [] ∧
      buf = [0x30, l, 0x02, UInt8.ofNat r.length] ++ (r ++ ([0x02, UInt8.ofNat s.length] ++ s)) :=
  asnDerToRS_ok

/-- C50: in particular the DER sequence of two integers is split into its two contents. -/
theorem C50_der (buf r s : Bytes) (h : DerPair r s buf) (hs : s ≠ []) : asnDerToRS buf = .ok (some (r, s)) := by
  obtain ⟨h1, h2⟩ := h
  exact asnDerToRS_ok.mpr ⟨UInt8.ofNat (r.length + s.length + 4), by omega, by omega, hs, by rw [h2]; simp⟩

/-- C50: what is returned are contiguous parts of the input, in order. -/
theorem C50_contiguous (buf r s : Bytes) (h : asnDerToRS buf = .ok (some (r, s))) :
    ∃ pre mid, buf = pre ++ r ++ mid ++ s := by
  obtain ⟨l, _, _, _, rfl⟩ := asnDerToRS_ok.mp h
  exact ⟨[0x30, l, 0x02, UInt8.ofNat r.length], [0x02, UInt8.ofNat s.length], by simp⟩

example : DerPair [0, 200] [5] [0x30, 7, 2, 2, 0, 200, 2, 1, 5] := ⟨by decide, by decide⟩

/-! ## C51 -/

theorem natOf_pos_of_shortest {v : Bytes} (h : Shortest v) (hne : v ≠ []) : 256 ^ (v.length - 1) ≤ natOf v := by
  match v, hne with
  | b :: bs, _ =>
    have hb : b ≠ 0 := fun e => h (by simp [e])
    have : 1 ≤ b.toNat := by
      have := mt UInt8.toNat_inj.mp hb
      simp at this; omega
    simp only [natOf, List.length_cons, Nat.add_sub_cancel]
    have := Nat.mul_le_mul_right (256 ^ bs.length) this
    omega

/-- The DER content of a positive number below `256^len` has at most `len + 1` bytes. -/
theorem derPositive_length {n len : Nat} {c : Bytes} (h : DerPositive n c) (hn : n < 256 ^ len) :
    c.length ≤ len + 1 ∧ c ≠ [] := by
  obtain ⟨h1, h2, h3⟩ := h
  have key : ∀ v : Bytes, Shortest v → v ≠ [] → natOf v < 256 ^ len → v.length ≤ len := by
    intro v hs hne hv
    have := natOf_pos_of_shortest hs hne
    have h4 := (Nat.pow_lt_pow_iff_right (a := 256) (by decide)).mp (Nat.lt_of_le_of_lt this hv)
    have : v.length ≠ 0 := fun e => hne (List.length_eq_zero_iff.mp e)
    omega
  cases h1 with
  | zero => simp [natOf] at h2; omega
  | plain b bs h0 h1 =>
    have := key (b :: bs) (by simpa [Shortest] using h0) (by simp) (by omega)
    exact ⟨by omega, by simp⟩
  | padded b bs hb =>
    have hb0 : b ≠ 0 := by rintro rfl; exact absurd hb (by decide)
    have e : natOf (0 :: b :: bs) = natOf (b :: bs) := by simp [natOf]
    have := key (b :: bs) (by simpa [Shortest] using hb0) (by simp) (by omega)
    exact ⟨by simpa using this, by simp⟩

theorem ecdsaLabels_len : ∀ x ∈ ecdsaLabels, x.2.2 ≤ 48 := by decide

theorem text_inner (n : String) : (Writer.new.writeString n).inner = text n := by
  simp [Writer.new, text, str, frameStr, frame, strBytes]

/-- C51: exactly which bytes `signature_convert_asn1_ecdsa_to_ssh` makes: the two integers it reads, each as a string; it
returns nothing exactly if the input is not read as two integers, and never panics. -/
theorem C51_convert (sig : Bytes) : ∃ o, signatureConvertAsn1EcdsaToSsh sig = .ok o ∧
    ∀ w, o = some w ↔ ∃ r s, LooseDer r s sig ∧ w = str r ++ str s := by
  obtain ⟨o, h1, h2⟩ := signatureConvert_eq sig
  refine ⟨_, h2, fun w => ?_⟩
  constructor
  · intro h
    obtain ⟨⟨r, s⟩, ho, rfl⟩ := Option.map_eq_some_iff.mp h
    exact ⟨r, s, asnDerToRS_ok.mp (by rw [h1, ho]), rfl⟩
  · rintro ⟨r, s, h, rfl⟩
    rw [asnDerToRS_ok.mpr h] at h1
    cases h1
    rfl

example : LooseDer [1] [2, 3] [0x30, 7, 2, 1, 1, 2, 2, 2, 3] := ⟨7, by decide, by decide, by decide, by decide⟩

example : signatureConvertAsn1EcdsaToSsh [0x30, 7, 2, 1, 1, 2, 2, 2, 3] =
    .ok (some [0, 0, 0, 1, 1, 0, 0, 0, 2, 2, 3]) := by decide +kernel

/-- C51: exactly which bytes `format_signature_for_ssh` makes; it returns nothing exactly if there is no such form, and
never panics. -/
theorem C51_exact (k : PublicKey) (sig : Bytes) :
    ∃ o, formatSignatureForSsh k sig = .ok o ∧ ∀ blob, o = some blob ↔ SshForm k sig blob := by
  unfold formatSignatureForSsh
  cases hk : k.kind with
  | rsa e n =>
    refine ⟨_, rfl, fun blob => ?_⟩
    rw [Writer.writeBytes_inner, text_inner]
    constructor
    · intro h; cases h; exact .rsa e n hk
    · intro h; cases h with
      | rsa => rfl
      | ed25519 _ _ h => rw [hk] at h; cases h
      | ecdsa _ _ _ _ _ h => rw [hk] at h; cases h
  | ed25519 key app =>
    refine ⟨_, rfl, fun blob => ?_⟩
    rw [Writer.writeBytes_inner, text_inner]
    constructor
    · intro h; cases h; exact .ed25519 key app hk
    · intro h; cases h with
      | rsa _ _ h => rw [hk] at h; cases h
      | ed25519 => rfl
      | ecdsa _ _ _ _ _ h => rw [hk] at h; cases h
  | ecdsa c key app =>
    obtain ⟨o, h1, h2⟩ := signatureConvert_eq sig
    simp only [h2, Res.ok_bind]
    cases o with
    | none =>
      refine ⟨_, rfl, fun blob => ⟨nofun, fun h => ?_⟩⟩
      cases h with
      | rsa _ _ h => rw [hk] at h; cases h
      | ed25519 _ _ h => rw [hk] at h; cases h
      | ecdsa _ _ _ r s _ h =>
        rw [asnDerToRS_ok.mpr h] at h1
        cases h1
    | some rs =>
      refine ⟨_, rfl, fun blob => ?_⟩
      rw [Writer.writeBytes_inner, text_inner]
      constructor
      · intro h; cases h; exact .ecdsa c key app _ _ hk (asnDerToRS_ok.mp h1)
      · intro h; cases h with
        | rsa _ _ h => rw [hk] at h; cases h
        | ed25519 _ _ h => rw [hk] at h; cases h
        | ecdsa _ _ _ r s _ h =>
          rw [asnDerToRS_ok.mpr h] at h1
          cases h1
          rfl

theorem sshForm_iff {k : PublicKey} {sig blob : Bytes} : formatSignatureForSsh k sig = .ok (some blob) ↔ SshForm k sig blob := by
  obtain ⟨o, h1, h2⟩ := C51_exact k sig
  rw [h1, ← h2, Res.ok.injEq]

example : SshForm sampleRsa [1, 2] (text "rsa-sha2-512" ++ str [1, 2]) := .rsa _ _ rfl

/-- C51: take two positive integers that fit the width of the algorithm, their DER signature, and the
SSH form `format_signature_for_ssh` makes of it: verification of the result is the primitive applied to
the message and the fixed-width forms of the same integers. -/
theorem C51_end_to_end (C : Crypto) (k : PublicKey) (c : Curve) (key : Bytes) (alg : EcAlg) (len r s : Nat)
    (cr cs fr fs : Bytes) (hk : k.kind = .ecdsa c key none) (hkt : k.keyType.kind = .ecdsa)
    (hl : (k.keyType.name, alg, len) ∈ ecdsaLabels) (hr : r < 256 ^ len) (hs : s < 256 ^ len)
    (hcr : DerPositive r cr) (hcs : DerPositive s cs) (hfr : NatWidth len r fr) (hfs : NatWidth len s fs) :
    ∃ der blob, DerPair cr cs der ∧ formatSignatureForSsh k der = .ok (some blob) ∧
      ∀ msg, verifySignature C blob msg k = .ok blob ↔ C.ecdsaVerify alg key msg (fr ++ fs) = true := by
  have hlen := ecdsaLabels_len _ hl
  simp only at hlen
  obtain ⟨l1, n1⟩ := derPositive_length hcr hr
  obtain ⟨l2, n2⟩ := derPositive_length hcs hs
  have hd : DerPair cr cs _ := ⟨by omega, rfl⟩
  refine ⟨_, _, hd, formatSignature_ecdsa hk hd n2, ?_⟩
  intro msg
  rw [verifySignature_ok]
  have e := accepts_ecdsa (C := C) hk hkt hl hcr.1 hcs.1 (by omega) (by omega) (by rw [hcr.2.1]; exact hfr)
    (by rw [hcs.2.1]; exact hfs) msg []
  rw [List.append_nil] at e
  rw [e]
  constructor
  · rintro ⟨⟨m, w, rest, _, ⟨rfl, _⟩, h⟩, _⟩
    exact h
  · intro h
    exact ⟨⟨msg, [], [], rfl, ⟨rfl, rfl⟩, h⟩, rfl⟩

/-- C51 for hardware keys: with the flags byte and counter appended, the primitive is applied to the
authenticator's message. -/
theorem C51_end_to_end_sk (C : Crypto) (k : PublicKey) (c : Curve) (key : Bytes) (app : String) (alg : EcAlg)
    (len r s : Nat) (cr cs fr fs : Bytes) (hk : k.kind = .ecdsa c key (some app)) (hkt : k.keyType.kind = .ecdsa)
    (hl : (k.keyType.name, alg, len) ∈ ecdsaLabels) (hr : r < 256 ^ len) (hs : s < 256 ^ len)
    (hcr : DerPositive r cr) (hcs : DerPositive s cs) (hfr : NatWidth len r fr) (hfs : NatWidth len s fs)
    (flags : UInt8) (counter : UInt32) :
    ∃ der blob, DerPair cr cs der ∧ formatSignatureForSsh k der = .ok (some blob) ∧
      ∀ msg, verifySignature C (blob ++ ([flags] ++ u32 counter.toNat)) msg k =
          .ok (blob ++ ([flags] ++ u32 counter.toNat)) ↔
        C.ecdsaVerify alg key (C.sha256 app.toByteArray.data.toList ++ [flags] ++ u32 counter.toNat ++ C.sha256 msg)
          (fr ++ fs) = true := by
  have hlen := ecdsaLabels_len _ hl
  simp only at hlen
  obtain ⟨l1, n1⟩ := derPositive_length hcr hr
  obtain ⟨l2, n2⟩ := derPositive_length hcs hs
  have hd : DerPair cr cs _ := ⟨by omega, rfl⟩
  refine ⟨_, _, hd, formatSignature_ecdsa hk hd n2, ?_⟩
  intro msg
  rw [verifySignature_ok]
  have e := accepts_ecdsa (C := C) hk hkt hl hcr.1 hcs.1 (by omega) (by omega) (by rw [hcr.2.1]; exact hfr)
    (by rw [hcs.2.1]; exact hfs) msg ([flags] ++ u32 counter.toNat)
  rw [List.append_assoc, e]
  constructor
  · rintro ⟨⟨m, w, rest, e, ⟨fl, cn, rfl, rfl⟩, h⟩, _⟩
    simp only [List.cons_append, List.nil_append, List.cons.injEq] at e
    obtain ⟨rfl, e⟩ := e
    have := (List.append_inj (t₁ := []) (t₂ := rest) (by simpa using e) (by simp)).1
    rwa [← this] at h
  · intro h
    exact ⟨⟨_, _, [], (List.append_nil _).symm, ⟨flags, counter, rfl, rfl⟩, h⟩, rfl⟩

/-- C51: the encodings exist for all such integers, so the theorem is about every pair. -/
theorem C51_encodings (len n : Nat) (h0 : n ≠ 0) (hn : n < 256 ^ len) :
    (∃ c, DerPositive n c) ∧ ∃ f, NatWidth len n f := by
  have hf : natOf (beBytes len n) = n := by rw [natOf_beBytes, Nat.mod_eq_of_lt hn]
  refine ⟨⟨mpintPayload (beBytes len n), ?_, ?_, h0⟩, beBytes len n, beBytes_length _ _, hf⟩
  · exact (mpintPayload_spec _).1
  · rw [(mpintPayload_spec _).2, hf]

/-- A P-256 key whose type is `ecdsa-sha2-nistp256`. -/
example : ∃ k : PublicKey, k.keyType ∈ keyTypes ∧ k.keyType.kind = .ecdsa ∧ k.kind = .ecdsa ⟨.nistp256, "nistp256"⟩ [4] none ∧
    (k.keyType.name, EcAlg.p256, 32) ∈ ecdsaLabels :=
  ⟨⟨⟨"ecdsa-sha2-nistp256", "ecdsa-sha2-nistp256", "ECDSA", false, false, .ecdsa⟩,
    .ecdsa ⟨.nistp256, "nistp256"⟩ [4] none, none⟩, by decide +kernel, rfl, rfl, by decide⟩

end Ssh
