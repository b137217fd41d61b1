import Verif.Spec.Signing
import Verif.Props.Written
import Verif.Props.Reasons
import Verif.Props.Keys

/-! # C132, C133: what signing returns, and what is made of it -/

namespace Ssh

open Spec

theorem derUnsigned_unique {n : Nat} {c c' : Bytes} (h : DerUnsigned n c) (h' : DerUnsigned n c') : c = c' := by
  obtain ⟨h1, h⟩ := h
  obtain ⟨h1', h'⟩ := h'
  have z : natOf [0] = 0 := rfl
  have nz : ∀ {b : UInt8} {t : Bytes}, b ≠ 0 → Shortest (b :: t) ∧ natOf (b :: t) ≠ 0 := by
    intro b t hb
    have hs : Shortest (b :: t) := by simpa [Shortest] using hb
    refine ⟨hs, fun h0 => ?_⟩
    exact absurd (shortest_unique (b := []) hs (by simp [Shortest]) h0) (by simp)
  have big : ∀ {b : UInt8}, 0x80 ≤ b → b ≠ 0 := by
    rintro b hb rfl
    exact absurd hb (by decide)
  have zc : ∀ l : Bytes, natOf (0 :: l) = natOf l := fun l => by simp [natOf]
  rcases h with rfl | ⟨b, t, rfl, hb, hl⟩ | ⟨b, t, rfl, hb⟩ <;> rcases h' with rfl | ⟨b', t', rfl, hb', hl'⟩ | ⟨b', t', rfl, hb'⟩
  · rfl
  · exact absurd (h1'.trans (h1.symm.trans z)) (nz hb').2
  · rw [zc] at h1'
    exact absurd (h1'.trans (h1.symm.trans z)) (nz (big hb')).2
  · exact absurd (h1.trans (h1'.symm.trans z)) (nz hb).2
  · exact shortest_unique (nz hb).1 (nz hb').1 (h1.trans h1'.symm)
  · rw [zc] at h1'
    have := shortest_unique (nz hb).1 (nz (big hb')).1 (h1.trans h1'.symm)
    cases this
    exact absurd hl (UInt8.not_lt.mpr hb')
  · rw [zc] at h1
    exact absurd (h1.trans (h1'.symm.trans z)) (nz (big hb)).2
  · rw [zc] at h1
    have := shortest_unique (nz (big hb)).1 (nz hb').1 (h1.trans h1'.symm)
    cases this
    exact absurd hl' (UInt8.not_lt.mpr hb)
  · rw [zc] at h1 h1'
    rw [shortest_unique (nz (big hb)).1 (nz (big hb')).1 (h1.trans h1'.symm)]

theorem pkcs1_unique {n e d p q dp dq qinv : Nat} {w w' : Bytes} (h : Pkcs1 n e d p q dp dq qinv w)
    (h' : Pkcs1 n e d p q dp dq qinv w') : w = w' := by
  have hl : ∀ {n : Nat} {w w' : Bytes}, DerLength n w → DerLength n w' → w = w' := by
    rintro n w w' (⟨h, rfl⟩ | ⟨h, l, rfl, h1, h2⟩) (⟨h', rfl⟩ | ⟨h', l', rfl, h1', h2'⟩)
    · rfl
    · omega
    · omega
    · rw [shortest_unique h1 h1' (h2.trans h2'.symm)]
  have hi : ∀ {n : Nat} {w w' : Bytes}, DerInteger n w → DerInteger n w' → w = w' := by
    rintro n w w' ⟨l, c, rfl, h1, h2⟩ ⟨l', c', rfl, h1', h2'⟩
    cases derUnsigned_unique h2 h2'
    rw [hl h1 h1']
  obtain ⟨l, v, w1, w2, w3, w4, w5, w6, w7, w8, rfl, hL, a0, a1, a2, a3, a4, a5, a6, a7, a8⟩ := h
  obtain ⟨l', v', w1', w2', w3', w4', w5', w6', w7', w8', rfl, hL', b0, b1, b2, b3, b4, b5, b6, b7, b8⟩ := h'
  cases hi a0 b0; cases hi a1 b1; cases hi a2 b2; cases hi a3 b3; cases hi a4 b4
  cases hi a5 b5; cases hi a6 b6; cases hi a7 b7; cases hi a8 b8
  rw [hl hL hL']

/-! ## Signing with a key -/

theorem signOpt_ok {k : PublicKey} {o : Option Bytes} {blob : Bytes} :
    signOpt k o = .ok (some blob) ↔ ∃ s, o = some s ∧ SshForm k s blob := by
  cases o with
  | none => simp [signOpt]
  | some s =>
    obtain ⟨r, h1, h2⟩ := C51_exact k s
    simp only [signOpt, h1, Res.ok.injEq, Option.some.injEq, exists_eq_left', h2]

theorem signOpt_noErr {k : PublicKey} {o : Option Bytes} {e : Err} : signOpt k o ≠ .err e := by
  cases o with
  | none => simp [signOpt]
  | some s =>
    obtain ⟨r, h1, -⟩ := C51_exact k s
    simp only [signOpt, h1, ne_eq, reduceCtorEq, not_false_eq_true]

/-- What is made of an answer of the authenticator. -/
def answered (k : PublicKey) : Res (Option Assertion) → Res (Option Bytes)
  | .ok (some a) => PrivateKey.formatAssertion k a
  | .ok none => .ok none
  | .err e => .err e
  | .panic => .panic

theorem signSk_some {F : Features} {C : Crypto} {D : FidoDev} {k : PrivateKey} {msg : Bytes} {s : SkPrivateKey} {app : String}
    (hk : PrivateKey.skFields k.kind = some s) (ha : applicationOf k.pubkey = some app) :
    PrivateKey.signSk F C D k msg = answered k.pubkey (deviceAnswer F C D s app msg) := by
  have hs : PrivateKey.skApplication k.pubkey.kind = some (some app) := by
    unfold applicationOf at ha
    cases hp : k.pubkey.kind <;> rw [hp] at ha <;> simp_all [PrivateKey.skApplication]
  unfold PrivateKey.signSk deviceAnswer
  cases F.fido with
  | none => rfl
  | ctapHid =>
    simp only [PrivateKey.signCtap, hk, hs]
    cases D.ctapAssert app msg s.handle s.pin s.devicePath <;> rfl
  | mozilla =>
    simp only [PrivateKey.signMozilla, hk, hs]
    cases D.mozAssert (C.sha256 msg) app s.handle s.pin with
    | ok o => cases o <;> rfl
    | err e => rfl
    | panic => rfl

theorem signSk_none {F : Features} {C : Crypto} {D : FidoDev} {k : PrivateKey} {msg : Bytes} {s : SkPrivateKey}
    (hk : PrivateKey.skFields k.kind = some s) (ha : applicationOf k.pubkey = none) :
    PrivateKey.signSk F C D k msg = .ok none ∨ PrivateKey.signSk F C D k msg = .panic := by
  have hs : PrivateKey.skApplication k.pubkey.kind = none ∨ PrivateKey.skApplication k.pubkey.kind = some none := by
    unfold applicationOf at ha
    cases hp : k.pubkey.kind <;> rw [hp] at ha <;> simp_all [PrivateKey.skApplication]
  unfold PrivateKey.signSk
  cases F.fido with
  | none => simp
  | ctapHid => rcases hs with hs | hs <;> simp [PrivateKey.signCtap, hk, hs]
  | mozilla => rcases hs with hs | hs <;> simp [PrivateKey.signMozilla, hk, hs]

theorem answered_ok {k : PublicKey} {r : Res (Option Assertion)} {blob : Bytes} : answered k r = .ok (some blob) ↔
    ∃ a f, r = .ok (some a) ∧ SshForm k a.signature f ∧ blob = f ++ ([a.flags] ++ u32 a.counter.toNat) := by
  match r with
  | .ok none | .err e | .panic => simp [answered]
  | .ok (some a) =>
    obtain ⟨o, h1, h2⟩ := C51_exact k a.signature
    simp only [answered, PrivateKey.formatAssertion, h1, Res.ok_bind, Res.ok.injEq, Option.some.injEq, exists_and_left,
      exists_eq_left', ← h2]
    cases o with
    | none => simp
    | some f => simp [← u32_eq, eq_comm (a := blob)]

theorem answered_err {k : PublicKey} {r : Res (Option Assertion)} {e : Err} : answered k r = .err e ↔ r = .err e := by
  match r with
  | .ok none | .err e | .panic => simp [answered]
  | .ok (some a) =>
    obtain ⟨o, h1, h2⟩ := C51_exact k a.signature
    simp only [answered, PrivateKey.formatAssertion, h1, Res.ok_bind]
    cases o <;> simp

/-- The three ways in which signing with a software key ends. -/
theorem sign_software {F : Features} {C : Crypto} {D : FidoDev} {k : PrivateKey} {msg : Bytes} (h : hardwareFields k.kind = none) :
    (∀ e, k.sign F C D msg ≠ .err e) ∧ ∀ blob, k.sign F C D msg = .ok (some blob) ↔ Signed F C D k msg blob := by
  cases hk : k.kind with
  | ecdsaSk s => rw [hk] at h; cases h
  | ed25519Sk s => rw [hk] at h; cases h
  | rsa r =>
    by_cases hc : F.rsaSigning = true ∧ ∃ dp dq, r.exp = some dp ∧ r.exq = some dq
    · obtain ⟨hf, dp, dq, h1, h2⟩ := hc
      obtain ⟨der, h3, h4⟩ := rsaToDer_spec h1 h2
      rw [signRsa_eq hk h3, if_pos hf]
      refine ⟨fun e => signOpt_noErr, fun blob => signOpt_ok.trans ⟨fun ⟨s, h5, h6⟩ => .rsa hk hf h1 h2 h4 h5 h6, fun hs => ?_⟩⟩
      cases hs with
      | rsa hk' _ h1' h2' h4' h5 h6 =>
        rw [hk] at hk'
        cases hk'
        rw [h1] at h1'
        rw [h2] at h2'
        cases h1'
        cases h2'
        cases pkcs1_unique h4 h4'
        exact ⟨_, h5, h6⟩
      | ecdsa hk' => rw [hk] at hk'; cases hk'
      | ed25519 hk' => rw [hk] at hk'; cases hk'
      | hardware hk' => rw [h] at hk'; cases hk'
    · have hne : k.sign F C D msg = .ok none ∨ k.sign F C D msg = .panic := by
        unfold PrivateKey.sign
        rw [hk]
        dsimp only
        split
        · rename_i hf
          right
          cases h1 : r.exp with
          | none => simp [rsaToDer, h1, Res.unwrap]
          | some dp =>
            cases h2 : r.exq with
            | none => simp [rsaToDer, h1, h2, Res.unwrap]
            | some dq => exact absurd ⟨hf, dp, dq, h1, h2⟩ hc
        · exact .inl rfl
      refine ⟨fun e he => by rw [he] at hne; simp at hne, fun blob => ⟨fun he => by rw [he] at hne; simp at hne, fun hs => ?_⟩⟩
      cases hs with
      | rsa hk' hf h1' h2' => rw [hk] at hk'; cases hk'; exact absurd ⟨hf, _, _, h1', h2'⟩ hc
      | ecdsa hk' => rw [hk] at hk'; cases hk'
      | ed25519 hk' => rw [hk] at hk'; cases hk'
      | hardware hk' => rw [h] at hk'; cases hk'
  | ecdsa curve key =>
    by_cases hc : ∃ c pub app alg, k.pubkey.kind = .ecdsa c pub app ∧ ecAlg curve.kind = some alg ∧ key ≠ []
    · obtain ⟨c, pub, app, alg, hp, hg, hne⟩ := hc
      rw [signEcdsa_eq hk hp hne, hg]
      refine ⟨fun e => signOpt_noErr, fun blob => signOpt_ok.trans ⟨fun ⟨s, h5, h6⟩ => .ecdsa hk hp hg hne h5 h6, fun hs => ?_⟩⟩
      cases hs with
      | ecdsa hk' hp' hg' _ h5 h6 =>
        rw [hk] at hk'
        cases hk'
        rw [hp] at hp'
        cases hp'
        rw [hg] at hg'
        cases hg'
        exact ⟨_, h5, h6⟩
      | rsa hk' => rw [hk] at hk'; cases hk'
      | ed25519 hk' => rw [hk] at hk'; cases hk'
      | hardware hk' => rw [h] at hk'; cases hk'
    · have hne : k.sign F C D msg = .ok none ∨ k.sign F C D msg = .panic := by
        unfold PrivateKey.sign
        rw [hk]
        dsimp only
        cases hg : curve.kind with
        | nistp521 => exact .inl rfl
        | nistp256 | nistp384 =>
          cases hp : k.pubkey.kind with
          | rsa _ _ => exact .inl rfl
          | ed25519 _ _ => exact .inl rfl
          | ecdsa c pub app =>
            by_cases hk0 : key = []
            · subst hk0
              exact .inr rfl
            · exact absurd ⟨c, pub, app, _, hp, by rw [hg]; rfl, hk0⟩ hc
      refine ⟨fun e he => by rw [he] at hne; simp at hne, fun blob => ⟨fun he => by rw [he] at hne; simp at hne, fun hs => ?_⟩⟩
      cases hs with
      | ecdsa hk' hp hg h0 => rw [hk] at hk'; cases hk'; exact absurd ⟨_, _, _, _, hp, hg, h0⟩ hc
      | rsa hk' => rw [hk] at hk'; cases hk'
      | ed25519 hk' => rw [hk] at hk'; cases hk'
      | hardware hk' => rw [h] at hk'; cases hk'
  | ed25519 key =>
    by_cases hc : ∃ pub app, k.pubkey.kind = .ed25519 pub app ∧ 32 ≤ key.length
    · obtain ⟨pub, app, hp, hl⟩ := hc
      rw [signEd_eq hk hp hl]
      refine ⟨fun e => signOpt_noErr, fun blob => signOpt_ok.trans ⟨fun ⟨s, h5, h6⟩ => .ed25519 hk hp hl h5 h6, fun hs => ?_⟩⟩
      cases hs with
      | ed25519 hk' hp' _ h5 h6 =>
        rw [hk] at hk'
        cases hk'
        rw [hp] at hp'
        cases hp'
        exact ⟨_, h5, h6⟩
      | rsa hk' => rw [hk] at hk'; cases hk'
      | ecdsa hk' => rw [hk] at hk'; cases hk'
      | hardware hk' => rw [h] at hk'; cases hk'
    · have hne : k.sign F C D msg = .ok none ∨ k.sign F C D msg = .panic := by
        unfold PrivateKey.sign
        rw [hk]
        dsimp only
        cases hp : k.pubkey.kind with
        | rsa _ _ => exact .inl rfl
        | ecdsa _ _ _ => exact .inl rfl
        | ed25519 pub app =>
          have hl : ¬ 32 ≤ key.length := fun hl => hc ⟨pub, app, hp, hl⟩
          have h2 : slice key 0 32 = .panic := by
            unfold slice
            rw [if_neg (by omega)]
          simp [h2]
      refine ⟨fun e he => by rw [he] at hne; simp at hne, fun blob => ⟨fun he => by rw [he] at hne; simp at hne, fun hs => ?_⟩⟩
      cases hs with
      | ed25519 hk' hp hl => rw [hk] at hk'; cases hk'; exact absurd ⟨_, _, hp, hl⟩ hc
      | rsa hk' => rw [hk] at hk'; cases hk'
      | ecdsa hk' => rw [hk] at hk'; cases hk'
      | hardware hk' => rw [h] at hk'; cases hk'

theorem sign_hardware {F : Features} {C : Crypto} {D : FidoDev} {k : PrivateKey} {msg : Bytes} {s : SkPrivateKey}
    (h : hardwareFields k.kind = some s) : k.sign F C D msg = PrivateKey.signSk F C D k msg ∧ PrivateKey.skFields k.kind = some s := by
  unfold PrivateKey.sign
  cases hk : k.kind <;> rw [hk] at h <;> cases h <;> exact ⟨rfl, rfl⟩

theorem sign_ok {F : Features} {C : Crypto} {D : FidoDev} {k : PrivateKey} {msg blob : Bytes} :
    k.sign F C D msg = .ok (some blob) ↔ Signed F C D k msg blob := by
  cases hh : hardwareFields k.kind with
  | none => exact (sign_software hh).2 blob
  | some s =>
    obtain ⟨h1, h2⟩ := sign_hardware (F := F) (C := C) (D := D) (msg := msg) hh
    rw [h1]
    have only : Signed F C D k msg blob → ∃ app a f, applicationOf k.pubkey = some app ∧
        deviceAnswer F C D s app msg = .ok (some a) ∧ SshForm k.pubkey a.signature f ∧
        blob = f ++ ([a.flags] ++ u32 a.counter.toNat) := by
      intro hs
      cases hs with
      | rsa hk => rw [hk] at hh; cases hh
      | ecdsa hk => rw [hk] at hh; cases hh
      | ed25519 hk => rw [hk] at hh; cases hh
      | hardware hk' ha hd hf =>
        rw [hh] at hk'
        cases hk'
        exact ⟨_, _, _, ha, hd, hf, rfl⟩
    cases ha : applicationOf k.pubkey with
    | none =>
      constructor
      · intro he
        rcases signSk_none (F := F) (C := C) (D := D) (msg := msg) h2 ha with h | h <;> rw [h] at he <;> cases he
      · intro hs
        obtain ⟨app, _, _, h3, _⟩ := only hs
        rw [ha] at h3
        cases h3
    | some app =>
      rw [signSk_some h2 ha, answered_ok]
      constructor
      · rintro ⟨a, f, h3, h4, rfl⟩
        exact .hardware hh ha h3 h4
      · intro hs
        obtain ⟨app', a, f, h3, h4, h5, h6⟩ := only hs
        rw [ha] at h3
        cases h3
        exact ⟨a, f, h4, h5, h6⟩

theorem sign_err {F : Features} {C : Crypto} {D : FidoDev} {k : PrivateKey} {msg : Bytes} {e : Err} :
    k.sign F C D msg = .err e ↔ DeviceError F C D k msg e := by
  unfold DeviceError
  cases hh : hardwareFields k.kind with
  | none => simpa using (sign_software hh).1 e
  | some s =>
    obtain ⟨h1, h2⟩ := sign_hardware (F := F) (C := C) (D := D) (msg := msg) hh
    rw [h1]
    cases ha : applicationOf k.pubkey with
    | none =>
      simp only [reduceCtorEq, false_and, and_false, exists_false, iff_false]
      rcases signSk_none (F := F) (C := C) (D := D) (msg := msg) h2 ha with h | h <;> simp [h]
    | some app => simp [signSk_some h2 ha, answered_err]

/-- C132: what `sign` returns, for every key, message, set of features and behaviour of primitives and devices. -/
theorem C132_exact (F : Features) (C : Crypto) (D : FidoDev) (k : PrivateKey) (msg : Bytes) :
    (∀ blob, k.sign F C D msg = .ok (some blob) ↔ Signed F C D k msg blob) ∧
    (∀ e, k.sign F C D msg = .err e ↔ DeviceError F C D k msg e) ∧
    (k.sign F C D msg = .panic ↔ SignPanics F C D k msg) ∧
    (k.sign F C D msg = .ok none ↔
      (∀ blob, ¬ Signed F C D k msg blob) ∧ (∀ e, ¬ DeviceError F C D k msg e) ∧ ¬ SignPanics F C D k msg) := by
  have hok := fun blob => sign_ok (F := F) (C := C) (D := D) (k := k) (msg := msg) (blob := blob)
  have herr := fun e => sign_err (F := F) (C := C) (D := D) (k := k) (msg := msg) (e := e)
  have hp := C49_exact F C D k msg
  refine ⟨hok, herr, hp, ?_⟩
  simp only [← hok, ← herr, ← hp]
  cases k.sign F C D msg with
  | ok o => cases o <;> simp
  | err e => simp
  | panic => simp

/-- An answer of a device, an error, a panic and a key for which there is no signature. -/
example : Signed ⟨true, true, .none⟩ signingCrypto ⟨fun _ _ _ _ _ => none, fun _ _ _ _ => .panic⟩ sampleEcPriv [1]
      (text "ecdsa-sha2-nistp256" ++ str (u32 1 ++ [1] ++ u32 1 ++ [1])) ∧
    Signed ⟨true, true, .mozilla⟩ laxCrypto ⟨fun _ _ _ _ _ => none, fun _ _ _ _ => .ok (some ⟨[48, 6, 2, 1, 1, 2, 1, 1], 5, 258⟩)⟩ sampleSkPriv [1]
      (text "sk-ecdsa-sha2-nistp256@openssh.com" ++ str (u32 1 ++ [1] ++ u32 1 ++ [1]) ++ [5, 0, 0, 1, 2]) ∧
    DeviceError ⟨true, true, .mozilla⟩ laxCrypto ⟨fun _ _ _ _ _ => none, fun _ _ _ _ => .err .unsupported⟩ sampleSkPriv [1] .unsupported ∧
    SignPanics ⟨true, true, .mozilla⟩ laxCrypto ⟨fun _ _ _ _ _ => none, fun _ _ _ _ => .panic⟩ sampleSkPriv [1] ∧
    ∀ blob, ¬ Signed ⟨true, true, .none⟩ laxCrypto ⟨fun _ _ _ _ _ => none, fun _ _ _ _ => .panic⟩ sampleSkPriv [1] blob :=
  ⟨sign_ok.mp (by decide +kernel), sign_ok.mp (by decide +kernel), sign_err.mp (by decide +kernel),
    (C49_exact _ _ _ _ _).mp (by decide +kernel), fun blob h => nomatch (show Res.ok none = _ from sign_ok.mpr h)⟩

/-- C133: what `builder` returns. -/
theorem C133_builder (nonce : Option (Vector UInt8 32)) (serial : Option (Vector UInt8 8)) (key ca : PublicKey) (role : CertType)
    (h : key.keyType ∈ keyTypes) :
    (∀ c, Certificate.builder nonce serial key role ca = .ok c ↔ ∃ t n s x, CertTypeOf key.keyType t ∧ nonce = some n ∧ serial = some s ∧
      x.toNat = natOf s.toList ∧ c = blankCert t n.toList x key ca role) ∧
    (∀ e, Certificate.builder nonce serial key role ca = .err e ↔ (nonce = none ∨ serial = none) ∧ e = .unexpectedEof) ∧
    Certificate.builder nonce serial key role ca ≠ .panic := by
  obtain ⟨t, ht, hn, hc, hp, -⟩ := table_cert _ h
  have hu : ∀ t', CertTypeOf key.keyType t' → t' = t := by
    have : ∀ a ∈ keyTypes, a.isCert = true → ∀ b ∈ keyTypes, b.isCert = true → a.plain = b.plain → a = b := by decide +kernel
    intro t' ⟨h1, h2, h3⟩
    exact this _ h1 h2 _ ht hc (h3.trans hp.symm)
  have ho : CertTypeOf key.keyType t := ⟨ht, hc, hp⟩
  unfold Certificate.builder
  rw [hn]
  simp only [Res.ok_bind]
  rw [fromName_ok.mpr ⟨ht, rfl⟩]
  simp only [Res.ok_bind]
  cases nonce with
  | none => simp [Res.ofOption, fun e => eq_comm (a := Err.unexpectedEof) (b := e)]
  | some n =>
    cases serial with
    | none => simp [Res.ofOption, fun e => eq_comm (a := Err.unexpectedEof) (b := e)]
    | some s =>
      simp only [Res.ofOption, Res.ok_bind, Res.pure_eq, reduceCtorEq, or_self, false_and, ne_eq, not_false_eq_true, and_true,
        Res.ok.injEq, implies_true, iff_self]
      have hb : natOf s.toList < 2 ^ 64 := by
        have := natOf_lt s.toList
        rw [Vector.length_toList] at this
        exact this
      intro c
      constructor
      · rintro rfl
        refine ⟨t, n, s, _, ho, rfl, rfl, ?_, rfl⟩
        rw [beNat_eq_natOf]
        exact UInt64.toNat_ofNat_of_lt' hb
      · rintro ⟨t', n', s', x, h1, h2, h3, h4, rfl⟩
        cases h2; cases h3; cases hu _ h1
        have : x = UInt64.ofNat (beNat s.toList) := by
          apply UInt64.toNat_inj.mp
          rw [h4, beNat_eq_natOf]
          exact (UInt64.toNat_ofNat_of_lt' hb).symm
        rw [this]
        rfl

example : sampleSk.keyType ∈ keyTypes ∧
    (∃ c, Certificate.builder (some (Vector.replicate 32 1)) (some #v[0, 0, 0, 0, 0, 0, 1, 2]) sampleSk .host sampleEd = .ok c ∧
      c.serial = 258 ∧ c.keyType.name = "sk-ecdsa-sha2-nistp256-cert-v01@openssh.com") ∧
    Certificate.builder none (some #v[0, 0, 0, 0, 0, 0, 1, 2]) sampleSk .host sampleEd = .err .unexpectedEof := by
  refine ⟨by decide +kernel, ⟨_, rfl, by decide +kernel, by decide +kernel⟩, by decide +kernel⟩

/-- C133: what `add_signature` returns. -/
theorem C133_add_signature (C : Crypto) (c : Certificate) (sig : Bytes) (h : c.keyType ∈ keyTypes) :
    (∀ c', c.addSignature C sig = .ok c' ↔ ∃ t tbs, CertTypeOf c.keyType t ∧ CertTbs t c tbs ∧ Accepts C c.signatureKey tbs sig ∧
      c' = { c with signature := sig, serialized := tbs ++ str sig }) ∧
    (∀ e, c.addSignature C sig = .err e ↔ ∃ t tbs, CertTypeOf c.keyType t ∧ CertTbs t c tbs ∧
      SignatureFault C c.signatureKey tbs sig e) ∧
    (c.addSignature C sig = .panic ↔ LacksApplication c.key ∨ LacksApplication c.signatureKey) := by
  obtain ⟨h1, h2, h3⟩ := C131_tbs c h
  refine ⟨fun c' => ?_, fun e => ?_, ?_⟩
  · rw [C28_add_signature]
    simp only [h1]
    constructor
    · rintro ⟨tbs, ⟨t, h4, h5⟩, h6, h7⟩
      exact ⟨t, tbs, h4, h5, h6, h7⟩
    · rintro ⟨t, tbs, h4, h5, h6, h7⟩
      exact ⟨tbs, ⟨t, h4, h5⟩, h6, h7⟩
  · have : (∃ t tbs, CertTypeOf c.keyType t ∧ CertTbs t c tbs ∧ SignatureFault C c.signatureKey tbs sig e) ↔
        ∃ tbs, c.tbsCertificate = .ok tbs ∧ SignatureFault C c.signatureKey tbs sig e := by
      simp only [h1]
      constructor
      · rintro ⟨t, tbs, h4, h5, h6⟩
        exact ⟨tbs, ⟨t, h4, h5⟩, h6⟩
      · rintro ⟨tbs, ⟨t, h4, h5⟩, h6⟩
        exact ⟨t, tbs, h4, h5, h6⟩
    rw [this]
    simp only [← verifySignature_err]
    unfold Certificate.addSignature
    cases ht : c.tbsCertificate with
    | err e => exact absurd ht (h3 e)
    | panic => simp
    | ok tbs =>
      simp only [Res.ok_bind, Res.ok.injEq, exists_eq_left']
      cases verifySignature C sig tbs c.signatureKey <;> simp
  · rw [← h2]
    unfold Certificate.addSignature
    cases ht : c.tbsCertificate with
    | err e => simp
    | panic => simp
    | ok tbs =>
      simp only [Res.ok_bind, reduceCtorEq, iff_false]
      cases hv : verifySignature C sig tbs c.signatureKey with
      | panic => exact absurd hv (verifySignature_noPanic _ _ _ _)
      | _ => simp

example : sampleCert.keyType ∈ keyTypes ∧ (∃ c, sampleCert.addSignature laxCrypto sampleSig = .ok c) ∧
    sampleCert.addSignature laxCrypto (text "ssh-rsa") = .err .keyTypeMismatch ∧
    sampleCert.addSignature laxCrypto (text "ssh-ed25519") = .err .unexpectedEof ∧
    sampleCert.addSignature laxCrypto (text "ssh") = .err (.unknownKeyType "ssh") ∧
    ({ sampleCert with key := { sampleSk with kind := .ecdsa ⟨.nistp256, "nistp256"⟩ [4, 9] none } } : Certificate).addSignature
      laxCrypto sampleSig = .panic := by
  refine ⟨by decide +kernel, ⟨okOf sampleCert (sampleCert.addSignature laxCrypto sampleSig), okOf_eq (by decide +kernel)⟩,
    by decide +kernel, by decide +kernel, by decide +kernel, by decide +kernel⟩

/-- C133: what `Certificate::sign` returns, for every signer. -/
theorem C133_sign (C : Crypto) (signer : Bytes → Res (Option Bytes)) (c : Certificate) (h : c.keyType ∈ keyTypes) :
    (∀ c', c.sign C signer = .ok c' ↔ ∃ t tbs sig, CertTypeOf c.keyType t ∧ CertTbs t c tbs ∧ signer tbs = .ok (some sig) ∧
      Accepts C c.signatureKey tbs sig ∧ c' = { c with signature := sig, serialized := tbs ++ str sig }) ∧
    (∀ e, c.sign C signer = .err e ↔ ∃ t tbs, CertTypeOf c.keyType t ∧ CertTbs t c tbs ∧
      (signer tbs = .err e ∨ (signer tbs = .ok none ∧ e = .signingError) ∨
       ∃ sig, signer tbs = .ok (some sig) ∧ SignatureFault C c.signatureKey tbs sig e)) ∧
    (c.sign C signer = .panic ↔ LacksApplication c.key ∨ LacksApplication c.signatureKey ∨
      ∃ t tbs, CertTypeOf c.keyType t ∧ CertTbs t c tbs ∧ signer tbs = .panic) := by
  obtain ⟨h1, h2, h3⟩ := C131_tbs c h
  have hx : ∀ p : Bytes → Prop, (∃ t tbs, CertTypeOf c.keyType t ∧ CertTbs t c tbs ∧ p tbs) ↔ ∃ tbs, c.tbsCertificate = .ok tbs ∧ p tbs := by
    intro p
    simp only [h1]
    constructor
    · rintro ⟨t, tbs, h4, h5, h6⟩
      exact ⟨tbs, ⟨t, h4, h5⟩, h6⟩
    · rintro ⟨tbs, ⟨t, h4, h5⟩, h6⟩
      exact ⟨t, tbs, h4, h5, h6⟩
  refine ⟨fun c' => ?_, fun e => ?_, ?_⟩
  · rw [C28_sign]
    simp only [h1]
    constructor
    · rintro ⟨tbs, sig, ⟨t, h4, h5⟩, h6, h7⟩
      exact ⟨t, tbs, sig, h4, h5, h6, h7⟩
    · rintro ⟨t, tbs, sig, h4, h5, h6, h7⟩
      exact ⟨tbs, sig, ⟨t, h4, h5⟩, h6, h7⟩
  · rw [hx]
    simp only [← verifySignature_err]
    unfold Certificate.sign Certificate.addSignature
    cases ht : c.tbsCertificate with
    | err e => exact absurd ht (h3 e)
    | panic => simp
    | ok tbs =>
      simp only [Res.ok_bind, Res.ok.injEq, exists_eq_left']
      cases signer tbs with
      | panic => simp
      | err e' => simp
      | ok o =>
        cases o with
        | none => simp [Res.ofOption, eq_comm]
        | some sig =>
          simp only [Res.ofOption, Res.ok_bind]
          cases hv : verifySignature C sig tbs c.signatureKey <;> simp [hv]
  · rw [hx, ← or_assoc, ← h2]
    unfold Certificate.sign Certificate.addSignature
    cases ht : c.tbsCertificate with
    | err e => simp
    | panic => simp
    | ok tbs =>
      simp only [Res.ok_bind, Res.ok.injEq, exists_eq_left', reduceCtorEq, false_or]
      cases signer tbs with
      | panic => simp
      | err e' => simp
      | ok o =>
        cases o with
        | none => simp [Res.ofOption]
        | some sig =>
          simp only [Res.ofOption, Res.ok_bind]
          cases hv : verifySignature C sig tbs c.signatureKey with
          | panic => exact absurd hv (verifySignature_noPanic _ _ _ _)
          | _ => simp

example : sampleCert.sign laxCrypto (fun _ => .ok none) = .err .signingError ∧
    sampleCert.sign laxCrypto (fun _ => .err .unsupported) = .err .unsupported ∧
    sampleCert.sign laxCrypto (fun _ => .panic) = .panic ∧
    sampleCert.sign noCrypto (fun _ => .ok (some sampleSig)) = .err .invalidSignature ∧
    (match sampleCert.sign laxCrypto (fun _ => .ok (some sampleSig)) with | .ok c => c.signature | _ => []) = sampleSig := by
  decide +kernel

/-- C133: what `new_with_private_key` returns. -/
theorem C133_signature (F : Features) (C : Crypto) (D : FidoDev) (msg : Bytes) (ns : String) (k : PrivateKey)
    (hash : Option HashAlgorithm) (d : Bytes) (hd : d = signedData C ns (hash.getD .sha512) msg) :
    (∀ v, VerifiedSshSignature.newWithPrivateKey F C D msg ns k hash = .ok v ↔ ∃ sig, Signed F C D k d sig ∧ Accepts C k.pubkey d sig ∧
      v = ⟨⟨k.pubkey, ns, hash.getD .sha512, sig⟩, msg⟩) ∧
    (∀ e, VerifiedSshSignature.newWithPrivateKey F C D msg ns k hash = .err e ↔ DeviceError F C D k d e ∨
      ((∀ sig, ¬ Signed F C D k d sig) ∧ (∀ e', ¬ DeviceError F C D k d e') ∧ ¬ SignPanics F C D k d ∧ e = .signingError) ∨
      ∃ sig, Signed F C D k d sig ∧ ¬ Accepts C k.pubkey d sig ∧ e = .invalidSignature) ∧
    (VerifiedSshSignature.newWithPrivateKey F C D msg ns k hash = .panic ↔ SignPanics F C D k d) := by
  obtain ⟨h1, h2, h3, h4⟩ := C132_exact F C D k d
  simp only [← h1, ← h2, ← h3]
  unfold VerifiedSshSignature.newWithPrivateKey VerifiedSshSignature.fromSshSignature
  dsimp only
  have e : ∀ sig, SshSignature.toSignedFormat C ⟨k.pubkey, ns, hash.getD .sha512, sig⟩ msg = d :=
    fun sig => ((C131_signature C _).2.2.2.2 msg).trans hd.symm
  simp only [e]
  cases k.sign F C D d with
  | panic => simp
  | err e => simp [eq_comm]
  | ok o =>
    cases o with
    | none => simp [Res.ofOption, eq_comm]
    | some sig =>
      simp only [Res.ofOption, Res.ok_bind, Option.any_some, ne_eq, not_true_eq_false, decide_false, Bool.false_eq_true, if_false]
      have ha : ∀ b, verifySignature C sig d k.pubkey = .ok b ↔ _ := fun b => verifySignature_ok
      cases hv : verifySignature C sig d k.pubkey with
      | panic => exact absurd hv (verifySignature_noPanic _ _ _ _)
      | ok b =>
        have := ((ha b).mp hv).1
        simp [this, eq_comm]
      | err e =>
        have : ¬ Accepts C k.pubkey d sig := fun h => by
          have := (ha sig).mpr ⟨h, rfl⟩
          rw [hv] at this
          cases this
        simp [this, eq_comm]

example : (match VerifiedSshSignature.newWithPrivateKey ⟨true, true, .none⟩ signingCrypto ⟨fun _ _ _ _ _ => none, fun _ _ _ _ => .panic⟩
      [1, 2, 3] "file" sampleEcPriv none with | .ok v => some (v.signature.hashAlgorithm, v.message) | _ => none) = some (.sha512, [1, 2, 3]) ∧
    VerifiedSshSignature.newWithPrivateKey ⟨true, true, .none⟩ signingCrypto ⟨fun _ _ _ _ _ => none, fun _ _ _ _ => .panic⟩
      [1, 2, 3] "file" sampleSkPriv none = .err .signingError ∧
    VerifiedSshSignature.newWithPrivateKey ⟨true, true, .mozilla⟩ { laxCrypto with ecdsaVerify := fun _ _ _ _ => false }
      ⟨fun _ _ _ _ _ => none, fun _ _ _ _ => .ok (some ⟨[48, 6, 2, 1, 1, 2, 1, 1], 5, 258⟩)⟩
      [1, 2, 3] "file" sampleSkPriv (some .sha256) = .err .invalidSignature := by
  decide +kernel

end Ssh
