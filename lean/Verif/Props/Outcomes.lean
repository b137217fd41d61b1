import Verif.Spec.ErrorTexts
import Verif.Props.Devices
import Verif.Props.FidoErrors

/-! # The texts of errors, and all outcomes of generating a hardware key: C136, C137 -/

namespace Ssh
open Spec

/-! ## C136 -/

theorem entry_text (a : ASErr) : EntrySays a (String.ofList a.text) := by
  cases a <;> unfold ASErr.text <;> simp only [String.ofList_append, String.ofList_toList]
  case invalidQuotes => exact .quotes
  case missingPrincipals => exact .noPrincipals
  case invalidPrincipals => exact .principals
  case missingKey => exact .noKey
  case duplicateOptions v => exact .twice v
  case invalidOption v => exact .option v
  case invalidKey => exact .key
  case invalidTimestamp => exact .timestamp
  case invalidTimestamps => exact .timestamps
  case unexpectedEnd => exact .more

theorem entrySays_iff {a : ASErr} {t : String} : EntrySays a t ↔ t = String.ofList a.text := by
  constructor
  · intro h
    cases h <;> unfold ASErr.text <;> simp only [String.ofList_append, String.ofList_toList]
  · rintro rfl
    exact entry_text a

theorem deviceSays_iff {cbor : List Char} {f : FidoErr} {t : String} :
    DeviceSays (String.ofList cbor) f t ↔ t = String.ofList (f.text cbor) := by
  have hs : ∀ l : List Char, String.ofList ('s' :: l) = "s" ++ String.ofList l := by
    intro l
    apply String.toList_inj.mp
    simp
  have e1 : ∀ x : String, "s" ++ ("Invalid pin: " ++ x) = "sInvalid pin: " ++ x := by
    intro x
    rw [← String.append_assoc]
    rfl
  have e2 : ∀ x : String, "s" ++ ("We got something else " ++ x) = "sWe got something else " ++ x := by
    intro x
    rw [← String.append_assoc]
    rfl
  constructor
  · intro h
    cases h <;> unfold FidoErr.text <;> simp only [hs, String.ofList_append, String.ofList_toList, String.append_assoc, e1, e2] <;> rfl
  · rintro rfl
    cases f with
    | invalidPin n =>
      cases n with
      | none => exact .wrongPin'
      | some n =>
        unfold FidoErr.text
        simp only [hs, String.ofList_append, String.ofList_toList, String.append_assoc, e1]
        rw [← String.append_assoc]
        exact .wrongPin n
    | pinRequired => exact .pinRequired
    | keyLocked => exact .locked
    | keyBlocked => exact .blocked
    | cborFormat s =>
      unfold FidoErr.text
      simp only [hs, String.ofList_toList]
      exact .format s
    | cborElse x =>
      unfold FidoErr.text
      simp only [hs, String.ofList_append, String.ofList_toList, String.append_assoc, e2]
      rw [← String.append_assoc, ← String.append_assoc]
      exact .formatElse x
    | unknown s =>
      unfold FidoErr.text
      simp only [hs, String.ofList_toList]
      exact .other s

/-- C136: every error has exactly the text of the tables. -/
theorem C136_texts (T : ForeignTexts) (internal : List Char) :
    (∀ e t, e.text T = t ↔ ErrorSays (String.ofList T.io) (String.ofList T.decode) (String.ofList T.utf8) (String.ofList T.cbor) e
      (String.ofList t)) ∧
    (∀ a t, ASErr.text a = t ↔ EntrySays a (String.ofList t)) ∧
    (∀ f t, FidoErr.text T.cbor f = t ↔ DeviceSays (String.ofList T.cbor) f (String.ofList t)) ∧
    (∀ y t, YkErr.text internal y = t ↔ TokenSays (String.ofList internal) y (String.ofList t)) := by
  have inj : ∀ a b : List Char, a = b ↔ String.ofList b = String.ofList a := by
    intro a b
    constructor
    · rintro rfl; rfl
    · intro h
      have := congrArg String.toList h
      simpa [eq_comm] using this
  refine ⟨fun e t => ?_, fun a t => ?_, fun f t => ?_, fun y t => ?_⟩
  · rw [inj]
    constructor
    · intro h
      rw [h]
      cases e <;> unfold Err.text <;> simp only [String.ofList_append, String.ofList_toList]
      case invalidAllowedSigner a => exact .signer a _ (entrySays_iff.mpr rfl)
      case invalidAllowedSigners a n => exact .signers a n _ (entrySays_iff.mpr rfl)
      case fidoError f => exact .device f _ (deviceSays_iff.mpr rfl)
      all_goals constructor
    · intro h
      generalize String.ofList t = u at h
      cases h <;> unfold Err.text <;> simp only [String.ofList_append, String.ofList_toList]
      case signer a t h => rw [entrySays_iff.mp h]
      case signers a n t h => rw [entrySays_iff.mp h]
      case device f h => exact deviceSays_iff.mp h
  · rw [inj, entrySays_iff]
  · rw [inj, deviceSays_iff]
  · rw [inj]
    constructor
    · intro h
      rw [h]
      cases y <;> unfold YkErr.text <;> simp only [String.ofList_append, String.ofList_toList] <;> constructor
    · intro h
      generalize String.ofList t = u at h
      cases h <;> unfold YkErr.text <;> simp only [String.ofList_append, String.ofList_toList]

example : (Err.invalidAllowedSigners (.duplicateOptions "namespaces") 3).text ⟨[], [], [], []⟩ =
    "Invalid allowed signer format on line 3: option namespaces specified more than once".toList ∧
    (Err.fidoError (.invalidPin (some 2))).text ⟨[], [], [], []⟩ = "sInvalid pin: 2 attempts remaining".toList := by decide +kernel

/-! ## C137 -/

/-- C137: what generating a hardware key with the HID backend returns: the key and attestation made of the answer of the device addressed,
the text of the library's error, or the reason why the answer is no good; it never panics. -/
theorem C137_generate {δ : Type} (B : HidBus δ) (X : X509Env) (C : Crypto) (root app comment : String) (pin path : Option String)
    (ch : Bytes) :
    (∀ k, B.generate X C root app comment pin path ch = .ok k ↔ ∃ d att cert v i flags,
      B.openAny (addressed B path) = .ok d ∧ B.makeCredential d app ch pin = .ok att ∧ FirstOrEmpty att.x5c cert ∧ att.alg = -7 ∧
      Attested X C root cert att.authData (C.sha256 ch) att.sig i ∧ AuthData.parse att.authData = .ok v.authData ∧
      ExtensionsDecode X i.extensions ∧ AttestationInfo X i.extensions v ∧
      k.attestation = ⟨att.authData, att.sig, cert, C.sha256 ch, att.alg⟩ ∧ AttestedKey v.authData app k.privateKey.pubkey ∧
      ReportedFlags att flags ∧ k.privateKey.keyType.name = "sk-ssh-ed25519@openssh.com" ∧ k.privateKey.keyType ∈ keyTypes ∧
      k.privateKey.magic = 0 ∧ k.privateKey.comment = comment ∧
      k.privateKey.kind = .ed25519Sk ⟨flags, att.credentialId, [], pin, path⟩) ∧
    (∀ e, B.generate X C root app comment pin path ch = .err e ↔
      (∃ t, B.openAny (addressed B path) = .error t ∧ e = .fidoError (.unknown t)) ∨
      (∃ d t, B.openAny (addressed B path) = .ok d ∧ B.makeCredential d app ch pin = .error t ∧ e = .fidoError (.unknown t)) ∨
      ∃ d att, B.openAny (addressed B path) = .ok d ∧ B.makeCredential d app ch pin = .ok att ∧
        (BadAuthData att.authData e ∨ ∃ a fs junk, AuthDataIs att.authData a fs junk ∧
          (a.coseKey.algorithm ∉ [-7, -8] ∧ e = .parsingError ∨
           a.coseKey.algorithm ∈ [-7, -8] ∧ ∃ cert, FirstOrEmpty att.x5c cert ∧
            BadAttestation X C root att.authData att.sig (C.sha256 ch) cert att.alg e))) ∧
    B.generate X C root app comment pin path ch ≠ .panic := by
  have hc : B.credential app ch pin path = match B.openAny (addressed B path) with
      | .error t => .error t
      | .ok d => B.makeCredential d app ch pin := by
    unfold HidBus.credential
    rw [openDevice_eq]
    cases B.openAny (addressed B path) <;> rfl
  unfold HidBus.generate
  rw [hc]
  cases ho : B.openAny (addressed B path) with
  | error t =>
    refine ⟨fun k => ?_, fun e => ?_, by simp [ctapGenerate, Res.ofExcept]⟩
    · simp [ctapGenerate, Res.ofExcept]
    · simp [ctapGenerate, Res.ofExcept, eq_comm]
  | ok d =>
    dsimp only
    cases hm : B.makeCredential d app ch pin with
    | error t =>
      refine ⟨fun k => ?_, fun e => ?_, by simp [ctapGenerate, Res.ofExcept]⟩
      · simp [ctapGenerate, Res.ofExcept, hm]
      · simp [ctapGenerate, Res.ofExcept, hm, eq_comm]
    | ok att =>
      refine ⟨fun k => ?_, fun e => ?_, ?_⟩
      · rw [C70_ctap]
        constructor
        · rintro ⟨_, cert, v, i, flags, h, h'⟩
          cases h
          exact ⟨d, att, cert, v, i, flags, rfl, hm, h'⟩
        · rintro ⟨_, _, cert, v, i, flags, h1, h2, h'⟩
          cases h1
          rw [hm] at h2
          cases h2
          exact ⟨att, cert, v, i, flags, rfl, h'⟩
      · rw [C126_ctap]
        simp [hm]
      · obtain ⟨kt, hkt⟩ : ∃ kt, KeyType.fromName "sk-ssh-ed25519@openssh.com" = .ok kt := ⟨_, rfl⟩
        unfold ctapGenerate
        simp only [Res.ofExcept, Res.ok_bind, hkt]
        have nb : ∀ {α β : Type} {x : Res α} {f : α → Res β}, x ≠ .panic → (∀ y, f y ≠ .panic) → (x >>= f) ≠ .panic := by
          intro α β x f h1 h2
          cases x with
          | ok y => exact h2 y
          | err e => intro h; cases h
          | panic => exact absurd rfl h1
        exact nb (parse_noPanic _) fun a => nb (sshKey_noPanic a app) fun p =>
          nb (fun h => verifyAuthData_noPanic _ _ _ _ _ _ _ _ _ h) fun v h => by cases h

/-- The sample bus, with a credential made by the device listed by path. -/
def sampleMaker : HidBus Bool :=
  { sampleBus with makeCredential := fun d app ch pin =>
      if d ∧ app = "ssh:" ∧ ch = [7] ∧ pin = some "1234" then .ok sampleAnswer else .error "0x31" }

example : (∃ k, sampleMaker.generate sampleFidoX sampleGenC "" "ssh:" "me" (some "1234") (some "/dev/a") [7] = .ok k ∧
      k.privateKey.kind = .ed25519Sk ⟨0x45, [10, 11, 12], [], some "1234", some "/dev/a"⟩) ∧
    sampleMaker.generate sampleFidoX sampleGenC "" "ssh:" "me" (some "1235") (some "/dev/a") [7] = .err (.fidoError (.unknown "0x31")) ∧
    sampleMaker.generate sampleFidoX sampleFidoC "" "ssh:" "me" (some "1234") (some "/dev/a") [7] = .err .invalidSignature ∧
    sampleMaker.generate sampleFidoX sampleGenC "" "ssh:" "me" (some "1234") (some "/dev/c") [7] =
      .err (.fidoError (.unknown "No device")) := by
  refine ⟨⟨⟨⟨⟨"sk-ssh-ed25519@openssh.com", "sk-ssh-ed25519@openssh.com", "ED25519-SK", false, true, .ed25519⟩,
      .ed25519Sk ⟨0x45, [10, 11, 12], [], some "1234", some "/dev/a"⟩,
      ⟨⟨"sk-ssh-ed25519@openssh.com", "sk-ssh-ed25519@openssh.com", "ED25519-SK", false, true, .ed25519⟩,
        .ed25519 (List.replicate 32 9) (some "ssh:"), none⟩, 0, "me"⟩,
    ⟨sampleAuthData, [9], [2], [1, 2, 3], -7⟩⟩, ?_, rfl⟩, ?_, ?_, ?_⟩ <;> decide +kernel

end Ssh
