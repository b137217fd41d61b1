import Verif.Model.Devices
import Verif.Props.PrivText
import Verif.Props.Fido
import Verif.Props.Keys

/-! # C104, C105: FIDO devices -/

namespace Ssh

open Spec

namespace Spec

/-- Opened in this way, both worlds have a device that behaves the same, or none for the same reason. -/
def SameDevice {δ ε : Type} (B : HidBus δ) (B' : HidBus ε) (ps ps' : List HidParam) : Prop :=
  match B.openAny ps, B'.openAny ps' with
  | .error e, .error e' => e = e'
  | .ok d, .ok d' => B.getAssertion d = B'.getAssertion d' ∧ B.makeCredential d = B'.makeCredential d' ∧
      B.clientPin d = B'.clientPin d' ∧ B.pinRetries d = B'.pinRetries d'
  | _, _ => False

/-- The devices addressed: the one with the path, or all listed ones in the order of the list. -/
def addressed {δ : Type} (B : HidBus δ) : Option String → List HidParam
  | some p => [.path p]
  | none => B.devices.map (·.param)

end Spec

/-! ## C104 -/

theorem toOption_some {α : Type} {x : Except String α} {a : α} : x.toOption = some a ↔ x = .ok a := by
  cases x <;> simp [Except.toOption]

theorem openDevice_eq {δ : Type} (B : HidBus δ) (path : Option String) : B.openDevice path = B.openAny (addressed B path) := by
  cases path <;> rfl

theorem assertion_same {δ ε : Type} (B : HidBus δ) (B' : HidBus ε) (path : Option String) (h : SameDevice B B' (addressed B path) (addressed B' path))
    (app : String) (ch handle : Bytes) (pin : Option String) : B.assertion app ch handle pin path = B'.assertion app ch handle pin path := by
  unfold HidBus.assertion
  rw [openDevice_eq, openDevice_eq]
  unfold SameDevice at h
  cases h1 : B.openAny (addressed B path) <;> cases h2 : B'.openAny (addressed B' path) <;> rw [h1, h2] at h
  · rfl
  · exact h.elim
  · exact h.elim
  · show (B.getAssertion _ app ch handle pin).toOption.bind _ = (B'.getAssertion _ app ch handle pin).toOption.bind _
    rw [h.1]

/-- C104: signing, key generation and the PIN queries use only the device addressed: the one with the path given, or, without a
path, the one opened among all listed devices.  Whatever else is connected does not matter. -/
theorem C104_routed {δ ε : Type} (B : HidBus δ) (B' : HidBus ε) (S : MozService) (X : X509Env) (C : Crypto) (root app comment : String)
    (pin path : Option String) (h : SameDevice B B' (addressed B path) (addressed B' path)) :
    (∀ (F : Features) (k : PrivateKey) (s : SkPrivateKey) (msg : Bytes), F.fido = .ctapHid → PrivateKey.skFields k.kind = some s → s.devicePath = path →
      k.sign F C (fidoDev B S) msg = k.sign F C (fidoDev B' S) msg) ∧
    (∀ ch, B.generate X C root app comment pin path ch = B'.generate X C root app comment pin path ch) ∧
    (∀ p, path = some p → B.deviceRequiresPin p = B'.deviceRequiresPin p ∧ B.devicePinRetries p = B'.devicePinRetries p) := by
  refine ⟨?_, ?_, ?_⟩
  · intro F k s msg hF hs hp
    have key : k.signSk F C (fidoDev B S) msg = k.signSk F C (fidoDev B' S) msg := by
      unfold PrivateKey.signSk
      rw [hF]
      simp only [PrivateKey.signCtap, hs, fidoDev]
      rw [hp]
      cases hk : PrivateKey.skApplication k.pubkey.kind with
      | none => rfl
      | some o =>
        cases o with
        | none => rfl
        | some a => simp only [assertion_same B B' path h]
    unfold PrivateKey.sign
    cases hk : k.kind with
    | rsa x => rfl
    | ecdsa c x => rfl
    | ed25519 x => rfl
    | ecdsaSk x => exact key
    | ed25519Sk x => exact key
  · intro ch
    unfold HidBus.generate
    have : B.credential app ch pin path = B'.credential app ch pin path := by
      unfold HidBus.credential
      rw [openDevice_eq, openDevice_eq]
      unfold SameDevice at h
      cases h1 : B.openAny (addressed B path) <;> cases h2 : B'.openAny (addressed B' path) <;> rw [h1, h2] at h
      · exact congrArg Except.error h
      · exact h.elim
      · exact h.elim
      · exact congrFun (congrFun (congrFun h.2.1 app) ch) pin
    rw [this]
  · rintro p rfl
    unfold HidBus.deviceRequiresPin HidBus.devicePinRetries
    unfold SameDevice addressed at h
    cases h1 : B.openAny [.path p] <;> cases h2 : B'.openAny [.path p] <;> simp only [h1, h2] at h
    · subst h
      exact ⟨rfl, rfl⟩
    · simp only [h.2.2.1, h.2.2.2]
      exact ⟨trivial, trivial⟩

/-- C104: signing with a hardware key gives a signature only if the addressed device can be opened and answers the request for the
key's application, message, handle and PIN with at least one assertion; the last one is used. -/
theorem C104_answer {δ : Type} (F : Features) (C : Crypto) (B : HidBus δ) (S : MozService) (s : SkPrivateKey) (app : String) (msg : Bytes)
    (a : Assertion) : deviceAnswer { F with fido := .ctapHid } C (fidoDev B S) s app msg = .ok (some a) ↔
      ∃ d l, B.openAny (addressed B s.devicePath) = .ok d ∧ B.getAssertion d app msg s.handle s.pin = .ok (l ++ [a]) := by
  unfold deviceAnswer
  simp only [fidoDev, HidBus.assertion, openDevice_eq, Res.ok.injEq]
  constructor
  · intro h
    obtain ⟨d, hd, h⟩ := Option.bind_eq_some_iff.mp h
    obtain ⟨l, hl, h⟩ := Option.bind_eq_some_iff.mp h
    obtain ⟨l', rfl⟩ := List.getLast?_eq_some_iff.mp h
    exact ⟨d, l', toOption_some.mp hd, toOption_some.mp hl⟩
  · rintro ⟨d, l, hd, hl⟩
    refine Option.bind_eq_some_iff.mpr ⟨d, toOption_some.mpr hd, Option.bind_eq_some_iff.mpr ⟨_, toOption_some.mpr hl, ?_⟩⟩
    simp

/-- C104: a device is listed exactly if the library reports it with a path; the order is the library's; a path from the
list set on a key addresses the device with this path. -/
theorem C104_list {δ : Type} (B : HidBus δ) (d : HidBus.Descriptor) :
    (d ∈ B.listFidoDevices ↔ ∃ i ∈ B.devices, i.param = .path d.path ∧ i.productString = d.productString) ∧
    (B.listFidoDevices.map fun x => HidInfo.mk x.productString (.path x.path)) = B.devices.filter (fun i => match i.param with | .path _ => true | _ => false) ∧
    ∀ (k : PrivateKey) (s : SkPrivateKey), PrivateKey.skFields (k.setDevicePath d.path).kind = some s → addressed B s.devicePath = [.path d.path] := by
  refine ⟨?_, ?_, ?_⟩
  · unfold HidBus.listFidoDevices
    rw [List.mem_filterMap]
    constructor
    · rintro ⟨i, hi, h⟩
      cases hp : i.param with
      | vidPid v p => rw [hp] at h; cases h
      | path p => rw [hp] at h; cases h; exact ⟨i, hi, hp, rfl⟩
    · rintro ⟨i, hi, h1, h2⟩
      refine ⟨i, hi, ?_⟩
      rw [h1]
      rw [h2]
  · unfold HidBus.listFidoDevices
    induction B.devices with
    | nil => rfl
    | cons i l ih =>
      obtain ⟨ps, pr⟩ := i
      cases pr with
      | vidPid v p => simpa [List.filterMap_cons, List.filter_cons] using ih
      | path p => simpa [List.filterMap_cons, List.filter_cons] using ih
  · intro k s h
    obtain ⟨kt, kind, pk, mg, cm⟩ := k
    cases kind <;> simp [PrivateKey.setDevicePath, PrivateKey.skFields] at h <;> (subst h; rfl)

/-- C104: the PIN queries succeed exactly with the answer of the addressed device; otherwise the error has the text of the
library, or says that the device did not tell. -/
theorem C104_pin {δ : Type} (B : HidBus δ) (path : String) (rp : Res Bool) (rr : Res Int) :
    (B.deviceRequiresPin path = rp ↔
      (∃ d b, B.openAny [.path path] = .ok d ∧ B.clientPin d = .ok (some b) ∧ rp = .ok b) ∨
      (∃ d, B.openAny [.path path] = .ok d ∧ B.clientPin d = .ok none ∧ rp = .err (.fidoError (.unknown "Could not get pin status"))) ∨
      ∃ t, rp = .err (.fidoError (.unknown t)) ∧
        (B.openAny [.path path] = .error t ∨ ∃ d, B.openAny [.path path] = .ok d ∧ B.clientPin d = .error t)) ∧
    (B.devicePinRetries path = rr ↔
      (∃ d n, B.openAny [.path path] = .ok d ∧ B.pinRetries d = .ok n ∧ rr = .ok n) ∨
      ∃ t, rr = .err (.fidoError (.unknown t)) ∧
        (B.openAny [.path path] = .error t ∨ ∃ d, B.openAny [.path path] = .ok d ∧ B.pinRetries d = .error t)) := by
  unfold HidBus.deviceRequiresPin HidBus.devicePinRetries
  cases h : B.openAny [.path path] with
  | error t => simp [eq_comm]
  | ok d =>
    cases h1 : B.clientPin d with
    | error t => cases h2 : B.pinRetries d <;> simp [Res.ofExcept, h1, h2, eq_comm]
    | ok o => cases o <;> cases h2 : B.pinRetries d <;> simp [-Bool.exists_bool, Res.ofExcept, h1, h2, eq_comm]

/-- C104: key generation fails with the library's text if no device can be opened or the device refuses. -/
theorem C104_generate_error {δ : Type} (B : HidBus δ) (X : X509Env) (C : Crypto) (root app comment : String) (pin path : Option String)
    (ch : Bytes) (t : String) (h : B.openAny (addressed B path) = .error t ∨
      ∃ d, B.openAny (addressed B path) = .ok d ∧ B.makeCredential d app ch pin = .error t) :
    B.generate X C root app comment pin path ch = .err (.fidoError (.unknown t)) := by
  have : B.credential app ch pin path = .error t := by
    unfold HidBus.credential
    rw [openDevice_eq]
    rcases h with h | ⟨d, h, h'⟩
    · rw [h]; rfl
    · rw [h]; exact h'
  unfold HidBus.generate ctapGenerate
  rw [this]
  rfl

/-- Two devices: one listed by path that signs, and one known by vendor and product that gives two answers. -/
def sampleBus : HidBus Bool where
  devices := [⟨"Key B", .vidPid 1 2⟩, ⟨"Key A", .path "/dev/a"⟩]
  openAny ps := if ps = [.path "/dev/a"] then .ok true else if .vidPid 1 2 ∈ ps then .ok false else .error "No device"
  getAssertion d rp _ _ pin := if rp = "ssh:" ∧ pin = none then (if d then .ok [⟨[1], 1, 1⟩] else .ok [⟨[2], 1, 2⟩, ⟨[3], 5, 3⟩]) else
    .error "0x2E"
  makeCredential _ _ _ _ := .error "0x27"
  clientPin d := if d then .ok (some true) else .ok none
  pinRetries d := if d then .ok 8 else .error "0x31"

/-- The same with other devices. -/
def otherBus : HidBus Bool :=
  { sampleBus with
    devices := [⟨"Key C", .path "/dev/c"⟩]
    openAny := fun ps => if ps = [.path "/dev/a"] then .ok true else .error "No device" }

example : SameDevice sampleBus otherBus
    (addressed sampleBus (some "/dev/a")) (addressed otherBus (some "/dev/a")) := ⟨rfl, rfl, rfl, rfl⟩

example : sampleBus.listFidoDevices = [⟨"Key A", "/dev/a"⟩] ∧ sampleBus.deviceRequiresPin "/dev/a" = .ok true ∧
    sampleBus.devicePinRetries "/dev/b" = .err (.fidoError (.unknown "No device")) ∧
    sampleBus.assertion "ssh:" [] [] none (some "/dev/a") = some ⟨[1], 1, 1⟩ ∧
    sampleBus.assertion "ssh:" [] [] none none = some ⟨[3], 5, 3⟩ := by decide +kernel

example : sampleBus.generate sampleFidoX noCrypto "" "ssh:" "" none none [7] = .err (.fidoError (.unknown "0x27")) ∧
    sampleBus.generate sampleFidoX noCrypto "" "ssh:" "" none (some "/dev/c") [7] = .err (.fidoError (.unknown "No device")) :=
  ⟨rfl, rfl⟩

/-! ## C105 -/

/-- C105: signing with the Mozilla backend gives what the service gives; no service or an error of the device is no signature.
(Finding: a refused request, or a callback that goes away, is a panic instead of an error.) -/
theorem C105_outcome {δ : Type} (F : Features) (C : Crypto) (B : HidBus δ) (S : MozService) (s : SkPrivateKey) (app : String) (msg : Bytes) :
    deviceAnswer { F with fido := .mozilla } C (fidoDev B S) s app msg =
      match S.starts, S.sign (C.sha256 msg) app s.handle s.pin with
      | true, .assertion a => .ok (some a)
      | true, .refused => .panic
      | true, .dropped => .panic
      | _, _ => .ok none := by
  unfold deviceAnswer
  simp only [fidoDev, MozService.assertion]
  cases S.starts <;> cases S.sign (C.sha256 msg) app s.handle s.pin <;> rfl

/-- C105: the Mozilla backend lists no devices and cannot say anything about PINs, and says so. -/
theorem C105_utils (path : String) : mozListFidoDevices = [] ∧
    mozDeviceRequiresPin path = .err (.fidoError (.unknown "Not currently supported directly fetching key PIN status")) ∧
    mozDevicePinRetries path = .err (.fidoError (.unknown "Not currently supported directly fetching key PIN status")) :=
  ⟨rfl, rfl, rfl⟩

/-- C105 (finding): signing can panic with every hardware key and message. -/
theorem C105_panics (F : Features) (C : Crypto) (k : PrivateKey) (s : SkPrivateKey) (app : String) (msg : Bytes) (hF : F.fido = .mozilla)
    (h : HardwareKey k s app) : ∃ (S : MozService), ∀ {δ : Type} (B : HidBus δ), k.sign F C (fidoDev B S) msg = .panic := by
  refine ⟨⟨true, fun _ _ _ _ => .refused⟩, ?_⟩
  intro δ B
  have ha : deviceAnswer F C (fidoDev B ⟨true, fun _ _ _ _ => .refused⟩) s app msg = .panic := by
    unfold deviceAnswer
    rw [hF]
    rfl
  have := C81_verifies F C (fidoDev B ⟨true, fun _ _ _ _ => .refused⟩) k s app msg h (by rw [ha]; intro a h; cases h)
  rw [ha] at this
  exact this

/-- C105: signing writes to standard output exactly if the Mozilla backend is compiled in, the key is a hardware key, the
service starts and the device refuses; then one line, with the device's error except that a missing PIN is named, and
there is no signature. -/
theorem C105_printed {δ : Type} (F : Features) (C : Crypto) (B : HidBus δ) (S : MozService) (k : PrivateKey) (msg : Bytes) (l : List String) :
    (k.signPrinted F C S msg = l ∧ l ≠ []) ↔
      ∃ s app e, F.fido = .mozilla ∧ (k.kind = .ecdsaSk s ∨ k.kind = .ed25519Sk s) ∧
        ((∃ cu key, k.pubkey.kind = .ecdsa cu key (some app)) ∨ ∃ key, k.pubkey.kind = .ed25519 key (some app)) ∧
        S.starts = true ∧ S.sign (C.sha256 msg) app s.handle s.pin = .failed e ∧ k.sign F C (fidoDev B S) msg = .ok none ∧
        ((e = .pinRequired ∧ l = ["PIN needed but not provided!"]) ∨
          ∃ text, e = .other text ∧ l = ["Some other error: " ++ text]) := by
  constructor
  · rintro ⟨rfl, h⟩
    obtain ⟨hF, s, app, hs, ha, hp⟩ : F.fido = .mozilla ∧ ∃ s app, PrivateKey.skFields k.kind = some s ∧
        PrivateKey.skApplication k.pubkey.kind = some (some app) ∧
        k.signPrinted F C S msg = S.printed (C.sha256 msg) app s.handle s.pin := by
      unfold PrivateKey.signPrinted at h ⊢
      split at h
      · rename_i hF
        split at h
        · exact absurd rfl h
        · rename_i s hs
          split at h
          · rename_i app ha
            exact ⟨hF, s, app, hs, ha, rfl⟩
          · exact absurd rfl h
      · exact absurd rfl h
    rw [hp] at h ⊢
    have hk : k.kind = .ecdsaSk s ∨ k.kind = .ed25519Sk s := by
      unfold PrivateKey.skFields at hs
      split at hs <;> cases hs <;> simp_all
    have hpub : (∃ cu key, k.pubkey.kind = .ecdsa cu key (some app)) ∨ ∃ key, k.pubkey.kind = .ed25519 key (some app) := by
      unfold PrivateKey.skApplication at ha
      split at ha <;> cases ha
      · exact .inr ⟨_, by assumption⟩
      · exact .inl ⟨_, _, by assumption⟩
    unfold MozService.printed at h ⊢
    split at h
    · rename_i hst
      rw [if_pos hst]
      have key : ∀ e, S.sign (C.sha256 msg) app s.handle s.pin = .failed e → k.sign F C (fidoDev B S) msg = .ok none := by
        intro e he
        have hm : k.sign F C (fidoDev B S) msg = PrivateKey.signMozilla C (fidoDev B S) k msg := by
          unfold PrivateKey.sign
          rcases hk with hk | hk <;> rw [hk] <;> simp only [PrivateKey.signSk, hF]
        rw [hm]
        unfold PrivateKey.signMozilla
        rw [hs, ha]
        simp only [fidoDev, MozService.assertion, if_pos hst, he]
        rfl
      split at h
      · rename_i he
        exact ⟨s, app, _, hF, hk, hpub, hst, he, key _ he, .inl ⟨rfl, rfl⟩⟩
      · rename_i text he
        exact ⟨s, app, _, hF, hk, hpub, hst, he, key _ he, .inr ⟨text, rfl, rfl⟩⟩
      · exact absurd rfl h
    · exact absurd rfl h
  · rintro ⟨s, app, e, hF, hk, hpub, hst, he, -, hl⟩
    have hs : PrivateKey.skFields k.kind = some s := by rcases hk with hk | hk <;> rw [hk] <;> rfl
    have ha : PrivateKey.skApplication k.pubkey.kind = some (some app) := by
      rcases hpub with ⟨_, _, h⟩ | ⟨_, h⟩ <;> rw [h] <;> rfl
    unfold PrivateKey.signPrinted MozService.printed
    simp only [hF, hs, ha, if_pos hst, he]
    rcases hl with ⟨rfl, rfl⟩ | ⟨text, rfl, rfl⟩
    · exact ⟨rfl, List.cons_ne_nil _ _⟩
    · exact ⟨rfl, List.cons_ne_nil _ _⟩

example : sampleSkPriv.signPrinted ⟨false, false, .mozilla⟩ noCrypto ⟨true, fun _ _ _ _ => .failed .pinRequired⟩ [1] = ["PIN needed but not provided!"] ∧
    sampleSkPriv.signPrinted ⟨false, false, .mozilla⟩ noCrypto ⟨true, fun _ _ _ _ => .failed (.other "gone")⟩ [1] = ["Some other error: gone"] ∧
    sampleSkPriv.signPrinted ⟨false, false, .ctapHid⟩ noCrypto ⟨true, fun _ _ _ _ => .failed .pinRequired⟩ [1] = [] := ⟨rfl, rfl, rfl⟩

example : HardwareKey sampleSkPriv ⟨1, [1, 2, 3, 4], [0, 0], some "1234", none⟩ "ssh:" :=
  ⟨by decide +kernel, .inr ⟨rfl, rfl, _, _, rfl⟩⟩

end Ssh
