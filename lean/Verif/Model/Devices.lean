import Verif.Model.Fido

/-!
# The device layer of src/fido: signing, key generation and the utilities, above the calls of crate `ctap-hid-fido2`
(3.x) and crate `authenticator` (0.4.0-alpha)

The libraries are arbitrary functions.  Calls that change a device (counters, PIN retries) are only visible through the
answers, so every call of one operation sees the same functions; errors of the libraries are their texts.
-/

namespace Ssh

/-- `ctap_hid_fido2::HidParam`. -/
inductive HidParam where
  | vidPid (vid pid : UInt16)
  | path (p : String)
deriving DecidableEq, Repr

/-- An element of `ctap_hid_fido2::get_fidokey_devices()`: the fields used. -/
structure HidInfo where
  productString : String
  param : HidParam
deriving DecidableEq, Repr

/-- The calls of crate `ctap-hid-fido2`; `δ` are opened devices (`FidoKeyHid`). -/
structure HidBus (δ : Type) where
  /-- `get_fidokey_devices`. -/
  devices : List HidInfo
  /-- `FidoKeyHid::new(params, cfg)`. -/
  openAny : List HidParam → Except String δ
  /-- `get_assertion_with_args`: relying party, challenge, one credential id; a PIN, or `without_pin_and_uv`. -/
  getAssertion : δ → (rp : String) → (challenge credentialId : Bytes) → (pin : Option String) → Except String (List Assertion)
  /-- `make_credential_with_args` for an Ed25519 key. -/
  makeCredential : δ → (rp : String) → (challenge : Bytes) → (pin : Option String) → Except String CtapAttestation
  /-- `enable_info_option(ClientPin)`. -/
  clientPin : δ → Except String (Option Bool)
  /-- `get_pin_retries`. -/
  pinRetries : δ → Except String Int

namespace HidBus

variable {δ : Type} (B : HidBus δ)

/-- src/fido/signing/ctap2_hid.rs:37-45, src/fido/generate/ctap2_hid.rs:26-34. -/
def openDevice (devicePath : Option String) : Except String δ :=
  match devicePath with
  | some path => B.openAny [.path path]
  | none =>
    let fidoDevices := B.devices.map (·.param)
    B.openAny fidoDevices

/-- src/fido/signing/ctap2_hid.rs:37-58: the device, the request, and `pop` of its answer. -/
def assertion (app : String) (challenge handle : Bytes) (pin path : Option String) : Option Assertion := do
  let device ← (B.openDevice path).toOption
  let assert ← (B.getAssertion device app challenge handle pin).toOption
  assert.getLast?

/-- src/fido/generate/ctap2_hid.rs:26-49: the device and the request (both errors become `FidoError::Unknown`). -/
def credential (app : String) (challenge : Bytes) (pin path : Option String) : Except String CtapAttestation := do
  let device ← B.openDevice path
  B.makeCredential device app challenge pin

/-- src/fido/generate/ctap2_hid.rs:20-110 `generate_new_ssh_key`, given the challenge drawn. -/
def generate (X : X509Env) (C : Crypto) (yubicoRoot application comment : String) (pin devicePath : Option String)
    (challenge : Bytes) : Res FidoSshKey :=
  ctapGenerate X C yubicoRoot application comment pin devicePath challenge (B.credential application challenge pin devicePath)

/-- src/fido/utils/mod.rs:17-24 `FidoDeviceDescriptor`. -/
structure Descriptor where
  productString : String
  path : String
deriving DecidableEq, Repr

/-- src/fido/utils/ctap2_hid.rs:9-22 `list_fido_devices`. -/
def listFidoDevices : List Descriptor :=
  B.devices.filterMap fun x =>
    match x.param with
    | .path p => some { path := p, productString := x.productString }
    | _ => none

/-- src/fido/utils/ctap2_hid.rs:26-43 `device_requires_pin`. -/
def deviceRequiresPin (path : String) : Res Bool :=
  match B.openAny [.path path] with
  | .error e => .err (.fidoError (.unknown e))
  | .ok device =>
    match B.clientPin device with
    | .ok (some result) => .ok result
    | .ok none => .err (.fidoError (.unknown "Could not get pin status"))
    | .error e => .err (.fidoError (.unknown e))

/-- src/fido/utils/ctap2_hid.rs:47-58 `device_pin_retries`. -/
def devicePinRetries (path : String) : Res Int :=
  match B.openAny [.path path] with
  | .error e => .err (.fidoError (.unknown e))
  | .ok device => Res.ofExcept (fun e => .fidoError (.unknown e)) (B.pinRetries device)

end HidBus

/-- `AuthenticatorError` of crate `authenticator`, as far as src/fido/signing/mozilla.rs:81-91 distinguishes:
`PinError(PinRequired)`, and everything else by its text. -/
inductive MozError where
  | pinRequired
  | other (text : String)
deriving DecidableEq, Repr

/-- What the service of crate `authenticator` does with a request to sign. -/
inductive MozOutcome where
  /-- `manager.sign` is refused. -/
  | refused
  /-- The callback goes away without having been called. -/
  | dropped
  /-- The callback gets an error. -/
  | failed (e : MozError)
  /-- The callback gets an assertion. -/
  | assertion (a : Assertion)
deriving DecidableEq, Repr

/-- The calls of crate `authenticator`: `AuthenticatorService::new` and `sign` with client data hash, relying party,
allowed credential and PIN (user presence required, user verification discouraged, USB only). -/
structure MozService where
  starts : Bool
  sign : (clientDataHash : Bytes) → (rp : String) → (credentialId : Bytes) → (pin : Option String) → MozOutcome

/-- src/fido/signing/mozilla.rs:57-91. -/
def MozService.assertion (S : MozService) (hash : Bytes) (app : String) (handle : Bytes) (pin : Option String) :
    Res (Option Assertion) :=
  if S.starts then
    match S.sign hash app handle pin with
    | .refused => .panic
    | .dropped => .panic
    | .failed _ => .ok none
    | .assertion a => .ok (some a)
  else .ok none

/-- src/fido/signing/mozilla.rs:83-90: the lines written to standard output. -/
def MozService.printed (S : MozService) (hash : Bytes) (app : String) (handle : Bytes) (pin : Option String) : List String :=
  if S.starts then
    match S.sign hash app handle pin with
    | .failed .pinRequired => ["PIN needed but not provided!"]
    | .failed (.other text) => ["Some other error: " ++ text]
    | _ => []
  else []

/-- The lines that `sign` of src/ssh/privkey.rs:217-292 writes to standard output: only
src/fido/signing/mozilla.rs:18-96 `sign_with_private_key` writes any. -/
def PrivateKey.signPrinted (F : Features) (C : Crypto) (S : MozService) (k : PrivateKey) (buffer : Bytes) : List String :=
  match F.fido with
  | .mozilla =>
    match skFields k.kind with
    | none => []
    | some sk =>
      match skApplication k.pubkey.kind with
      | some (some app) => S.printed (C.sha256 buffer) app sk.handle sk.pin
      | _ => []
  | _ => []

/-- src/fido/utils/mozilla.rs:7-9 `list_fido_devices`. -/
def mozListFidoDevices : List HidBus.Descriptor := []
/-- src/fido/utils/mozilla.rs:12-16 `device_requires_pin`. -/
def mozDeviceRequiresPin (_ : String) : Res Bool :=
  .err (.fidoError (.unknown "Not currently supported directly fetching key PIN status"))
/-- src/fido/utils/mozilla.rs:19-23 `device_pin_retries`. -/
def mozDevicePinRetries (_ : String) : Res Int :=
  .err (.fidoError (.unknown "Not currently supported directly fetching key PIN status"))

/-- The devices as used for signing by src/ssh/privkey.rs:284-289. -/
def fidoDev {δ : Type} (B : HidBus δ) (S : MozService) : FidoDev where
  ctapAssert := B.assertion
  mozAssert := S.assertion

end Ssh
