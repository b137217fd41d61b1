import Verif.Model.Piv

/-! # The texts of errors: src/error.rs, src/ssh/allowed_signer.rs, src/fido/mod.rs, src/yubikey/piv/mod.rs -/

namespace Ssh

/-- src/ssh/allowed_signer.rs:37-52 `Display for AllowedSignerParsingError`. -/
def ASErr.text : ASErr → List Char
  | .invalidQuotes => "error parsing quotes".toList
  | .missingPrincipals => "missing principals".toList
  | .invalidPrincipals => "invalid principals".toList
  | .missingKey => "missing public key data".toList
  | .duplicateOptions v => "option ".toList ++ v.toList ++ " specified more than once".toList
  | .invalidOption v => "invalid option ".toList ++ v.toList
  | .invalidKey => "invalid public key".toList
  | .invalidTimestamp => "invalid timestamp".toList
  | .invalidTimestamps => "conflicting valid-before and valid-after options".toList
  | .unexpectedEnd => "unexpected data at the end".toList

/-- src/fido/mod.rs:22-40 `Display for fido::Error`; `cbor` is the text of the `minicbor` error of `cborElse`. -/
def FidoErr.text (cbor : List Char) (e : FidoErr) : List Char :=
  let msg := match e with
    | .invalidPin (some attempts) => "Invalid pin: ".toList ++ (toString attempts.toNat).toList ++ " attempts remaining".toList
    | .invalidPin none => "Invalid pin".toList
    | .pinRequired => "Pin required for operation".toList
    | .keyLocked => "Key locked".toList
    | .keyBlocked => "Key blocked".toList
    | .cborFormat s => s.toList
    | .cborElse x => "We got something else ".toList ++ (toString x).toList ++ " and threw error ".toList ++ cbor
    | .unknown s => s.toList
  's' :: msg

/-- src/yubikey/piv/mod.rs:63-82 `Display for piv::Error`; `internal` is the text of the device library's error. -/
def YkErr.text (internal : List Char) : YkErr → List Char
  | .unprovisioned => "Slot is unprovisioned for signing".toList
  | .wrongKeyType => "Wrong key type was provided for requested signing operation".toList
  | .unsupported => "This key is not supported the way you tried to use it".toList
  | .invalidManagementKey => "Could not use the management key as provided".toList
  | .parsingError => "Could not parse data".toList
  | .noSuchYubikey => "Could not find the requested Yubikey".toList
  | .internal => "Yubikey error: ".toList ++ internal

/-- Texts of the errors whose payload `Err` leaves out. -/
structure ForeignTexts where
  io : List Char
  decode : List Char
  utf8 : List Char
  cbor : List Char

/-- src/error.rs:54-81 `Display for Error` (the `YubikeyPIVError` variant, which prints as `YkErr.text`, is not part
of `Err`: no modelled function returns it). -/
def Err.text (F : ForeignTexts) : Err → List Char
  | .io => F.io
  | .decode => F.decode
  | .utf8Error => F.utf8
  | .invalidFormat => "Invalid format".toList
  | .invalidCertType v => "Invalid certificate type with value ".toList ++ (toString v.toNat).toList
  | .unexpectedEof => "Unexpected EOF reached while reading data".toList
  | .notCertificate => "Not a certificate".toList
  | .keyTypeMismatch => "Key type mismatch".toList
  | .invalidSignature => "Data is improperly signed".toList
  | .invalidAllowedSigner v => "Invalid allowed signer format: ".toList ++ v.text
  | .invalidAllowedSigners v line =>
    "Invalid allowed signer format on line ".toList ++ (toString line).toList ++ ": ".toList ++ v.text
  | .signingError => "Could not sign data".toList
  | .encryptedPrivateKey => "Encountered encrypted private key with no decryption key".toList
  | .encryptedPrivateKeyNotSupported =>
    "This method of private key encryption is not supported or sshcerts was not compiled with encrypted private key support".toList
  | .unknownKeyType v => "Unknown key type ".toList ++ v.toList
  | .unknownCurve v => "Unknown curve ".toList ++ v.toList
  | .parsingError => "Could not parse the data provided".toList
  | .fidoError e => e.text F.cbor
  | .unsupported => "Functionality either not implemented or cannot be technically supported".toList

/-- src/error.rs:83-92 `Error::source`; `inner` is `source()` of the error that is passed on. -/
def Err.source {σ : Type} (inner : Err → Option σ) : Err → Option σ
  | .io => inner .io
  | .decode => inner .decode
  | .utf8Error => inner .utf8Error
  | _ => none

end Ssh
