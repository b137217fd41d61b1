import Verif.Model.ErrorText

/-! # The texts of errors, as tables -/

namespace Ssh.Spec

/-- What is wrong with an allowed signers entry, in words. -/
inductive EntrySays : ASErr → String → Prop where
  | quotes : EntrySays .invalidQuotes "error parsing quotes"
  | noPrincipals : EntrySays .missingPrincipals "missing principals"
  | principals : EntrySays .invalidPrincipals "invalid principals"
  | noKey : EntrySays .missingKey "missing public key data"
  | twice (v : String) : EntrySays (.duplicateOptions v) ("option " ++ v ++ " specified more than once")
  | option (v : String) : EntrySays (.invalidOption v) ("invalid option " ++ v)
  | key : EntrySays .invalidKey "invalid public key"
  | timestamp : EntrySays .invalidTimestamp "invalid timestamp"
  | timestamps : EntrySays .invalidTimestamps "conflicting valid-before and valid-after options"
  | more : EntrySays .unexpectedEnd "unexpected data at the end"

/-- An error of the FIDO module, in words (the stray letter at the beginning is always there). -/
inductive DeviceSays (cbor : String) : FidoErr → String → Prop where
  | wrongPin (n : UInt8) : DeviceSays cbor (.invalidPin (some n)) ("sInvalid pin: " ++ toString n.toNat ++ " attempts remaining")
  | wrongPin' : DeviceSays cbor (.invalidPin none) "sInvalid pin"
  | pinRequired : DeviceSays cbor .pinRequired "sPin required for operation"
  | locked : DeviceSays cbor .keyLocked "sKey locked"
  | blocked : DeviceSays cbor .keyBlocked "sKey blocked"
  | format (s : String) : DeviceSays cbor (.cborFormat s) ("s" ++ s)
  | formatElse (x : Int) : DeviceSays cbor (.cborElse x) ("sWe got something else " ++ toString x ++ " and threw error " ++ cbor)
  | other (s : String) : DeviceSays cbor (.unknown s) ("s" ++ s)

/-- An error of the token module, in words. -/
inductive TokenSays (internal : String) : YkErr → String → Prop where
  | unprovisioned : TokenSays internal .unprovisioned "Slot is unprovisioned for signing"
  | wrongKeyType : TokenSays internal .wrongKeyType "Wrong key type was provided for requested signing operation"
  | unsupported : TokenSays internal .unsupported "This key is not supported the way you tried to use it"
  | management : TokenSays internal .invalidManagementKey "Could not use the management key as provided"
  | parsing : TokenSays internal .parsingError "Could not parse data"
  | noSuch : TokenSays internal .noSuchYubikey "Could not find the requested Yubikey"
  | internal : TokenSays internal .internal ("Yubikey error: " ++ internal)

/-- An error, in words; those of other libraries speak for themselves. -/
inductive ErrorSays (io decode utf8 cbor : String) : Err → String → Prop where
  | io : ErrorSays io decode utf8 cbor .io io
  | decode : ErrorSays io decode utf8 cbor .decode decode
  | utf8 : ErrorSays io decode utf8 cbor .utf8Error utf8
  | format : ErrorSays io decode utf8 cbor .invalidFormat "Invalid format"
  | certType (v : UInt32) : ErrorSays io decode utf8 cbor (.invalidCertType v) ("Invalid certificate type with value " ++ toString v.toNat)
  | eof : ErrorSays io decode utf8 cbor .unexpectedEof "Unexpected EOF reached while reading data"
  | notCertificate : ErrorSays io decode utf8 cbor .notCertificate "Not a certificate"
  | mismatch : ErrorSays io decode utf8 cbor .keyTypeMismatch "Key type mismatch"
  | signature : ErrorSays io decode utf8 cbor .invalidSignature "Data is improperly signed"
  | signer (a : ASErr) (t : String) : EntrySays a t →
      ErrorSays io decode utf8 cbor (.invalidAllowedSigner a) ("Invalid allowed signer format: " ++ t)
  | signers (a : ASErr) (n : Nat) (t : String) : EntrySays a t →
      ErrorSays io decode utf8 cbor (.invalidAllowedSigners a n) ("Invalid allowed signer format on line " ++ toString n ++ ": " ++ t)
  | signing : ErrorSays io decode utf8 cbor .signingError "Could not sign data"
  | encrypted : ErrorSays io decode utf8 cbor .encryptedPrivateKey "Encountered encrypted private key with no decryption key"
  | encryption : ErrorSays io decode utf8 cbor .encryptedPrivateKeyNotSupported
      "This method of private key encryption is not supported or sshcerts was not compiled with encrypted private key support"
  | keyType (v : String) : ErrorSays io decode utf8 cbor (.unknownKeyType v) ("Unknown key type " ++ v)
  | curve (v : String) : ErrorSays io decode utf8 cbor (.unknownCurve v) ("Unknown curve " ++ v)
  | parsing : ErrorSays io decode utf8 cbor .parsingError "Could not parse the data provided"
  | device (f : FidoErr) (t : String) : DeviceSays cbor f t → ErrorSays io decode utf8 cbor (.fidoError f) t
  | unsupported : ErrorSays io decode utf8 cbor .unsupported
      "Functionality either not implemented or cannot be technically supported"

end Ssh.Spec
