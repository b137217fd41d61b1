import Verif.Model.PubKey

/-! # `verify_signature` of src/ssh/signature.rs -/

namespace Ssh

/-- `verify(..)?` on a ring result: `Unspecified` becomes `InvalidSignature` (src/error.rs:112-116). -/
def ringCheck (b : Bool) : Res Unit := if b then .ok () else .err .invalidSignature

/-- src/ssh/signature.rs:334-343 and 382-391: the message a hardware key signs. -/
def skMessage (C : Crypto) (app : String) (flags : UInt8) (counter : UInt32) (msg : Bytes) : Bytes :=
  C.sha256 (strBytes app) ++ [flags] ++ beBytes 4 counter.toNat ++ C.sha256 msg

/-- src/ssh/signature.rs:330-348 and 378-396: read flags and counter for hardware keys and return
the message to be verified. -/
def readSignedMessage (C : Crypto) (app : Option String) (signedBytes : Bytes) : Rd Bytes :=
  match app with
  | some a => do
    let fl ← Reader.readRawBytes 1
    let flags ← Rd.lift (index fl 0)
    let counter ← Reader.readU32
    return skMessage C a flags counter signedBytes
  | none => return signedBytes

/-- src/ssh/signature.rs:297-303. -/
def ecdsaSigAlg (name : String) : Res (EcAlg × Nat) :=
  if name = "ecdsa-sha2-nistp256" then .ok (.p256, 32)
  else if name = "sk-ecdsa-sha2-nistp256@openssh.com" then .ok (.p256, 32)
  else if name = "ecdsa-sha2-nistp384" then .ok (.p384, 48)
  else .err .keyTypeMismatch

/-- src/ssh/signature.rs:353-358. -/
def rsaSigAlg (name : String) : Res RsaAlg :=
  if name = "rsa-sha2-256" then .ok .sha256
  else if name = "rsa-sha2-512" then .ok .sha512
  else if name = "ssh-rsa" then .ok .sha1
  else .err .keyTypeMismatch

/-- src/ssh/signature.rs:368-372. -/
def ed25519SigAlg (name : String) : Res Unit :=
  if name = "ssh-ed25519" then .ok ()
  else if name = "sk-ssh-ed25519@openssh.com" then .ok ()
  else .err .keyTypeMismatch

/-- src/ssh/signature.rs:305-326: the two mpints, left-padded with zeros to `len` bytes each. -/
def readFixedRS (len : Nat) : Rd Bytes := do
  let r ← Reader.readPositiveMpint
  let s ← Reader.readPositiveMpint
  if r.length > len ∨ s.length > len then Rd.lift (.err .invalidFormat)
  else do
    let pr ← Rd.lift (subNat len r.length)
    let ps ← Rd.lift (subNat len s.length)
    return (List.replicate pr 0 ++ r) ++ (List.replicate ps 0 ++ s)

/-- src/ssh/signature.rs:273-401 `verify_signature`. -/
def verifySignature (C : Crypto) (signatureBuf signedBytes : Bytes) (publicKey : PublicKey) :
    Res Bytes :=
  ((do
    let name ← Reader.readString
    let sigType ← Rd.lift (KeyType.fromName name)
    if publicKey.keyType.kind ≠ sigType.kind then Rd.lift (.err .keyTypeMismatch)
    else
      match publicKey.kind with
      | .ecdsa _ key app => do
        let inner ← Reader.readBytes
        let (alg, len) ← Rd.lift (ecdsaSigAlg sigType.name)
        let sig ← Rd.lift (readFixedRS len (Reader.new inner)).1
        let msg ← readSignedMessage C app signedBytes
        Rd.lift (ringCheck (C.ecdsaVerify alg key msg sig))
        return signatureBuf
      | .rsa e n => do
        let alg ← Rd.lift (rsaSigAlg sigType.name)
        let signature ← Reader.readBytes
        Rd.lift (ringCheck (C.rsaVerify alg n e signedBytes signature))
        return signatureBuf
      | .ed25519 key app => do
        Rd.lift (ed25519SigAlg sigType.name)
        let signature ← Reader.readBytes
        let msg ← readSignedMessage C app signedBytes
        Rd.lift (ringCheck (C.ed25519Verify key msg signature))
        return signatureBuf : Rd Bytes) (Reader.new signatureBuf)).1

end Ssh
