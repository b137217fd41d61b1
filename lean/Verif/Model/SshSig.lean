import Verif.Model.PrivKey
import Verif.Model.Verify

/-! # SSHSIG: src/ssh/signature.rs:14-267 -/

namespace Ssh

/-- src/ssh/signature.rs:16-21 `HashAlgorithm`. -/
inductive HashAlgorithm where
  | sha256 | sha512
deriving DecidableEq, Repr

/-- src/ssh/signature.rs:25-30 `as_str`. -/
def HashAlgorithm.asStr : HashAlgorithm → String
  | .sha256 => "sha256"
  | .sha512 => "sha512"

/-- src/ssh/signature.rs:189-192: digest function of a hash algorithm. -/
def Crypto.hash (C : Crypto) : HashAlgorithm → Bytes → Bytes
  | .sha256 => C.sha256
  | .sha512 => C.sha512

/-- src/ssh/signature.rs:36-45 `SshSignature`. -/
structure SshSignature where
  pubkey : PublicKey
  namespace_ : String
  hashAlgorithm : HashAlgorithm
  signature : Bytes
deriving DecidableEq, Repr

/-- src/ssh/signature.rs:78-83 `VerifiedSshSignature`. -/
structure VerifiedSshSignature where
  signature : SshSignature
  message : Bytes
deriving DecidableEq, Repr

/-- The magic preamble (src/ssh/signature.rs:50, 130, 181). -/
def sshsigMagic : Bytes := [0x53, 0x53, 0x48, 0x53, 0x49, 0x47]

/-- `slice::chunks(k + 1)`. -/
def chunks {α : Type} (k : Nat) : List α → List (List α)
  | [] => []
  | x :: xs => (x :: xs.take k) :: chunks k (xs.drop k)
termination_by l => l.length
decreasing_by simp; omega

/-- `lines.join("\n")`. -/
def joinNl : List (List Char) → List Char
  | [] => []
  | [l] => l
  | l :: ls => l ++ '\n' :: joinNl ls

namespace SshSignature

/-- src/ssh/signature.rs:49-56: the binary form. -/
def toBytes (s : SshSignature) : Res Bytes := do
  let w := (Writer.new.writeRawBytes sshsigMagic).writeU32 1
  let w ← w.writePubKey s.pubkey
  let w := (w.writeString s.namespace_).writeBytes []
  let w := (w.writeString s.hashAlgorithm.asStr).writeBytes s.signature
  return w.inner

/-- src/ssh/signature.rs:47-73 `Display`. -/
def display (s : SshSignature) : Res (List Char) := do
  let b ← s.toBytes
  return "-----BEGIN SSH SIGNATURE-----\n".toList ++ joinNl (chunks 75 (b64Encode b)) ++
    "\n-----END SSH SIGNATURE-----".toList

/-- src/ssh/signature.rs:125-176 `from_reader`. -/
def fromReader : Rd SshSignature := do
  let preamble ← Reader.readRawBytes 6
  if preamble ≠ sshsigMagic then Rd.lift (.err .invalidFormat)
  else do
    let version ← Reader.readU32
    if version ≠ 1 then Rd.lift (.err .unsupported)
    else do
      let pbuf ← Reader.readBytes
      let pubkey ← Rd.lift (PublicKey.fromBytes pbuf)
      let ns ← Reader.readString
      if ns.isEmpty then Rd.lift (.err .invalidFormat)
      else do
        let _ ← Reader.readString
        let h ← Reader.readString
        let hashAlgorithm ← Rd.lift (
          if h = "sha256" then .ok HashAlgorithm.sha256
          else if h = "sha512" then .ok HashAlgorithm.sha512
          else .err .unsupported)
        let signature ← Reader.readBytes
        return { pubkey, namespace_ := ns, hashAlgorithm, signature }

/-- src/ssh/signature.rs:97-123 `from_armored_string`. -/
def fromArmoredString (contents : List Char) : Res SshSignature := do
  let decoded ← dearmor "-----BEGIN SSH SIGNATURE-----" "-----END SSH SIGNATURE-----" contents
  (fromReader (Reader.new decoded)).1

/-- src/ssh/signature.rs:178-197 `to_signed_format`. -/
def toSignedFormat (C : Crypto) (s : SshSignature) (message : Bytes) : Bytes :=
  let w := (Writer.new.writeRawBytes sshsigMagic).writeString s.namespace_
  let w := (w.writeBytes []).writeString s.hashAlgorithm.asStr
  (w.writeBytes (C.hash s.hashAlgorithm message)).inner

end SshSignature

namespace VerifiedSshSignature

/-- src/ssh/signature.rs:203-233 `from_ssh_signature`. -/
def fromSshSignature (C : Crypto) (message : Bytes) (s : SshSignature) (ns : String)
    (pubKey : Option PublicKey) : Res VerifiedSshSignature :=
  if pubKey.any (fun k => decide (s.pubkey ≠ k)) then .err .invalidSignature
  else if ns ≠ s.namespace_ then .err .invalidSignature
  else
    match verifySignature C s.signature (s.toSignedFormat C message) s.pubkey with
    | .ok _ => .ok ⟨s, message⟩
    | .err _ => .err .invalidSignature
    | .panic => .panic

/-- src/ssh/signature.rs:239-266 `new_with_private_key`. -/
def newWithPrivateKey (F : Features) (C : Crypto) (D : FidoDev) (message : Bytes) (ns : String)
    (k : PrivateKey) (hash : Option HashAlgorithm) : Res VerifiedSshSignature := do
  let s : SshSignature :=
    { pubkey := k.pubkey, namespace_ := ns, hashAlgorithm := hash.getD .sha512, signature := [] }
  let tbs := s.toSignedFormat C message
  let sig ← k.sign F C D tbs
  let sig ← Res.ofOption .signingError sig
  fromSshSignature C message { s with signature := sig } ns (some k.pubkey)

end VerifiedSshSignature
end Ssh
