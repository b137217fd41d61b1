import Verif.Spec.Utils
import Verif.Spec.Text
import Verif.Model.SshSig

/-!
# SSHSIG (OpenSSH PROTOCOL.sshsig), independent of the parsing and printing code

Only the data types of the model and the line splitting of the standard library are used.
-/

namespace Ssh.Spec

/-- The bytes `SSHSIG`. -/
def magic : Bytes := [0x53, 0x53, 0x48, 0x53, 0x49, 0x47]

/-- Name of a hash algorithm. -/
def hashName : HashAlgorithm → String
  | .sha256 => "sha256"
  | .sha512 => "sha512"

/-- Digest of a message. -/
def digest (C : Crypto) : HashAlgorithm → Bytes → Bytes
  | .sha256, m => C.sha256 m
  | .sha512, m => C.sha512 m

/-- The bytes that are signed: magic, namespace, empty reserved field, hash name, message digest. -/
def signedData (C : Crypto) (ns : String) (h : HashAlgorithm) (msg : Bytes) : Bytes :=
  magic ++ (text ns ++ (str [] ++ (text (hashName h) ++ str (digest C h msg))))

/-- `w` is the binary form of the signature `s`; `reserved` is the ignored field, `junk` ignored bytes
after the public key. -/
def SigBlob (s : SshSignature) (reserved : String) (junk w : Bytes) : Prop :=
  s.pubkey.comment = none ∧ s.namespace_ ≠ "" ∧
  ∃ kb wKey wNs wRes wHash wSig,
    w = magic ++ (u32 1 ++ (wKey ++ (wNs ++ (wRes ++ (wHash ++ wSig))))) ∧
    KeyBlob s.pubkey kb ∧ Frame (kb ++ junk) wKey ∧ Text s.namespace_ wNs ∧ Text reserved wRes ∧
    Text (hashName s.hashAlgorithm) wHash ∧ Frame s.signature wSig

/-- The armor: the header line, lines other than the footer holding base64 of `blob`, the footer line;
anything may follow. -/
def Armor (header footer : String) (contents : List Char) (blob : Bytes) : Prop :=
  ∃ body rest, FileLines contents (header.toList :: (body ++ footer.toList :: rest)) ∧ footer.toList ∉ body ∧
    Base64Lax blob body.flatten

end Ssh.Spec
