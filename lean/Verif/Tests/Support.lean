import Verif.Concrete.Crypto
import Verif.Model.SshSig
import Verif.Model.ErrorText
import Verif.Model.Files

/-! # The project's tests (/repo/tests), run on the model with real cryptography: what the tests share

Nothing proved depends on these modules.  They check, with the evaluator, that the model does on the project's own
test vectors what the tests say the code does. -/

namespace Ssh.Tests
open Ssh.Concrete

/-- Keys and initialization vectors derived by bcrypt_pbkdf from the passphrases of tests/privkey_encrypted.rs
(computed by tools/bcrypt_pbkdf.py). -/
def table : List ((String × Bytes × UInt32) × (Bytes × Bytes)) := [
  (("test", [12, 72, 125, 154, 147, 175, 170, 51, 67, 157, 233, 6, 32, 170, 77, 196], 16),
    ([1, 187, 139, 52, 206, 113, 166, 80, 107, 162, 197, 204, 200, 16, 158, 45, 22, 73, 232, 60, 195, 59, 136, 100, 185, 51, 143, 210, 150, 193, 215, 252], [4, 95, 198, 146, 63, 248, 126, 168, 16, 45, 150, 31, 21, 248, 92, 97])),
  (("test", [43, 54, 15, 45, 34, 187, 5, 95, 170, 13, 79, 88, 205, 169, 90, 8], 32),
    ([30, 49, 64, 154, 251, 192, 134, 99, 25, 182, 163, 197, 68, 32, 13, 243, 165, 234, 153, 73, 72, 229, 7, 35, 58, 79, 53, 248, 116, 2, 104, 111], [83, 225, 230, 82, 54, 113, 41, 116, 72, 239, 223, 255, 207, 125, 64, 116])),
  (("test", [32, 202, 78, 22, 150, 51, 104, 147, 171, 166, 129, 62, 92, 119, 253, 37], 16),
    ([232, 51, 162, 18, 54, 190, 81, 66, 53, 118, 111, 191, 187, 70, 66, 96, 183, 236, 216, 124, 241, 127, 87, 185, 80, 122, 27, 138, 5, 136, 116, 247], [175, 88, 45, 166, 16, 31, 70, 45, 89, 177, 232, 206, 11, 183, 195, 0])),
  (("test", [241, 249, 78, 32, 21, 181, 215, 7, 230, 176, 26, 71, 123, 230, 223, 42], 16),
    ([32, 21, 252, 181, 58, 206, 193, 29, 162, 248, 130, 147, 33, 25, 203, 182, 227, 43, 1, 207, 184, 122, 95, 146, 232, 204, 32, 45, 176, 146, 230, 27], [94, 62, 243, 152, 217, 231, 201, 179, 186, 10, 202, 51, 163, 122, 221, 46])),
  (("test", [40, 203, 129, 71, 40, 170, 162, 108, 211, 169, 82, 191, 255, 210, 109, 218], 16),
    ([12, 199, 88, 217, 173, 75, 75, 49, 117, 108, 102, 13, 10, 93, 18, 60, 4, 184, 45, 42, 191, 113, 136, 103, 89, 113, 96, 178, 138, 198, 183, 94], [68, 233, 106, 170, 114, 118, 79, 81, 93, 97, 252, 119, 242, 225, 46, 47])),
  (("Test", [12, 72, 125, 154, 147, 175, 170, 51, 67, 157, 233, 6, 32, 170, 77, 196], 16),
    ([39, 3, 62, 254, 221, 1, 156, 224, 189, 198, 172, 129, 107, 156, 20, 205, 110, 178, 153, 234, 183, 3, 33, 21, 228, 233, 141, 234, 76, 204, 42, 231], [12, 175, 45, 245, 147, 86, 147, 74, 118, 78, 175, 153, 29, 50, 168, 132]))]

def C : Crypto := realCrypto table
def F : Features := ⟨true, true, .none⟩
def D : FidoDev := ⟨fun _ _ _ _ _ => none, fun _ _ _ _ => .ok none⟩

def isOk {α : Type} : Res α → Bool | .ok _ => true | _ => false
def isErr {α : Type} : Res α → Bool | .err _ => true | _ => false
def holds {α : Type} (r : Res α) (p : α → Bool) : Bool := match r with | .ok a => p a | _ => false
def failsWith {α : Type} (r : Res α) (p : Err → Bool) : Bool := match r with | .err e => p e | _ => false
def fails {α : Type} (r : Res α) (t : String) : Bool := failsWith r fun e => e.text ⟨[], [], [], []⟩ == t.toList
def isDuplicate : Err → Bool | .invalidAllowedSigner (.duplicateOptions _) => true | _ => false
def fp (k : PublicKey) (hash : String) : Bool := holds (k.fingerprintWith C .sha256) fun f => f.hash == hash.toList
def shows (k : PublicKey) (text : String) : Bool := holds (k.fingerprintWith C .sha256) fun f => f.display == text.toList
def ecdsaKey (k : PrivateKey) : Option Bytes := match k.kind with | .ecdsa _ key => some key | _ => none
def isEcdsa (k : PrivateKey) : Bool := (ecdsaKey k).isSome
def isRsa (k : PrivateKey) : Bool := match k.kind with | .rsa _ => true | _ => false
def ownKey (s : List Char) : Res PublicKey := do
  let k ← PrivateKey.fromString F C s
  return k.pubkey

/-- Issuing a certificate with a private key given as text. -/
def issue (user : Res PublicKey) (ca : List Char) (f : Certificate → Certificate) : Res Certificate := do
  let user ← user
  let ca ← PrivateKey.fromString F C ca
  let c ← Certificate.builder (some (Vector.replicate 32 7)) (some (Vector.replicate 8 9)) user .user ca.pubkey
  (f c).sign C (ca.sign F C D)

/-- tests/cert-creation.rs `test_ecdsa256_signer`, `test_ecdsa384_signer`: the signer is a function using the secret. -/
def issueWith (curve : EcAlg) (secret : Bytes) (user ca : List Char) (f : Certificate → Certificate) : Res Certificate := do
  let user ← PublicKey.fromString user
  let ca ← PublicKey.fromString ca
  let c ← Certificate.builder (some (Vector.replicate 32 7)) (some (Vector.replicate 8 9)) user .user ca
  (f c).sign C fun buf => match ca.kind with
    | .ecdsa _ point _ => match C.ecdsaSign curve secret point buf with
      | some sig => formatSignatureForSsh ca sig
      | none => .ok none
    | _ => .ok none

def verifies (sig key : List Char) (msg : Bytes) (ns : String) : Res VerifiedSshSignature := do
  let s ← SshSignature.fromArmoredString sig
  let k ← PrivateKey.fromString F C key
  VerifiedSshSignature.fromSshSignature C msg s ns (some k.pubkey)

def signMessage (key : List Char) (msg : Bytes) (ns : String) : Res VerifiedSshSignature := do
  let k ← PrivateKey.fromString F C key
  VerifiedSshSignature.newWithPrivateKey F C D msg ns k none

/-- Signing, printing, reading back and verifying. -/
def signAndVerify (key : List Char) (msg : Bytes) (ns : String) : Res VerifiedSshSignature := do
  let k ← PrivateKey.fromString F C key
  let v ← VerifiedSshSignature.newWithPrivateKey F C D msg ns k none
  let text ← v.signature.display
  let s ← SshSignature.fromArmoredString text
  VerifiedSshSignature.fromSshSignature C msg s ns (some k.pubkey)

end Ssh.Tests
