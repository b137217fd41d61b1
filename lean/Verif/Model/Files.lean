import Verif.Model.Cert
import Verif.Model.PrivKey
import Verif.Model.AllowedSigner

/-!
# Reading from files

The file system is an arbitrary function from paths to contents; `none` stands for everything that makes `File::open`
or the reading fail.  Paths are strings (the code takes any `AsRef<Path>`).
-/

namespace Ssh

/-- What the files hold. -/
abbrev Disk := String → Option Bytes

/-- `File::open(path)?.read_to_string(&mut contents)?`: both failures, and contents that are not UTF-8 (for which the
standard library makes an `io::Error` of kind `InvalidData`), become `Error::IOError` (src/error.rs `From`). -/
def readToString (D : Disk) (path : String) : Res (List Char) :=
  match D path with
  | none => .err .io
  | some b =>
    match fromUtf8 b with
    | none => .err .io
    | some s => .ok s.toList

/-- src/ssh/pubkey.rs:183-188 `PublicKey::from_path`. -/
def PublicKey.fromPath (D : Disk) (path : String) : Res PublicKey := do
  let contents ← readToString D path
  PublicKey.fromString contents

/-- src/ssh/cert.rs:125-130 `Certificate::from_path`. -/
def Certificate.fromPath (C : Crypto) (D : Disk) (path : String) : Res Certificate := do
  let contents ← readToString D path
  Certificate.fromString C contents

/-- src/ssh/privkey.rs:481-489 `PrivateKey::from_path_with_passphrase`. -/
def PrivateKey.fromPathWithPassphrase (F : Features) (C : Crypto) (D : Disk) (path : String) (pass : Option String) :
    Res PrivateKey := do
  let contents ← readToString D path
  PrivateKey.fromStringWithPassphrase F C contents pass

/-- src/ssh/privkey.rs:492-494 `PrivateKey::from_path`. -/
def PrivateKey.fromPath (F : Features) (C : Crypto) (D : Disk) (path : String) : Res PrivateKey :=
  PrivateKey.fromPathWithPassphrase F C D path none

/-- src/ssh/allowed_signer.rs:248-253 `AllowedSigners::from_path`. -/
def allowedSignersFromPath (T : Chrono) (D : Disk) (path : String) : Res (List AllowedSigner) := do
  let contents ← readToString D path
  allowedSignersFromString T contents

end Ssh
