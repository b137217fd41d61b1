import Verif.Spec.Signing
import Verif.Spec.TokenDialog
import Verif.Model.ErrorText
import Verif.Model.Files

/-! # What the programs in `examples/` print -/

namespace Ssh.Spec

/-- A file that holds the text `s`. -/
def FileText (disk : Disk) (path : String) (s : List Char) : Prop := disk path = some (String.ofList s).toByteArray.data.toList

/-- The certificate the signing programs ask for: for a user, one principal and all time. -/
def requested (t : KeyType) (nonce : Bytes) (serial : UInt64) (key ca : PublicKey) (principal : String) (extensions : StrMap) :
    Certificate :=
  { blankCert t nonce serial key ca .user with
    keyId := "key_id", principals := [principal], validBefore := 18446744073709551615, extensions := extensions }

/-- The line printed for that certificate when its signed part is `tbs` and its signature `sig`. -/
def RequestedLine (t : KeyType) (tbs sig : Bytes) (out : List Char) : Prop :=
  ∃ b, Base64 (tbs ++ str sig) b ∧ out = t.name.toList ++ ' ' :: b ++ " key_id\n".toList

/-- A private key after a PIN was, or was not, set. -/
def pinned (k : PrivateKey) (pin : Option String) : PrivateKey :=
  match pin, k.kind with
  | some p, .ecdsaSk s => { k with kind := .ecdsaSk { s with pin := some p } }
  | some p, .ed25519Sk s => { k with kind := .ed25519Sk { s with pin := some p } }
  | _, _ => k

/-- The lines of a text before the first empty one. -/
def FirstLines (s : List Char) (ls : List (List Char)) : Prop :=
  (∀ l ∈ ls, l ≠ [] ∧ '\n' ∉ l) ∧
    (s ++ ['\n'] = ls.flatMap (· ++ ['\n']) ∨ ∃ rest, s ++ ['\n'] = ls.flatMap (· ++ ['\n']) ++ '\n' :: rest)

/-- What is printed for line number `i`, where `P` says how a certificate is shown. -/
def LineReport (C : Crypto) (T : ForeignTexts) (P : Certificate → List Char → Prop) (i : Nat) (l o : List Char) : Prop :=
  (∃ c, Certificate.fromString C l = .ok c ∧ P c o) ∨
    ∃ e, Certificate.fromString C l = .err e ∧
      o = "Line ".toList ++ (Nat.repr i).toList ++ ": Certificate not valid: ".toList ++ e.text T

/-- A certificate shown at length. -/
def ShownAs (C : Crypto) (c : Certificate) (t : List Char) : Prop :=
  ∃ fk fca, Sha256Text C c.key fk ∧ Sha256Text C c.signatureKey fca ∧
    t = (shownLines c (String.ofList fk) (String.ofList fca)).flatMap fun l => l.toList ++ ['\n']

def certUsage : List Char := "An SSH Cert Parser based on the sshcerts library\nUsage: ssh-cert-info <path to file>\n".toList
def keyUsage : List Char := "An SSH Private Key reader based on the sshcerts library\nUsage: ssh-pkey-info <path to file>\n".toList
def derUsage : List Char :=
  "Read a PEM/DER encoded public key and convert it to SSH format\nUsage: into-ssh-pubkey <path to file>\n".toList

/-- The message about a file that cannot be opened. -/
def cannotOpen (T : ForeignTexts) (path : String) : List Char :=
  "Error ".toList ++ T.io ++ " opening file: ".toList ++ path.toList ++ ['\n']

/-- The output of the programs that go through a file line by line. -/
inductive LinewiseOutput (C : Crypto) (T : ForeignTexts) (P : Certificate → List Char → Prop) (disk : Disk) :
    List String → List Char → Prop where
  | usage {args} : args.length ≠ 1 → LinewiseOutput C T P disk args certUsage
  | unreadable {path} : (∀ s, ¬ FileText disk path s) → LinewiseOutput C T P disk [path] (cannotOpen T path ++ certUsage)
  | report {path s ls} {outs : List (List Char)} : FileText disk path s → FirstLines s ls → outs.length = ls.length →
      (∀ (i : Nat) l o, ls[i]? = some l → outs[i]? = some o → LineReport C T P i l o) →
      LinewiseOutput C T P disk [path] (outs.flatMap (· ++ ['\n']))

/-- The message about a key that cannot be read. -/
def badKey (T : ForeignTexts) (e : Err) (path : String) : List Char :=
  e.text T ++ ": Private key at ".toList ++ path.toList ++ " not valid".toList

/-- The result of reading a public key from a file. -/
def PublicFile (disk : Disk) (path : String) (r : Res PublicKey) : Prop :=
  ((∀ s, ¬ FileText disk path s) ∧ r = .err .io) ∨ ∃ s, FileText disk path s ∧ r = PublicKey.fromString s

/-- The result of reading a private key from a file. -/
def PrivateFile (F : Features) (C : Crypto) (disk : Disk) (path : String) (pass : Option String) (r : Res PrivateKey) : Prop :=
  ((∀ s, ¬ FileText disk path s) ∧ r = .err .io) ∨
    ∃ s, FileText disk path s ∧ r = PrivateKey.fromStringWithPassphrase F C s pass

/-- The passphrase: the only word after the path. -/
def soleWord : List String → Option String
  | [p] => some p
  | _ => none

end Ssh.Spec
