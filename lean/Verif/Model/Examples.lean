import Verif.Model.Files
import Verif.Model.SshSig
import Verif.Model.Display
import Verif.Model.ErrorText
import Verif.Model.Piv
import Verif.Model.Fido

/-!
# The programs in `examples/`

The command line has been taken apart (crate `clap` and `env::args`): its values, defaults included, are parameters.
The result is what a run prints on standard output; a run that ends with a panic is `panic`, whatever it printed before.
Logging is left out.
-/

namespace Ssh

/-- `Result::unwrap`. -/
def Res.orPanic {α : Type} : Res α → Res α
  | .err _ => .panic
  | r => r

namespace Examples

/-- `println!("{}", ..)`. -/
def println (s : List Char) : List Char := s ++ ['\n']

/-- A run of a program whose `main` gives a `Result<(), String>`. -/
inductive Run where
  | done (out : List Char)
  | failed (message : List Char)
  | panicked
deriving DecidableEq, Repr

/-- examples/sign-cert-with-file.rs:47-64 and sign-cert-with-yubikey.rs:87-100: the certificate for a key file, up to the call of
`sign`.  `extensions` is the result of `standard_extensions` in the order in which its hash map is iterated. -/
def request (disk : Disk) (nonce : Option (Vector UInt8 32)) (rserial : Option (Vector UInt8 8)) (extensions : StrMap)
    (ca : PublicKey) (serial : UInt64) (file principal : String) : Res Certificate := do
  let sshPubkey ← (PublicKey.fromPath disk file).orPanic
  let c ← (Certificate.builder nonce rserial sshPubkey .user ca).orPanic
  return (((((c.setSerial serial).setKeyId "key_id").addPrincipal principal).setValidAfter 0).setValidBefore
    0xFFFFFFFFFFFFFFFF).setExtensions extensions

/-- examples/sign-cert-with-file.rs:50-52 and sign-file-with-file.rs:49-51: a PIN on the command line is set in the key. -/
def withPin (k : PrivateKey) (pin : Option String) : PrivateKey :=
  match pin with
  | some p => k.setPin p
  | none => k

/-- examples/sign-cert-with-file.rs:47-64.  The two files are read in the order key, CA; both orders of failures end in a panic. -/
def signCertWithFile (F : Features) (C : Crypto) (D : FidoDev) (disk : Disk) (nonce : Option (Vector UInt8 32))
    (rserial : Option (Vector UInt8 8)) (extensions : StrMap) (file sign : String) (pin : Option String) (principal : String) :
    Res (List Char) := do
  let ca ← (PrivateKey.fromPath F C disk sign).orPanic
  let ca := withPin ca pin
  let c ← request disk nonce rserial extensions ca.pubkey 0x0 file principal
  let userCert ← (c.sign C (ca.sign F C D)).orPanic
  return println userCert.display

/-- examples/sign-file-with-file.rs:47-61. -/
def signFileWithFile (F : Features) (C : Crypto) (D : FidoDev) (disk : Disk) (file sign : String) (pin : Option String)
    (ns : String) : Res (List Char) := do
  let k ← (PrivateKey.fromPath F C disk sign).orPanic
  let k := withPin k pin
  let contents ← Res.unwrap (disk file)
  let v ← (VerifiedSshSignature.newWithPrivateKey F C D contents ns k none).orPanic
  let t ← v.signature.display
  return println t

/-- The body of the loop in examples/ssh-cert-info.rs:26-37 and ssh-pubkey-from-cert.rs:26-39 for the non-empty line `i`; `text` is what
is printed for a certificate. -/
def certLine (C : Crypto) (T : ForeignTexts) (text : Certificate → Res (List Char)) (i : Nat) (line : List Char) : Res (List Char) :=
  match Certificate.fromString C line with
  | .ok c => text c
  | .err e => .ok ("Line ".toList ++ (Nat.repr i).toList ++ ": Certificate not valid: ".toList ++ e.text T)
  | .panic => .panic

/-- The loop in examples/ssh-cert-info.rs:26-37 and ssh-pubkey-from-cert.rs:26-39. -/
def certLoop (C : Crypto) (T : ForeignTexts) (text : Certificate → Res (List Char)) : Nat → List (List Char) → Res (List Char)
  | _, [] => .ok []
  | i, line :: rest =>
    if line.isEmpty then .ok []
    else do
      let out ← certLine C T text i line
      let more ← certLoop C T text (i + 1) rest
      return println out ++ more

/-- examples/ssh-cert-info.rs:6-9. -/
def certHelp : List Char :=
  println "An SSH Cert Parser based on the sshcerts library".toList ++ println "Usage: ssh-cert-info <path to file>".toList

/-- examples/ssh-cert-info.rs:11-38 and ssh-pubkey-from-cert.rs:11-40; `args` are the arguments behind the program's name. -/
def certProgram (C : Crypto) (T : ForeignTexts) (text : Certificate → Res (List Char)) (disk : Disk) (args : List String) :
    Res (List Char) :=
  match args with
  | [path] =>
    match readToString disk path with
    | .ok contents => certLoop C T text 0 (splitOn (· == '\n') contents)
    | .err _ => .ok (println ("Error ".toList ++ T.io ++ " opening file: ".toList ++ path.toList) ++ certHelp)
    | .panic => .panic
  | _ => .ok certHelp

/-- examples/ssh-cert-info.rs. -/
def sshCertInfo (C : Crypto) (T : ForeignTexts) : Disk → List String → Res (List Char) :=
  certProgram C T fun c => c.displayAlternate C

/-- examples/ssh-pubkey-from-cert.rs. -/
def sshPubkeyFromCert (C : Crypto) (T : ForeignTexts) : Disk → List String → Res (List Char) :=
  certProgram C T fun c => c.key.display

/-- examples/ssh-pkey-info.rs:5-8 and ssh-pubkey-info.rs:5-8. -/
def keyHelp : List Char :=
  println "An SSH Private Key reader based on the sshcerts library".toList ++ println "Usage: ssh-pkey-info <path to file>".toList

/-- `format!("{}: Private key at {} not valid", e, path)`. -/
def notValid (T : ForeignTexts) (e : Err) (path : String) : List Char :=
  e.text T ++ ": Private key at ".toList ++ path.toList ++ " not valid".toList

/-- examples/ssh-pkey-info.rs:20-24: the arguments behind the path. -/
def givenPassphrase : List String → Option String
  | [p] => some p
  | _ => none

/-- examples/ssh-pkey-info.rs:10-33. -/
def sshPkeyInfo (F : Features) (C : Crypto) (T : ForeignTexts) (disk : Disk) (args : List String) : Run :=
  match args with
  | [] => .done keyHelp
  | path :: rest =>
    match PrivateKey.fromPathWithPassphrase F C disk path (givenPassphrase rest) with
    | .ok k =>
      match k.display C with
      | .ok t => .done (println t)
      | _ => .panicked
    | .err e => .failed (notValid T e path)
    | .panic => .panicked

/-- examples/ssh-pubkey-info.rs:10-31. -/
def sshPubkeyInfo (C : Crypto) (T : ForeignTexts) (disk : Disk) (args : List String) : Run :=
  match args with
  | [] => .done keyHelp
  | path :: _ =>
    match PublicKey.fromPath disk path with
    | .ok k =>
      match k.fingerprintWith C .sha256 with
      | .ok f => .done (println ("256 SHA256:".toList ++ f.hash ++ ' ' :: (k.comment.getD "no comment").toList))
      | _ => .panicked
    | .err e => .failed (notValid T e path)
    | .panic => .panicked

/-- examples/into-ssh-pubkey.rs:6-30. -/
def intoSshPubkey (X : X509Env) (T : ForeignTexts) (disk : Disk) (args : List String) : Res (List Char) :=
  let help := println "Read a PEM/DER encoded public key and convert it to SSH format".toList ++
    println "Usage: into-ssh-pubkey <path to file>".toList
  match args with
  | [path] =>
    match disk path with
    | none => .ok (println ("Error ".toList ++ T.io ++ " opening file: ".toList ++ path.toList) ++ help)
    | some contents =>
      match derEncodingToSshPublicKey X contents with
      | .ok k => do
        let t ← k.display
        return println t
      | .err e => .ok (println ("Error: ".toList ++ e.text T))
      | .panic => .panic
  | _ => .ok help

/-- `str::parse::<u8>`: an optional `+`, then decimal digits with a value below 256. -/
def parseU8 (s : List Char) : Option Nat :=
  let digits := match s with
    | '+' :: d :: rest => d :: rest
    | s => s
  if digits.isEmpty || !digits.all (fun c => c.isDigit) then none
  else
    let n := digits.foldl (fun acc c => acc * 10 + (c.toNat - 48)) 0
    if n ≤ 255 then some n else none

/-- The value of a hexadecimal digit (crate `hex`). -/
def hexVal (c : Char) : Option Nat :=
  if '0' ≤ c ∧ c ≤ '9' then some (c.toNat - 48)
  else if 'a' ≤ c ∧ c ≤ 'f' then some (c.toNat - 87)
  else if 'A' ≤ c ∧ c ≤ 'F' then some (c.toNat - 55)
  else none

/-- examples/yk-provision.rs:45-60 and sign-cert-with-yubikey.rs:11-26 `slot_parser`; `isSlot` says for which numbers
`SlotId::try_from` (crate `yubikey`) succeeds.  Lengths are in bytes. -/
def slotParser (isSlot : Nat → Bool) (slot : List Char) : Res (Option Nat) :=
  let len := (String.ofList slot).utf8ByteSize
  if (len = 2 ∨ len = 3) ∧ ['R'].isPrefixOf slot then
    match parseU8 (slot.drop 1) with
    | some v => if v ≤ 20 then (if isSlot (0x81 + v) then .ok (some (0x81 + v)) else .panic) else .ok none
    | none => .ok none
  else if len = 4 ∧ ['0', 'x'].isPrefixOf slot then
    match slot.drop 2 with
    | [a, b] =>
      match hexVal a, hexVal b with
      | some x, some y => if isSlot (16 * x + y) then .ok (some (16 * x + y)) else .panic
      | _, _ => .panic
    | _ => .panic
  else .ok none

/-- examples/yk-provision.rs:62-69 and sign-cert-with-yubikey.rs:28-35 `slot_validator`. -/
def slotValidator (isSlot : Nat → Bool) (slot : List Char) : Res Bool := do
  let r ← slotParser isSlot slot
  return r.isSome

variable {σ : Type}

/-- examples/yk-provision.rs:10-43 `provision_new_key`, what is printed apart from the announcement; an error ends in a panic. -/
def provisionNewKey (X : X509Env) (D : YkDev σ) (slot : Nat) (subject : String) (pin mgmKey : Bytes) (alg : String)
    (secure : Bool) : Yk σ PublicKey := do
  let alg := if alg = "p256" then AlgId.eccP256 else AlgId.eccP384
  let policy := if secure then TouchPolicy.always else TouchPolicy.never
  let conn ← Yk.unwrap (Yk.new D)
  Yk.unwrap (Yk.unlock D conn pin mgmKey)
  Yk.unwrap (Yk.provision X D conn slot subject alg policy .never)

/-- examples/sign-cert-with-yubikey.rs:41-49 `YubikeySigner::sign`, begun with the tokens in state `s`. -/
def yubikeySigner (X : X509Env) (C : Crypto) (D : YkDev σ) (slot : Nat) (s : σ × List YkEvent) (buffer : Bytes) :
    Res (Option Bytes) :=
  match (do let conn ← Yk.unwrap (Yk.new D); Yk.sshCertSigner X C D conn buffer slot : Yk σ Bytes) s with
  | (.ok sig, _) => .ok (some sig)
  | (.err _, _) => .ok none
  | (.panic, _) => .panic

/-- examples/sign-cert-with-yubikey.rs:84-101, with the slot already parsed. -/
def signCertWithYubikey (X : X509Env) (C : Crypto) (D : YkDev σ) (s : σ × List YkEvent) (disk : Disk)
    (nonce : Option (Vector UInt8 32)) (rserial : Option (Vector UInt8 8)) (extensions : StrMap) (slot : Nat)
    (key principal : String) : Res (List Char) :=
  match (do let conn ← Yk.unwrap (Yk.new D); Yk.unwrap (Yk.fetchPubkey X D conn slot) : Yk σ PublicKey) s with
  | (.ok ykPubkey, s') => do
    let c ← request disk nonce rserial extensions ykPubkey 0xFEFEFEFEFEFEFEFE key principal
    let userCert ← (c.sign C (yubikeySigner X C D slot s')).orPanic
    return println userCert.display
  | _ => .panic

/-- A call whose error is looked at instead of passed on. -/
def attempt {α : Type} (m : Yk σ α) : Yk σ (Option α) := fun s =>
  match m s with
  | (.ok a, s') => (.ok (some a), s')
  | (.err _, s') => (.ok none, s')
  | (.panic, s') => (.panic, s')

/-- examples/yk-fingerprint.rs:26-37 (the same as 44-55): the arms of the match; `slotText` is `Debug for SlotId`. -/
def slotReport (C : Crypto) (D : YkDev σ) (slotText : Nat → List Char) (conn slot : Nat) :
    Option String → Option PublicKey → Yk σ (List Char)
  | some subj, some cert => do
    let attest ← attempt (Yk.fetchAttestation D conn slot)
    match cert.fingerprintWith C .sha256 with
    | .ok f => return println ('\t' :: slotText slot ++ ":\t[Fingerprint: ".toList ++ f.hash ++ "] [Attest: ".toList ++
        (if attest.isSome then "Yes" else "No ").toList ++ "] Subject: [".toList ++ subj.toList ++ [']'])
    | _ => Yk.crash
  | _, _ => return println ('\t' :: slotText slot ++ ":\tNo cert found".toList)

/-- examples/yk-fingerprint.rs:25-38 (the same as 43-56): the line for one slot. -/
def slotLine (X : X509Env) (C : Crypto) (D : YkDev σ) (slotText : Nat → List Char) (conn slot : Nat) : Yk σ (List Char) := do
  let subject ← attempt (Yk.fetchSubject D conn slot)
  let key ← attempt (Yk.fetchPubkey X D conn slot)
  slotReport C D slotText conn slot subject key

/-- The lines for a list of slots. -/
def slotLines (X : X509Env) (C : Crypto) (D : YkDev σ) (slotText : Nat → List Char) (conn : Nat) : List Nat → Yk σ (List Char)
  | [] => return []
  | slot :: rest => do
    let l ← slotLine X C D slotText conn slot
    let more ← slotLines X C D slotText conn rest
    return l ++ more

/-- examples/yk-fingerprint.rs:21-23 and 42. -/
def normalSlots : List Nat := [0x9a, 0x9c, 0x9e, 0x9d, 0x9e, 0xf9]
def retiredSlots : List Nat := (List.range 20).map (0x82 + ·)

/-- examples/yk-fingerprint.rs:13-57, without arguments; the numbers listed are all slots. -/
def ykFingerprint (X : X509Env) (C : Crypto) (D : YkDev σ) (slotText : Nat → List Char) : Yk σ (List Char) := do
  let conn ← Yk.unwrap (Yk.new D)
  let normal ← slotLines X C D slotText conn normalSlots
  let retired ← slotLines X C D slotText conn retiredSlots
  return println "Normal Slots:".toList ++ normal ++ println "Retired Slots:".toList ++ retired

/-- examples/new-fido-sshkey.rs:54-70: what is printed and, if an output path is given, what that file then holds; `generated` is the
result of `generate_new_ssh_key("ssh:test_sk_key", "new-fido-sshkey", pin, device_path)`. -/
def newFidoSshkey (T : ForeignTexts) (generated : Res FidoSshKey) (out : Option String) : Res (List Char × Option (List Char)) :=
  match generated with
  | .ok key => do
    let pub ← key.privateKey.pubkey.display
    let t ← key.privateKey.write
    match out with
    | some _ => return (println pub, some t)
    | none => return (println pub ++ println ("Your new private key handle:\n".toList ++ t), none)
  | .err e => .ok (println ("Failed to generate new SSH Key: ".toList ++ e.text T), none)
  | .panic => .panic

end Examples
end Ssh
