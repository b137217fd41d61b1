import Verif.Model.X509
import Verif.Model.Utils
import Verif.Model.Fido

/-! # src/yubikey/verification.rs and src/yubikey/piv -/

namespace Ssh

/-- src/yubikey/verification.rs:32-44 `ValidPIVKey`. -/
structure ValidPivKey where
  publicKey : PublicKey
  firmware : List Char
  serial : UInt64
  touchPolicy : UInt8
  pinPolicy : UInt8
deriving DecidableEq, Repr

/-- The three local variables of src/yubikey/verification.rs:50-52. -/
structure PivExt where
  firmware : Option (List Char)
  serial : Option UInt64
  policies : Option (UInt8 × UInt8)
deriving DecidableEq, Repr

/-- src/yubikey/verification.rs:55-88: one extension. -/
def pivExtension (X : X509Env) (v : PivExt) (ext : String × Bytes) : Res PivExt :=
  if ext.1 = "1.3.6.1.4.1.41482.3.3" then
    if ext.2.length ≠ 3 then .ok v
    else do
      let f ← versionText ext.2
      return { v with firmware := some f }
  else if ext.1 = "1.3.6.1.4.1.41482.3.7" then do
    let s ← Res.ofOption .parsingError (X.integer ext.2)
    if s.length > 8 then return v
    else do
      let pad ← subNat 8 s.length
      return { v with serial := some (UInt64.ofNat (beNat (List.replicate pad 0 ++ s))) }
  else if ext.1 = "1.3.6.1.4.1.41482.3.8" then do
    let a ← index ext.2 0
    let b ← index ext.2 1
    return { v with policies := some (a, b) }
  else .ok v

/-- src/yubikey/verification.rs:46-105 `extract_certificate_extension_data`. -/
def pivExtensions (X : X509Env) (publicKey : PublicKey) (cert : X509Cert) : Res ValidPivKey := do
  let v ← cert.extensions.foldlM (pivExtension X) ⟨none, none, none⟩
  match v.firmware, v.serial, v.policies with
  | some firmware, some serial, some p =>
    return { publicKey, firmware, serial, touchPolicy := p.2, pinPolicy := p.1 }
  | _, _, _ => .err .parsingError

/-- src/yubikey/verification.rs:109-142 `verify_certificate_chain`; `yubicoRoot` is the built-in
root (`YUBICO_PIV_ROOT_CA`, 9-27). -/
def verifyCertificateChain (X : X509Env) (yubicoRoot : String) (client intermediate : Bytes)
    (rootPem : Option String) : Res ValidPivKey := do
  let root ← Res.unwrap (X.parsePem (rootPem.getD yubicoRoot))
  let inter ← Res.ofOption .parsingError (X.parseDer intermediate)
  let cl ← Res.ofOption .parsingError (X.parseDer client)
  if ¬ X.verify inter root.spki then .err .invalidSignature
  else if ¬ X.verify cl inter.spki then .err .invalidSignature
  else do
    let publicKey ← Res.mapErr (fun _ => .parsingError) (pubkeyFromX509Certificate X client)
    pivExtensions X publicKey cl

/-! ## The PIV token -/

/-- `yubikey::piv::AlgorithmId`. -/
inductive AlgId where
  | rsa1024 | rsa2048 | eccP256 | eccP384
deriving DecidableEq, Repr

/-- `yubikey::PinPolicy`. -/
inductive PinPolicy where
  | default | never | once | always
deriving DecidableEq, Repr

/-- `yubikey::TouchPolicy`. -/
inductive TouchPolicy where
  | default | never | always | cached
deriving DecidableEq, Repr

/-- `yubikey::certificate::PublicKeyInfo`; the fields of RSA keys are not looked at. -/
inductive Pki where
  | rsa | ecP256 (key : Bytes) | ecP384 (key : Bytes)
deriving DecidableEq, Repr

/-- `yubikey::certificate::Certificate`: `subject_pki`, the text of `subject` and the bytes. -/
structure SlotCert where
  pki : Pki
  subject : String
  bytes : Bytes
deriving DecidableEq, Repr

/-- src/yubikey/piv/mod.rs:12-36 `Error` (`internal` stands for `InternalYubiKeyError`, without
its text). -/
inductive YkErr where
  | unprovisioned | wrongKeyType | unsupported | invalidManagementKey | parsingError | noSuchYubikey | internal
deriving DecidableEq, Repr

/-- The result of a method: a value, an error, or a panic. -/
inductive YkRes (α : Type) where
  | ok (a : α) | err (e : YkErr) | panic
deriving DecidableEq, Repr

/-- Something that happened on a token, with the token's answer.  `conn` is the connection it
happened on. -/
inductive YkEvent where
  | openFirst (r : Option Nat)
  | openSerial (serial : UInt32) (r : Option Nat)
  | reconnect (conn : Nat) (r : Bool)
  | verifyPin (conn : Nat) (pin : Bytes) (r : Bool)
  | authenticate (conn : Nat) (key : Bytes) (r : Bool)
  | read (conn slot : Nat) (r : Option SlotCert)
  | write (conn slot : Nat) (data : Bytes) (r : Bool)
  | attest (conn slot : Nat) (r : Option Bytes)
  | generate (conn slot : Nat) (alg : AlgId) (pin : PinPolicy) (touch : TouchPolicy) (r : Option Pki)
  | selfSign (conn slot : Nat) (cn : String) (key : Pki) (r : Bool)
  | sign (conn : Nat) (digest : Bytes) (alg : AlgId) (slot : Nat) (r : Option Bytes)
deriving DecidableEq, Repr

/-- Crate `yubikey` and the tokens behind it: arbitrary state, arbitrary answers (they may change
from call to call).  Slots are numbered; a connection (`yubikey::YubiKey`) is a number. -/
structure YkDev (σ : Type) where
  /-- `YubiKey::open` -/
  openFirst : σ → Option Nat × σ
  /-- `YubiKey::open_by_serial` -/
  openSerial : UInt32 → σ → Option Nat × σ
  /-- `YubiKey::serial`, a field of the connection -/
  serial : Nat → UInt32
  /-- `YubiKey::reconnect` -/
  reconnect : Nat → σ → Bool × σ
  /-- `YubiKey::verify_pin` -/
  verifyPin : Nat → Bytes → σ → Bool × σ
  /-- `MgmKey::from_bytes` is `Ok` -/
  mgmKey : Bytes → Bool
  /-- `YubiKey::authenticate` -/
  authenticate : Nat → Bytes → σ → Bool × σ
  /-- `Certificate::read` -/
  read : Nat → Nat → σ → Option SlotCert × σ
  /-- `Certificate::from_bytes` is `Ok` -/
  certBytes : Bytes → Bool
  /-- `Certificate::write` -/
  write : Nat → Nat → Bytes → σ → Bool × σ
  /-- `piv::attest` -/
  attest : Nat → Nat → σ → Option Bytes × σ
  /-- `piv::generate` -/
  generate : Nat → Nat → AlgId → PinPolicy → TouchPolicy → σ → Option Pki × σ
  /-- `Certificate::generate_self_signed` with serial number `[0; 20]`, no expiry and no
  extensions -/
  selfSign : Nat → Nat → String → Pki → σ → Bool × σ
  /-- `piv::sign_data` -/
  sign : Nat → Bytes → AlgId → Nat → σ → Option Bytes × σ

/-- Crate `rcgen`: the to-be-signed part of a request for a common name, signature algorithm and
public key, and the request made of that part and a signature. -/
structure Rcgen where
  tbs : String → AlgId → Bytes → Option Bytes
  finish : Bytes → AlgId → Bytes → Bytes

/-- A method on `&mut Yubikey`: token state and trace of what happened on tokens so far
(the trace is a ghost variable: nothing reads it). -/
abbrev Yk (σ α : Type) := σ × List YkEvent → YkRes α × (σ × List YkEvent)

namespace Yk
variable {σ : Type}

/-- `?`. -/
def bind {α β : Type} (m : Yk σ α) (f : α → Yk σ β) : Yk σ β := fun s =>
  match m s with
  | (.ok a, s') => f a s'
  | (.err e, s') => (.err e, s')
  | (.panic, s') => (.panic, s')

instance : Monad (Yk σ) where
  pure a := fun s => (.ok a, s)
  bind := Yk.bind

/-- `return Err(..)`. -/
def fail {α : Type} (e : YkErr) : Yk σ α := fun s => (.err e, s)

/-- `panic!`. -/
def crash {α : Type} : Yk σ α := fun s => (.panic, s)

/-- `map_err`. -/
def mapErr {α : Type} (m : Yk σ α) (e : YkErr) : Yk σ α := fun s =>
  match m s with
  | (.err _, s') => (.err e, s')
  | r => r

/-- `unwrap`. -/
def unwrap {α : Type} (m : Yk σ α) : Yk σ α := fun s =>
  match m s with
  | (.err _, s') => (.panic, s')
  | r => r

/-- A request to a token that answers with data or an error, which becomes
`InternalYubiKeyError` (src/yubikey/piv/mod.rs:57-61). -/
def ask {α : Type} (f : σ → Option α × σ) (ev : Option α → YkEvent) : Yk σ α := fun s =>
  let r := f s.1
  (match r.1 with
   | some p => .ok p
   | none => .err .internal, (r.2, s.2 ++ [ev r.1]))

/-- The same for a request that answers with success or an error. -/
def tell (f : σ → Bool × σ) (ev : Bool → YkEvent) : Yk σ Unit := fun s =>
  let r := f s.1
  (if r.1 then .ok () else .err .internal, (r.2, s.2 ++ [ev r.1]))

/-- src/yubikey/piv/management.rs:71-75 `Yubikey::new`. -/
def new (D : YkDev σ) : Yk σ Nat := ask D.openFirst .openFirst

/-- src/yubikey/piv/management.rs:78-83 `Yubikey::open`. -/
def openSerial (D : YkDev σ) (serial : UInt32) : Yk σ Nat :=
  mapErr (ask (D.openSerial serial) (.openSerial serial)) .noSuchYubikey

/-- src/yubikey/piv/management.rs:86-97 `reconnect`; the result is the connection the object has
afterwards (after an error it keeps the old one). -/
def reconnect (D : YkDev σ) (conn : Nat) : Yk σ Nat := fun s =>
  match tell (D.reconnect conn) (.reconnect conn) s with
  | (.ok _, s') => (.ok conn, s')
  | (.panic, s') => (.panic, s')
  | (.err _, s') => openSerial D (D.serial conn) s'

/-- src/yubikey/piv/management.rs:100-108 `unlock`. -/
def unlock (D : YkDev σ) (conn : Nat) (pin mgm : Bytes) : Yk σ Unit := do
  tell (D.verifyPin conn pin) (.verifyPin conn pin)
  if D.mgmKey mgm then tell (D.authenticate conn mgm) (.authenticate conn mgm)
  else fail .invalidManagementKey

/-- `Certificate::read(&mut self.yk, *slot)?`. -/
def readCert (D : YkDev σ) (conn slot : Nat) : Yk σ SlotCert := ask (D.read conn slot) (.read conn slot)

/-- src/yubikey/piv/management.rs:111-114 `configured`. -/
def configured (D : YkDev σ) (conn slot : Nat) : Yk σ Pki := do
  let c ← readCert D conn slot
  return c.pki

/-- src/yubikey/piv/management.rs:117-120 `fetch_subject`. -/
def fetchSubject (D : YkDev σ) (conn slot : Nat) : Yk σ String := do
  let c ← readCert D conn slot
  return c.subject

/-- src/yubikey/piv/management.rs:123-126 `fetch_certificate`. -/
def fetchCertificate (D : YkDev σ) (conn slot : Nat) : Yk σ Bytes := do
  let c ← readCert D conn slot
  return c.bytes

/-- src/yubikey/piv/management.rs:129-135 `write_certificate`. -/
def writeCertificate (D : YkDev σ) (conn slot : Nat) (data : Bytes) : Yk σ Unit :=
  if D.certBytes data then tell (D.write conn slot data) (.write conn slot data) else fail .internal

/-- src/yubikey/piv/management.rs:138-140 `fetch_attestation`. -/
def fetchAttestation (D : YkDev σ) (conn slot : Nat) : Yk σ Bytes := ask (D.attest conn slot) (.attest conn slot)

/-- src/yubikey/piv/management.rs:194-198: algorithm and digest for the key in the slot. -/
def slotAlg (C : Crypto) : Pki → AlgId × (Bytes → Bytes)
  | .ecP256 _ => (.eccP256, C.sha256)
  | .ecP384 _ => (.eccP384, C.sha384)
  | .rsa => (.rsa2048, C.sha256)

/-- src/yubikey/piv/management.rs:193-211 `sign_data`. -/
def signData (C : Crypto) (D : YkDev σ) (conn : Nat) (data : Bytes) (alg : AlgId) (slot : Nat) : Yk σ Bytes := do
  let pki ← mapErr (configured D conn slot) .unprovisioned
  if (slotAlg C pki).1 ≠ alg then fail .wrongKeyType
  else ask (D.sign conn ((slotAlg C pki).2 data) alg slot) (.sign conn ((slotAlg C pki).2 data) alg slot)

/-- src/yubikey/piv/management.rs:17-22 `CSRSigner`. -/
structure CsrSigner where
  slot : Nat
  serial : UInt32
  publicKey : Bytes
  algorithm : AlgId
deriving DecidableEq, Repr

/-- src/yubikey/piv/management.rs:27-42 `CSRSigner::new`. -/
def csrSignerNew (D : YkDev σ) (serial : UInt32) (slot : Nat) : Yk σ CsrSigner := do
  let conn ← unwrap (openSerial D serial)
  let pki ← unwrap (configured D conn slot)
  match pki with
  | .rsa => crash
  | .ecP256 k => return ⟨slot, serial, k, .eccP256⟩
  | .ecP384 k => return ⟨slot, serial, k, .eccP384⟩

/-- src/yubikey/piv/management.rs:50-58 `CSRSigner::sign`; `RcgenError` becomes
`InternalYubiKeyError` in the caller. -/
def csrSign (C : Crypto) (D : YkDev σ) (c : CsrSigner) (message : Bytes) : Yk σ Bytes := do
  let conn ← mapErr (openSerial D c.serial) .internal
  mapErr (signData C D conn message c.algorithm c.slot) .internal

/-- src/yubikey/piv/management.rs:60-66 `CSRSigner::algorithm`, with `AlgorithmId` standing for the
two algorithms of `rcgen`. -/
def csrAlgorithm (c : CsrSigner) : Yk σ AlgId :=
  match c.algorithm with
  | .eccP256 => return .eccP256
  | .eccP384 => return .eccP384
  | _ => crash

/-- src/yubikey/piv/management.rs:143-161 `generate_csr`.  `rcgen` reads the algorithm and the public
key of the key pair, refuses a key pair whose algorithm is not the one of the parameters, builds
the part to be signed, has the key pair sign it, and assembles the request. -/
def generateCsr (C : Crypto) (G : Rcgen) (D : YkDev σ) (conn slot : Nat) (cn : String) : Yk σ Bytes := do
  let pki ← configured D conn slot
  let alg ← (match pki with
    | .ecP256 _ => return .eccP256
    | .ecP384 _ => return .eccP384
    | .rsa => fail .unsupported : Yk σ AlgId)
  let signer ← csrSignerNew D (D.serial conn) slot
  let pairAlg ← csrAlgorithm signer
  if pairAlg ≠ alg then fail .internal
  else
    match G.tbs cn alg signer.publicKey with
    | none => fail .internal
    | some tbs => do
      let sig ← csrSign C D signer tbs
      return G.finish tbs alg sig

/-- src/yubikey/piv/ssh.rs:11-18 `ssh_cert_fetch_pubkey`. -/
def fetchPubkey (X : X509Env) (D : YkDev σ) (conn slot : Nat) : Yk σ PublicKey := do
  let cert ← fetchCertificate D conn slot
  match pubkeyFromX509Certificate X cert with
  | .ok k => return k
  | .err .parsingError => fail .parsingError
  | .err .keyTypeMismatch => fail .wrongKeyType
  | .err _ => fail .unsupported
  | .panic => crash

/-- src/yubikey/piv/management.rs:165-187 `provision`. -/
def provision (X : X509Env) (D : YkDev σ) (conn slot : Nat) (cn : String) (alg : AlgId) (touch : TouchPolicy)
    (pin : PinPolicy) : Yk σ PublicKey := do
  let key ← ask (D.generate conn slot alg pin touch) (.generate conn slot alg pin touch)
  tell (D.selfSign conn slot cn key) (.selfSign conn slot cn key)
  fetchPubkey X D conn slot

/-- src/yubikey/piv/ssh.rs:23-35 `get_ssh_key_type`. -/
def getSshKeyType (X : X509Env) (D : YkDev σ) (conn slot : Nat) : Yk σ AlgId := do
  let k ← fetchPubkey X D conn slot
  match k.kind with
  | .ecdsa curve _ _ =>
    match curve.kind with
    | .nistp256 => return .eccP256
    | .nistp384 => return .eccP384
    | .nistp521 => fail .unsupported
  | .rsa _ _ => fail .unsupported
  | .ed25519 _ _ => fail .unsupported

/-- src/yubikey/piv/ssh.rs:38-51 `ssh_cert_signer`. -/
def sshCertSigner (X : X509Env) (C : Crypto) (D : YkDev σ) (conn : Nat) (buf : Bytes) (slot : Nat) : Yk σ Bytes := do
  let alg ← mapErr (getSshKeyType X D conn slot) .unsupported
  let sig ← signData C D conn buf alg slot
  let pub ← fetchPubkey X D conn slot
  match formatSignatureForSsh pub sig with
  | .ok (some x) => return x
  | .panic => crash
  | _ => fail .parsingError

end Yk
end Ssh
