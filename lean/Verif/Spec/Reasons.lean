import Verif.Spec.Cert
import Verif.Spec.Verify
import Verif.Spec.SshSig
import Verif.Spec.PrivKey
import Verif.Spec.Lists
import Verif.Spec.Text

/-!
# Which defect of a blob is reported as which error

A `Fault` says which error the bytes from some position on deserve.  The faults of a format are the faults of its
fields in the order in which they stand: a field is looked at only when all fields before it are there.  Only the
grammars of `Spec.Wire`, `Spec.Key`, `Spec.Lists`, `Spec.Cert`, `Spec.SshSig` and `Spec.PrivKey` are used.
-/

namespace Ssh.Spec

/-- The error that some bytes deserve, if any. -/
abbrev Fault := Bytes → Err → Prop

/-- Nothing is wrong. -/
def noFault : Fault := fun _ _ => False

/-! ## Fields -/

/-- No `string` starts here.  Nothing is left; or the length is cut off; or fewer bytes follow than the length says. -/
def StringFault : Fault := fun rest e =>
  (rest = [] ∧ e = .unexpectedEof) ∨
  (rest ≠ [] ∧ rest.length < 4 ∧ e = .invalidFormat) ∨
  (∃ n tail, n < 4294967296 ∧ rest = u32 n ++ tail ∧ tail.length < n ∧ e = .invalidFormat)

/-- No text starts here: no `string`, or one which is not UTF-8. -/
def TextFault : Fault := fun rest e =>
  StringFault rest e ∨
  (∃ b w tail, rest = w ++ tail ∧ Frame b w ∧ (∀ s : String, s.toByteArray.data.toList ≠ b) ∧ e = .utf8Error)

/-- No `mpint` starts here: no `string`, or one which is not the shortest form of a non-negative number. -/
def MpintFault : Fault := fun rest e =>
  StringFault rest e ∨
  (∃ b w tail, rest = w ++ tail ∧ Frame b w ∧ ¬ MpintPayload b ∧ e = .invalidFormat)

/-- No integer of `n` bytes starts here. -/
def WordFault (n : Nat) : Fault := fun rest e =>
  (rest = [] ∧ e = .unexpectedEof) ∨ (rest ≠ [] ∧ rest.length < n ∧ e = .invalidFormat)

/-- Fewer than `n` bytes are left. -/
def RawFault (n : Nat) : Fault := fun rest e => rest.length < n ∧ e = .unexpectedEof

/-! ## Sequences -/

/-- A field with the grammar `G` and the faults `D`, and then the faults of what follows it. -/
def field {α : Type} (D : Fault) (G : α → Bytes → Prop) (E : α → Fault) : Fault := fun rest e =>
  D rest e ∨ ∃ v w tail, rest = w ++ tail ∧ G v w ∧ E v tail e

/-- A condition whose failure is reported as `e₀`, and then further faults. -/
def check (P : Prop) (e₀ : Err) (E : Fault) : Fault := fun rest e => (¬ P ∧ e = e₀) ∨ (P ∧ E rest e)

/-- The bytes `b` of a field have a fault of `D`, or none and what follows has one. -/
def inside (D : Fault) (b : Bytes) (E : Fault) : Fault := fun rest e => D b e ∨ ((∀ e', ¬ D b e') ∧ E rest e)

/-- A text. -/
def textField (E : String → Fault) : Fault := field TextFault Text E
/-- A `string`. -/
def stringField (E : Bytes → Fault) : Fault := field StringFault Frame E
/-- An `mpint`. -/
def mpintField (E : Bytes → Fault) : Fault := field MpintFault Mpint E
/-- A `uint32`. -/
def u32Field (E : UInt32 → Fault) : Fault := field (WordFault 4) (fun n w => w = u32 n.toNat) E
/-- A `uint64`. -/
def u64Field (E : UInt64 → Fault) : Fault := field (WordFault 8) (fun n w => w = u64 n.toNat) E
/-- One byte. -/
def byteField (E : UInt8 → Fault) : Fault := field (RawFault 1) (fun b w => w = [b]) E

/-! ## Keys -/

/-- The name of a key type. -/
def knownType (name : String) (E : KeyType → Fault) : Fault := fun rest e =>
  ((∀ kt ∈ keyTypes, kt.name ≠ name) ∧ e = .unknownKeyType name) ∨
  ∃ kt ∈ keyTypes, kt.name = name ∧ E kt rest e

/-- The name of a curve. -/
def knownCurve (name : String) (E : Fault) : Fault :=
  check (∃ c ∈ curves, c.identifier = name) (.unknownCurve name) E

/-- The application of a hardware key. -/
def ApplicationFault (sk : Bool) : Fault := fun rest e => sk = true ∧ TextFault rest e

/-- The fields of a public key after the type name. -/
def MaterialFault (kt : KeyType) : Fault :=
  match family kt.kind with
  | .rsa => mpintField fun _ => MpintFault
  | .ecdsa => textField fun name => knownCurve name <| stringField fun _ => ApplicationFault kt.isSk
  | .ed25519 => stringField fun _ => ApplicationFault kt.isSk

/-- A public key. -/
def KeyFault : Fault := textField fun name => knownType name MaterialFault

/-! ## Signatures -/

/-- The authenticator's flags and counter after the signature of a hardware key. -/
def CounterFault : Option String → Fault
  | none => noFault
  | some _ => byteField fun _ => WordFault 4

/-- A signature blob for the message `msg` under the key `k`. -/
def SignatureFault (C : Crypto) (k : PublicKey) (msg : Bytes) : Fault :=
  textField fun label => knownType label fun kt => check (kt.kind = k.keyType.kind) .keyTypeMismatch <|
  match k.kind with
  | .rsa e n => fun rest e' => ((∀ alg, (label, alg) ∉ rsaLabels) ∧ e' = .keyTypeMismatch) ∨
      ∃ alg, (label, alg) ∈ rsaLabels ∧
        (stringField fun s => check (C.rsaVerify alg n e msg s = true) .invalidSignature noFault) rest e'
  | .ed25519 key app => check (label ∈ ed25519Labels) .keyTypeMismatch <|
      stringField fun s => field (CounterFault app) (PrimitiveMessage C app msg) fun m =>
        check (C.ed25519Verify key m s = true) .invalidSignature noFault
  | .ecdsa _ key app => stringField fun rs => fun rest e =>
      ((∀ alg len, (label, alg, len) ∉ ecdsaLabels) ∧ e = .keyTypeMismatch) ∨
      ∃ alg len, (label, alg, len) ∈ ecdsaLabels ∧
        ((mpintField fun r => mpintField fun s => check (r.length ≤ len ∧ s.length ≤ len) .invalidFormat noFault) rs e ∨
         ∃ x1 x2 junk r s fr fs, rs = x1 ++ (x2 ++ junk) ∧ Mpint r x1 ∧ Mpint s x2 ∧
           FixedWidth len r fr ∧ FixedWidth len s fs ∧
           (field (CounterFault app) (PrimitiveMessage C app msg) fun m =>
             check (C.ecdsaVerify alg key m (fr ++ fs) = true) .invalidSignature noFault) rest e)

/-! ## Certificates -/

/-- A list of texts that ends with the buffer: some texts, and then bytes which are not another text. -/
def TextsFault : Fault := fun rest e =>
  ∃ l w tail, rest = w ++ tail ∧ Texts l w ∧ tail ≠ [] ∧ TextFault tail e

/-- The data of an option. -/
def OptionFault : Fault := stringField fun d => fun _ e => d ≠ [] ∧ TextFault d e

/-- A list of options that ends with the buffer. -/
def OptionsFault : Fault := fun rest e =>
  ∃ l w tail, rest = w ++ tail ∧ OptionPairs l w ∧ tail ≠ [] ∧ (textField fun _ => OptionFault) tail e

/-- The signed part of a certificate. -/
def CertBodyFault : Fault :=
  textField fun name => knownType name fun kt => check (kt.isCert = true) .notCertificate <|
  stringField fun _nonce =>
  field (MaterialFault kt) (KeyMaterial kt) fun _key =>
  u64Field fun _serial =>
  u32Field fun role => check (role = 1 ∨ role = 2) (.invalidCertType role) <|
  textField fun _keyId =>
  stringField fun principals => inside TextsFault principals <|
  u64Field fun _validAfter =>
  u64Field fun _validBefore =>
  stringField fun critical => inside OptionsFault critical <|
  stringField fun extensions => inside OptionsFault extensions <|
  stringField fun _reserved =>
  stringField fun ca => inside KeyFault ca noFault

/-- A certificate. -/
def CertFault (C : Crypto) : Fault := fun data e =>
  CertBodyFault data e ∨
  ∃ c w rest, data = w ++ rest ∧ CertBody c w ∧
    (stringField fun sig => inside (SignatureFault C c.signatureKey w) sig noFault) rest e

/-! ## SSHSIG -/

/-- The binary form of a signature file. -/
def SigFileFault : Fault :=
  field (RawFault 6) (fun b w => b = w ∧ w.length = 6) fun m => check (m = magic) .invalidFormat <|
  u32Field fun version => check (version = 1) .unsupported <|
  stringField fun key => inside KeyFault key <|
  textField fun ns => check (ns ≠ "") .invalidFormat <|
  textField fun _reserved =>
  textField fun hash => check (∃ h, hash = hashName h) .unsupported <|
  StringFault

/-! ## Private keys -/

/-- Flags, handle and reserved bytes of a hardware key. -/
def SkFault : Fault := byteField fun _flags => stringField fun _handle => StringFault

/-- The fields of a private key after the type name. -/
def PrivMaterialFault (kt : KeyType) : Fault :=
  match kt.kind with
  | .rsa => mpintField fun _n => mpintField fun _e => mpintField fun _d => mpintField fun _c => mpintField fun _p => MpintFault
  | .ecdsa => textField fun name => knownCurve name <| stringField fun _point =>
      if kt.isSk then textField fun _app => SkFault else StringFault
  | .ed25519 => stringField fun _point => if kt.isSk then textField fun _app => SkFault else StringFault
  | _ => fun _ e => e = .unknownKeyType kt.name

/-- A private key with type name and comment. -/
def PrivFault (rsaSigning : Bool) : Fault :=
  textField fun name => knownType name fun kt =>
  field (PrivMaterialFault kt) (fun (v : PrivateKeyKind × PublicKeyKind) w => PrivMaterial rsaSigning kt v.1 v.2 w) fun _ =>
  TextFault

/-- The decrypted private section of a file whose public key is `pub`. -/
def SectionFault (rsaSigning : Bool) (pub : PublicKey) : Fault :=
  u32Field fun m1 => u32Field fun m2 => check (m1 = m2) .invalidFormat <|
  field (PrivFault rsaSigning) (PrivBlob rsaSigning) fun k => check (k.pubkey = pub) .invalidFormat noFault

/-- The private section cannot be decrypted. -/
def DecryptFault (F : Features) (C : Crypto) (cipher kdf : String) (pass : Option String) (kdfData sec : Bytes) (e : Err) :
    Prop :=
  ¬ (cipher = "none" ∧ kdf = "none") ∧
  ((¬ (cipher = "aes256-ctr" ∧ kdf = "bcrypt") ∧ e = .encryptedPrivateKeyNotSupported) ∨
   (cipher = "aes256-ctr" ∧ kdf = "bcrypt" ∧
     ((pass = none ∧ e = .encryptedPrivateKey) ∨
      ∃ p, pass = some p ∧ (check (F.encryptedKeys = true) .encryptedPrivateKeyNotSupported <|
        stringField fun salt => u32Field fun rounds =>
        check (∃ key iv, C.bcryptPbkdf p salt rounds = some (key, iv) ∧ C.aesCtrOk key iv sec.length = true)
          .invalidFormat noFault) kdfData e)))

/-- The preamble of a private key file. -/
def PreambleFault : Fault := fun data e =>
  (0 ∉ data ∧ e = .unexpectedEof) ∨ (0 ∈ data ∧ (∀ tail, data ≠ preamble ++ tail) ∧ e = .invalidFormat)

/-- The bytes of the private section.  An empty one is accepted only when bytes follow. -/
def sectionBytes (n : Nat) (E : Bytes → Err → Prop) : Fault := fun rest e =>
  ((rest = [] ∨ rest.length < n) ∧ e = .unexpectedEof) ∨
  (rest ≠ [] ∧ ∃ sec tail, rest = sec ++ tail ∧ sec.length = n ∧ E sec e)

/-- A private key file. -/
def KeyFileFault (F : Features) (C : Crypto) (pass : Option String) : Fault :=
  field PreambleFault (fun (_ : Unit) w => w = preamble) fun _ =>
  textField fun cipher => textField fun kdf => stringField fun kdfData =>
  u32Field fun count => check (count = 1) .invalidFormat <|
  stringField fun pb => fun rest e => KeyFault pb e ∨
    ∃ pub w junk, pb = w ++ junk ∧ KeyBlob pub w ∧ pub.comment = none ∧
      (u32Field fun n => sectionBytes n.toNat fun sec e =>
        DecryptFault F C cipher kdf pass kdfData sec e ∨
        ∃ plain, Decrypts F C cipher kdf pass kdfData sec plain ∧ SectionFault F.rsaSigning pub plain e) rest e

/-! ## Texts -/

/-- A text which should be base64, and the faults of the bytes it stands for. -/
def base64Field (s : List Char) (E : Fault) (e : Err) : Prop :=
  ((∀ b, ¬ Base64Lax b s) ∧ e = .decode) ∨ ∃ b, Base64Lax b s ∧ E b e

/-- A line with a public key. -/
def KeyLineFault (line : List Char) (e : Err) : Prop :=
  ∃ ws, TextWords line ws ∧ ((ws.length < 2 ∧ e = .invalidFormat) ∨
    ∃ name data rest, ws = name :: data :: rest ∧
      knownType (String.ofList name) (fun kt _ e => base64Field data
        (textField fun inner => check (inner = kt.name) .keyTypeMismatch (MaterialFault kt)) e) [] e)

/-- A line with a certificate. -/
def CertLineFault (C : Crypto) (line : List Char) (e : Err) : Prop :=
  ∃ ws, TextWords line ws ∧ ((ws = [] ∧ e = .invalidFormat) ∨
    ∃ name tail, ws = name :: tail ∧
      knownType (String.ofList name) (fun kt _ e => (tail = [] ∧ e = .invalidFormat) ∨
        ∃ data rest, tail = data :: rest ∧ base64Field data (fun blob e => CertFault C blob e ∨
          ∃ c w sig wsig junk, blob = w ++ (wsig ++ junk) ∧ CertBody c w ∧ Frame sig wsig ∧
            Accepts C c.signatureKey w sig ∧ c.keyType.kind ≠ kt.kind ∧ e = .keyTypeMismatch) e) [] e)

/-- Header line, base64 lines and footer line. -/
def ArmorFault (header footer : String) (E : Fault) (contents : List Char) (e : Err) : Prop :=
  ((∀ body rest, ¬ FileLines contents (header.toList :: (body ++ footer.toList :: rest))) ∧ e = .invalidFormat) ∨
  ∃ body rest, FileLines contents (header.toList :: (body ++ footer.toList :: rest)) ∧ footer.toList ∉ body ∧
    base64Field body.flatten E e

end Ssh.Spec
