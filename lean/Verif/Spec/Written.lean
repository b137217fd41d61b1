import Verif.Spec.Cert
import Verif.Spec.SshSig
import Verif.Spec.PrivKey
import Verif.Spec.AllowedSigner

/-!
# What is written for any value

The relations of `Spec.Key`, `Spec.Cert`, `Spec.SshSig` and `Spec.PrivKey` describe the well-formed encodings.  Here every
value gets what is written for it, also values which no parser returns: numbers with leading zeros, unknown type names,
fields too long for their 32-bit length (the length is then taken modulo `2^32`, as `u32` does).
-/

namespace Ssh.Spec

/-- `w` is the number `v` as an `mpint`. -/
def Integer (v w : Bytes) : Prop := ∃ p, MpintPayload p ∧ natOf p = natOf v ∧ w = str p

/-- The fields of a public key after the type name; a hardware key (`sk`) ends with its application, which must be there. -/
inductive Fields (sk : Bool) : PublicKeyKind → Bytes → Prop where
  | rsa {e n we wn} : Integer e we → Integer n wn → Fields sk (.rsa e n) (we ++ wn)
  | ecdsa {c key app} : sk = false → Fields sk (.ecdsa c key app) (text c.identifier ++ str key)
  | ecdsaSk {c key a} : sk = true → Fields sk (.ecdsa c key (some a)) (text c.identifier ++ (str key ++ text a))
  | ed25519 {key app} : sk = false → Fields sk (.ed25519 key app) (str key)
  | ed25519Sk {key a} : sk = true → Fields sk (.ed25519 key (some a)) (str key ++ text a)

/-- A public key under a type name. -/
def KeyAs (name : String) (k : PublicKey) (b : Bytes) : Prop :=
  ∃ f, Fields k.keyType.isSk k.kind f ∧ b = text name ++ f

/-- A key of a hardware type without an application: it cannot be written. -/
def LacksApplication (k : PublicKey) : Prop :=
  k.keyType.isSk = true ∧ ((∃ c key, k.kind = .ecdsa c key none) ∨ ∃ key, k.kind = .ed25519 key none)

/-- A public key as one line of text: type name, base64, and the comment if there is one. -/
def KeyLine (k : PublicKey) (t : List Char) : Prop :=
  ∃ b s, KeyAs k.keyType.plain k b ∧ Base64 b s ∧
    t = k.keyType.name.toList ++ ' ' :: s ++ (match k.comment with | some c => ' ' :: c.toList | none => [])

/-- The certificate type for keys of type `kt`. -/
def CertTypeOf (kt t : KeyType) : Prop := t ∈ keyTypes ∧ t.isCert = true ∧ t.plain = kt.plain

/-- One option: its name, and its value inside a string of its own; an empty value is an empty string. -/
def optionField (kv : String × String) : Bytes := text kv.1 ++ str (if kv.2 = "" then [] else text kv.2)

/-- The part of a certificate that is signed, under the name of type `t`. -/
def CertTbs (t : KeyType) (c : Certificate) (w : Bytes) : Prop :=
  ∃ f ca, Fields c.key.keyType.isSk c.key.kind f ∧ KeyAs c.signatureKey.keyType.plain c.signatureKey ca ∧
    w = text t.name ++ (str c.nonce ++ (f ++ (u64 c.serial.toNat ++ (u32 (roleNumber c.certType) ++ (text c.keyId ++
      (str (c.principals.flatMap text) ++ (u64 c.validAfter.toNat ++ (u64 c.validBefore.toNat ++
      (str (c.criticalOptions.flatMap optionField) ++ (str (c.extensions.flatMap optionField) ++ (str [] ++ str ca)))))))))))

/-- `t` is `s` in lines of `n` characters, the last of which may be shorter. -/
inductive Wrapped (n : Nat) : List Char → List Char → Prop where
  | last {l} : l.length ≤ n → Wrapped n l l
  | more {l s t} : l.length = n → s ≠ [] → Wrapped n s t → Wrapped n (l ++ s) (l ++ '\n' :: t)

/-- The binary form of an SSHSIG signature. -/
def SigBytes (s : SshSignature) (w : Bytes) : Prop :=
  ∃ kb, KeyAs s.pubkey.keyType.name s.pubkey kb ∧
    w = magic ++ (u32 1 ++ (str kb ++ (text s.namespace_ ++ (str [] ++ (text (hashName s.hashAlgorithm) ++ str s.signature)))))

/-- The private fields of a key; a software or hardware key repeats its public fields. -/
def PrivFields (k : PrivateKey) (f : Bytes) : Prop :=
  match k.kind with
  | .rsa r => ∃ w1 w2 w3 w4 w5 w6, Integer r.n w1 ∧ Integer r.e w2 ∧ Integer r.d w3 ∧ Integer r.coefficient w4 ∧
      Integer r.p w5 ∧ Integer r.q w6 ∧ f = w1 ++ (w2 ++ (w3 ++ (w4 ++ (w5 ++ w6))))
  | .ecdsa _ key => ∃ pf, Fields k.pubkey.keyType.isSk k.pubkey.kind pf ∧ f = pf ++ str key
  | .ed25519 key => ∃ pf, Fields k.pubkey.keyType.isSk k.pubkey.kind pf ∧ f = pf ++ str key
  | .ecdsaSk s => ∃ pf, Fields k.pubkey.keyType.isSk k.pubkey.kind pf ∧ f = pf ++ ([s.flags] ++ (str s.handle ++ str []))
  | .ed25519Sk s => ∃ pf, Fields k.pubkey.keyType.isSk k.pubkey.kind pf ∧ f = pf ++ ([s.flags] ++ (str s.handle ++ str []))

/-- An unencrypted key file, before it is armored. -/
def PrivBytes (k : PrivateKey) (w : Bytes) : Prop :=
  ∃ kb f body pad, KeyAs k.pubkey.keyType.name k.pubkey kb ∧ PrivFields k f ∧
    body = u32 k.magic.toNat ++ (u32 k.magic.toNat ++ (text k.pubkey.keyType.name ++ (f ++ text k.comment))) ∧
    StdPadding body.length pad ∧
    w = preamble ++ (text "none" ++ (text "none" ++ (str [] ++ (u32 1 ++ (str kb ++ str (body ++ pad))))))

/-- The SHA-256 fingerprint of a key: base64 without its padding. -/
def Sha256Text (C : Crypto) (k : PublicKey) (t : List Char) : Prop :=
  ∃ b hash n, KeyAs k.keyType.plain k b ∧ Base64 (C.sha256 b) (hash ++ List.replicate n '=') ∧ '=' ∉ hash ∧
    t = "SHA256:".toList ++ hash

/-- What a certificate is for. -/
def roleText : CertType → String
  | .user => "user certificate"
  | .host => "host certificate"

/-- The lines shown for a certificate, given the fingerprints of its key and of its CA's key. -/
def shownLines (c : Certificate) (fk fca : String) : List String :=
  ["Type: " ++ c.keyType.name ++ " " ++ roleText c.certType,
   "Public Key: " ++ c.keyType.shortName ++ " " ++ fk,
   "Signing CA: " ++ c.signatureKey.keyType.shortName ++ " " ++ fca ++ " (using " ++ c.signatureKey.keyType.name ++ ")",
   "Key ID: \"" ++ c.keyId ++ "\"",
   "Serial: " ++ Nat.repr c.serial.toNat,
   if c.validAfter.toNat = 0 ∧ c.validBefore.toNat = 18446744073709551615 then "Valid: forever"
   else "Valid between: " ++ Nat.repr c.validAfter.toNat ++ " and " ++ Nat.repr c.validBefore.toNat] ++
  (match c.principals with
   | [] => ["Principals: (none)"]
   | l => "Principals" :: l.map fun p => "\t" ++ p) ++
  (match c.criticalOptions with
   | [] => ["Critical Options: (none)"]
   | l => "Critical Options:" :: l.map fun kv => "\t" ++ kv.1 ++ " " ++ kv.2) ++
  (match c.extensions with
   | [] => ["Extensions: (none)"]
   | l => "Extensions:" :: l.map fun kv => "\t" ++ kv.1)

/-- The words of an entry of an allowed signers file before its key. -/
def signerWords (a : AllowedSigner) : List (List Char) :=
  [commaJoin a.principals] ++ (if a.certAuthority then ["cert-authority".toList] else []) ++
  (match a.namespaces with | some ns => ["namespaces=".toList ++ commaJoin ns] | none => []) ++
  (match a.validAfter with | some t => ["valid-after=".toList ++ (toString t).toList] | none => []) ++
  (match a.validBefore with | some t => ["valid-before=".toList ++ (toString t).toList] | none => [])

end Ssh.Spec
