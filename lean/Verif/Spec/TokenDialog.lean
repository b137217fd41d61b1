import Verif.Spec.PivReasons
import Verif.Spec.Utils

/-!
# What token operations do and report

A dialog of a method says which answers of the token lead to which further requests and to which result.  All events of a dialog are
requests with the answers the token gave.
-/

namespace Ssh.Spec

variable {σ α : Type}

/-- A method has the dialog `R`: it always ends, and it does the events `ev` with the result `r` exactly if the token really answers
like that and the dialog says so. -/
structure HasDialog (D : YkDev σ) (m : Yk σ α) (R : List YkEvent → YkRes α → Prop) : Prop where
  total : ∀ s, ∃ ev r, Does D m s ev r
  exact : ∀ s ev r, Does D m s ev r ↔ (∃ s', Run D s ev s') ∧ R ev r

/-- A slot certificate without an SSH key. -/
inductive SlotFault (X : X509Env) (c : SlotCert) : YkErr → Prop where
  | unreadable : X.parseDer c.bytes = none → SlotFault X c .parsingError
  | other (i : X509Cert) : X.parseDer c.bytes = some i → KeyInfoFault i.spki .parsingError → SlotFault X c .parsingError
  | curve (i : X509Cert) : X.parseDer c.bytes = some i → KeyInfoFault i.spki .keyTypeMismatch → SlotFault X c .wrongKeyType
  | rsa (i : X509Cert) : X.parseDer c.bytes = some i → KeyInfoFault i.spki .unsupported → SlotFault X c .unsupported

/-- Opening any token. -/
inductive NewDialog : List YkEvent → YkRes Nat → Prop where
  | none : NewDialog [.openFirst none] (.err .internal)
  | ok (i : Nat) : NewDialog [.openFirst (some i)] (.ok i)

/-- Opening a token by its serial number. -/
inductive OpenDialog (n : UInt32) : List YkEvent → YkRes Nat → Prop where
  | none : OpenDialog n [.openSerial n none] (.err .noSuchYubikey)
  | ok (i : Nat) : OpenDialog n [.openSerial n (some i)] (.ok i)

/-- Reconnecting to a token with serial number `n`. -/
inductive ReconnectDialog (conn : Nat) (n : UInt32) : List YkEvent → YkRes Nat → Prop where
  | same : ReconnectDialog conn n [.reconnect conn true] (.ok conn)
  | none : ReconnectDialog conn n [.reconnect conn false, .openSerial n none] (.err .noSuchYubikey)
  | ok (i : Nat) : ReconnectDialog conn n [.reconnect conn false, .openSerial n (some i)] (.ok i)

/-- Unlocking with a management key that has or has not the right form. -/
inductive UnlockDialog (conn : Nat) (pin mgm : Bytes) (form : Bool) : List YkEvent → YkRes Unit → Prop where
  | pin : UnlockDialog conn pin mgm form [.verifyPin conn pin false] (.err .internal)
  | form : form = false → UnlockDialog conn pin mgm form [.verifyPin conn pin true] (.err .invalidManagementKey)
  | key : form = true → UnlockDialog conn pin mgm form [.verifyPin conn pin true, .authenticate conn mgm false] (.err .internal)
  | ok : form = true → UnlockDialog conn pin mgm form [.verifyPin conn pin true, .authenticate conn mgm true] (.ok ())

/-- Reading something, `f`, from the certificate of a slot. -/
inductive ReadDialog (conn slot : Nat) (f : SlotCert → α) : List YkEvent → YkRes α → Prop where
  | none : ReadDialog conn slot f [.read conn slot none] (.err .internal)
  | ok (c : SlotCert) : ReadDialog conn slot f [.read conn slot (some c)] (.ok (f c))

/-- Storing a certificate that is or is not readable. -/
inductive WriteDialog (conn slot : Nat) (data : Bytes) (readable : Bool) : List YkEvent → YkRes Unit → Prop where
  | unreadable : readable = false → WriteDialog conn slot data readable [] (.err .internal)
  | failed : readable = true → WriteDialog conn slot data readable [.write conn slot data false] (.err .internal)
  | ok : readable = true → WriteDialog conn slot data readable [.write conn slot data true] (.ok ())

/-- Attesting a slot. -/
inductive AttestDialog (conn slot : Nat) : List YkEvent → YkRes Bytes → Prop where
  | none : AttestDialog conn slot [.attest conn slot none] (.err .internal)
  | ok (a : Bytes) : AttestDialog conn slot [.attest conn slot (some a)] (.ok a)

/-- Signing with the key in a slot. -/
inductive SignDialog (C : Crypto) (conn : Nat) (data : Bytes) (alg : AlgId) (slot : Nat) : List YkEvent → YkRes Bytes → Prop where
  | empty : SignDialog C conn data alg slot [.read conn slot none] (.err .unprovisioned)
  | wrong (c : SlotCert) : algOf c.pki ≠ alg → SignDialog C conn data alg slot [.read conn slot (some c)] (.err .wrongKeyType)
  | failed (c : SlotCert) : algOf c.pki = alg → SignDialog C conn data alg slot
      [.read conn slot (some c), .sign conn (slotDigest C alg data) alg slot none] (.err .internal)
  | ok (c : SlotCert) (sig : Bytes) : algOf c.pki = alg → SignDialog C conn data alg slot
      [.read conn slot (some c), .sign conn (slotDigest C alg data) alg slot (some sig)] (.ok sig)

/-- Reading the SSH key of a slot. -/
inductive PubkeyDialog (X : X509Env) (conn slot : Nat) : List YkEvent → YkRes PublicKey → Prop where
  | none : PubkeyDialog X conn slot [.read conn slot none] (.err .internal)
  | fault (c : SlotCert) (e : YkErr) : SlotFault X c e → PubkeyDialog X conn slot [.read conn slot (some c)] (.err e)
  | ok (c : SlotCert) (k : PublicKey) : SlotKey X c k → PubkeyDialog X conn slot [.read conn slot (some c)] (.ok k)

/-- Provisioning a slot. -/
inductive ProvisionDialog (X : X509Env) (conn slot : Nat) (cn : String) (alg : AlgId) (touch : TouchPolicy) (pin : PinPolicy) :
    List YkEvent → YkRes PublicKey → Prop where
  | generate : ProvisionDialog X conn slot cn alg touch pin [.generate conn slot alg pin touch none] (.err .internal)
  | store (key : Pki) : ProvisionDialog X conn slot cn alg touch pin
      [.generate conn slot alg pin touch (some key), .selfSign conn slot cn key false] (.err .internal)
  | read (key : Pki) (ev : List YkEvent) (r : YkRes PublicKey) : PubkeyDialog X conn slot ev r →
      ProvisionDialog X conn slot cn alg touch pin
        (.generate conn slot alg pin touch (some key) :: .selfSign conn slot cn key true :: ev) r

/-- Reading the algorithm for the SSH key of a slot. -/
inductive KeyTypeDialog (X : X509Env) (conn slot : Nat) : List YkEvent → YkRes AlgId → Prop where
  | err (ev : List YkEvent) (e : YkErr) : PubkeyDialog X conn slot ev (.err e) → KeyTypeDialog X conn slot ev (.err e)
  | ok (ev : List YkEvent) (k : PublicKey) (alg : AlgId) : PubkeyDialog X conn slot ev (.ok k) → keyAlg k = some alg →
      KeyTypeDialog X conn slot ev (.ok alg)

/-- Making an SSH signature with a slot: the key is read for its algorithm, read again and used to sign, and read again for the form of
the signature. -/
inductive SignerDialog (X : X509Env) (C : Crypto) (conn : Nat) (buf : Bytes) (slot : Nat) : List YkEvent → YkRes Bytes → Prop where
  | keyType (ev : List YkEvent) (e : YkErr) : KeyTypeDialog X conn slot ev (.err e) →
      SignerDialog X C conn buf slot ev (.err .unsupported)
  | sign (ev ev' : List YkEvent) (alg : AlgId) (e : YkErr) : KeyTypeDialog X conn slot ev (.ok alg) →
      SignDialog C conn buf alg slot ev' (.err e) → SignerDialog X C conn buf slot (ev ++ ev') (.err e)
  | pubkey (ev ev' ev'' : List YkEvent) (alg : AlgId) (sig : Bytes) (e : YkErr) : KeyTypeDialog X conn slot ev (.ok alg) →
      SignDialog C conn buf alg slot ev' (.ok sig) → PubkeyDialog X conn slot ev'' (.err e) →
      SignerDialog X C conn buf slot (ev ++ ev' ++ ev'') (.err e)
  | form (ev ev' ev'' : List YkEvent) (alg : AlgId) (sig : Bytes) (k : PublicKey) : KeyTypeDialog X conn slot ev (.ok alg) →
      SignDialog C conn buf alg slot ev' (.ok sig) → PubkeyDialog X conn slot ev'' (.ok k) → (∀ blob, ¬ SshForm k sig blob) →
      SignerDialog X C conn buf slot (ev ++ ev' ++ ev'') (.err .parsingError)
  | ok (ev ev' ev'' : List YkEvent) (alg : AlgId) (sig : Bytes) (k : PublicKey) (blob : Bytes) : KeyTypeDialog X conn slot ev (.ok alg) →
      SignDialog C conn buf alg slot ev' (.ok sig) → PubkeyDialog X conn slot ev'' (.ok k) → SshForm k sig blob →
      SignerDialog X C conn buf slot (ev ++ ev' ++ ev'') (.ok blob)

/-- Making a certificate request for the key in a slot of a token with serial number `n`.  The token is opened two more times. -/
inductive CsrDialog (C : Crypto) (G : Rcgen) (conn slot : Nat) (n : UInt32) (cn : String) : List YkEvent → YkRes Bytes → Prop where
  | empty : CsrDialog C G conn slot n cn [.read conn slot none] (.err .internal)
  | rsa (c : SlotCert) : c.pki = .rsa → CsrDialog C G conn slot n cn [.read conn slot (some c)] (.err .unsupported)
  | gone (c : SlotCert) : c.pki ≠ .rsa → CsrDialog C G conn slot n cn [.read conn slot (some c), .openSerial n none] .panic
  | emptied (c : SlotCert) (i : Nat) : c.pki ≠ .rsa →
      CsrDialog C G conn slot n cn [.read conn slot (some c), .openSerial n (some i), .read i slot none] .panic
  | nowRsa (c c' : SlotCert) (i : Nat) : c.pki ≠ .rsa → c'.pki = .rsa →
      CsrDialog C G conn slot n cn [.read conn slot (some c), .openSerial n (some i), .read i slot (some c')] .panic
  | changed (c c' : SlotCert) (i : Nat) : c.pki ≠ .rsa → c'.pki ≠ .rsa → algOf c'.pki ≠ algOf c.pki →
      CsrDialog C G conn slot n cn [.read conn slot (some c), .openSerial n (some i), .read i slot (some c')] (.err .internal)
  | request (c c' : SlotCert) (i : Nat) (p : Bytes) : c.pki ≠ .rsa → pkiPoint c'.pki = some p → algOf c'.pki = algOf c.pki →
      G.tbs cn (algOf c.pki) p = none →
      CsrDialog C G conn slot n cn [.read conn slot (some c), .openSerial n (some i), .read i slot (some c')] (.err .internal)
  | reopen (c c' : SlotCert) (i : Nat) (p t : Bytes) : c.pki ≠ .rsa → pkiPoint c'.pki = some p → algOf c'.pki = algOf c.pki →
      G.tbs cn (algOf c.pki) p = some t →
      CsrDialog C G conn slot n cn
        [.read conn slot (some c), .openSerial n (some i), .read i slot (some c'), .openSerial n none] (.err .internal)
  | sign (c c' : SlotCert) (i j : Nat) (p t : Bytes) (ev : List YkEvent) (e : YkErr) : c.pki ≠ .rsa → pkiPoint c'.pki = some p →
      algOf c'.pki = algOf c.pki → G.tbs cn (algOf c.pki) p = some t → SignDialog C j t (algOf c.pki) slot ev (.err e) →
      CsrDialog C G conn slot n cn
        ([.read conn slot (some c), .openSerial n (some i), .read i slot (some c'), .openSerial n (some j)] ++ ev) (.err .internal)
  | ok (c c' : SlotCert) (i j : Nat) (p t sig : Bytes) (ev : List YkEvent) : c.pki ≠ .rsa → pkiPoint c'.pki = some p →
      algOf c'.pki = algOf c.pki → G.tbs cn (algOf c.pki) p = some t → SignDialog C j t (algOf c.pki) slot ev (.ok sig) →
      CsrDialog C G conn slot n cn
        ([.read conn slot (some c), .openSerial n (some i), .read i slot (some c'), .openSerial n (some j)] ++ ev)
        (.ok (G.finish t (algOf c.pki) sig))

end Ssh.Spec
