import Verif.Spec.TokenDialog
import Verif.Spec.Written

/-! # What the programs for tokens ask, and what they print -/

namespace Ssh.Spec

/-- Provisioning a slot from the command line: open a token, unlock it, provision; whatever fails ends the program. -/
inductive ProvisionProgram (X : X509Env) (slot : Nat) (subject : String) (pin mgm : Bytes) (form : Bool) (alg : AlgId)
    (touch : TouchPolicy) : List YkEvent → YkRes PublicKey → Prop where
  | noToken : ProvisionProgram X slot subject pin mgm form alg touch [.openFirst none] .panic
  | locked (conn : Nat) (ev : List YkEvent) (e : YkErr) : UnlockDialog conn pin mgm form ev (.err e) →
      ProvisionProgram X slot subject pin mgm form alg touch (.openFirst (some conn) :: ev) .panic
  | failed (conn : Nat) (ev ev' : List YkEvent) (e : YkErr) : UnlockDialog conn pin mgm form ev (.ok ()) →
      ProvisionDialog X conn slot subject alg touch .never ev' (.err e) →
      ProvisionProgram X slot subject pin mgm form alg touch (.openFirst (some conn) :: (ev ++ ev')) .panic
  | ok (conn : Nat) (ev ev' : List YkEvent) (k : PublicKey) : UnlockDialog conn pin mgm form ev (.ok ()) →
      ProvisionDialog X conn slot subject alg touch .never ev' (.ok k) →
      ProvisionProgram X slot subject pin mgm form alg touch (.openFirst (some conn) :: (ev ++ ev')) (.ok k)

/-- What is asked about one slot, and the line for the answers: the certificate is read for its subject and again for its key. -/
inductive SlotTalk (X : X509Env) (C : Crypto) (slotText : Nat → List Char) (conn slot : Nat) : List YkEvent → List Char → Prop where
  | empty (o : Option SlotCert) : SlotTalk X C slotText conn slot [.read conn slot none, .read conn slot o]
      ('\t' :: slotText slot ++ ":\tNo cert found\n".toList)
  | emptied (c : SlotCert) : SlotTalk X C slotText conn slot [.read conn slot (some c), .read conn slot none]
      ('\t' :: slotText slot ++ ":\tNo cert found\n".toList)
  | noKey (c c' : SlotCert) : (∀ k, ¬ SlotKey X c' k) → SlotTalk X C slotText conn slot
      [.read conn slot (some c), .read conn slot (some c')] ('\t' :: slotText slot ++ ":\tNo cert found\n".toList)
  | key (c c' : SlotCert) (k : PublicKey) (f : List Char) (a : Option Bytes) : SlotKey X c' k →
      Sha256Text C k ("SHA256:".toList ++ f) →
      SlotTalk X C slotText conn slot [.read conn slot (some c), .read conn slot (some c'), .attest conn slot a]
        ('\t' :: slotText slot ++ ":\t[Fingerprint: ".toList ++ f ++ "] [Attest: ".toList ++
          (if a = none then "No " else "Yes").toList ++ "] Subject: [".toList ++ c.subject.toList ++ "]\n".toList)

/-- The same for some slots, one after the other. -/
inductive SlotsTalk (X : X509Env) (C : Crypto) (slotText : Nat → List Char) (conn : Nat) :
    List Nat → List YkEvent → List Char → Prop where
  | nil : SlotsTalk X C slotText conn [] [] []
  | cons (slot : Nat) (slots : List Nat) (ev ev' : List YkEvent) (t t' : List Char) : SlotTalk X C slotText conn slot ev t →
      SlotsTalk X C slotText conn slots ev' t' → SlotsTalk X C slotText conn (slot :: slots) (ev ++ ev') (t ++ t')

/-- Listing the keys of a token. -/
inductive FingerprintProgram (X : X509Env) (C : Crypto) (slotText : Nat → List Char) : List YkEvent → YkRes (List Char) → Prop where
  | noToken : FingerprintProgram X C slotText [.openFirst none] .panic
  | ok (conn : Nat) (ev ev' : List YkEvent) (t t' : List Char) :
      SlotsTalk X C slotText conn [0x9a, 0x9c, 0x9e, 0x9d, 0x9e, 0xf9] ev t →
      SlotsTalk X C slotText conn [0x82, 0x83, 0x84, 0x85, 0x86, 0x87, 0x88, 0x89, 0x8a, 0x8b, 0x8c, 0x8d, 0x8e, 0x8f, 0x90, 0x91,
        0x92, 0x93, 0x94, 0x95] ev' t' →
      FingerprintProgram X C slotText (.openFirst (some conn) :: (ev ++ ev'))
        (.ok ("Normal Slots:\n".toList ++ t ++ "Retired Slots:\n".toList ++ t'))

end Ssh.Spec
