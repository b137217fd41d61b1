import Verif.Lemmas.TokenDialog
import Verif.Props.Token

/-! # C130: what token operations do and report, in full -/

namespace Ssh

open Spec

variable {σ α : Type}

/-- C130: every method on a token has exactly the dialog given in `Spec.TokenDialog`. -/
theorem C130_dialogs (X : X509Env) (C : Crypto) (G : Rcgen) (D : YkDev σ) (conn slot : Nat) :
    HasDialog D (Yk.new D) NewDialog ∧
    (∀ n, HasDialog D (Yk.openSerial D n) (OpenDialog n)) ∧
    HasDialog D (Yk.reconnect D conn) (ReconnectDialog conn (D.serial conn)) ∧
    (∀ pin mgm, HasDialog D (Yk.unlock D conn pin mgm) (UnlockDialog conn pin mgm (D.mgmKey mgm))) ∧
    HasDialog D (Yk.configured D conn slot) (ReadDialog conn slot SlotCert.pki) ∧
    HasDialog D (Yk.fetchSubject D conn slot) (ReadDialog conn slot SlotCert.subject) ∧
    HasDialog D (Yk.fetchCertificate D conn slot) (ReadDialog conn slot SlotCert.bytes) ∧
    (∀ data, HasDialog D (Yk.writeCertificate D conn slot data) (WriteDialog conn slot data (D.certBytes data))) ∧
    HasDialog D (Yk.fetchAttestation D conn slot) (AttestDialog conn slot) ∧
    (∀ data alg, HasDialog D (Yk.signData C D conn data alg slot) (SignDialog C conn data alg slot)) ∧
    (∀ cn, HasDialog D (Yk.generateCsr C G D conn slot cn) (CsrDialog C G conn slot (D.serial conn) cn)) ∧
    HasDialog D (Yk.fetchPubkey X D conn slot) (PubkeyDialog X conn slot) ∧
    (∀ cn alg touch pin, HasDialog D (Yk.provision X D conn slot cn alg touch pin) (ProvisionDialog X conn slot cn alg touch pin)) ∧
    HasDialog D (Yk.getSshKeyType X D conn slot) (KeyTypeDialog X conn slot) ∧
    (∀ buf, HasDialog D (Yk.sshCertSigner X C D conn buf slot) (SignerDialog X C conn buf slot)) :=
  ⟨new_dialog D, open_dialog D, reconnect_dialog D conn, unlock_dialog D conn, read_dialog D conn slot _, read_dialog D conn slot _,
    read_dialog D conn slot _, write_dialog D conn slot, attest_dialog D conn slot, fun data alg => sign_dialog C D conn data alg slot,
    csr_dialog C G D conn slot, pubkey_dialog X D conn slot, provision_dialog X D conn slot, keyType_dialog X D conn slot,
    fun buf => signer_dialog X C D conn buf slot⟩

/-- A token that answers according to a script, whatever it is asked. -/
def replay (serial : Nat → UInt32) (mgmKey certBytes : Bytes → Bool) : YkDev (List YkEvent) where
  openFirst
    | .openFirst r :: t => (r, t)
    | s => (none, s)
  openSerial _
    | .openSerial _ r :: t => (r, t)
    | s => (none, s)
  serial := serial
  reconnect _
    | .reconnect _ r :: t => (r, t)
    | s => (false, s)
  verifyPin _ _
    | .verifyPin _ _ r :: t => (r, t)
    | s => (false, s)
  mgmKey := mgmKey
  authenticate _ _
    | .authenticate _ _ r :: t => (r, t)
    | s => (false, s)
  read _ _
    | .read _ _ r :: t => (r, t)
    | s => (none, s)
  certBytes := certBytes
  write _ _ _
    | .write _ _ _ r :: t => (r, t)
    | s => (false, s)
  attest _ _
    | .attest _ _ r :: t => (r, t)
    | s => (none, s)
  generate _ _ _ _ _
    | .generate _ _ _ _ _ r :: t => (r, t)
    | s => (none, s)
  selfSign _ _ _ _
    | .selfSign _ _ _ _ r :: t => (r, t)
    | s => (false, s)
  sign _ _ _ _
    | .sign _ _ _ _ r :: t => (r, t)
    | s => (none, s)

theorem replay_run (serial : Nat → UInt32) (mgmKey certBytes : Bytes → Bool) (ev : List YkEvent) : Run (replay serial mgmKey certBytes) ev ev [] := by
  induction ev with
  | nil => exact .nil _
  | cons e ev ih => exact .cons (by cases e <;> rfl) ih

/-- C130: every entry of a dialog happens with some token, and the events decide the result. -/
theorem C130_happens (serial : Nat → UInt32) (mgmKey certBytes : Bytes → Bool) (m : Yk (List YkEvent) α)
    (R : List YkEvent → YkRes α → Prop) (h : HasDialog (replay serial mgmKey certBytes) m R) (ev : List YkEvent) (r : YkRes α) (hr : R ev r) :
    Does (replay serial mgmKey certBytes) m ev ev r ∧ ∀ r', R ev r' → r' = r := by
  have h1 := (h.exact ev ev r).mpr ⟨⟨_, replay_run ..⟩, hr⟩
  exact ⟨h1, fun r' hr' => (Does.det ((h.exact ev ev r').mpr ⟨⟨_, replay_run ..⟩, hr'⟩) h1).2⟩

/-- C130 (finding): the only method that can panic is `generate_csr`, which does exactly if the token cannot be opened again by its
serial number, or then has no certificate, or an RSA certificate, in the slot. -/
theorem C130_csr_panics (C : Crypto) (G : Rcgen) (D : YkDev σ) (conn slot : Nat) (cn : String) (s : σ) (ev : List YkEvent) :
    Does D (Yk.generateCsr C G D conn slot cn) s ev .panic ↔ (∃ s', Run D s ev s') ∧ ∃ c, c.pki ≠ .rsa ∧
      (ev = [.read conn slot (some c), .openSerial (D.serial conn) none] ∨
       (∃ i, ev = [.read conn slot (some c), .openSerial (D.serial conn) (some i), .read i slot none]) ∨
       ∃ i c', c'.pki = .rsa ∧ ev = [.read conn slot (some c), .openSerial (D.serial conn) (some i), .read i slot (some c')]) := by
  rw [(csr_dialog C G D conn slot cn).exact]
  refine and_congr_right fun _ => ⟨fun h => ?_, ?_⟩
  · cases h with
    | gone c hc => exact ⟨c, hc, .inl rfl⟩
    | emptied c i hc => exact ⟨c, hc, .inr (.inl ⟨i, rfl⟩)⟩
    | nowRsa c c' i hc hc' => exact ⟨c, hc, .inr (.inr ⟨i, c', hc', rfl⟩)⟩
  · rintro ⟨c, hc, rfl | ⟨i, rfl⟩ | ⟨i, c', hc', rfl⟩⟩
    · exact .gone c hc
    · exact .emptied c i hc
    · exact .nowRsa c c' i hc hc'

theorem C130_no_panic (X : X509Env) (C : Crypto) (D : YkDev σ) (conn slot : Nat) (s : σ) (ev : List YkEvent) :
    ¬ Does D (Yk.new D) s ev .panic ∧ (∀ n, ¬ Does D (Yk.openSerial D n) s ev .panic) ∧ ¬ Does D (Yk.reconnect D conn) s ev .panic ∧
    (∀ pin mgm, ¬ Does D (Yk.unlock D conn pin mgm) s ev .panic) ∧ ¬ Does D (Yk.configured D conn slot) s ev .panic ∧
    ¬ Does D (Yk.fetchSubject D conn slot) s ev .panic ∧ ¬ Does D (Yk.fetchCertificate D conn slot) s ev .panic ∧
    (∀ data, ¬ Does D (Yk.writeCertificate D conn slot data) s ev .panic) ∧ ¬ Does D (Yk.fetchAttestation D conn slot) s ev .panic ∧
    (∀ data alg, ¬ Does D (Yk.signData C D conn data alg slot) s ev .panic) ∧ ¬ Does D (Yk.fetchPubkey X D conn slot) s ev .panic ∧
    (∀ cn alg touch pin, ¬ Does D (Yk.provision X D conn slot cn alg touch pin) s ev .panic) ∧
    ¬ Does D (Yk.getSshKeyType X D conn slot) s ev .panic ∧ ∀ buf, ¬ Does D (Yk.sshCertSigner X C D conn buf slot) s ev .panic := by
  refine ⟨?_, fun n => ?_, ?_, fun pin mgm => ?_, ?_, ?_, ?_, fun data => ?_, ?_, fun data alg => ?_, ?_, fun cn alg touch pin => ?_, ?_, fun buf => ?_⟩
  · rw [(new_dialog D).exact]; rintro ⟨_, h⟩; cases h
  · rw [(open_dialog D n).exact]; rintro ⟨_, h⟩; cases h
  · rw [(reconnect_dialog D conn).exact]; rintro ⟨_, h⟩; cases h
  · rw [(unlock_dialog D conn pin mgm).exact]; rintro ⟨_, h⟩; cases h
  · unfold Yk.configured; rw [(read_dialog D conn slot SlotCert.pki).exact]; rintro ⟨_, h⟩; cases h
  · unfold Yk.fetchSubject; rw [(read_dialog D conn slot SlotCert.subject).exact]; rintro ⟨_, h⟩; cases h
  · unfold Yk.fetchCertificate; rw [(read_dialog D conn slot SlotCert.bytes).exact]; rintro ⟨_, h⟩; cases h
  · rw [(write_dialog D conn slot data).exact]; rintro ⟨_, h⟩; cases h
  · rw [(attest_dialog D conn slot).exact]; rintro ⟨_, h⟩; cases h
  · rw [(sign_dialog C D conn data alg slot).exact]; rintro ⟨_, h⟩; cases h
  · rw [(pubkey_dialog X D conn slot).exact]; rintro ⟨_, h⟩; cases h
  · rw [(provision_dialog X D conn slot cn alg touch pin).exact]
    rintro ⟨_, h⟩
    cases h with
    | read _ _ _ h => cases h
  · rw [(keyType_dialog X D conn slot).exact]; rintro ⟨_, h⟩; cases h
  · rw [(signer_dialog X C D conn buf slot).exact]; rintro ⟨_, h⟩; cases h

/-! Examples: a token unplugged while it makes a certificate request, and a slot emptied between the first and the second read of
`ssh_cert_signer`. -/

def sampleReplay : YkDev (List YkEvent) := replay (fun _ => 7) (fun _ => true) (fun _ => true)

example : Does sampleReplay (Yk.generateCsr signingCrypto ⟨fun _ _ _ => none, fun _ _ _ => []⟩ sampleReplay 1 9 "me")
    [.read 1 9 (some sampleSlot), .openSerial 7 none] [.read 1 9 (some sampleSlot), .openSerial 7 none] .panic :=
  (C130_csr_panics ..).mpr ⟨⟨[], replay_run ..⟩, sampleSlot, by decide, .inl rfl⟩

example : Does sampleReplay (Yk.sshCertSigner samplePivX signingCrypto sampleReplay 1 [1, 2, 3] 9)
    [.read 1 9 (some sampleSlot), .read 1 9 none] [.read 1 9 (some sampleSlot), .read 1 9 none] (.err .unprovisioned) :=
  (C130_happens _ _ _ _ _ (signer_dialog samplePivX signingCrypto sampleReplay 1 [1, 2, 3] 9) _ _
    (.sign [_] [_] .eccP384 _ (.ok _ _ _ (.ok _ _ sampleSlot_key) rfl) .empty)).1

end Ssh
