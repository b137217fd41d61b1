import Verif.Concrete.X509
import Verif.Concrete.Attestations

/-! # The attestations of the project's tests are accepted -/

namespace Ssh
open Concrete

/-- A PEM certificate, by its characters. -/
def pemChars (l : List Char) : Option X509Cert := (b64Decode ((lines l).filter fun l => ¬ "-----".toList.isPrefixOf l).flatten).bind parseCert

theorem parsePem_chars (l : List Char) : realX509.parsePem (String.ofList l) = pemChars l := by
  show (pemBytes (String.ofList l)).bind parseCert = _
  have e : (String.ofList l).toList = l := String.toList_ofList
  unfold pemBytes pemChars
  rw [e]

/-- `realX509` with the root in characters. -/
def charsX509 (l : List Char) : X509Env := { realX509 with parsePem := fun _ => pemChars l }

theorem verifyAuthData_chars (C : Crypto) (l : List Char) (authData sig challenge cert : Bytes) (alg : Int) :
    verifyAuthData realX509 C (String.ofList l) authData sig challenge alg cert none =
      verifyAuthData (charsX509 l) C "" authData sig challenge alg cert none := by
  unfold verifyAuthData
  rw [Option.getD_none, Option.getD_none, parsePem_chars]
  rfl

theorem verifyCertificateChain_chars (l : List Char) (client intermediate : Bytes) :
    verifyCertificateChain realX509 (String.ofList l) client intermediate none =
      verifyCertificateChain (charsX509 l) "" client intermediate none := by
  unfold verifyCertificateChain
  rw [Option.getD_none, Option.getD_none, parsePem_chars]
  rfl

/-- Whether a result is a value with a property. -/
def okWith {α : Type} (r : Res α) (p : α → Bool) : Bool :=
  match r with
  | .ok a => p a
  | _ => false

theorem okWith_iff {α : Type} {r : Res α} {p : α → Bool} : okWith r p = true ↔ ∃ a, r = .ok a ∧ p a = true := by
  cases r with
  | ok a => exact ⟨fun h => ⟨a, rfl, h⟩, fun ⟨_, h, hp⟩ => by cases h; exact hp⟩
  | err e => exact ⟨(fun h => by cases h), fun ⟨_, h, _⟩ => by cases h⟩
  | panic => exact ⟨(fun h => by cases h), fun ⟨_, h, _⟩ => by cases h⟩

set_option maxRecDepth 100000 in
/-- The attestation of a YubiKey Bio in tests/fido-lite.rs is accepted, with all primitives computed: the RSA signature of Yubico's root on
the certificate and the ECDSA signature of the device. -/
theorem bio_attested : ∃ v, verifyAuthData realX509 (realCrypto []) u2fRoot bioAuthData bioSig (sha256 bioClient) (-7) bioCert none = .ok v ∧
    v.transports = some [.usb] ∧ v.firmware = some "5.5.6".toList := by
  rw [u2fRoot_eq, verifyAuthData_chars]
  have h : okWith (verifyAuthData (charsX509 u2fRootChars) (realCrypto []) "" bioAuthData bioSig (sha256 bioClient) (-7) bioCert none)
      (fun v => v.transports == some [.usb] && v.firmware == some "5.5.6".toList) = true := by decide +kernel
  obtain ⟨v, h1, h2⟩ := okWith_iff.mp h
  simp only [Bool.and_eq_true, beq_iff_eq] at h2
  exact ⟨v, h1, h2⟩

set_option maxRecDepth 100000 in
/-- The attestation of a YubiKey 5C NFC in tests/fido-lite.rs. -/
theorem nfc_attested : ∃ v, verifyAuthData realX509 (realCrypto []) u2fRoot nfcAuthData nfcSig (sha256 nfcClient) (-7) nfcCert none = .ok v ∧
    v.transports = some [.usb, .nfc] := by
  rw [u2fRoot_eq, verifyAuthData_chars]
  have h : okWith (verifyAuthData (charsX509 u2fRootChars) (realCrypto []) "" nfcAuthData nfcSig (sha256 nfcClient) (-7) nfcCert none)
      (fun v => v.transports == some [.usb, .nfc]) = true := by decide +kernel
  obtain ⟨v, h1, h2⟩ := okWith_iff.mp h
  simp only [beq_iff_eq] at h2
  exact ⟨v, h1, h2⟩

set_option maxRecDepth 100000 in
/-- The chain of a YubiKey 5C in tests/yubikey-lite.rs meets the hypotheses of C65. -/
theorem piv_attested : ∃ v, verifyCertificateChain realX509 pivRoot pivClient pivIntermediate none = .ok v ∧
    v.serial = 11778047 ∧ v.firmware = "5.2.4".toList ∧ v.touchPolicy = 3 ∧ v.pinPolicy = 1 := by
  rw [pivRoot_eq, verifyCertificateChain_chars]
  have h : okWith (verifyCertificateChain (charsX509 pivRootChars) "" pivClient pivIntermediate none)
      (fun v => v.serial == 11778047 && (v.firmware == "5.2.4".toList && (v.touchPolicy == 3 && v.pinPolicy == 1))) = true := by decide +kernel
  obtain ⟨v, h1, h2⟩ := okWith_iff.mp h
  simp only [Bool.and_eq_true, beq_iff_eq] at h2
  exact ⟨v, h1, h2⟩

end Ssh
