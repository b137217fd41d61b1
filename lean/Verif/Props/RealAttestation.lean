import Verif.Concrete.Order
import Verif.Concrete.Attested
import Verif.Props.SecondSignatures
import Verif.Props.Fido
import Verif.Props.Piv
import Verif.Spec.Attest

/-!
# C154: attestations with ECDSA as in FIPS 186-5

C63 says which attestations of FIDO credentials are accepted, in terms of an arbitrary check of signatures.  Here the check is that of
FIPS 186-5 with signatures in DER (X.690): an attestation is accepted exactly if the numbers of the signature are valid for the
authenticator data and the challenge, a device with the secret of the certified key makes accepted attestations, and
(finding) every accepted attestation has a second one, with another signature.  The attestations of the project's own tests are
accepted with every primitive computed, down to the RSA signature of the root.
-/

namespace Ssh
open Spec

/-! ### The theorems, for any curve -/

section
variable {E : Type} [AddCommGroup E]

/-- C154: exactly which attestations are accepted. -/
theorem C154_exact (X : X509Env) (C : Crypto) (c : EcDomain E) (hv : VerifiesAsn1 C c) (yubicoRoot : String)
    (authData sig challenge cert : Bytes) (alg : Int) (rootPem : Option String) (v : ValidAttestation) :
    verifyAuthData X C yubicoRoot authData sig challenge alg cert rootPem = .ok v ↔
    alg = -7 ∧ ∃ i, SignedBy X (rootPem.getD yubicoRoot) cert i ∧ SignedAsn1 C c i.spki.keyData (authData ++ challenge) sig ∧
      AuthData.parse authData = .ok v.authData ∧ ExtensionsDecode X i.extensions ∧ AttestationInfo X i.extensions v := by
  rw [C63_exact]
  constructor
  · rintro ⟨h0, i, ⟨root, h1, h2, h3, h4⟩, h5⟩
    exact ⟨h0, i, ⟨root, h1, h2, h3⟩, (hv _ _ _).mp h4, h5⟩
  · rintro ⟨h0, i, ⟨root, h1, h2, h3⟩, h4, h5⟩
    exact ⟨h0, i, ⟨root, h1, h2, h3, (hv _ _ _).mpr h4⟩, h5⟩

/-- C154: a device that has the secret of the certified key makes attestations that are accepted, for every challenge, with the
certificate's extensions and the parsed authenticator data as result. -/
theorem C154_device (X : X509Env) (C : Crypto) (c : EcDomain E) (hv : VerifiesAsn1 C c) (yubicoRoot : String) (cert : Bytes)
    (rootPem : Option String) (i : X509Cert) (hi : SignedBy X (rootPem.getD yubicoRoot) cert i) (he : ExtensionsDecode X i.extensions)
    (d : Nat) (hd : c.decode i.spki.keyData = some (d • c.base)) (authData challenge : Bytes) (v : ValidAttestation)
    (ha : AuthData.parse authData = .ok v.authData) (hinfo : AttestationInfo X i.extensions v) (r s : Nat) (cr cs sig : Bytes)
    (hs : EcdsaSignature c d (natOf (C.sha256 (authData ++ challenge))) r s) (hr : DerPositive r cr) (hs' : DerPositive s cs)
    (hsig : DerPair cr cs sig) :
    verifyAuthData X C yubicoRoot authData sig challenge (-7) cert rootPem = .ok v :=
  (C154_exact X C c hv ..).mpr ⟨rfl, i, hi, ⟨_, r, s, cr, cs, hd, hr, hs', hsig, ecdsa_valid c hs⟩, ha, he, hinfo⟩

/-- The content of a number of at most 32 bytes. -/
theorem derContent {x : Nat} (h0 : x ≠ 0) (h : x < 256 ^ 32) : ∃ cx, DerPositive x cx ∧ cx.length ≤ 33 := by
  obtain ⟨p1, p2⟩ := mpintPayload_spec (Concrete.natBytes 32 x)
  refine ⟨_, ⟨p1, by rw [p2, Concrete.natOf_natBytes, Nat.mod_eq_of_lt h], h0⟩, ?_⟩
  exact Nat.le_trans (mpintPayload_length_le _)
    (Nat.succ_le_succ (Nat.le_trans (stripZeros_length_le _) (Nat.le_of_eq (Concrete.natBytes_length _ _))))

/-- C154 (finding): every accepted attestation has a second one that is accepted with the same result: the same data, challenge and
certificate, with another signature, that anyone can make. -/
theorem C154_second (X : X509Env) (C : Crypto) (c : EcDomain E) (hv : VerifiesAsn1 C c) (hn : c.order ≤ 256 ^ 32) (h3 : 2 < c.order)
    (hx : ∀ P, c.coordX (-P) = c.coordX P) (hQ : ∀ Q : E, c.order • Q = 0) (yubicoRoot : String)
    (authData sig challenge cert : Bytes) (alg : Int) (rootPem : Option String) (v : ValidAttestation)
    (h : verifyAuthData X C yubicoRoot authData sig challenge alg cert rootPem = .ok v) :
    ∃ r s s' cr cs cs' sig', DerPositive r cr ∧ DerPositive s cs ∧ DerPositive s' cs' ∧ DerPair cr cs sig ∧ DerPair cr cs' sig' ∧
      s' + s = c.order ∧ s' ≠ s ∧ sig' ≠ sig ∧ verifyAuthData X C yubicoRoot authData sig' challenge alg cert rootPem = .ok v := by
  obtain ⟨h0, i, hi, ⟨Q, r, s, cr, cs, q1, q2, q3, q4, q5⟩, hrest⟩ := (C154_exact X C c hv ..).mp h
  have hneg := ecdsa_negated c hx (hQ Q) q5
  obtain ⟨p1, p2, p3, p4, _⟩ := id q5
  have hne : c.order - s ≠ s := by
    intro e
    rcases c.prime.2 2 ⟨s, by omega⟩ with h2 | h2 <;> omega
  obtain ⟨cs', d1, d2⟩ := derContent (x := c.order - s) (by omega) (by omega)
  obtain ⟨cr', e1, e2⟩ := derContent (x := r) (by omega) (by omega)
  have hcr : cr' = cr := by
    have hs : stripZeros cr' = stripZeros cr := shortest_unique (stripZeros_shortest _) (stripZeros_shortest _)
      (by rw [natOf_stripZeros, natOf_stripZeros, e1.2.1, q2.2.1])
    rw [← mpintPayload_self e1.1, ← mpintPayload_self q2.1]
    unfold mpintPayload
    rw [hs]
  subst hcr
  refine ⟨r, s, c.order - s, cr', cs, cs', _, q2, q3, d1, q4, ⟨by omega, rfl⟩, by omega, hne, fun e => hne ?_,
    (C154_exact X C c hv ..).mpr ⟨h0, i, hi, ⟨Q, r, c.order - s, cr', cs', q1, q2, d1, ⟨by omega, rfl⟩, hneg⟩, hrest⟩⟩
  rw [q4.2] at e
  simp only [List.cons_append, List.nil_append, List.cons.injEq, true_and, List.append_cancel_left_eq] at e
  have e' : cs' = cs := e.2.2
  rw [← d1.2.1, ← q3.2.1, e']

end

/-! ### With the primitives computed in the model -/

section
open Concrete

theorem derPositive_iff {b : Bytes} : derPositive b = true ↔ MpintPayload b ∧ natOf b ≠ 0 := by
  have pos : ∀ (a : UInt8) l, a ≠ 0 → natOf (a :: l) ≠ 0 := fun a l h => by
    have h1 : a.toNat ≠ 0 := fun e => h (UInt8.toNat_inj.mp e)
    have h2 : 0 < a.toNat * 256 ^ l.length := Nat.mul_pos (by omega) (Nat.pow_pos (by decide))
    simp only [natOf]
    omega
  constructor
  · intro h
    match b with
    | [] => cases h
    | [a] =>
      have h := of_decide_eq_true h
      exact ⟨.plain a [] h.1 h.2, pos a [] h.1⟩
    | a :: a' :: l =>
      rcases of_decide_eq_true h with h | ⟨rfl, h8⟩
      · exact ⟨.plain a _ h.1 h.2, pos a _ h.1⟩
      · refine ⟨.padded a' l h8, ?_⟩
        have := pos a' l (fun e => by rw [e] at h8; exact absurd h8 (by decide))
        simpa [natOf] using this
  · rintro ⟨h, h0⟩
    cases h with
    | zero => exact absurd rfl h0
    | plain a l ha hb =>
      cases l with
      | nil => exact decide_eq_true ⟨ha, hb⟩
      | cons a' l => exact decide_eq_true (.inl ⟨ha, hb⟩)
    | padded a l ha => exact decide_eq_true (.inr ⟨rfl, ha⟩)

theorem derSig_iff {sig : Bytes} {r s : Nat} : derSig sig = some (r, s) ↔
    ∃ cr cs, DerPositive r cr ∧ DerPositive s cs ∧ DerPair cr cs sig := by
  constructor
  · intro h
    unfold derSig at h
    split at h
    · rename_i t l rest
      split at h
      · rename_i m rest' hd
        split at h
        · rename_i hc
          obtain ⟨c1, c2, c3, c4, c5⟩ := hc
          simp only [Option.some.injEq, Prod.mk.injEq, toNat_eq] at h
          obtain ⟨rfl, rfl⟩ := h
          have hlen := congrArg List.length hd
          simp only [List.length_drop, List.length_cons] at hlen
          have hl : (rest.take l.toNat).length = l.toNat := by rw [List.length_take]; omega
          have ht := UInt8.lt_iff_toNat_lt.mp c1
          have h4 := derPositive_iff.mp c4
          have h5 := derPositive_iff.mp c5
          refine ⟨rest.take l.toNat, rest', ⟨h4.1, rfl, h4.2⟩, ⟨h5.1, rfl, h5.2⟩, ?_, ?_⟩
          · rw [hl, c3, ← c2]
            exact ht
          · have hrest : rest = rest.take l.toNat ++ 2 :: m :: rest' := by rw [← hd, List.take_append_drop]
            rw [hl, c3, ← c2, UInt8.ofNat_toNat, UInt8.ofNat_toNat, UInt8.ofNat_toNat]
            simp only [List.cons_append, List.nil_append]
            rw [← hrest]
        · cases h
      · cases h
    · cases h
  · rintro ⟨cr, cs, h1, h2, h3, rfl⟩
    have n1 : (UInt8.ofNat cr.length).toNat = cr.length := by
      rw [UInt8.toNat_ofNat']
      exact Nat.mod_eq_of_lt (by omega)
    have n2 : (UInt8.ofNat cs.length).toNat = cs.length := by
      rw [UInt8.toNat_ofNat']
      exact Nat.mod_eq_of_lt (by omega)
    have n3 : (UInt8.ofNat (cr.length + cs.length + 4)).toNat = cr.length + cs.length + 4 := by
      rw [UInt8.toNat_ofNat']
      exact Nat.mod_eq_of_lt (by omega)
    unfold derSig
    simp only [List.cons_append, List.nil_append, n1, List.drop_left, List.take_left, n2, n3, toNat_eq]
    rw [if_pos ⟨UInt8.lt_iff_toNat_lt.mpr (by rw [n3]; exact h3), trivial, trivial, derPositive_iff.mpr ⟨h1.1, by rw [h1.2.1]; exact h1.2.2⟩,
      derPositive_iff.mpr ⟨h2.1, by rw [h2.2.1]; exact h2.2.2⟩⟩, h1.2.1, h2.2.1]

variable (table : List ((String × Bytes × UInt32) × (Bytes × Bytes)))

/-- C154: the computed primitive is that of FIPS 186-5 on P-256. -/
theorem C154_p256 : VerifiesAsn1 (realCrypto table) p256_good.domain := by
  intro key m sig
  show ecdsaAsn1Verify key m sig = true ↔ _
  unfold ecdsaAsn1Verify
  constructor
  · intro h
    split at h
    · cases h
    · rename_i r s hd
      obtain ⟨cr, cs, h1, h2, h3⟩ := derSig_iff.mp hd
      obtain ⟨Q, h4, h5⟩ := (p256_good.verifiesNumbers key m r s).mp h
      exact ⟨Q, r, s, cr, cs, h4, h1, h2, h3, h5⟩
  · rintro ⟨Q, r, s, cr, cs, h4, h1, h2, h3, h5⟩
    rw [derSig_iff.mpr ⟨cr, cs, h1, h2, h3⟩]
    exact (p256_good.verifiesNumbers key m r s).mpr ⟨Q, h4, h5⟩

theorem p256_cycle (Q : (curve p256.p p256.b).Point) : p256_good.domain.order • Q = 0 := by
  obtain ⟨d, _, rfl⟩ := p256_secret Q
  rw [← mul_nsmul, mul_comm, mul_nsmul, p256_good.domain.cycle, nsmul_zero]

/-- C154 (finding) for P-256, with no hypothesis on the key: every accepted attestation has a second one. -/
theorem C154_second_p256 (X : X509Env) (yubicoRoot : String) (authData sig challenge cert : Bytes) (alg : Int) (rootPem : Option String)
    (v : ValidAttestation) (h : verifyAuthData X (realCrypto table) yubicoRoot authData sig challenge alg cert rootPem = .ok v) :
    ∃ sig', sig' ≠ sig ∧ verifyAuthData X (realCrypto table) yubicoRoot authData sig' challenge alg cert rootPem = .ok v := by
  obtain ⟨_, _, _, _, _, _, sig', _, _, _, _, _, _, _, h1, h2⟩ := C154_second X (realCrypto table) p256_good.domain (C154_p256 table)
    (by decide +kernel) p256_good.three coordX_neg p256_cycle yubicoRoot authData sig challenge cert alg rootPem v h
  exact ⟨sig', h1, h2⟩

/-- The device's signature is valid in the sense of FIPS 186-5, for the key in a certificate that the root signed. -/
example : ∃ i, SignedBy realX509 u2fRoot bioCert i ∧
    SignedAsn1 (realCrypto []) p256_good.domain i.spki.keyData (bioAuthData ++ sha256 bioClient) bioSig := by
  obtain ⟨v, h, _⟩ := bio_attested
  obtain ⟨_, i, h1, h2, _⟩ := (C154_exact _ _ _ (C154_p256 []) ..).mp h
  exact ⟨i, h1, h2⟩

/-- That attestation has a second form. -/
example : ∃ v sig', sig' ≠ bioSig ∧
    verifyAuthData realX509 (realCrypto []) u2fRoot bioAuthData bioSig (sha256 bioClient) (-7) bioCert none = .ok v ∧
    verifyAuthData realX509 (realCrypto []) u2fRoot bioAuthData sig' (sha256 bioClient) (-7) bioCert none = .ok v := by
  obtain ⟨v, h, _⟩ := bio_attested
  obtain ⟨sig', h1, h2⟩ := C154_second_p256 [] _ _ _ _ _ _ _ _ _ h
  exact ⟨v, sig', h1, h, h2⟩

/-- A device: the key that the root certified has a secret; with it the same certificate attests the same data for every challenge for
which ECDSA gives a signature. -/
example : ∃ d v, ∀ challenge r s cr cs sig,
    EcdsaSignature p256_good.domain d (natOf (sha256 (bioAuthData ++ challenge))) r s → DerPositive r cr → DerPositive s cs → DerPair cr cs sig →
    verifyAuthData realX509 (realCrypto []) u2fRoot bioAuthData sig challenge (-7) bioCert none = .ok v := by
  obtain ⟨v, h, _⟩ := bio_attested
  obtain ⟨_, i, h1, ⟨Q, _, _, _, _, hQ, _⟩, h3, h4, h5⟩ := (C154_exact _ _ _ (C154_p256 []) ..).mp h
  obtain ⟨d, _, rfl⟩ := p256_secret Q
  exact ⟨d, v, fun challenge r s cr cs sig q1 q2 q3 q4 => C154_device _ _ _ (C154_p256 []) u2fRoot bioCert none i h1 h4 d hQ bioAuthData challenge v h3 h5
    r s cr cs sig q1 q2 q3 q4⟩

end

end Ssh
