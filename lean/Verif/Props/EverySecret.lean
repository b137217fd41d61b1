import Verif.Concrete.Order
import Verif.Props.OtherKey
import Verif.Spec.OnCurve

/-!
# C155: which ECDSA keys accept anything

The curves P-256 and P-384 have as many points as their base points have multiples (Concrete/Order.lean), so every public key that is a
point has a secret.  A key whose bytes are no point of P-256 or P-384 accepts nothing.
-/

namespace Ssh

open Spec Concrete

section
variable {c : EcCurve} [hp : Fact c.p.Prime]

theorem onCurve_iff (g : EcGood c) {key : Bytes} : OnCurve c.p c.b c.len key ↔ ∃ Q, g.domain.decode key = some Q := by
  have eqn : ∀ x y : Nat, x < c.p → ((y ^ 2 + 3 * x) % c.p = (x ^ 3 + c.b) % c.p ↔
      y * y % c.p = (x * x % c.p * x + 3 * (c.p - x) + c.b) % c.p) := by
    intro x y hx
    rw [← Nat.ModEq, ← Nat.ModEq, ← ZMod.natCast_eq_natCast_iff, ← ZMod.natCast_eq_natCast_iff]
    simp only [Nat.cast_add, Nat.cast_mul, Nat.cast_pow, ZMod.natCast_mod, cast_neg (Nat.le_of_lt hx), Nat.cast_ofNat]
    constructor <;> intro h <;> linear_combination h
  constructor
  · rintro ⟨x, y, rfl, hx, hy, h1, h2, h3⟩
    have hd : ecDecode c (4 :: (x ++ y)) = some ⟨natOf x, natOf y, 1⟩ := by
      unfold ecDecode
      simp only [force_eq]
      rw [if_neg (by rw [List.length_append]; omega), ← hx, List.take_left, List.drop_left, toNat_eq, toNat_eq, if_pos ⟨h1, h2, (eqn _ _ h1).mp h3⟩]
    exact ⟨_, g.decode_iff.mpr ⟨_, hd, nonsingular_of g.disc (Nat.le_of_lt h1) ((eqn _ _ h1).mp h3), rfl⟩⟩
  · rintro ⟨Q, hQ⟩
    obtain ⟨P, hP, _⟩ := g.decode_iff.mp hQ
    unfold ecDecode at hP
    split at hP
    · rename_i b
      split at hP
      · cases hP
      · rename_i hl
        have hl := Decidable.not_not.mp hl
        simp only [force_eq] at hP
        split at hP
        · rename_i hc
          rw [toNat_eq, toNat_eq] at hc
          exact ⟨b.take c.len, b.drop c.len, by rw [List.take_append_drop], by rw [List.length_take]; omega, by rw [List.length_drop]; omega,
            hc.1, hc.2.1, (eqn _ _ hc.1).mpr hc.2.2⟩
        · cases hP
    · cases hP

/-- A point in its uncompressed form has a secret, written with the full number of bytes. -/
theorem onCurve_secret (g : EcGood c) (hc : Nat.card (curve c.p c.b).Point = c.n) {key : Bytes} (h : OnCurve c.p c.b c.len key) :
    ∃ d, 0 < d ∧ d < c.n ∧ g.domain.decode key = some (d • g.domain.base) := by
  obtain ⟨Q, hQ⟩ := (onCurve_iff g).mp h
  obtain ⟨d, hd, rfl⟩ := g.cyclic hc Q
  refine ⟨d, Nat.pos_of_ne_zero ?_, hd, hQ⟩
  rintro rfl
  rw [zero_nsmul] at hQ
  obtain ⟨_, _, _, h⟩ := g.decode_iff.mp hQ
  cases h

/-- Only one. -/
theorem secret_unique (g : EcGood c) {d d' : Nat} (h : d < c.n) (h' : d' < c.n) (e : d • g.domain.base = d' • g.domain.base) : d = d' := by
  have key : ∀ a b : Nat, a < c.n → b < c.n → a ≤ b → a • g.domain.base = b • g.domain.base → a = b := by
    intro a b _ hb hab e
    by_contra hne
    have h1 : (b - a) • g.base ≠ 0 := g.multiple_ne (by omega) (by omega)
    apply h1
    have : a • g.base + (b - a) • g.base = a • g.base := by
      rw [← add_nsmul, Nat.add_sub_cancel' hab]
      exact e.symm
    exact left_eq_add.mp this.symm
  rcases Nat.le_total d d' with hle | hle
  · exact key d d' h h' hle e
  · exact (key d' d h' h hle e.symm).symm

end

theorem onP256 {key : Bytes} : OnCurve fieldP256 lastP256 32 key ↔ ∃ Q, p256_good.domain.decode key = some Q := by
  have e1 : fieldP256 = p256.p := by decide +kernel
  rw [e1]
  exact onCurve_iff p256_good

theorem onP384 {key : Bytes} : OnCurve fieldP384 lastP384 48 key ↔ ∃ Q, p384_good.domain.decode key = some Q := by
  have e1 : fieldP384 = p384.p := by decide +kernel
  rw [e1]
  exact onCurve_iff p384_good

variable (table : List ((String × Bytes × UInt32) × (Bytes × Bytes)))

theorem verify_onCurve {alg : EcAlg} {key m s : Bytes} (h : (realCrypto table).ecdsaVerify alg key m s = true) :
    (alg = .p256 ∧ OnCurve fieldP256 lastP256 32 key) ∨ (alg = .p384 ∧ OnCurve fieldP384 lastP384 48 key) := by
  cases alg with
  | p256 =>
    obtain ⟨Q, _, _, _, _, hQ, _⟩ := (p256_verifies table _ _ _).mp h
    exact .inl ⟨rfl, onP256.mpr ⟨Q, hQ⟩⟩
  | p384 =>
    obtain ⟨Q, _, _, _, _, hQ, _⟩ := (p384_verifies table _ _ _).mp h
    exact .inr ⟨rfl, onP384.mpr ⟨Q, hQ⟩⟩

/-- C155: a key whose bytes are no point of P-256 or P-384 accepts no signature, whatever its labels say. -/
theorem C155_point (k : PublicKey) (cu : Curve) (key : Bytes) (app : Option String) (hk : k.kind = .ecdsa cu key app) (sig msg b : Bytes)
    (h : verifySignature (realCrypto table) sig msg k = .ok b) : OnCurve fieldP256 lastP256 32 key ∨ OnCurve fieldP384 lastP384 48 key := by
  obtain ⟨⟨label, w1, w2, w3, rest, rfl, ht, hb⟩, _⟩ := verifySignature_ok.mp h
  rw [hk] at hb
  obtain ⟨_, alg, _, _, _, _, _, _, _, _, _, _, _, _, _, _, _, _, g9⟩ := hb
  rcases verify_onCurve table g9 with h | h
  · exact .inl h.2
  · exact .inr h.2

/-- C155: every P-256 public key has one secret: the private key with that secret signs every message, and the public key accepts that. -/
theorem C155_p256 (F : Features) (D : FidoDev) (k : PublicKey) (cu : Curve) (key : Bytes) (hk : k.kind = .ecdsa cu key none) (hkt : k.keyType ∈ keyTypes)
    (hname : k.keyType.name = "ecdsa-sha2-nistp256") (h : OnCurve fieldP256 lastP256 32 key) :
    ∃ secret, secret.length = 32 ∧ ∀ secret', secret'.length = 32 → ∀ p : PrivateKey, p.pubkey = k → p.kind = .ecdsa ⟨.nistp256, "nistp256"⟩ (0 :: secret') →
      ∀ msg, ((∃ sig, p.sign F (realCrypto table) D msg = .ok (some sig)) ↔ secret' = secret) ∧
        ∀ sig, p.sign F (realCrypto table) D msg = .ok (some sig) → verifySignature (realCrypto table) sig msg k = .ok sig := by
  have e1 : fieldP256 = p256.p := by decide +kernel
  rw [e1] at h
  obtain ⟨d, d0, d1, hd⟩ := onCurve_secret p256_good p256_card h
  have hval : natOf (Concrete.natBytes 32 d) = d := by
    rw [natOf_natBytes, Nat.mod_eq_of_lt (Nat.lt_trans d1 (by decide +kernel))]
  refine ⟨Concrete.natBytes 32 d, natBytes_length _ _, fun secret' hl p hpk hkind msg => ?_⟩
  obtain ⟨q1, _, q3⟩ := C146_ecdsa F (realCrypto table) D .p256 p256_good.domain (p256_signs table) (p256_verifies table) p256_width p _ cu _ key hkind
    (by rw [hpk]; exact hk) (by rw [hpk]; exact hkt) (by decide) (by rw [hpk]; exact hname) rfl (List.cons_ne_nil _ _) msg
  rw [hpk] at q3
  refine ⟨q1.trans ⟨?_, ?_⟩, q3⟩
  · rintro ⟨d', f, h1, h2, h3, h4, h5⟩
    have hf : secret' = f := by
      rcases h1 with ⟨_, h1⟩ | h1
      · exact absurd rfl h1
      · exact (List.cons.inj h1).2
    subst hf
    rw [hd] at h5
    have := secret_unique p256_good d1 h4 (Option.some.inj h5)
    exact natOf_inj (by rw [hl, natBytes_length]) (by rw [hval, h2.2, this])
  · rintro rfl
    exact ⟨d, _, .inr rfl, ⟨natBytes_length _ _, hval⟩, d0, d1, hd⟩

/-- C155 for P-384. -/
theorem C155_p384 (F : Features) (D : FidoDev) (k : PublicKey) (cu : Curve) (key : Bytes) (hk : k.kind = .ecdsa cu key none) (hkt : k.keyType ∈ keyTypes)
    (hname : k.keyType.name = "ecdsa-sha2-nistp384") (h : OnCurve fieldP384 lastP384 48 key) :
    ∃ secret, secret.length = 48 ∧ ∀ secret', secret'.length = 48 → ∀ p : PrivateKey, p.pubkey = k → p.kind = .ecdsa ⟨.nistp384, "nistp384"⟩ (0 :: secret') →
      ∀ msg, ((∃ sig, p.sign F (realCrypto table) D msg = .ok (some sig)) ↔ secret' = secret) ∧
        ∀ sig, p.sign F (realCrypto table) D msg = .ok (some sig) → verifySignature (realCrypto table) sig msg k = .ok sig := by
  have e1 : fieldP384 = p384.p := by decide +kernel
  rw [e1] at h
  obtain ⟨d, d0, d1, hd⟩ := onCurve_secret p384_good p384_card h
  have hval : natOf (Concrete.natBytes 48 d) = d := by
    rw [natOf_natBytes, Nat.mod_eq_of_lt (Nat.lt_trans d1 (by decide +kernel))]
  refine ⟨Concrete.natBytes 48 d, natBytes_length _ _, fun secret' hl p hpk hkind msg => ?_⟩
  obtain ⟨q1, _, q3⟩ := C146_ecdsa F (realCrypto table) D .p384 p384_good.domain (p384_signs table) (p384_verifies table) p384_width p _ cu _ key hkind
    (by rw [hpk]; exact hk) (by rw [hpk]; exact hkt) (by decide) (by rw [hpk]; exact hname) rfl (List.cons_ne_nil _ _) msg
  rw [hpk] at q3
  refine ⟨q1.trans ⟨?_, ?_⟩, q3⟩
  · rintro ⟨d', f, h1, h2, h3, h4, h5⟩
    have hf : secret' = f := by
      rcases h1 with ⟨_, h1⟩ | h1
      · exact absurd rfl h1
      · exact (List.cons.inj h1).2
    subst hf
    rw [hd] at h5
    have := secret_unique p384_good d1 h4 (Option.some.inj h5)
    exact natOf_inj (by rw [hl, natBytes_length]) (by rw [hval, h2.2, this])
  · rintro rfl
    exact ⟨d, _, .inr rfl, ⟨natBytes_length _ _, hval⟩, d0, d1, hd⟩

/-- C155: so a key accepts some signature exactly if its bytes are a point of one of the two curves. -/
theorem C155_exact (k : PublicKey) (cu : Curve) (key : Bytes) (hk : k.kind = .ecdsa cu key none) (hkk : k.keyType.kind = .ecdsa) :
    (∃ sig msg, verifySignature (realCrypto table) sig msg k = .ok sig) ↔
      OnCurve fieldP256 lastP256 32 key ∨ OnCurve fieldP384 lastP384 48 key := by
  constructor
  · rintro ⟨sig, msg, h⟩
    exact C155_point table k cu key none hk sig msg sig h
  · have transfer : ∀ k' cu' sig msg, k'.kind = .ecdsa cu' key none → verifySignature (realCrypto table) sig msg k' = .ok sig →
        verifySignature (realCrypto table) sig msg k = .ok sig := by
      intro k' cu' sig msg hk' h
      obtain ⟨⟨label, w1, w2, w3, rest, he, ht, hb⟩, _⟩ := verifySignature_ok.mp h
      rw [hk'] at hb
      refine verifySignature_ok.mpr ⟨⟨label, w1, w2, w3, rest, he, ht, ?_⟩, rfl⟩
      rw [hk]
      exact ⟨hkk, hb.2⟩
    rintro (h | h)
    · let kt : KeyType := ⟨"ecdsa-sha2-nistp256", "ecdsa-sha2-nistp256", "ECDSA", false, false, .ecdsa⟩
      let k' : PublicKey := ⟨kt, .ecdsa ⟨.nistp256, "nistp256"⟩ key none, none⟩
      obtain ⟨secret, hl, hs⟩ := C155_p256 table ⟨true, true, .none⟩ ⟨fun _ _ _ _ _ => none, fun _ _ _ _ => .ok none⟩ k' _ key rfl (by show kt ∈ keyTypes; decide) rfl h
      obtain ⟨q1, q2⟩ := hs secret hl ⟨kt, .ecdsa ⟨.nistp256, "nistp256"⟩ (0 :: secret), k', 0, ""⟩ rfl rfl []
      obtain ⟨sig, hsig⟩ := q1.mpr rfl
      exact ⟨sig, [], transfer k' _ sig [] rfl (q2 sig hsig)⟩
    · let kt : KeyType := ⟨"ecdsa-sha2-nistp384", "ecdsa-sha2-nistp384", "ECDSA", false, false, .ecdsa⟩
      let k' : PublicKey := ⟨kt, .ecdsa ⟨.nistp384, "nistp384"⟩ key none, none⟩
      obtain ⟨secret, hl, hs⟩ := C155_p384 table ⟨true, true, .none⟩ ⟨fun _ _ _ _ _ => none, fun _ _ _ _ => .ok none⟩ k' _ key rfl (by show kt ∈ keyTypes; decide) rfl h
      obtain ⟨q1, q2⟩ := hs secret hl ⟨kt, .ecdsa ⟨.nistp384, "nistp384"⟩ (0 :: secret), k', 0, ""⟩ rfl rfl []
      obtain ⟨sig, hsig⟩ := q1.mpr rfl
      exact ⟨sig, [], transfer k' _ sig [] rfl (q2 sig hsig)⟩

/-- C150 (finding) with no hypothesis on the key: every accepted ECDSA signature has a second one. -/
theorem C150_every (k : PublicKey) (cu : Curve) (key : Bytes) (app : Option String) (hk : k.kind = .ecdsa cu key app) (sig msg b : Bytes)
    (h : verifySignature (realCrypto table) sig msg k = .ok b) :
    ∃ n ∈ [p256.n, p384.n], ∃ r s s' sig', CarriesNumbers sig r s ∧ CarriesNumbers sig' r s' ∧ s' + s = n ∧ s' ≠ s ∧
      verifySignature (realCrypto table) sig' msg k = .ok sig' := by
  rcases C155_point table k cu key app hk sig msg b h with h1 | h1
  · obtain ⟨Q, hQ⟩ := onP256.mp h1
    obtain ⟨d, _, rfl⟩ := p256_secret Q
    exact ⟨_, List.mem_cons_self, (C150_p256 table key d hQ).1 k cu app sig msg b hk h⟩
  · obtain ⟨Q, hQ⟩ := onP384.mp h1
    obtain ⟨d, _, rfl⟩ := p384_secret Q
    exact ⟨_, List.mem_cons_of_mem _ List.mem_cons_self, (C150_p384 table key d hQ).1 k cu app sig msg b hk h⟩

/-- C150 (finding) with no hypothesis on the key: every certificate that an ECDSA authority signed has a second one. -/
theorem C150_every_certificate (data : Bytes) (cert : Certificate) (cu : Curve) (key : Bytes) (app : Option String)
    (hk : cert.signatureKey.kind = .ecdsa cu key app) (h : Certificate.fromBytes (realCrypto table) data = .ok cert) :
    ∃ n ∈ [p256.n, p384.n], ∃ r s s' data' cert', CarriesNumbers cert.signature r s ∧ CarriesNumbers cert'.signature r s' ∧ s' + s = n ∧ s' ≠ s ∧
      Certificate.fromBytes (realCrypto table) data' = .ok cert' ∧ SameFields cert' cert := by
  obtain ⟨w, _, _, _, _, _, h4, _, _⟩ := certFromBytes_ok.mp h
  rcases C155_point table cert.signatureKey cu key app hk cert.signature w _ (verifySignature_ok.mpr ⟨h4, rfl⟩) with h1 | h1
  · obtain ⟨Q, hQ⟩ := onP256.mp h1
    obtain ⟨d, _, rfl⟩ := p256_secret Q
    exact ⟨_, List.mem_cons_self, (C150_p256 table key d hQ).2 data cert cu app hk h⟩
  · obtain ⟨Q, hQ⟩ := onP384.mp h1
    obtain ⟨d, _, rfl⟩ := p384_secret Q
    exact ⟨_, List.mem_cons_of_mem _ List.mem_cons_self, (C150_p384 table key d hQ).2 data cert cu app hk h⟩

/-- The key of RFC 6979 A.2.5 is a point of P-256; with its last byte changed it is none and accepts nothing. -/
example : OnCurve fieldP256 lastP256 32 rfcK256 ∧ ∀ cu app sig msg b,
    verifySignature (realCrypto []) sig msg ⟨rfcEcPriv.pubkey.keyType, .ecdsa cu (rfcK256.dropLast ++ [0]) app, none⟩ ≠ .ok b := by
  refine ⟨onP256.mpr ⟨_, rfcEc_decode⟩, fun cu app sig msg b h => ?_⟩
  rcases C155_point [] _ _ _ _ rfl sig msg b h with h1 | h1
  · obtain ⟨Q, hQ⟩ := onP256.mp h1
    have hQ : decode (c := p256) (rfcK256.dropLast ++ [0]) = some Q := hQ
    obtain ⟨P, hP, _⟩ := p256_good.decode_iff.mp hQ
    have : ecDecode p256 (rfcK256.dropLast ++ [0]) = none := by decide +kernel
    rw [this] at hP
    cases hP
  · obtain ⟨x, y, h2, h3, h4, _⟩ := h1
    have := congrArg List.length h2
    rw [List.length_cons, List.length_append (as := x), h3, h4] at this
    exact absurd this (by decide +kernel)

/-- The secret of that key in RFC 6979 is the one of C155. -/
example (F : Features) (D : FidoDev) (secret : Bytes) (hl : secret.length = 32) (msg sig : Bytes)
    (h : PrivateKey.sign F (realCrypto []) D { rfcEcPriv with kind := .ecdsa ⟨.nistp256, "nistp256"⟩ (0 :: secret) } msg = .ok (some sig)) :
    secret = rfcSecret := by
  obtain ⟨s0, _, hs⟩ := C155_p256 [] F D rfcEcPriv.pubkey _ rfcK256 rfl (by decide) rfl (onP256.mpr ⟨_, rfcEc_decode⟩)
  have h1 := ((hs secret hl { rfcEcPriv with kind := .ecdsa ⟨.nistp256, "nistp256"⟩ (0 :: secret) } rfl rfl msg).1).mp ⟨sig, h⟩
  have h2 := ((hs rfcSecret (by decide +kernel) rfcEcPriv rfl rfl msg).1).mp
    ((C146_ecdsa F (realCrypto []) D .p256 p256_good.domain (p256_signs []) (p256_verifies [])
      p256_width rfcEcPriv _ _ _ _ rfl rfl (by decide) (by decide) rfl rfl (ecPair_ne rfcEc_pair) msg).1.mpr rfcEc_pair)
  rw [h1, h2]

/-- The signature of `sample` in RFC 6979 A.2.5 has a second form. -/
example : ∃ n ∈ [p256.n, p384.n], ∃ r s s' sig', CarriesNumbers (rfcBlob "ecdsa-sha2-nistp256" 32 rfcS256) r s ∧ CarriesNumbers sig' r s' ∧
    s' + s = n ∧ s' ≠ s ∧ verifySignature (realCrypto []) sig' (strBytes "sample") rfcEcPriv.pubkey = .ok sig' :=
  C150_every [] rfcEcPriv.pubkey _ _ _ rfl _ _ _ (okOf_eq (d := []) (by decide +kernel))

end Ssh
