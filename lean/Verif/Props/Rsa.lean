import Verif.Concrete.Rsa
import Verif.Lemmas.Rsa
import Verif.Props.Keys
import Verif.Props.SshSig
import Verif.Props.Policy
import Verif.Props.PrivText
import Verif.Concrete.Facts
import Mathlib.Data.Nat.Log
import Mathlib.NumberTheory.LucasLehmer

/-! # C145: the numbers of an RSA key give signatures that verify -/

namespace Ssh

open Spec

/-- C145: with the exponents that the code computes when it reads an RSA key (C48), signing by the Chinese remainder
theorem gives the power by the private exponent, and the public exponent undoes it. -/
theorem C145_crt (F : Features) (C : Crypto) (pass : Option String) (t : List Char) (k : PrivateKey) (r : RsaPrivateKey)
    (hF : F.rsaSigning = true) (h : PrivateKey.fromStringWithPassphrase F C t pass = .ok k) (hk : k.kind = .rsa r)
    (hn : RsaNumbers (natOf r.n) (natOf r.e) (natOf r.d) (natOf r.p) (natOf r.q) (natOf r.coefficient)) :
    ∃ x y, r.exp = some x ∧ r.exq = some y ∧ ∀ m, m < natOf r.n →
      rsasp1 (natOf r.p) (natOf r.q) (natOf x) (natOf y) (natOf r.coefficient) m = m ^ natOf r.d % natOf r.n ∧
      rsasp1 (natOf r.p) (natOf r.q) (natOf x) (natOf y) (natOf r.coefficient) m ^ natOf r.e % natOf r.n = m := by
  obtain ⟨_, h1, _⟩ := C48_crt F C pass t k r h hk
  obtain ⟨_, _, x, y, hx, hy, hxn, hyn⟩ := h1 hF
  refine ⟨x, y, hx, hy, fun m hm => ?_⟩
  rw [hxn.1, hyn.1, rsasp1_eq hn]
  exact ⟨rfl, rsa_undo hn m hm⟩

theorem natBytes_size {n m : Nat} (hn : n < 256 ^ m) : (natBytes n).length ≤ m + 1 := by
  obtain ⟨⟨h1, h2 | ⟨_, h2⟩⟩, _⟩ := natBytes_spec n
  · rw [h2]; simp
  · have := shortest_length h2 (by rw [h1]; exact hn)
    omega

theorem derLength_size {n : Nat} (hn : n < 256 ^ 8) : (derLength n).length ≤ 10 := by
  unfold derLength
  split
  · simp
  · have := natBytes_size hn
    rw [List.length_cons]
    omega

theorem derInteger_size {mag : Bytes} (h : mag.length < 4294967296) : (derInteger mag).length ≤ mag.length + 13 := by
  have h1 : (signedBytes mag).length ≤ mag.length + 2 := by
    have := natBytes_size (natOf_lt mag)
    unfold signedBytes
    rw [beNat_eq_natOf]
    split
    · simp
    · rename_i b t hb
      rw [hb] at this
      split
      · simpa using Nat.le_succ_of_le this
      · simpa using this
  have h2 := derLength_size (n := (signedBytes mag).length) (by omega)
  unfold derInteger
  simp only [List.length_append, List.length_cons, List.length_nil]
  omega

theorem rsaToDer_size {r : RsaPrivateKey} {x y der : Bytes} (hx : r.exp = some x) (hy : r.exq = some y) (h : rsaToDer r = .ok der)
    (h1 : r.n.length < 4294967296) (h2 : r.e.length < 4294967296) (h3 : r.d.length < 4294967296) (h4 : r.p.length < 4294967296)
    (h5 : r.q.length < 4294967296) (h6 : x.length < 4294967296) (h7 : y.length < 4294967296)
    (h8 : r.coefficient.length < 4294967296) : der.length < 256 ^ 8 := by
  rw [rsaToDer, hx, hy] at h
  simp only [Res.unwrap, Res.ok_bind, Res.pure_eq, Res.ok.injEq] at h
  subst h
  have g0 := derInteger_size (mag := [0]) (by decide)
  have g1 := derInteger_size h1
  have g2 := derInteger_size h2
  have g3 := derInteger_size h3
  have g4 := derInteger_size h4
  have g5 := derInteger_size h5
  have g6 := derInteger_size h6
  have g7 := derInteger_size h7
  have g8 := derInteger_size h8
  simp only [List.length_append, List.length_cons, List.length_nil] at *
  have := derLength_size (n := (derInteger [0]).length + ((derInteger r.n).length + ((derInteger r.e).length + ((derInteger r.d).length +
    ((derInteger r.p).length + ((derInteger r.q).length + ((derInteger x).length + ((derInteger y).length + (derInteger r.coefficient).length))))))))
    (by omega)
  omega

theorem octets_unique {n k k' : Nat} (h : Octets n k) (h' : Octets n k') : k = k' := by
  obtain ⟨h1, h2, h3⟩ := h
  obtain ⟨g1, g2, g3⟩ := h'
  have a := (Nat.pow_lt_pow_iff_right (a := 256) (by decide)).mp (Nat.lt_of_le_of_lt h2 g3)
  have b := (Nat.pow_lt_pow_iff_right (a := 256) (by decide)).mp (Nat.lt_of_le_of_lt g2 h3)
  omega

/-- The encoded message is smaller than the modulus. -/
theorem emsa_lt {C : Crypto} {m em : Bytes} {n k : Nat} (ho : Octets n k) (h : Emsa C m k em) : natOf em < n := by
  obtain ⟨h1, ps, _, h3⟩ := h
  obtain ⟨g1, g2, g3⟩ := ho
  refine Nat.lt_of_lt_of_le ?_ g2
  rw [h3] at h1 ⊢
  simp only [List.cons_append, List.nil_append, List.length_cons] at h1
  have := natOf_lt (0x01 :: (List.replicate ps 0xff ++ (0x00 :: sha512Info (C.sha512 m))))
  rw [List.length_cons] at this
  simp only [List.cons_append, List.nil_append]
  rw [natOf, UInt8.toNat_zero, Nat.zero_mul, Nat.zero_add]
  have e : k - 1 = (List.replicate ps 0xff ++ (0x00 :: sha512Info (C.sha512 m))).length + 1 := by omega
  rw [e]
  exact this

/-- The signature of such a key: as long as the modulus. -/
theorem rsa_signature (F : Features) (C : Crypto) (D : FidoDev) (signing : (n e d p q : Nat) → Prop) (verifying : (n e : Nat) → Prop)
    (hs : SignsRsa C signing) (hv : VerifiesRsa C verifying) (k : PrivateKey) (r : RsaPrivateKey) (hF : F.rsaSigning = true) (hw : WellFormedPriv true k)
    (hk : k.kind = .rsa r)
    (hn : RsaNumbers (natOf r.n) (natOf r.e) (natOf r.d) (natOf r.p) (natOf r.q) (natOf r.coefficient))
    (hsup : signing (natOf r.n) (natOf r.e) (natOf r.d) (natOf r.p) (natOf r.q)) (hver : verifying (natOf r.n) (natOf r.e)) (msg : Bytes) :
    ∃ s, k.sign F C D msg = .ok (some (text "rsa-sha2-512" ++ str s)) ∧ s.length ≤ r.n.length ∧
      verifySignature C (text "rsa-sha2-512" ++ str s) msg k.pubkey = .ok (text "rsa-sha2-512" ++ str s) := by
  obtain ⟨_, hkt, _, hw⟩ := hw
  rw [hk] at hw
  cases hp : k.pubkey.kind with
  | ecdsa c key app => rw [hp] at hw; exact hw.elim
  | ed25519 key app => rw [hp] at hw; exact hw.elim
  | rsa e n =>
    rw [hp] at hw
    obtain ⟨hkind, rfl, rfl, f1, f2, f3, f8, f4, f5, cx, cy⟩ := hw
    cases hx : r.exp with
    | none => rw [hx] at cx; exact cx.elim
    | some x =>
      cases hy : r.exq with
      | none => rw [hy] at cy; exact cy.elim
      | some y =>
        rw [hx] at cx
        rw [hy] at cy
        obtain ⟨der, h2, h3⟩ := rsaToDer_spec hx hy
        have ex : ∀ {d p x : Bytes}, CrtExponent true d p (some x) → FitsMpint p → x.length < 4294967296 := by
          intro d p x hc hf
          have := Nat.mod_lt (natOf d) (y := natOf p - 1) (by have := hc.1; omega)
          have := natOf_lt p
          have := numBytes_size hc.2 (m := p.length) (by omega)
          have := hf.2
          omega
        rw [cx.2.1, cy.2.1] at h3
        obtain ⟨s1, s2⟩ := hs _ _ _ _ _ _ _ _ der msg h3 (rsaToDer_size hx hy h2 (by have := f1.2; omega) (by have := f2.2; omega)
          (by have := f3.2; omega) (by have := f4.2; omega) (by have := f5.2; omega) (ex cx f4) (ex cy f5) (by have := f8.2; omega))
        obtain ⟨s, hsig⟩ := s1 hn rfl rfl hsup
        obtain ⟨len, em, ho, hem, hl, hval⟩ := s2 s hsig
        rw [rsasp1_eq hn] at hval
        have hpos : 0 < natOf r.n := Nat.lt_of_lt_of_le (Nat.pow_pos (by decide)) ho.2.1
        have hacc : C.rsaVerify .sha512 r.n r.e msg s = true := by
          rw [hv]
          refine ⟨hver, len, em, ho, hem, hl, ?_, ?_⟩
          · rw [hval]; exact Nat.mod_lt _ hpos
          · rw [hval]; exact rsa_undo hn _ (emsa_lt ho hem)
        have hle : s.length ≤ r.n.length := by
          rw [hl]
          have := (Nat.pow_lt_pow_iff_right (a := 256) (by decide)).mp (Nat.lt_of_le_of_lt ho.2.1 (natOf_lt r.n))
          have := ho.1
          omega
        have hlen : s.length < 4294967296 := by
          have := f1.2
          omega
        refine ⟨s, ?_, hle, ?_⟩
        · rw [signRsa_eq hk h2, if_pos hF, hsig]
          exact formatSignature_rsa hp s
        · rw [C21_accepts]
          exact ⟨accepts_rsa hp (by rw [hkt]; exact hkind) hlen hacc, rfl⟩

/-- C145: a key with such numbers, of a size that the primitives support, signs every message, and its public half
accepts the signature.  The primitives are those of RFC 8017 and may refuse all other keys. -/
theorem C145_signs (F : Features) (C : Crypto) (D : FidoDev) (signing : (n e d p q : Nat) → Prop) (verifying : (n e : Nat) → Prop)
    (hs : SignsRsa C signing) (hv : VerifiesRsa C verifying) (k : PrivateKey) (r : RsaPrivateKey) (hF : F.rsaSigning = true) (hw : WellFormedPriv true k)
    (hk : k.kind = .rsa r)
    (hn : RsaNumbers (natOf r.n) (natOf r.e) (natOf r.d) (natOf r.p) (natOf r.q) (natOf r.coefficient))
    (hsup : signing (natOf r.n) (natOf r.e) (natOf r.d) (natOf r.p) (natOf r.q)) (hver : verifying (natOf r.n) (natOf r.e)) (msg : Bytes) :
    ∃ sig, k.sign F C D msg = .ok (some sig) ∧ verifySignature C sig msg k.pubkey = .ok sig := by
  obtain ⟨s, h1, _, h2⟩ := rsa_signature F C D signing verifying hs hv k r hF hw hk hn hsup hver msg
  exact ⟨_, h1, h2⟩

/-- C145: so a key file with such numbers signs every message for every namespace, and the signature is accepted when it
is read as one of that namespace. -/
theorem C145_sshsig (F : Features) (C : Crypto) (D : FidoDev) (signing : (n e d p q : Nat) → Prop) (verifying : (n e : Nat) → Prop)
    (hs : SignsRsa C signing) (hv : VerifiesRsa C verifying) (pass : Option String) (t : List Char) (k : PrivateKey)
    (r : RsaPrivateKey) (hF : F.rsaSigning = true) (h : PrivateKey.fromStringWithPassphrase F C t pass = .ok k) (hk : k.kind = .rsa r)
    (hn : RsaNumbers (natOf r.n) (natOf r.e) (natOf r.d) (natOf r.p) (natOf r.q) (natOf r.coefficient))
    (hsup : signing (natOf r.n) (natOf r.e) (natOf r.d) (natOf r.p) (natOf r.q)) (hver : verifying (natOf r.n) (natOf r.e))
    (msg : Bytes) (ns : String) (hash : Option HashAlgorithm) :
    ∃ v, VerifiedSshSignature.newWithPrivateKey F C D msg ns k hash = .ok v ∧ v.message = msg ∧ v.signature.pubkey = k.pubkey ∧
      v.signature.namespace_ = ns ∧ VerifiedSshSignature.fromSshSignature C msg v.signature ns (some k.pubkey) = .ok v := by
  have hw := C93_wellFormed F C pass t k h
  rw [hF] at hw
  obtain ⟨sig, h1, h2⟩ := C145_signs F C D signing verifying hs hv k r hF hw hk hn hsup hver (signedData C ns (hash.getD .sha512) msg)
  have ha := ((C21_accepts ..).mp h2).1
  unfold VerifiedSshSignature.newWithPrivateKey
  simp only
  rw [toSignedFormat_eq, h1]
  simp only [Res.ok_bind, Res.ofOption]
  have e := (C35_exact C msg { pubkey := k.pubkey, namespace_ := ns, hashAlgorithm := hash.getD .sha512, signature := sig }
    ns (some k.pubkey) _).mpr ⟨rfl, fun _ h => (Option.some.inj h), ha, rfl⟩
  exact ⟨_, e, rfl, rfl, rfl, e⟩

/-! ### The primitive of Concrete/Rsa.lean and a key with two Mersenne primes -/

/-- The key with the primes `2 ^ 521 - 1` and `2 ^ 2203 - 1`. -/
def mersenneRsa : RsaPrivateKey where
  n := [15, 255, 255, 255, 255, 255, 255, 255, 255, 255, 255, 255, 255, 255, 255, 255, 255, 255, 255, 255, 255, 255, 255, 255,
    255, 255, 255, 255, 255, 255, 255, 255, 255, 255, 255, 255, 255, 255, 255, 255, 255, 255, 255, 255, 255, 255, 255, 255,
    255, 255, 255, 255, 255, 255, 255, 255, 255, 255, 255, 255, 255, 255, 255, 255, 255, 247, 255, 255, 255, 255, 255, 255,
    255, 255, 255, 255, 255, 255, 255, 255, 255, 255, 255, 255, 255, 255, 255, 255, 255, 255, 255, 255, 255, 255, 255, 255,
    255, 255, 255, 255, 255, 255, 255, 255, 255, 255, 255, 255, 255, 255, 255, 255, 255, 255, 255, 255, 255, 255, 255, 255,
    255, 255, 255, 255, 255, 255, 255, 255, 255, 255, 255, 255, 255, 255, 255, 255, 255, 255, 255, 255, 255, 255, 255, 255,
    255, 255, 255, 255, 255, 255, 255, 255, 255, 255, 255, 255, 255, 255, 255, 255, 255, 255, 255, 255, 255, 255, 255, 255,
    255, 255, 255, 255, 255, 255, 255, 255, 255, 255, 255, 255, 255, 255, 255, 255, 255, 255, 255, 255, 255, 255, 255, 255,
    255, 255, 255, 255, 255, 255, 255, 255, 255, 255, 255, 255, 255, 255, 255, 255, 255, 255, 255, 255, 255, 255, 255, 255,
    255, 255, 255, 255, 255, 255, 255, 255, 255, 255, 255, 255, 255, 255, 255, 255, 255, 255, 255, 255, 255, 255, 255, 255,
    255, 255, 255, 255, 255, 255, 255, 255, 255, 255, 255, 255, 255, 255, 255, 255, 255, 255, 255, 255, 255, 255, 255, 255,
    255, 255, 255, 255, 255, 255, 255, 255, 255, 255, 255, 254, 0, 0, 0, 0, 0, 0, 0, 0, 0, 0, 0, 0, 0, 0, 0, 0, 0, 0, 0, 0,
    0, 0, 0, 0, 0, 0, 0, 0, 0, 0, 0, 0, 0, 0, 0, 0, 0, 0, 0, 0, 0, 0, 0, 0, 0, 0, 0, 0, 0, 0, 0, 0, 0, 0, 0, 0, 0, 0, 0, 0,
    0, 0, 0, 0, 1]
  e := [1, 0, 1]
  d := [30, 119, 225, 136, 30, 119, 225, 136, 30, 119, 225, 136, 30, 119, 225, 136, 30, 119, 225, 136, 30, 119, 225, 136, 30,
    119, 225, 136, 30, 119, 225, 136, 30, 119, 225, 136, 30, 119, 225, 136, 30, 119, 225, 136, 30, 119, 225, 136, 30, 119,
    225, 136, 30, 119, 225, 136, 30, 119, 225, 136, 30, 119, 225, 136, 30, 89, 105, 166, 150, 89, 105, 166, 150, 89, 105,
    166, 150, 89, 105, 166, 150, 89, 105, 166, 150, 89, 105, 166, 150, 89, 105, 166, 150, 89, 105, 166, 150, 89, 105, 166,
    150, 89, 105, 166, 150, 89, 105, 166, 150, 89, 105, 166, 150, 89, 105, 166, 150, 89, 105, 166, 150, 89, 105, 166, 150,
    89, 105, 166, 150, 89, 105, 166, 150, 89, 105, 166, 150, 89, 105, 166, 150, 89, 105, 166, 150, 89, 105, 166, 150, 89,
    105, 166, 150, 89, 105, 166, 150, 89, 105, 166, 150, 89, 105, 166, 150, 89, 105, 166, 150, 89, 105, 166, 150, 89, 105,
    166, 150, 89, 105, 166, 150, 89, 105, 166, 150, 89, 105, 166, 150, 89, 105, 166, 150, 89, 105, 166, 150, 89, 105, 166,
    150, 89, 105, 166, 150, 89, 105, 166, 150, 89, 105, 166, 150, 89, 105, 166, 150, 89, 105, 166, 150, 89, 105, 166, 150,
    89, 105, 166, 150, 89, 105, 166, 150, 89, 105, 166, 150, 89, 105, 166, 150, 89, 105, 166, 150, 89, 105, 166, 150, 89,
    105, 166, 150, 89, 105, 166, 150, 89, 105, 166, 150, 89, 105, 166, 150, 89, 105, 166, 150, 89, 105, 166, 150, 89, 105,
    158, 248, 97, 7, 158, 248, 97, 7, 158, 248, 97, 7, 158, 248, 97, 7, 158, 248, 97, 7, 158, 248, 97, 7, 158, 248, 97, 7,
    158, 248, 97, 7, 158, 248, 97, 7, 158, 248, 97, 7, 158, 248, 97, 7, 158, 248, 97, 7, 158, 248, 97, 7, 158, 248, 97, 7,
    158, 248, 97, 7, 158, 248, 97, 7, 159]
  coefficient := [73, 34, 73, 34, 73, 18, 73, 18, 73, 18, 72, 146, 72, 146, 72, 146, 68, 146, 68, 146, 36, 146, 36, 146, 36, 145, 36, 145,
    36, 145, 36, 137, 36, 137, 36, 73, 36, 73, 36, 73, 34, 73, 34, 73, 34, 73, 18, 73, 18, 72, 146, 72, 146, 72, 146, 68,
    146, 68, 146, 68, 146, 36, 146, 36, 145]
  p := [1, 255, 255, 255, 255, 255, 255, 255, 255, 255, 255, 255, 255, 255, 255, 255, 255, 255, 255, 255, 255, 255, 255, 255,
    255, 255, 255, 255, 255, 255, 255, 255, 255, 255, 255, 255, 255, 255, 255, 255, 255, 255, 255, 255, 255, 255, 255, 255,
    255, 255, 255, 255, 255, 255, 255, 255, 255, 255, 255, 255, 255, 255, 255, 255, 255, 255]
  q := [7, 255, 255, 255, 255, 255, 255, 255, 255, 255, 255, 255, 255, 255, 255, 255, 255, 255, 255, 255, 255, 255, 255, 255,
    255, 255, 255, 255, 255, 255, 255, 255, 255, 255, 255, 255, 255, 255, 255, 255, 255, 255, 255, 255, 255, 255, 255, 255,
    255, 255, 255, 255, 255, 255, 255, 255, 255, 255, 255, 255, 255, 255, 255, 255, 255, 255, 255, 255, 255, 255, 255, 255,
    255, 255, 255, 255, 255, 255, 255, 255, 255, 255, 255, 255, 255, 255, 255, 255, 255, 255, 255, 255, 255, 255, 255, 255,
    255, 255, 255, 255, 255, 255, 255, 255, 255, 255, 255, 255, 255, 255, 255, 255, 255, 255, 255, 255, 255, 255, 255, 255,
    255, 255, 255, 255, 255, 255, 255, 255, 255, 255, 255, 255, 255, 255, 255, 255, 255, 255, 255, 255, 255, 255, 255, 255,
    255, 255, 255, 255, 255, 255, 255, 255, 255, 255, 255, 255, 255, 255, 255, 255, 255, 255, 255, 255, 255, 255, 255, 255,
    255, 255, 255, 255, 255, 255, 255, 255, 255, 255, 255, 255, 255, 255, 255, 255, 255, 255, 255, 255, 255, 255, 255, 255,
    255, 255, 255, 255, 255, 255, 255, 255, 255, 255, 255, 255, 255, 255, 255, 255, 255, 255, 255, 255, 255, 255, 255, 255,
    255, 255, 255, 255, 255, 255, 255, 255, 255, 255, 255, 255, 255, 255, 255, 255, 255, 255, 255, 255, 255, 255, 255, 255,
    255, 255, 255, 255, 255, 255, 255, 255, 255, 255, 255, 255, 255, 255, 255, 255, 255, 255, 255, 255, 255, 255, 255, 255,
    255, 255, 255, 255, 255, 255, 255, 255, 255, 255, 255, 255]
  exp := some [1, 128, 128, 127, 127, 128, 128, 127, 127, 128, 128, 127, 127, 128, 128, 127, 127, 128, 128, 127, 127, 128, 128, 127,
    127, 128, 128, 127, 127, 128, 128, 127, 127, 128, 128, 127, 127, 128, 128, 127, 127, 128, 128, 127, 127, 128, 128, 127,
    127, 128, 128, 127, 127, 128, 128, 127, 127, 128, 128, 127, 127, 128, 128, 127, 127, 127]
  exq := some [6, 89, 105, 166, 150, 89, 105, 166, 150, 89, 105, 166, 150, 89, 105, 166, 150, 89, 105, 166, 150, 89, 105, 166, 150, 89,
    105, 166, 150, 89, 105, 166, 150, 89, 105, 166, 150, 89, 105, 166, 150, 89, 105, 166, 150, 89, 105, 166, 150, 89, 105,
    166, 150, 89, 105, 166, 150, 89, 105, 166, 150, 89, 105, 166, 150, 89, 105, 166, 150, 89, 105, 166, 150, 89, 105, 166,
    150, 89, 105, 166, 150, 89, 105, 166, 150, 89, 105, 166, 150, 89, 105, 166, 150, 89, 105, 166, 150, 89, 105, 166, 150,
    89, 105, 166, 150, 89, 105, 166, 150, 89, 105, 166, 150, 89, 105, 166, 150, 89, 105, 166, 150, 89, 105, 166, 150, 89,
    105, 166, 150, 89, 105, 166, 150, 89, 105, 166, 150, 89, 105, 166, 150, 89, 105, 166, 150, 89, 105, 166, 150, 89, 105,
    166, 150, 89, 105, 166, 150, 89, 105, 166, 150, 89, 105, 166, 150, 89, 105, 166, 150, 89, 105, 166, 150, 89, 105, 166,
    150, 89, 105, 166, 150, 89, 105, 166, 150, 89, 105, 166, 150, 89, 105, 166, 150, 89, 105, 166, 150, 89, 105, 166, 150,
    89, 105, 166, 150, 89, 105, 166, 150, 89, 105, 166, 150, 89, 105, 166, 150, 89, 105, 166, 150, 89, 105, 166, 150, 89,
    105, 166, 150, 89, 105, 166, 150, 89, 105, 166, 150, 89, 105, 166, 150, 89, 105, 166, 150, 89, 105, 166, 150, 89, 105,
    166, 150, 89, 105, 166, 150, 89, 105, 166, 150, 89, 105, 166, 150, 89, 105, 166, 150, 89, 105, 166, 150, 89, 105, 165]

def mersennePriv : PrivateKey where
  keyType := ⟨"ssh-rsa", "ssh-rsa", "RSA", false, false, .rsa⟩
  kind := .rsa mersenneRsa
  pubkey := ⟨⟨"ssh-rsa", "ssh-rsa", "RSA", false, false, .rsa⟩, .rsa mersenneRsa.e mersenneRsa.n, none⟩
  magic := 1
  comment := "mersenne"

theorem mersennePriv_wf : WellFormedPriv true mersennePriv := by
  refine ⟨by decide +kernel, rfl, by decide, rfl, rfl, rfl, ?_, ?_, ?_, ?_, ?_, ?_, ?_, ?_⟩
  all_goals first
    | exact ⟨by unfold Shortest; decide +kernel, by decide +kernel⟩
    | exact ⟨by decide +kernel, by decide +kernel, .inr ⟨by decide +kernel, by unfold Shortest; decide +kernel⟩⟩

theorem mersenne_numbers : RsaNumbers (natOf mersenneRsa.n) (natOf mersenneRsa.e) (natOf mersenneRsa.d) (natOf mersenneRsa.p)
    (natOf mersenneRsa.q) (natOf mersenneRsa.coefficient) where
  primeP := by
    have e : natOf mersenneRsa.p = 2 ^ 521 - 1 := by decide +kernel
    rw [e, isPrime_iff]
    exact lucas_lehmer_sufficiency 521 (by decide) (by norm_num)
  primeQ := by
    have e : natOf mersenneRsa.q = 2 ^ 2203 - 1 := by decide +kernel
    rw [e, isPrime_iff]
    exact lucas_lehmer_sufficiency 2203 (by decide) (by norm_num)
  oddP := by decide +kernel
  oddQ := by decide +kernel
  different := by decide +kernel
  modulus := by decide +kernel
  inverseP := by decide +kernel
  inverseQ := by decide +kernel
  coefficient := by decide +kernel

theorem mersenne_large : 256 ^ 93 ≤ natOf mersenneRsa.n := by decide +kernel

theorem mersenne_supported : Concrete.rsaSupported (natOf mersenneRsa.n) (natOf mersenneRsa.e) :=
  ⟨by decide +kernel, by decide +kernel, by decide +kernel, by decide +kernel⟩

/-- This key signs with these primitives and the signature verifies. -/
example (D : FidoDev) (msg : Bytes) : ∃ sig, mersennePriv.sign ⟨true, true, .none⟩ (Concrete.realCrypto []) D msg = .ok (some sig) ∧
    verifySignature (Concrete.realCrypto []) sig msg mersennePriv.pubkey = .ok sig :=
  C145_signs ⟨true, true, .none⟩ (Concrete.realCrypto []) D _ _ (Concrete.rsa_signs []) (Concrete.rsa_verifies []) mersennePriv mersenneRsa rfl mersennePriv_wf rfl
    mersenne_numbers mersenne_large mersenne_supported msg

/-- The file of this key. -/
theorem mersenne_file : ∃ t, PrivateKey.fromStringWithPassphrase ⟨true, true, .none⟩ (Concrete.realCrypto []) t none = .ok mersennePriv := by
  obtain ⟨t, _, h⟩ := C41_roundtrip ⟨true, true, .none⟩ (Concrete.realCrypto []) none mersennePriv mersennePriv_wf (fun w h => by
    have e : mersennePriv.encode = .ok (okOf [] mersennePriv.encode) := okOf_eq (d := []) (by decide +kernel)
    rw [e] at h
    rw [← Res.ok.inj h]
    decide +kernel)
  exact ⟨t, h⟩

-- The hypotheses of `C145_crt` and `C145_sshsig`.
example (D : FidoDev) (msg : Bytes) : ∃ t v, PrivateKey.fromStringWithPassphrase ⟨true, true, .none⟩ (Concrete.realCrypto []) t none = .ok mersennePriv ∧
    VerifiedSshSignature.newWithPrivateKey ⟨true, true, .none⟩ (Concrete.realCrypto []) D msg "git" mersennePriv none = .ok v ∧ v.message = msg := by
  obtain ⟨t, h⟩ := mersenne_file
  obtain ⟨v, h1, h2, _⟩ := C145_sshsig ⟨true, true, .none⟩ (Concrete.realCrypto []) D _ _ (Concrete.rsa_signs []) (Concrete.rsa_verifies []) none t mersennePriv mersenneRsa rfl h
    rfl mersenne_numbers mersenne_large mersenne_supported msg "git" none
  exact ⟨t, v, h, h1, h2⟩

end Ssh
