import Verif.Concrete.Domain
import Verif.Lemmas.Asn1
import Verif.Lemmas.Rsa

/-!
# The RSA of Ec.lean and Crypto.lean is the RSA of RFC 8017

`rsaVerify` accepts exactly what RSASSA-PKCS1-v1_5 accepts, for moduli of 256 to 1024 bytes and exponents from 3 to 33 bits; `rsaSign`
reads every PKCS#1 key and computes the signature by the Chinese remainder theorem.
-/

namespace Ssh.Concrete

open Ssh.Spec

/-! ### Reading PKCS#1 -/

theorem derNext_eq {tag : UInt8} {l c rest : Bytes} (h : DerLength c.length l) (hc : c.length < 256 ^ 8) :
    derNext (tag :: (l ++ (c ++ rest))) = some (tag, c, rest) := by
  rcases h with ⟨h1, rfl⟩ | ⟨h1, l', rfl, h2, h3⟩
  · have hn : (UInt8.ofNat c.length).toNat = c.length := by rw [u8_ofNat_toNat]; omega
    unfold derNext
    simp only [List.cons_append, List.nil_append]
    rw [if_pos (by rw [UInt8.lt_iff_toNat_lt, hn]; exact h1), hn, if_neg (by rw [List.length_append]; omega), List.take_left, List.drop_left]
  · have hl : l'.length ≤ 8 := shortest_length h2 (by rw [h3]; exact hc)
    have hpos : l'.length ≠ 0 := by
      intro h0
      rw [List.eq_nil_of_length_eq_zero h0] at h3
      simp only [natOf] at h3
      omega
    have hb : ∀ i, i ≤ 8 → (UInt8.ofNat i ||| 0x80).toNat = i + 0x80 ∧ ¬ (UInt8.ofNat i ||| 0x80) < 0x80 := by decide +kernel
    obtain ⟨b1, b2⟩ := hb _ hl
    unfold derNext
    simp only [List.cons_append]
    rw [if_neg b2, b1, Nat.add_sub_cancel, List.take_left, List.drop_left, toNat_eq, h3, if_neg (by rw [List.length_append]; omega),
      List.take_left, List.drop_left]

theorem derNext_integer {n : Nat} {w rest : Bytes} (h : DerInteger n w) (hw : w.length < 256 ^ 8) :
    ∃ c, derNext (w ++ rest) = some (2, c, rest) ∧ toNat c = n ∧ 2 ≤ w.length := by
  obtain ⟨l, c, rfl, h1, h2⟩ := h
  refine ⟨c, ?_, by rw [toNat_eq]; exact h2.1, ?_⟩
  · have := derNext_eq (tag := 2) (rest := rest) h1 (by simp only [List.length_append] at hw; omega)
    simpa only [List.cons_append, List.nil_append, List.append_assoc] using this
  · have : l ≠ [] := by
      rcases h1 with ⟨_, rfl⟩ | ⟨_, l', rfl, _⟩ <;> simp
    have := List.length_pos_iff.mpr this
    simp only [List.length_append, List.length_cons, List.length_nil]
    omega

theorem derAll_cons {f : Nat} {b c rest : Bytes} {t : UInt8} {tl : List (UInt8 × Bytes)} (hb : b ≠ []) (h : derNext b = some (t, c, rest))
    (h' : derAll f rest = some tl) : derAll (f + 1) b = some ((t, c) :: tl) := by
  cases b with
  | nil => exact absurd rfl hb
  | cons x b =>
    unfold derAll
    rw [h]
    simp [h']

theorem derAll_integers : ∀ (ws : List (Nat × Bytes)) (f : Nat), (∀ x ∈ ws, DerInteger x.1 x.2) → (ws.map (·.2)).flatten.length < 256 ^ 8 →
    ws.length < f → ∃ l, derAll f (ws.map (·.2)).flatten = some l ∧ l.map (fun x => toNat x.2) = ws.map (·.1)
  | [], f + 1, _, _, _ => ⟨[], by simp [derAll], rfl⟩
  | [], 0, _, _, h => absurd h (Nat.not_lt_zero _)
  | (n, w) :: ws, 0, _, _, h => absurd h (Nat.not_lt_zero _)
  | (n, w) :: ws, f + 1, hi, hl, hf => by
    simp only [List.map_cons, List.flatten_cons, List.length_append] at hl ⊢
    obtain ⟨c, h1, h2, h3⟩ := derNext_integer (rest := (ws.map (·.2)).flatten) (hi _ List.mem_cons_self) (by dsimp only; omega)
    obtain ⟨l, h4, h5⟩ := derAll_integers ws f (fun x hx => hi x (List.mem_cons_of_mem _ hx)) (by omega)
      (by simp only [List.length_cons] at hf; omega)
    refine ⟨(2, c) :: l, derAll_cons ?_ h1 h4, by rw [List.map_cons, h2, h5]⟩
    intro h
    have := congrArg List.length h
    simp only [List.length_append, List.length_nil] at this
    dsimp only at h3
    omega

theorem derSeq_pkcs1 {n e d p q dp dq qinv : Nat} {der : Bytes} (h : Pkcs1 n e d p q dp dq qinv der) (hl : der.length < 256 ^ 8) :
    ∃ a b1 b2 b3 b4 b5 b6 b7 b8, derSeq der = some [a, b1, b2, b3, b4, b5, b6, b7, b8] ∧ toNat b1.2 = n ∧ toNat b4.2 = p ∧ toNat b5.2 = q ∧
      toNat b6.2 = dp ∧ toNat b7.2 = dq ∧ toNat b8.2 = qinv := by
  obtain ⟨l, v, w1, w2, w3, w4, w5, w6, w7, w8, rfl, hlen, hv, h1, h2, h3, h4, h5, h6, h7, h8⟩ := h
  have hf : v ++ (w1 ++ (w2 ++ (w3 ++ (w4 ++ (w5 ++ (w6 ++ (w7 ++ w8))))))) =
      ([(0, v), (n, w1), (e, w2), (d, w3), (p, w4), (q, w5), (dp, w6), (dq, w7), (qinv, w8)].map (·.2)).flatten := by
    simp
  rw [hf] at hlen hl ⊢
  have hshort : (([(0, v), (n, w1), (e, w2), (d, w3), (p, w4), (q, w5), (dp, w6), (dq, w7), (qinv, w8)].map (·.2)).flatten).length <
      256 ^ 8 := by
    rw [List.length_append, List.length_append] at hl
    omega
  have hnine : 9 ≤ (([(0, v), (n, w1), (e, w2), (d, w3), (p, w4), (q, w5), (dp, w6), (dq, w7), (qinv, w8)].map (·.2)).flatten).length := by
    have h2' : ∀ {k : Nat} {w : Bytes}, DerInteger k w → 1 ≤ w.length := by
      rintro k w ⟨l, c, rfl, _⟩
      simp
    have := h2' hv; have := h2' h1; have := h2' h2; have := h2' h3; have := h2' h4; have := h2' h5; have := h2' h6; have := h2' h7
    have := h2' h8
    simp only [List.map_cons, List.map_nil, List.flatten_cons, List.flatten_nil, List.length_append, List.length_nil]
    omega
  obtain ⟨ls, g1, g2⟩ := derAll_integers [(0, v), (n, w1), (e, w2), (d, w3), (p, w4), (q, w5), (dp, w6), (dq, w7), (qinv, w8)]
    ((([(0, v), (n, w1), (e, w2), (d, w3), (p, w4), (q, w5), (dp, w6), (dq, w7), (qinv, w8)].map (·.2)).flatten).length + 1)
    (by simp only [List.mem_cons, List.not_mem_nil, or_false]; rintro x (rfl | rfl | rfl | rfl | rfl | rfl | rfl | rfl | rfl) <;> assumption) hshort
    (by simp only [List.length_cons, List.length_nil]; omega)
  have g3 := derNext_eq (tag := 0x30) (rest := []) hlen hshort
  rw [List.append_nil] at g3
  have hs : derSeq ([0x30] ++ (l ++ ([(0, v), (n, w1), (e, w2), (d, w3), (p, w4), (q, w5), (dp, w6), (dq, w7), (qinv, w8)].map (·.2)).flatten)) = some ls := by
    unfold derSeq
    simp only [List.cons_append, List.nil_append]
    rw [g3]
    exact g1
  have hlen9 : ls.length = 9 := by
    have := congrArg List.length g2
    simpa using this
  match ls, hlen9, g2, hs with
  | [a, b1, b2, b3, b4, b5, b6, b7, b8], _, g2, hs =>
    simp only [List.map_cons, List.map_nil, List.cons.injEq, and_true] at g2
    exact ⟨a, b1, b2, b3, b4, b5, b6, b7, b8, hs, g2.2.1, g2.2.2.2.2.1, g2.2.2.2.2.2.1, g2.2.2.2.2.2.2.1, g2.2.2.2.2.2.2.2.1,
      g2.2.2.2.2.2.2.2.2⟩

/-! ### The encoded message -/

/-- The number of bytes. -/
def octets (n : Nat) : Nat := (n.log2 + 8) / 8

theorem octets_eq {n : Nat} (h : 0 < n) : Octets n (octets n) := by
  unfold octets
  have h1 : 2 ^ n.log2 ≤ n := Nat.log2_self_le (by omega)
  have h2 : n < 2 ^ (n.log2 + 1) := Nat.lt_log2_self
  refine ⟨by omega, ?_, ?_⟩
  · refine Nat.le_trans ?_ h1
    rw [show (256 : Nat) = 2 ^ 8 from rfl, ← pow_mul]
    exact Nat.pow_le_pow_right (by decide) (by omega)
  · refine Nat.lt_of_lt_of_le h2 ?_
    rw [show (256 : Nat) = 2 ^ 8 from rfl, ← pow_mul]
    exact Nat.pow_le_pow_right (by decide) (by omega)

variable (table : List ((String × Bytes × UInt32) × (Bytes × Bytes)))

theorem emsa_iff {m em : Bytes} {k : Nat} : Emsa (realCrypto table) m k em ↔ 94 ≤ k ∧ em = rsaPadded k .sha512 m := by
  have hlen := sha512_length m
  have hinfo : Spec.sha512Info ((realCrypto table).sha512 m) = rsaInfo .sha512 m := rfl
  have hil : (rsaInfo .sha512 m).length = 83 := by
    unfold rsaInfo sha512Info
    rw [List.length_append, hlen]
    rfl
  unfold Emsa rsaPadded
  rw [hinfo]
  dsimp only
  rw [hil]
  constructor
  · rintro ⟨h1, ps, h2, rfl⟩
    simp only [List.length_append, List.length_cons, List.length_nil, List.length_replicate, hil] at h1
    refine ⟨by omega, ?_⟩
    rw [show k - 3 - 83 = ps by omega]
    rfl
  · rintro ⟨h, rfl⟩
    refine ⟨?_, k - 3 - 83, by omega, rfl⟩
    simp only [List.length_append, List.length_cons, List.length_replicate, hil]
    omega

/-! ### Verifying and signing -/

/-- Moduli of 256 to 1024 bytes and exponents from 3 to 33 bits. -/
def rsaSupported (n e : Nat) : Prop := 256 ^ 255 ≤ n ∧ n < 256 ^ 1024 ∧ 3 ≤ e ∧ e < 2 ^ 33

theorem octets_bounds {n : Nat} (hn : 0 < n) : ¬ (octets n < 256 ∨ octets n > 1024) ↔ 256 ^ 255 ≤ n ∧ n < 256 ^ 1024 := by
  obtain ⟨h0, h1, h2⟩ := octets_eq hn
  constructor
  · intro h
    exact ⟨Nat.le_trans (Nat.pow_le_pow_right (by decide) (by omega)) h1, Nat.lt_of_lt_of_le h2 (Nat.pow_le_pow_right (by decide) (by omega))⟩
  · rintro ⟨h3, h4⟩
    have a := (Nat.pow_lt_pow_iff_right (a := 256) (by decide)).mp (Nat.lt_of_le_of_lt h3 h2)
    have b := (Nat.pow_lt_pow_iff_right (a := 256) (by decide)).mp (Nat.lt_of_le_of_lt h1 h4)
    omega

theorem octets_unique' {n k : Nat} (h : Octets n k) (hn : 0 < n) : k = octets n := by
  obtain ⟨a0, a1, a2⟩ := h
  obtain ⟨b0, b1, b2⟩ := octets_eq hn
  have a := (Nat.pow_lt_pow_iff_right (a := 256) (by decide)).mp (Nat.lt_of_le_of_lt a1 b2)
  have b := (Nat.pow_lt_pow_iff_right (a := 256) (by decide)).mp (Nat.lt_of_le_of_lt b1 a2)
  omega

theorem rsa_verifies : VerifiesRsa (realCrypto table) rsaSupported := by
  intro nb eb m s
  show rsaVerify .sha512 nb eb m s = true ↔ _
  unfold rsaVerify
  simp only [force_eq, toNat_eq]
  rw [show (natOf nb).log2 = (natOf nb).log2 from rfl]
  change (if octets (natOf nb) < 256 ∨ octets (natOf nb) > 1024 ∨ s.length ≠ octets (natOf nb) ∨ natOf s ≥ natOf nb ∨ natOf eb < 3 ∨
    natOf eb ≥ 2 ^ 33 then false else powMod (natOf s) (natOf eb) (natOf nb) == natOf (rsaPadded (octets (natOf nb)) .sha512 m)) = true ↔ _
  constructor
  · intro h
    split at h
    · cases h
    · rename_i hb
      have hn : 0 < natOf nb := by omega
      obtain ⟨b1, b2⟩ := (octets_bounds hn).mp (by omega)
      rw [beq_iff_eq, powMod_eq (Nat.lt_of_lt_of_le (Nat.one_lt_two_pow (n := 8) (by decide)) (Nat.le_trans (Nat.le_self_pow (n := 255) (by decide) 256) b1))] at h
      exact ⟨⟨b1, b2, by omega, by omega⟩, octets (natOf nb), _, octets_eq hn, (emsa_iff table).mpr ⟨by omega, rfl⟩, by omega, by omega, h⟩
  · rintro ⟨⟨b1, b2, b3, b4⟩, k, em, ho, hem, hs, hlt, hv⟩
    have hn : 0 < natOf nb := by omega
    have hb := (octets_bounds hn).mpr ⟨b1, b2⟩
    have hk := octets_unique' ho hn
    rw [hk] at hem hs
    obtain ⟨_, rfl⟩ := (emsa_iff table).mp hem
    rw [if_neg (by omega), beq_iff_eq, powMod_eq (Nat.lt_of_lt_of_le (Nat.one_lt_two_pow (n := 8) (by decide)) (Nat.le_trans (Nat.le_self_pow (n := 255) (by decide) 256) b1))]
    exact hv

theorem rsa_powers : PowersRsa (realCrypto table) := by
  refine ⟨fun alg n m => natOf (rsaPadded (octets n) alg m), fun alg nb eb m s h => ?_⟩
  change rsaVerify alg nb eb m s = true at h
  unfold rsaVerify at h
  simp only [force_eq, toNat_eq] at h
  change (if octets (natOf nb) < 256 ∨ octets (natOf nb) > 1024 ∨ s.length ≠ octets (natOf nb) ∨ natOf s ≥ natOf nb ∨ natOf eb < 3 ∨
    natOf eb ≥ 2 ^ 33 then false else powMod (natOf s) (natOf eb) (natOf nb) == natOf (rsaPadded (octets (natOf nb)) alg m)) = true at h
  split at h
  · cases h
  · rename_i hb
    have hn : 0 < natOf nb := by omega
    obtain ⟨b1, b2⟩ := (octets_bounds hn).mp (by omega)
    rw [beq_iff_eq, powMod_eq (Nat.lt_of_lt_of_le (Nat.one_lt_two_pow (n := 8) (by decide)) (Nat.le_trans (Nat.le_self_pow (n := 255) (by decide) 256) b1))] at h
    have hl : s.length = octets (natOf nb) := by omega
    exact ⟨by rw [hl]; exact octets_eq hn, by omega, h⟩

theorem rsasp1_nat {m p q dp dq qinv : Nat} (hp : 1 < p) (hq : 1 < q) : rsasp1 p q dp dq qinv m =
    powMod m dq q + q * ((powMod m dp p + p - powMod m dq q % p) * qinv % p) := by
  unfold rsasp1
  rw [powMod_eq hp, powMod_eq hq]
  dsimp only
  congr 2
  have hle : m ^ dq % q % p ≤ m ^ dp % p + p := Nat.le_trans (Nat.le_of_lt (Nat.mod_lt _ (by omega))) (Nat.le_add_left _ _)
  have : (((m ^ dp % p + p - m ^ dq % q % p) * qinv % p : Nat) : Int) = (((m ^ dp % p : Nat) : Int) - ((m ^ dq % q : Nat) : Int)) * qinv % p := by
    rw [Int.natCast_emod, Nat.cast_mul, Nat.cast_sub hle, Nat.cast_add]
    refine Int.ModEq.mul_right _ ?_
    rw [Int.modEq_iff_dvd, Int.natCast_emod (m ^ dq % q) p, Int.emod_def]
    exact ⟨-1 - ((m ^ dq % q : Nat) : Int) / p, by ring⟩
  rw [← this, Int.toNat_natCast]

theorem rsa_signs : SignsRsa (realCrypto table) (fun n _ _ _ _ => 256 ^ 93 ≤ n) := by
  intro n e d p q dp dq qinv der m hder hl
  obtain ⟨a, b1, b2, b3, b4, b5, b6, b7, b8, hs, rfl, rfl, rfl, rfl, rfl, rfl⟩ := derSeq_pkcs1 hder hl
  have key : (realCrypto table).rsaSign der m = if octets (toNat b1.2) < 94 ∨ toNat b4.2 < 2 ∨ toNat b5.2 < 2 then none else
      if rsasp1 (toNat b4.2) (toNat b5.2) (toNat b6.2) (toNat b7.2) (toNat b8.2) (natOf (rsaPadded (octets (toNat b1.2)) .sha512 m)) <
        256 ^ octets (toNat b1.2) then
        some (natBytes (octets (toNat b1.2))
          (rsasp1 (toNat b4.2) (toNat b5.2) (toNat b6.2) (toNat b7.2) (toNat b8.2) (natOf (rsaPadded (octets (toNat b1.2)) .sha512 m))))
      else none := by
    show rsaSign der m = _
    unfold rsaSign
    rw [hs]
    simp only [force_eq]
    change (if octets (toNat b1.2) < 94 ∨ toNat b4.2 < 2 ∨ toNat b5.2 < 2 then none else _) = _
    split
    · rfl
    · rename_i hb
      rw [rsasp1_nat (by omega) (by omega), ← toNat_eq]
      rfl
  rw [key]
  constructor
  · intro hn h1 h2 hsup
    have hpos : 0 < toNat b1.2 := Nat.lt_of_lt_of_le (Nat.pow_pos (by decide)) hsup
    obtain ⟨o1, o2, o3⟩ := octets_eq hpos
    have := (Nat.pow_lt_pow_iff_right (a := 256) (by decide)).mp (Nat.lt_of_le_of_lt hsup o3)
    have hp2 := hn.oddP
    have hq2 := hn.oddQ
    rw [if_neg (by omega), if_pos]
    · exact ⟨_, rfl⟩
    · refine Nat.lt_of_le_of_lt ?_ o3
      rw [h1, h2, rsasp1_eq hn]
      exact Nat.le_of_lt (Nat.mod_lt _ hpos)
  · intro s hs
    split at hs
    · cases hs
    · rename_i hb
      split at hs
      · rename_i hlt
        cases hs
        have hpos : 0 < toNat b1.2 := by
          rcases Nat.eq_zero_or_pos (toNat b1.2) with h | h
          · rw [h] at hb
            exact absurd (Or.inl (by decide)) hb
          · exact h
        refine ⟨_, _, octets_eq hpos, (emsa_iff table).mpr ⟨by omega, rfl⟩, natBytes_length _ _, ?_⟩
        rw [natOf_natBytes, Nat.mod_eq_of_lt hlt]
      · cases hs

end Ssh.Concrete
