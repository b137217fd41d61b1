import Verif.Spec.Rsa
import Mathlib.FieldTheory.Finite.Basic

/-! # The arithmetic of RSA -/

namespace Ssh

open Spec

theorem isPrime_iff {p : Nat} : IsPrime p ↔ Nat.Prime p := by
  rw [Nat.prime_def]
  rfl

/-- Fermat: exponents count modulo `p - 1`, unless they vanish. -/
theorem pow_reduce {p : Nat} (hp : Nat.Prime p) {a b : Nat} (ha : 0 < a) (hb : 0 < b) (h : a % (p - 1) = b % (p - 1)) (m : Nat) :
    m ^ a % p = m ^ b % p := by
  have : Fact p.Prime := ⟨hp⟩
  have key : ∀ c : Nat, 0 < c → (m : ZMod p) ^ c = if (m : ZMod p) = 0 then 0 else (m : ZMod p) ^ (c % (p - 1)) := by
    intro c hc
    split
    · rename_i h0
      rw [h0, zero_pow (by omega)]
    · rename_i h0
      conv_lhs => rw [← Nat.mod_add_div c (p - 1), pow_add, pow_mul, ZMod.pow_card_sub_one_eq_one h0, one_pow, mul_one]
  have : ((m ^ a : Nat) : ZMod p) = ((m ^ b : Nat) : ZMod p) := by
    rw [Nat.cast_pow, Nat.cast_pow, key a ha, key b hb, h]
  exact (ZMod.natCast_eq_natCast_iff' _ _ _).mp this

theorem pow_undo {p t : Nat} (hp : Nat.Prime p) (h2 : 2 < p) (h : t % (p - 1) = 1) (m : Nat) : m ^ t % p = m % p := by
  have ht : 0 < t := by
    rcases Nat.eq_zero_or_pos t with rfl | h'
    · simp at h
    · exact h'
  have := pow_reduce hp ht (b := 1) (by omega) (by rw [h, Nat.mod_eq_of_lt (by omega)]) m
  rwa [pow_one] at this

theorem crt_eq {p q a b : Nat} (hp : Nat.Prime p) (hq : Nat.Prime q) (hne : p ≠ q) (ha : a < p * q) (hb : b < p * q)
    (h1 : a % p = b % p) (h2 : a % q = b % q) : a = b := by
  have hc : Nat.Coprime p q := (Nat.coprime_primes hp hq).mpr hne
  have := (Nat.modEq_and_modEq_iff_modEq_mul hc).mp ⟨h1, h2⟩
  unfold Nat.ModEq at this
  rwa [Nat.mod_eq_of_lt ha, Nat.mod_eq_of_lt hb] at this

/-- RSASP1 with `d mod (p-1)` and `d mod (q-1)` is the power by `d`. -/
theorem rsasp1_eq {n e d p q qinv : Nat} (h : RsaNumbers n e d p q qinv) (m : Nat) :
    rsasp1 p q (d % (p - 1)) (d % (q - 1)) qinv m = m ^ d % n := by
  have hp := isPrime_iff.mp h.primeP
  have hq := isPrime_iff.mp h.primeQ
  have oP := h.oddP
  have oQ := h.oddQ
  have pos : ∀ x : Nat, 2 < x → e * d % (x - 1) = 1 → 0 < d % (x - 1) ∧ 0 < d := by
    intro x hx he
    have h1 : 0 < d % (x - 1) := by
      rcases Nat.eq_zero_or_pos (d % (x - 1)) with h0 | h0
      · rw [Nat.mul_mod, h0, Nat.mul_zero, Nat.zero_mod] at he
        cases he
      · exact h0
    exact ⟨h1, Nat.lt_of_lt_of_le h1 (Nat.mod_le _ _)⟩
  obtain ⟨p1, p2⟩ := pos p oP h.inverseP
  obtain ⟨q1, _⟩ := pos q oQ h.inverseQ
  have e1 : m ^ (d % (p - 1)) % p = m ^ d % p := pow_reduce hp p1 p2 (Nat.mod_mod _ _) m
  have e2 : m ^ (d % (q - 1)) % q = m ^ d % q := pow_reduce hq q1 p2 (Nat.mod_mod _ _) m
  unfold rsasp1
  simp only [e1, e2]
  generalize hs1 : m ^ d % p = s1
  generalize hs2 : m ^ d % q = s2
  have l2 : s2 < q := by rw [← hs2]; exact Nat.mod_lt _ (by omega)
  have hpz : (p : Int) ≠ 0 := by omega
  have t0 := Int.emod_nonneg (((s1 : Int) - s2) * qinv) hpz
  have t1 := Int.emod_lt_of_pos (((s1 : Int) - s2) * qinv) (show (0 : Int) < p by omega)
  generalize ht : (((s1 : Int) - s2) * qinv % p).toNat = t
  have htz : (t : Int) = ((s1 : Int) - s2) * qinv % p := by rw [← ht]; exact Int.toNat_of_nonneg t0
  have hts : t < p := by omega
  rw [h.modulus]
  refine crt_eq hp hq h.different ?_ (Nat.mod_lt _ (Nat.mul_pos (by omega) (by omega))) ?_ ?_
  · calc s2 + q * t < q + q * t := by omega
      _ = q * (t + 1) := by rw [Nat.mul_succ, Nat.add_comm]
      _ ≤ q * p := Nat.mul_le_mul_left _ hts
      _ = p * q := Nat.mul_comm _ _
  · rw [Nat.mod_mul_right_mod, hs1]
    have hq1 : ((q : Int) * qinv) % p = 1 := by
      have := h.coefficient
      exact_mod_cast this
    have hcast : ((s2 + q * t : Nat) : Int) % p = (s1 : Int) % p := by
      push_cast
      rw [htz, Int.add_emod, Int.mul_emod, Int.emod_emod_of_dvd _ (dvd_refl _), ← Int.mul_emod,
        show (q : Int) * (((s1 : Int) - s2) * qinv) = ((q : Int) * qinv) * ((s1 : Int) - s2) by ring, Int.mul_emod, hq1, one_mul,
        Int.emod_emod_of_dvd _ (dvd_refl _), ← Int.add_emod]
      congr 1
      ring
    have : (s2 + q * t) % p = s1 % p := by exact_mod_cast hcast
    rw [this, ← hs1, Nat.mod_mod]
  · rw [Nat.mod_mul_left_mod, hs2, Nat.add_mul_mod_self_left, Nat.mod_eq_of_lt l2]

/-- And the power by `e` undoes it. -/
theorem rsa_undo {n e d p q qinv : Nat} (h : RsaNumbers n e d p q qinv) (m : Nat) (hm : m < n) : (m ^ d % n) ^ e % n = m := by
  have hp := isPrime_iff.mp h.primeP
  have hq := isPrime_iff.mp h.primeQ
  have oP := h.oddP
  have oQ := h.oddQ
  have hn := h.modulus
  subst hn
  rw [← Nat.pow_mod, ← pow_mul, Nat.mul_comm d e]
  refine crt_eq hp hq h.different (Nat.mod_lt _ (Nat.mul_pos (by omega) (by omega))) hm ?_ ?_
  · rw [Nat.mod_mul_right_mod]
    exact pow_undo hp oP h.inverseP m
  · rw [Nat.mod_mul_left_mod]
    exact pow_undo hq oQ h.inverseQ m

end Ssh
