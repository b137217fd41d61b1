import Verif.Spec.Curves
import Verif.Lemmas.Rsa
import Verif.Lemmas.Bytes
import Mathlib.Algebra.Group.Basic
import Mathlib.Data.Nat.ModEq
import Mathlib.Data.Nat.Prime.Basic
import Mathlib.Data.Int.GCD
import Mathlib.Tactic.Ring

/-! # ECDSA and Ed25519 signatures are valid -/

namespace Ssh

open Spec

variable {E : Type} [AddCommGroup E]

theorem nsmul_mod {G : E} {n : Nat} (h : n • G = 0) (a : Nat) : (a % n) • G = a • G := by
  conv => rhs; rw [← Nat.mod_add_div a n, add_nsmul, mul_nsmul, h, nsmul_zero, add_zero]

theorem nsmul_modEq {G : E} {n a b : Nat} (h : n • G = 0) (hab : a ≡ b [MOD n]) : a • G = b • G := by
  rw [← nsmul_mod h a, ← nsmul_mod h b, hab]

theorem inverse_exists {n s : Nat} (hn : IsPrime n) (h0 : 0 < s) (h : s < n) : ∃ w, s * w % n = 1 := by
  have hp := isPrime_iff.mp hn
  have hc : Nat.Coprime s n := (Nat.coprime_of_lt_prime (by omega) h hp).symm
  obtain ⟨w, hw⟩ := Nat.exists_mul_mod_eq_one_of_coprime hc hp.one_lt
  exact ⟨w, hw.2⟩

theorem ecdsa_valid (c : EcDomain E) {d e r s : Nat} (h : EcdsaSignature c d e r s) : EcdsaValid c (d • c.base) e r s := by
  obtain ⟨k, kinv, hk0, hk, hinv, hr, hr0, hs, hs0⟩ := h
  have hn := (isPrime_iff.mp c.prime)
  have hpos : 0 < c.order := hn.pos
  have hone : 1 % c.order = 1 := Nat.mod_eq_of_lt hn.one_lt
  have hrn : r < c.order := by rw [hr]; exact Nat.mod_lt _ hpos
  have hsn : s < c.order := by rw [hs]; exact Nat.mod_lt _ hpos
  obtain ⟨w, hw⟩ := inverse_exists c.prime (Nat.pos_of_ne_zero hs0) hsn
  have hw' : s * w ≡ 1 [MOD c.order] := by rw [Nat.ModEq, hw, hone]
  have hinv' : k * kinv ≡ 1 [MOD c.order] := by rw [Nat.ModEq, hinv, hone]
  have hs' : s ≡ kinv * (e + r * d) [MOD c.order] := by rw [hs]; exact Nat.mod_modEq _ _
  have key : e * w % c.order + d * (r * w % c.order) ≡ k [MOD c.order] := by
    calc e * w % c.order + d * (r * w % c.order) ≡ e * w + d * (r * w) [MOD c.order] :=
          Nat.ModEq.add (Nat.mod_modEq _ _) ((Nat.mod_modEq _ _).mul_left _)
      _ = 1 * (e + r * d) * w := by ring
      _ ≡ (k * kinv) * (e + r * d) * w [MOD c.order] := ((hinv'.symm.mul_right _).mul_right _)
      _ = k * ((kinv * (e + r * d)) * w) := by ring
      _ ≡ k * (s * w) [MOD c.order] := (hs'.symm.mul_right _).mul_left _
      _ ≡ k * 1 [MOD c.order] := hw'.mul_left _
      _ = k := by ring
  have hX : (e * w % c.order) • c.base + (r * w % c.order) • d • c.base = k • c.base := by
    rw [← mul_nsmul, ← add_nsmul]
    exact nsmul_modEq c.cycle key
  refine ⟨Nat.pos_of_ne_zero hr0, hrn, Nat.pos_of_ne_zero hs0, hsn, w, hw, ?_, ?_⟩
  · rw [hX]
    intro h0
    apply c.nontrivial
    have : (k * kinv) • c.base = 1 • c.base := nsmul_modEq c.cycle hinv'
    rw [mul_nsmul, h0, nsmul_zero, one_nsmul] at this
    exact this.symm
  · rw [hX, ← hr]

theorem edSignature_exists {C : Crypto} (c : EdDomain E) (seed m : Bytes) : ∃ sig, EdSignature C c seed m sig := by
  have key : ∀ n, n % c.order < 256 ^ 32 := fun n => Nat.lt_trans (Nat.mod_lt _ c.positive) c.small
  have enc : ∀ n, ∃ S : Bytes, S.length = 32 ∧ littleEndian S = n % c.order := fun n =>
    ⟨(beBytes 32 (n % c.order)).reverse, by simp, by
      rw [littleEndian, List.reverse_reverse, natOf_beBytes, Nat.mod_eq_of_lt (key n)]⟩
  obtain ⟨S, h1, h2⟩ := enc _
  exact ⟨_, S, h1, h2, rfl⟩

theorem edSignature_length {C : Crypto} {c : EdDomain E} {seed m sig : Bytes} (h : EdSignature C c seed m sig) : sig.length = 64 := by
  obtain ⟨S, hS, _, rfl⟩ := h
  rw [List.length_append, c.written_length, hS]

theorem ed_valid {C : Crypto} (c : EdDomain E) {seed m sig : Bytes} (h : EdSignature C c seed m sig) :
    EdValid C c (edPublic C c seed) m sig := by
  obtain ⟨S, hS, hv, rfl⟩ := h
  refine ⟨edScalar C seed • c.base, _, S, c.decode_written _, c.written_length _, hS, rfl, ?_, ?_⟩
  · rw [hv]; exact Nat.mod_lt _ c.positive
  · congr 1
    rw [hv]
    generalize littleEndian (C.sha512 ((C.sha512 seed).drop 32 ++ m)) % c.order = r
    generalize littleEndian (C.sha512 (c.written (r • c.base) ++ (edPublic C c seed ++ m))) % c.order = k
    rw [nsmul_mod c.cycle, add_nsmul, mul_comm, mul_nsmul, add_sub_cancel_right]

end Ssh
