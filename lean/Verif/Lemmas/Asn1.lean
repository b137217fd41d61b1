import Verif.Spec.PrivKey
import Verif.Spec.Sign
import Verif.Lemmas.Bytes

/-! # DER of an RSA private key -/

namespace Ssh

open Spec

theorem natBytes_spec (n : Nat) : NumBytes n (natBytes n) ∧ (n ≠ 0 → Shortest (natBytes n)) := by
  induction n using Nat.strongRecOn with
  | ind n ih =>
    unfold natBytes
    split
    · rename_i h
      have e : natOf [UInt8.ofNat n] = n := by simp [natOf]; omega
      by_cases hn : n = 0
      · subst hn
        exact ⟨⟨e, .inl rfl⟩, fun h => absurd rfl h⟩
      · have hs : Shortest [UInt8.ofNat n] := by
          simp only [Shortest, List.head?_cons, ne_eq, Option.some.injEq]
          intro h0
          rw [h0] at e
          exact hn (by rw [← e]; rfl)
        exact ⟨⟨e, .inr ⟨by simp, hs⟩⟩, fun _ => hs⟩
    · rename_i h
      obtain ⟨⟨h1, h2⟩, h3⟩ := ih (n / 256) (by omega)
      have h3 := h3 (by omega)
      have hne : natBytes (n / 256) ≠ [] := by
        intro h0
        rw [h0] at h1
        simp only [natOf] at h1
        omega
      have e : natOf (natBytes (n / 256) ++ [UInt8.ofNat n]) = n := by
        rw [natOf_append, h1]
        simp [natOf]
        omega
      have hs : Shortest (natBytes (n / 256) ++ [UInt8.ofNat n]) := by
        unfold Shortest at h3 ⊢
        rw [List.head?_append]
        cases hh : natBytes (n / 256) with
        | nil => exact absurd hh hne
        | cons x l => rw [hh] at h3; simpa using h3
      exact ⟨⟨e, .inr ⟨by simp, hs⟩⟩, fun _ => hs⟩


theorem derLen_spec (n : Nat) : DerLength n (derLength n) := by
  unfold DerLength derLength
  split
  · rename_i h
    exact .inl ⟨h, rfl⟩
  · rename_i h
    obtain ⟨⟨h1, _⟩, h2⟩ := natBytes_spec n
    have h2 := h2 (by omega)
    exact .inr ⟨by omega, _, rfl, h2, h1⟩

theorem signedBytes_spec (mag : Bytes) : DerUnsigned (natOf mag) (signedBytes mag) := by
  unfold signedBytes DerUnsigned
  rw [beNat_eq_natOf]
  obtain ⟨⟨h1, h2⟩, h3⟩ := natBytes_spec (natOf mag)
  cases hb : natBytes (natOf mag) with
  | nil => rw [hb] at h2; rcases h2 with h2 | h2
           · cases h2
           · exact absurd rfl h2.1
  | cons b t =>
    rw [hb] at h1 h2 h3
    dsimp only
    split
    · rename_i hlt
      by_cases h0 : natOf mag = 0
      · rcases h2 with h2 | h2
        · exact ⟨h1, .inl h2⟩
        · have hbz : b ≠ 0 := by simpa [Shortest] using h2.2
          exact ⟨h1, .inr (.inl ⟨b, t, rfl, hbz, hlt⟩)⟩
      · have hbz : b ≠ 0 := by simpa [Shortest] using h3 h0
        exact ⟨h1, .inr (.inl ⟨b, t, rfl, hbz, hlt⟩)⟩
    · rename_i hlt
      exact ⟨by rw [← h1]; simp [natOf], .inr (.inr ⟨b, t, rfl, UInt8.not_lt.mp hlt⟩)⟩

theorem derInteger_spec (mag : Bytes) : DerInteger (natOf mag) (derInteger mag) :=
  ⟨_, _, rfl, derLen_spec _, signedBytes_spec mag⟩

theorem rsaToDer_spec {r : RsaPrivateKey} {exp exq : Bytes} (h1 : r.exp = some exp) (h2 : r.exq = some exq) :
    ∃ der, rsaToDer r = .ok der ∧
      Pkcs1 (natOf r.n) (natOf r.e) (natOf r.d) (natOf r.p) (natOf r.q) (natOf exp) (natOf exq) (natOf r.coefficient) der := by
  refine ⟨_, by rw [rsaToDer, h1, h2]; rfl, ?_⟩
  exact ⟨_, _, _, _, _, _, _, _, _, _, rfl, derLen_spec _, derInteger_spec [0], derInteger_spec _, derInteger_spec _,
    derInteger_spec _, derInteger_spec _, derInteger_spec _, derInteger_spec _, derInteger_spec _, derInteger_spec _⟩

/-! ## Uniqueness -/

theorem long_head : ∀ k < 128, (UInt8.ofNat k ||| 0x80).toNat = 128 + k := by decide +kernel

theorem shortest_length {l : Bytes} {m : Nat} (hs : Shortest l) (h : natOf l < 256 ^ m) : l.length ≤ m := by
  match l, hs with
  | [], _ => simp
  | b :: t, hs =>
    have hb : b ≠ 0 := fun hb => hs (by simp [hb])
    have e := natOf_append [b] t
    rw [List.cons_append, List.nil_append] at e
    have h1 : 1 ≤ natOf [b] := by
      have h1 : natOf [b] = b.toNat := by simp [natOf]
      have h2 : b.toNat ≠ 0 := fun h => hb (UInt8.toNat_inj.mp h)
      omega
    have h2 : 1 * 256 ^ t.length ≤ natOf [b] * 256 ^ t.length := Nat.mul_le_mul_right _ h1
    have h3 : 256 ^ t.length < 256 ^ m := by omega
    have h4 := (Nat.pow_lt_pow_iff_right (by decide : 1 < 256)).mp h3
    rw [List.length_cons]
    omega

theorem derLength_unique {n n' : Nat} {w w' x x' : Bytes} (h : DerLength n w) (h' : DerLength n' w')
    (hn : n < 256 ^ 8) (hn' : n' < 256 ^ 8) (e : w ++ x = w' ++ x') : n = n' ∧ x = x' := by
  rcases h with ⟨h1, rfl⟩ | ⟨h1, l, rfl, h2, h3⟩ <;> rcases h' with ⟨h1', rfl⟩ | ⟨h1', l', rfl, h2', h3'⟩
  · simp only [List.cons_append, List.nil_append, List.cons.injEq] at e
    have e1 := congrArg UInt8.toNat e.1
    simp only [UInt8.toNat_ofNat'] at e1
    exact ⟨by omega, e.2⟩
  · have hl := shortest_length h2' (m := 8) (by omega)
    simp only [List.cons_append, List.nil_append, List.cons.injEq] at e
    have e1 := congrArg UInt8.toNat e.1
    rw [long_head _ (by omega)] at e1
    simp only [UInt8.toNat_ofNat'] at e1
    omega
  · have hl := shortest_length h2 (m := 8) (by omega)
    simp only [List.cons_append, List.nil_append, List.cons.injEq] at e
    have e1 := congrArg UInt8.toNat e.1
    rw [long_head _ (by omega)] at e1
    simp only [UInt8.toNat_ofNat'] at e1
    omega
  · have hl := shortest_length h2 (m := 8) (by omega)
    have hl' := shortest_length h2' (m := 8) (by omega)
    simp only [List.cons_append, List.cons.injEq] at e
    have e1 := congrArg UInt8.toNat e.1
    rw [long_head _ (by omega), long_head _ (by omega)] at e1
    obtain ⟨e2, e3⟩ := List.append_inj e.2 (by omega)
    subst e2
    exact ⟨by omega, e3⟩

theorem derInteger_unique {n n' : Nat} {w w' x x' : Bytes} (h : DerInteger n w) (h' : DerInteger n' w')
    (hn : w.length < 256 ^ 8) (hn' : w'.length < 256 ^ 8) (e : w ++ x = w' ++ x') : n = n' ∧ x = x' := by
  obtain ⟨l, c, rfl, h1, h2⟩ := h
  obtain ⟨l', c', rfl, h1', h2'⟩ := h'
  simp only [List.length_append] at hn hn'
  simp only [List.append_assoc, List.cons_append, List.nil_append, List.cons.injEq, true_and] at e
  obtain ⟨e1, e2⟩ := derLength_unique h1 h1' (by omega) (by omega) e
  obtain ⟨rfl, e4⟩ := List.append_inj e2 e1
  exact ⟨h2.1.symm.trans h2'.1, e4⟩

end Ssh
