import Verif.Concrete.Crypto

/-!
# Lengths of the real hashes

Some theorems assume of the arbitrary functions in `Crypto` that SHA-256 gives 32 bytes and SHA-512 gives 64.  The real ones do.
-/

namespace Ssh.Concrete

theorem force_eq {α : Type} (n : Nat) (f : Nat → α) : force n f = f n := by
  cases n <;> rfl

theorem rounds_length (P : Sha2) (ks : List Nat) : ∀ (ws st : List Nat), st.length = 8 → (rounds P ks ws st).length = 8 := by
  induction ks with
  | nil => intro ws st h; unfold rounds; exact h
  | cons k ks ih =>
    intro ws st h
    match st, h with
    | [a, b, c, d, e, f, g, i], _ =>
      cases ws with
      | nil => rfl
      | cons w ws =>
        simp only [rounds, force_eq]
        exact ih _ _ rfl

theorem addAll_length (M : Nat) (a : List Nat) : ∀ b : List Nat, a.length = b.length → (addAll M a b).length = a.length := by
  induction a with
  | nil => intro b h; rfl
  | cons x a ih =>
    intro b h
    cases b with
    | nil => cases h
    | cons y b =>
      simp only [addAll, force_eq, List.length_cons]
      rw [ih b (by simpa using h)]

theorem blocks_length (P : Sha2) (n : Nat) : ∀ (b : Bytes) (st : List Nat), st.length = 8 → (blocks P n b st).length = 8 := by
  induction n with
  | zero => intro b st h; exact h
  | succ n ih =>
    intro b st h
    unfold blocks
    apply ih
    have := rounds_length P P.k (words (P.bits / 8) 16 b) st h
    rw [addAll_length _ _ _ (by rw [this, h]), this]

theorem natBytes_length (n x : Nat) : (natBytes n x).length = n := by
  induction n with
  | zero => rfl
  | succ n ih => unfold natBytes; rw [List.length_cons, ih]

theorem flatMap_natBytes (n : Nat) (l : List Nat) : (l.flatMap (natBytes n)).length = l.length * n := by
  induction l with
  | nil => simp
  | cons x l ih => rw [List.flatMap_cons, List.length_append, natBytes_length, ih, List.length_cons, Nat.succ_mul, Nat.add_comm]

theorem hash_length (P : Sha2) (h : P.init.length = 8) (m : Bytes) : (hash P m).length = 8 * (P.bits / 8) := by
  unfold hash
  rw [flatMap_natBytes, blocks_length _ _ _ _ h]

theorem sha256_length (m : Bytes) : (sha256 m).length = 32 := hash_length sha256P rfl m
theorem sha512_length (m : Bytes) : (sha512 m).length = 64 := hash_length sha512P rfl m
theorem sha384_length (m : Bytes) : (sha384 m).length = 48 := by
  unfold sha384
  rw [List.length_take, hash_length sha384P rfl m]
  rfl

/-- What theorems assume of the hashes. -/
theorem realCrypto_lengths (table : List ((String × Bytes × UInt32) × (Bytes × Bytes))) (x : Bytes) :
    ((realCrypto table).sha256 x).length = 32 ∧ ((realCrypto table).sha384 x).length = 48 ∧ ((realCrypto table).sha512 x).length = 64 :=
  ⟨sha256_length x, sha384_length x, sha512_length x⟩

end Ssh.Concrete
