import Verif.Concrete.Ec
import Verif.Concrete.Facts
import Verif.Spec.Rsa
import Mathlib.NumberTheory.LucasPrimality

/-! # Powers modulo a number, and primes by their certificates -/

namespace Ssh.Concrete

theorem mod_two_pow_succ (x i : Nat) : x % 2 ^ (i + 1) = x % 2 ^ i + 2 ^ i * (x.testBit i).toNat := by
  rw [Nat.toNat_testBit, Nat.mod_pow_succ]

theorem powGo_mod (b e m : Nat) : ∀ n acc, powGo b e m n acc % m = acc ^ 2 ^ n * b ^ (e % 2 ^ n) % m
  | 0, acc => by simp [powGo, Nat.mod_one]
  | n + 1, acc => by
    unfold powGo
    rw [force_eq, powGo_mod b e m n, mod_two_pow_succ]
    have hsq : ∀ k, (acc ^ 2) ^ k = acc ^ (2 * k) := fun k => (pow_mul acc 2 k).symm
    cases e.testBit n
    · simp only [Bool.false_eq_true, if_false, Bool.toNat_false, Nat.mul_zero, Nat.add_zero]
      have h : acc * acc % m ≡ acc ^ 2 [MOD m] := by
        rw [pow_two]
        exact Nat.mod_modEq _ _
      have := (h.pow (2 ^ n)).mul_right (b ^ (e % 2 ^ n))
      rw [hsq, ← Nat.pow_succ'] at this
      exact this
    · simp only [if_true, Bool.toNat_true, Nat.mul_one]
      have h : acc * acc % m * b % m ≡ acc ^ 2 * b [MOD m] := by
        rw [pow_two]
        exact (Nat.mod_modEq _ _).trans ((Nat.mod_modEq _ _).mul_right b)
      have := (h.pow (2 ^ n)).mul_right (b ^ (e % 2 ^ n))
      rw [mul_pow, hsq, ← Nat.pow_succ', mul_assoc, ← pow_add, Nat.add_comm (2 ^ n)] at this
      exact this

theorem powGo_lt {b e m : Nat} (hm : 0 < m) : ∀ n acc, acc < m → powGo b e m n acc < m
  | 0, acc, h => h
  | n + 1, acc, h => by
    unfold powGo
    rw [force_eq]
    apply powGo_lt hm
    split <;> exact Nat.mod_lt _ hm

theorem powMod_eq {b e m : Nat} (hm : 1 < m) : powMod b e m = b ^ e % m := by
  have h := powGo_mod b e m (e.log2 + 1) 1
  rw [one_pow, one_mul, Nat.mod_eq_of_lt (Nat.lt_log2_self : e < 2 ^ (e.log2 + 1))] at h
  rw [← h]
  exact (Nat.mod_eq_of_lt (powGo_lt (Nat.lt_trans Nat.zero_lt_one hm) _ _ hm)).symm

/-- A certificate: a number, an element of full order, and the prime factors of the number less one, all of them known. -/
def prattStep (known : List Nat) (p a : Nat) (fs : List Nat) : Bool :=
  decide (1 < p) && (fs.all (fun q => known.contains q) && (fs.prod == p - 1 && (powMod a (p - 1) p == 1 &&
    fs.all fun q => powMod a ((p - 1) / q) p != 1)))

def prattAll : List Nat → List (Nat × Nat × List Nat) → Bool
  | _, [] => true
  | known, (p, a, fs) :: rest => prattStep known p a fs && prattAll (p :: known) rest

theorem prattStep_prime {known : List Nat} {p a : Nat} {fs : List Nat} (hk : ∀ q ∈ known, q.Prime) (h : prattStep known p a fs = true) :
    p.Prime := by
  simp only [prattStep, Bool.and_eq_true, decide_eq_true_eq, List.all_eq_true, List.contains_iff_mem, beq_iff_eq, bne_iff_ne] at h
  obtain ⟨h1, hf, hprod, hone, hne⟩ := h
  have cast : ∀ e, ((powMod a e p : Nat) : ZMod p) = (a : ZMod p) ^ e := by
    intro e
    rw [powMod_eq h1, ZMod.natCast_mod, Nat.cast_pow]
  apply lucas_primality p (a : ZMod p)
  · rw [← cast, hone, Nat.cast_one]
  · intro q hq hdvd hone'
    rw [← hprod, hq.prime.dvd_prod_iff] at hdvd
    obtain ⟨q', hq', hd⟩ := hdvd
    have e : q = q' := (Nat.prime_dvd_prime_iff_eq hq (hk q' (hf q' hq'))).mp hd
    subst e
    apply hne q hq'
    rw [← cast] at hone'
    have h2 : powMod a ((p - 1) / q) p ≡ 1 [MOD p] := (ZMod.natCast_eq_natCast_iff _ _ _).mp (by rw [hone', Nat.cast_one])
    have lt : powMod a ((p - 1) / q) p < p := by
      rw [powMod_eq h1]
      exact Nat.mod_lt _ (Nat.lt_trans Nat.zero_lt_one h1)
    have := h2
    unfold Nat.ModEq at this
    rwa [Nat.mod_eq_of_lt lt, Nat.mod_eq_of_lt h1] at this

theorem prattAll_prime : ∀ (certs : List (Nat × Nat × List Nat)) {known : List Nat}, (∀ q ∈ known, q.Prime) → prattAll known certs = true →
    ∀ c ∈ certs, c.1.Prime
  | [], _, _, _, _, hc => absurd hc List.not_mem_nil
  | (p, a, fs) :: rest, known, hk, h, c, hc => by
    rw [prattAll, Bool.and_eq_true] at h
    have hp := prattStep_prime hk h.1
    rcases List.mem_cons.mp hc with rfl | hc
    · exact hp
    · refine prattAll_prime rest (fun q hq => ?_) h.2 c hc
      rcases List.mem_cons.mp hq with rfl | hq
      · exact hp
      · exact hk q hq

/-- Certificates for the two primes of P-256. -/
def p256Primes : List (Nat × Nat × List Nat) := [
  (2, 1, []),
  (3, 2, [2]),
  (5, 2, [2, 2]),
  (17, 3, [2, 2, 2, 2]),
  (257, 3, [2, 2, 2, 2, 2, 2, 2, 2]),
  (641, 3, [2, 2, 2, 2, 2, 2, 2, 5]),
  (1531, 2, [2, 3, 3, 5, 17]),
  (65537, 3, [2, 2, 2, 2, 2, 2, 2, 2, 2, 2, 2, 2, 2, 2, 2, 2]),
  (7, 3, [2, 3]),
  (13, 2, [2, 2, 3]),
  (53, 2, [2, 2, 13]),
  (11, 2, [2, 5]),
  (661, 2, [2, 2, 3, 5, 11]),
  (490463, 14, [2, 7, 53, 661]),
  (727, 5, [2, 3, 11, 11]),
  (17449, 14, [2, 2, 2, 3, 727]),
  (6700417, 5, [2, 2, 2, 2, 2, 2, 2, 3, 17449]),
  (241, 7, [2, 2, 2, 2, 3, 5]),
  (2411, 6, [2, 5, 241]),
  (23, 5, [2, 11]),
  (107, 2, [2, 53]),
  (157, 5, [2, 2, 3, 13]),
  (3769, 7, [2, 2, 2, 3, 157]),
  (204061199, 11, [2, 11, 23, 107, 3769]),
  (34282281433, 17, [2, 2, 2, 3, 7, 204061199]),
  (43, 3, [2, 3, 7]),
  (173, 2, [2, 2, 43]),
  (197, 2, [2, 2, 7, 7]),
  (919, 7, [2, 3, 3, 3, 17]),
  (3677, 2, [2, 2, 919]),
  (66417393611, 6, [2, 5, 53, 173, 197, 3677]),
  (11290956913871, 13, [2, 5, 17, 66417393611]),
  (757, 2, [2, 2, 3, 3, 3, 7]),
  (18169, 11, [2, 2, 2, 3, 757]),
  (181, 2, [2, 2, 3, 3, 5]),
  (1087, 3, [2, 3, 181]),
  (4349, 2, [2, 2, 1087]),
  (78283, 3, [2, 3, 3, 4349]),
  (313, 10, [2, 2, 2, 3, 13]),
  (704251, 2, [2, 3, 3, 5, 5, 5, 313]),
  (46076956964474543, 5, [2, 23, 18169, 78283, 704251]),
  (774023187263532362759620327192479577272145303, 3, [2, 3, 3, 2411, 34282281433, 11290956913871, 46076956964474543]),
  (835945042244614951780389953367877943453916927241, 11, [2, 2, 2, 3, 3, 3, 5, 774023187263532362759620327192479577272145303]),
  (115792089210356248762697446949407573530086143415290314195533631308867097853951, 6, [2, 3, 5, 5, 17, 257, 641, 1531, 65537, 490463, 6700417, 835945042244614951780389953367877943453916927241]),
  (71, 7, [2, 5, 7]),
  (131, 2, [2, 5, 13]),
  (31, 3, [2, 3, 5]),
  (373, 2, [2, 2, 3, 31]),
  (3407, 5, [2, 13, 131]),
  (37, 2, [2, 2, 3, 3]),
  (9547, 2, [2, 3, 37, 43]),
  (38189, 2, [2, 2, 9547]),
  (19, 2, [2, 3, 3]),
  (229, 6, [2, 2, 3, 19]),
  (1201, 11, [2, 2, 2, 2, 3, 5, 5]),
  (9350987, 2, [2, 17, 229, 1201]),
  (187019741, 2, [2, 2, 5, 9350987]),
  (29, 2, [2, 2, 7]),
  (311, 17, [2, 5, 31]),
  (311245691, 2, [2, 5, 7, 17, 29, 29, 311]),
  (622491383, 5, [2, 311245691]),
  (263, 5, [2, 131]),
  (126241, 7, [2, 2, 2, 2, 2, 3, 5, 263]),
  (337, 10, [2, 2, 2, 2, 3, 7]),
  (104471, 11, [2, 5, 31, 337]),
  (3969899, 2, [2, 19, 104471]),
  (1002328039319, 19, [2, 126241, 3969899]),
  (1297, 10, [2, 2, 2, 2, 3, 3, 3, 3]),
  (97, 5, [2, 2, 2, 2, 2, 3]),
  (16879, 3, [2, 3, 29, 97]),
  (127, 3, [2, 3, 3, 7]),
  (151, 6, [2, 3, 5, 5]),
  (1511, 11, [2, 5, 151]),
  (3023, 5, [2, 1511]),
  (41, 6, [2, 2, 2, 5]),
  (155317, 5, [2, 2, 3, 7, 43, 43]),
  (191039911, 3, [2, 3, 5, 41, 155317]),
  (208150935158385979, 2, [2, 3, 11, 43, 127, 3023, 191039911]),
  (2624747550333869278416773953, 7, [2, 2, 2, 2, 2, 2, 3, 3, 1297, 16879, 208150935158385979]),
  (115792089210356248762697446949407573529996955224135760342422259061068512044369, 7, [2, 2, 2, 2, 3, 71, 131, 373, 3407, 17449, 38189, 187019741, 622491383, 1002328039319, 2624747550333869278416773953])]

theorem p256Primes_ok : prattAll [] p256Primes = true := by decide +kernel

theorem p256_field : Nat.Prime p256.p :=
  have ⟨c, hc, e⟩ : ∃ c ∈ p256Primes, c.1 = p256.p := by decide +kernel
  e ▸ prattAll_prime p256Primes (fun _ h => absurd h List.not_mem_nil) p256Primes_ok c hc

theorem p256_order : Nat.Prime p256.n :=
  have ⟨c, hc, e⟩ : ∃ c ∈ p256Primes, c.1 = p256.n := by decide +kernel
  e ▸ prattAll_prime p256Primes (fun _ h => absurd h List.not_mem_nil) p256Primes_ok c hc

end Ssh.Concrete
