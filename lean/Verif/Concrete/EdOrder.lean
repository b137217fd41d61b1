import Verif.Concrete.Ed25519

/-! # The order of the base point of Ed25519 -/

namespace Ssh.Concrete

open Spec

/-- Certificates for the order. -/
def edOrderPrimes : List (Nat × Nat × List Nat) := [
  (2, 1, []),
  (3, 2, [2]),
  (5, 2, [2, 2]),
  (11, 2, [2, 5]),
  (23, 5, [2, 11]),
  (47, 5, [2, 23]),
  (34123, 2, [2, 3, 11, 11, 47]),
  (409477, 2, [2, 2, 3, 34123]),
  (14741173, 2, [2, 2, 3, 3, 409477]),
  (58964693, 2, [2, 2, 14741173]),
  (7, 3, [2, 3]),
  (17, 3, [2, 2, 2, 2]),
  (43, 3, [2, 3, 7]),
  (30703, 3, [2, 3, 7, 17, 43]),
  (13, 2, [2, 2, 3]),
  (79, 3, [2, 3, 13]),
  (41081, 3, [2, 2, 2, 5, 13, 79]),
  (82163, 2, [2, 41081]),
  (67, 2, [2, 3, 11]),
  (22111, 6, [2, 3, 5, 11, 67]),
  (132667, 5, [2, 3, 22111]),
  (41, 6, [2, 2, 2, 5]),
  (1723, 3, [2, 3, 7, 41]),
  (17231, 13, [2, 5, 1723]),
  (137849, 3, [2, 2, 2, 17231]),
  (3044861653679985063343, 5, [2, 3, 11, 30703, 82163, 132667, 137849]),
  (198211423230930754013084525763697, 5, [2, 2, 2, 2, 3, 23, 58964693, 3044861653679985063343]),
  (269, 2, [2, 2, 67]),
  (73, 5, [2, 2, 2, 3, 3]),
  (307, 5, [2, 3, 3, 17]),
  (113, 3, [2, 2, 2, 2, 7]),
  (2939, 2, [2, 13, 113]),
  (5879, 11, [2, 2939]),
  (292386187, 2, [2, 3, 3, 3, 3, 307, 5879]),
  (213441916511, 13, [2, 5, 73, 292386187]),
  (1361, 3, [2, 2, 2, 2, 5, 17]),
  (19, 2, [2, 3, 3]),
  (2851, 2, [2, 3, 5, 5, 19]),
  (3797, 2, [2, 2, 13, 73]),
  (531581, 2, [2, 2, 5, 7, 3797]),
  (2551, 6, [2, 3, 5, 5, 17]),
  (1224481, 13, [2, 2, 2, 2, 2, 3, 5, 2551]),
  (1257559732178653, 2, [2, 2, 3, 7, 23, 531581, 1224481]),
  (4434155615661930479, 17, [2, 41, 43, 1257559732178653]),
  (172054593956031949258510691, 2, [2, 5, 1361, 2851, 4434155615661930479]),
  (19757330305831588566944191468367130476339, 2, [2, 269, 213441916511, 172054593956031949258510691]),
  (276602624281642239937218680557139826668747, 2, [2, 7, 19757330305831588566944191468367130476339]),
  (7237005577332262213973186563042994240857116359379907606001950938285454250989, 2, [2, 2, 3, 11, 198211423230930754013084525763697, 276602624281642239937218680557139826668747])]

theorem edOrderPrimes_ok : prattAll [] edOrderPrimes = true := by decide +kernel

theorem edL_prime : Nat.Prime edL :=
  have ⟨c, hc, e⟩ : ∃ c ∈ edOrderPrimes, c.1 = edL := by decide +kernel
  e ▸ prattAll_prime edOrderPrimes (fun _ h => absurd h List.not_mem_nil) edOrderPrimes_ok c hc

/-- No smaller multiple of the base point is the neutral element. -/
theorem ed_order (j : Nat) (h : j • edDomain.base = 0) : edDomain.order ∣ j := by
  change edL ∣ j
  have hb : edBasePoint ≠ 0 := by
    intro h0
    have hx : ((edBase.x : Nat) : ZMod edP) = 0 := congrArg Edwards.x h0
    rw [ZMod.natCast_eq_zero_iff] at hx
    exact absurd hx (by decide +kernel)
  by_contra hd
  have hc : Nat.Coprime j edL := (Nat.Coprime.symm ((Nat.Prime.coprime_iff_not_dvd edL_prime).mpr hd))
  obtain ⟨w, hw⟩ := Nat.exists_mul_mod_eq_one_of_coprime hc edL_prime.one_lt
  have e : (j * w) • edBasePoint = 1 • edBasePoint :=
    nsmul_modEq ed_cycle (by rw [Nat.ModEq, hw.2, Nat.mod_eq_of_lt edL_prime.one_lt])
  rw [mul_nsmul, show j • edBasePoint = 0 from h, nsmul_zero, one_nsmul] at e
  exact hb e.symm

end Ssh.Concrete
