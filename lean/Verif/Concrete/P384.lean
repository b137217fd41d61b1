import Verif.Concrete.Domain

/-! # P-384: the primes and the curve -/

namespace Ssh.Concrete

/-- Certificates for the two primes of P-384. -/
def p384Primes : List (Nat × Nat × List Nat) := [
  (2, 1, []),
  (3, 2, [2]),
  (19, 2, [2, 3, 3]),
  (5, 2, [2, 2]),
  (11, 2, [2, 5]),
  (67, 2, [2, 3, 11]),
  (23, 5, [2, 11]),
  (47, 5, [2, 23]),
  (13, 2, [2, 2, 3]),
  (157, 5, [2, 2, 3, 13]),
  (7, 3, [2, 3]),
  (1373, 2, [2, 2, 7, 7, 7]),
  (79, 3, [2, 3, 13]),
  (2213, 2, [2, 2, 7, 79]),
  (2862218959, 3, [2, 3, 157, 1373, 2213]),
  (807145746439, 3, [2, 3, 47, 2862218959]),
  (29, 2, [2, 2, 7]),
  (233, 3, [2, 2, 2, 29]),
  (8389, 6, [2, 2, 3, 3, 233]),
  (17, 3, [2, 2, 2, 2]),
  (38557, 2, [2, 2, 3, 3, 3, 3, 7, 17]),
  (271, 6, [2, 3, 3, 3, 5]),
  (3253, 2, [2, 2, 3, 271]),
  (312289, 14, [2, 2, 2, 2, 2, 3, 3253]),
  (131, 2, [2, 5, 13]),
  (263, 5, [2, 131]),
  (1579, 3, [2, 3, 263]),
  (6317, 2, [2, 2, 1579]),
  (59, 2, [2, 29]),
  (599, 7, [2, 13, 23]),
  (661, 2, [2, 2, 3, 5, 11]),
  (513928823, 5, [2, 11, 59, 599, 661]),
  (53448597593, 3, [2, 2, 2, 13, 513928823]),
  (1357291859799823621, 2, [2, 2, 3, 5, 67, 6317, 53448597593]),
  (181, 2, [2, 2, 3, 3, 5]),
  (211, 2, [2, 3, 5, 7]),
  (881, 3, [2, 2, 2, 2, 5, 11]),
  (105957871, 3, [2, 3, 5, 19, 211, 881]),
  (139, 2, [2, 3, 23]),
  (21407, 5, [2, 7, 11, 139]),
  (246608641, 19, [2, 2, 2, 2, 2, 2, 2, 2, 3, 3, 5, 21407]),
  (529709925838459440593, 3, [2, 2, 2, 2, 7, 181, 105957871, 246608641]),
  (97, 5, [2, 2, 2, 2, 2, 3]),
  (6051631, 6, [2, 3, 5, 13, 59, 263]),
  (336757, 2, [2, 2, 3, 7, 19, 211]),
  (41, 6, [2, 2, 2, 5]),
  (43, 3, [2, 3, 7]),
  (1033, 5, [2, 2, 2, 3, 43]),
  (568151, 17, [2, 5, 5, 11, 1033]),
  (73, 5, [2, 2, 2, 3, 3]),
  (293, 2, [2, 2, 73]),
  (3517, 2, [2, 2, 3, 293]),
  (61, 2, [2, 2, 3, 5]),
  (937, 5, [2, 2, 2, 3, 3, 13]),
  (363557, 2, [2, 2, 97, 937]),
  (532247449, 7, [2, 2, 2, 3, 61, 363557]),
  (44925942675193, 5, [2, 2, 2, 3, 3517, 532247449]),
  (35581458644053887931343, 5, [2, 17, 41, 568151, 44925942675193]),
  (23964610537191310276190549303, 5, [2, 336757, 35581458644053887931343]),
  (862725979338887169942859774909, 2, [2, 2, 3, 3, 23964610537191310276190549303]),
  (20705423504133292078628634597817, 5, [2, 2, 2, 3, 862725979338887169942859774909]),
  (413244619895455989650825325680172591660047, 5, [2, 17, 97, 6051631, 20705423504133292078628634597817]),
  (12397338596863679689524759770405177749801411, 2, [2, 3, 5, 413244619895455989650825325680172591660047]),
  (19173790298027098165721053155794528970226934547887232785722672956982046098136719667167519737147526097, 3, [2, 2, 2, 2, 11, 11, 11, 8389, 38557, 312289, 1357291859799823621, 529709925838459440593, 12397338596863679689524759770405177749801411]),
  (39402006196394479212279040100143613805079739270465446667948293404245721771496870329047266088258938001861606973112319, 19, [2, 19, 67, 807145746439, 19173790298027098165721053155794528970226934547887232785722672956982046098136719667167519737147526097]),
  (1553, 3, [2, 2, 2, 2, 97]),
  (151, 6, [2, 3, 5, 5]),
  (34429, 2, [2, 2, 3, 19, 151]),
  (31, 3, [2, 3, 5]),
  (1117, 2, [2, 2, 3, 3, 31]),
  (455737, 11, [2, 2, 2, 3, 17, 1117]),
  (154950581, 2, [2, 2, 5, 17, 455737]),
  (491, 2, [2, 5, 7, 7]),
  (89, 3, [2, 2, 2, 11]),
  (3739, 7, [2, 3, 7, 89]),
  (290064143, 5, [2, 79, 491, 3739]),
  (120699720968197491947347, 3, [2, 3, 13, 34429, 154950581, 290064143]),
  (1124679999981664229965379347, 2, [2, 3, 1553, 120699720968197491947347]),
  (173, 2, [2, 2, 43]),
  (347, 2, [2, 173]),
  (179, 2, [2, 89]),
  (1276987, 2, [2, 3, 29, 41, 179]),
  (163, 2, [2, 3, 3, 3, 3]),
  (653, 2, [2, 2, 163]),
  (16979, 2, [2, 13, 653]),
  (1087, 3, [2, 3, 181]),
  (4349, 2, [2, 2, 1087]),
  (8699, 2, [2, 4349]),
  (330563, 2, [2, 19, 8699]),
  (1436833069313, 3, [2, 2, 2, 2, 2, 2, 2, 2, 16979, 330563]),
  (251, 6, [2, 5, 5, 5]),
  (248431, 3, [2, 3, 5, 7, 7, 13, 13]),
  (113, 3, [2, 2, 2, 2, 7]),
  (37447, 3, [2, 3, 79, 79]),
  (8463023, 5, [2, 113, 37447]),
  (53, 2, [2, 2, 13]),
  (107, 2, [2, 53]),
  (37, 2, [2, 2, 3, 3]),
  (149, 2, [2, 2, 37]),
  (311, 17, [2, 5, 31]),
  (9863677, 5, [2, 2, 3, 3, 311, 881]),
  (37344768852931, 3, [2, 3, 5, 7, 11, 11, 149, 9863677]),
  (55942463741690639, 7, [2, 7, 107, 37344768852931]),
  (64901, 2, [2, 2, 5, 5, 11, 59]),
  (659, 2, [2, 7, 47]),
  (421, 2, [2, 2, 3, 5, 7]),
  (272109983, 5, [2, 19, 73, 233, 421]),
  (228572385721, 23, [2, 2, 2, 3, 5, 7, 272109983]),
  (23314383343543, 3, [2, 3, 17, 228572385721]),
  (426632512014427833817, 11, [2, 2, 2, 3, 13, 89, 659, 23314383343543]),
  (1495199339761412565498084319, 6, [2, 3, 3, 3, 64901, 426632512014427833817]),
  (17942392077136950785977011829, 6, [2, 2, 3, 1495199339761412565498084319]),
  (1059392654943455286185473617842338478315215895509773412096307, 2, [2, 251, 248431, 8463023, 55942463741690639, 17942392077136950785977011829]),
  (3055465788140352002733946906144561090641249606160407884365391979704929268480326390471, 12, [2, 3, 5, 151, 347, 1276987, 1436833069313, 1059392654943455286185473617842338478315215895509773412096307]),
  (39402006196394479212279040100143613805079739270465446667946905279627659399113263569398956308152294913554433653942643, 2, [2, 3, 3, 7, 7, 13, 1124679999981664229965379347, 3055465788140352002733946906144561090641249606160407884365391979704929268480326390471])]

theorem p384Primes_ok : prattAll [] p384Primes = true := by decide +kernel

theorem p384_field : Nat.Prime p384.p :=
  have ⟨c, hc, e⟩ : ∃ c ∈ p384Primes, c.1 = p384.p := by decide +kernel
  e ▸ prattAll_prime p384Primes (fun _ h => absurd h List.not_mem_nil) p384Primes_ok c hc

theorem p384_order : Nat.Prime p384.n :=
  have ⟨c, hc, e⟩ : ∃ c ∈ p384Primes, c.1 = p384.n := by decide +kernel
  e ▸ prattAll_prime p384Primes (fun _ h => absurd h List.not_mem_nil) p384Primes_ok c hc

instance : Fact p384.p.Prime := ⟨p384_field⟩

theorem p384_good : EcGood p384 where
  order := p384_order
  odd := by decide +kernel
  disc := by decide +kernel
  gx := by decide +kernel
  on := by decide +kernel
  cycle := by decide +kernel
  width := by decide +kernel
  bits := by decide +kernel
  three := by decide +kernel
  short := by decide +kernel
  first := by decide +kernel
  second := by decide +kernel
  differ := by decide +kernel

variable (table : List ((String × Bytes × UInt32) × (Bytes × Bytes)))

theorem p384_verifies : Spec.VerifiesEcdsa (realCrypto table) .p384 p384_good.domain := p384_good.verifies

theorem p384_signs : Spec.SignsEcdsa (realCrypto table) .p384 p384_good.domain := p384_good.signs

theorem p384_width : p384_good.domain.order ≤ 256 ^ Spec.ecWidth .p384 := by decide +kernel

end Ssh.Concrete
