import Verif.Proofs.Lucas
/-
Primality of the domain parameters of `/repo/src/jwkest/curves.py:33-57`.
Generated by `tools/mkprimes.py`; each certificate is checked by the kernel.
-/

namespace Verif

theorem prime_704251 : Nat.Prime 704251 := by norm_num

theorem prime_78283 : Nat.Prime 78283 := by norm_num

theorem prime_a3b2bf8c32ce : Nat.Prime 46076956964474543 := by
  refine pocklington _ 2 (704251 ^ 1 * 78283 ^ 1) (by decide +kernel) (by decide +kernel) (by decide +kernel) (by decide +kernel) ?_
  intro q hq hd
  rcases (Nat.Prime.dvd_mul hq).mp hd with hd | hd
  swap
  · obtain rfl := (Nat.prime_dvd_prime_iff_eq hq prime_78283).mp (hq.dvd_of_dvd_pow hd)
    decide +kernel
  obtain rfl := (Nat.prime_dvd_prime_iff_eq hq prime_704251).mp (hq.dvd_of_dvd_pow hd)
  decide +kernel

theorem prime_3677 : Nat.Prime 3677 := by norm_num

theorem prime_197 : Nat.Prime 197 := by norm_num

theorem prime_66417393611 : Nat.Prime 66417393611 := by
  refine pocklington _ 2 (3677 ^ 1 * 197 ^ 1) (by decide +kernel) (by decide +kernel) (by decide +kernel) (by decide +kernel) ?_
  intro q hq hd
  rcases (Nat.Prime.dvd_mul hq).mp hd with hd | hd
  swap
  · obtain rfl := (Nat.prime_dvd_prime_iff_eq hq prime_197).mp (hq.dvd_of_dvd_pow hd)
    decide +kernel
  obtain rfl := (Nat.prime_dvd_prime_iff_eq hq prime_3677).mp (hq.dvd_of_dvd_pow hd)
  decide +kernel

theorem prime_a44e179dccf : Nat.Prime 11290956913871 := by
  refine pocklington _ 2 (66417393611 ^ 1) (by decide +kernel) (by decide +kernel) (by decide +kernel) (by decide +kernel) ?_
  intro q hq hd
  obtain rfl := (Nat.prime_dvd_prime_iff_eq hq prime_66417393611).mp (hq.dvd_of_dvd_pow hd)
  decide +kernel

theorem prime_22b559b5c816 : Nat.Prime 774023187263532362759620327192479577272145303 := by
  refine pocklington _ 2 (46076956964474543 ^ 1 * 11290956913871 ^ 1) (by decide +kernel) (by decide +kernel) (by decide +kernel) (by decide +kernel) ?_
  intro q hq hd
  rcases (Nat.Prime.dvd_mul hq).mp hd with hd | hd
  swap
  · obtain rfl := (Nat.prime_dvd_prime_iff_eq hq prime_a44e179dccf).mp (hq.dvd_of_dvd_pow hd)
    decide +kernel
  obtain rfl := (Nat.prime_dvd_prime_iff_eq hq prime_a3b2bf8c32ce).mp (hq.dvd_of_dvd_pow hd)
  decide +kernel

theorem prime_926d1276e41f : Nat.Prime 835945042244614951780389953367877943453916927241 := by
  refine pocklington _ 2 (774023187263532362759620327192479577272145303 ^ 1) (by decide +kernel) (by decide +kernel) (by decide +kernel) (by decide +kernel) ?_
  intro q hq hd
  obtain rfl := (Nat.prime_dvd_prime_iff_eq hq prime_22b559b5c816).mp (hq.dvd_of_dvd_pow hd)
  decide +kernel

theorem prime_p256 : Nat.Prime 115792089210356248762697446949407573530086143415290314195533631308867097853951 := by
  refine pocklington _ 2 (835945042244614951780389953367877943453916927241 ^ 1) (by decide +kernel) (by decide +kernel) (by decide +kernel) (by decide +kernel) ?_
  intro q hq hd
  obtain rfl := (Nat.prime_dvd_prime_iff_eq hq prime_926d1276e41f).mp (hq.dvd_of_dvd_pow hd)
  decide +kernel

theorem prime_155317 : Nat.Prime 155317 := by norm_num

theorem prime_191039911 : Nat.Prime 191039911 := by
  refine pocklington _ 2 (155317 ^ 1) (by decide +kernel) (by decide +kernel) (by decide +kernel) (by decide +kernel) ?_
  intro q hq hd
  obtain rfl := (Nat.prime_dvd_prime_iff_eq hq prime_155317).mp (hq.dvd_of_dvd_pow hd)
  decide +kernel

theorem prime_3023 : Nat.Prime 3023 := by norm_num

theorem prime_2e3802c35c7e : Nat.Prime 208150935158385979 := by
  refine pocklington _ 2 (191039911 ^ 1 * 3023 ^ 1) (by decide +kernel) (by decide +kernel) (by decide +kernel) (by decide +kernel) ?_
  intro q hq hd
  rcases (Nat.Prime.dvd_mul hq).mp hd with hd | hd
  swap
  · obtain rfl := (Nat.prime_dvd_prime_iff_eq hq prime_3023).mp (hq.dvd_of_dvd_pow hd)
    decide +kernel
  obtain rfl := (Nat.prime_dvd_prime_iff_eq hq prime_191039911).mp (hq.dvd_of_dvd_pow hd)
  decide +kernel

theorem prime_87b23e9d09d3 : Nat.Prime 2624747550333869278416773953 := by
  refine pocklington _ 2 (208150935158385979 ^ 1) (by decide +kernel) (by decide +kernel) (by decide +kernel) (by decide +kernel) ?_
  intro q hq hd
  obtain rfl := (Nat.prime_dvd_prime_iff_eq hq prime_2e3802c35c7e).mp (hq.dvd_of_dvd_pow hd)
  decide +kernel

theorem prime_3969899 : Nat.Prime 3969899 := by norm_num

theorem prime_e95f681f97 : Nat.Prime 1002328039319 := by
  refine pocklington _ 2 (3969899 ^ 1) (by decide +kernel) (by decide +kernel) (by decide +kernel) (by decide +kernel) ?_
  intro q hq hd
  obtain rfl := (Nat.prime_dvd_prime_iff_eq hq prime_3969899).mp (hq.dvd_of_dvd_pow hd)
  decide +kernel

theorem prime_n256 : Nat.Prime 115792089210356248762697446949407573529996955224135760342422259061068512044369 := by
  refine pocklington _ 2 (2624747550333869278416773953 ^ 1 * 1002328039319 ^ 1) (by decide +kernel) (by decide +kernel) (by decide +kernel) (by decide +kernel) ?_
  intro q hq hd
  rcases (Nat.Prime.dvd_mul hq).mp hd with hd | hd
  swap
  · obtain rfl := (Nat.prime_dvd_prime_iff_eq hq prime_e95f681f97).mp (hq.dvd_of_dvd_pow hd)
    decide +kernel
  obtain rfl := (Nat.prime_dvd_prime_iff_eq hq prime_87b23e9d09d3).mp (hq.dvd_of_dvd_pow hd)
  decide +kernel

theorem prime_363557 : Nat.Prime 363557 := by norm_num

theorem prime_532247449 : Nat.Prime 532247449 := by
  refine pocklington _ 2 (363557 ^ 1) (by decide +kernel) (by decide +kernel) (by decide +kernel) (by decide +kernel) ?_
  intro q hq hd
  obtain rfl := (Nat.prime_dvd_prime_iff_eq hq prime_363557).mp (hq.dvd_of_dvd_pow hd)
  decide +kernel

theorem prime_28dc22dab6f9 : Nat.Prime 44925942675193 := by
  refine pocklington _ 2 (532247449 ^ 1) (by decide +kernel) (by decide +kernel) (by decide +kernel) (by decide +kernel) ?_
  intro q hq hd
  obtain rfl := (Nat.prime_dvd_prime_iff_eq hq prime_532247449).mp (hq.dvd_of_dvd_pow hd)
  decide +kernel

theorem prime_788dfeed61e9 : Nat.Prime 35581458644053887931343 := by
  refine pocklington _ 2 (44925942675193 ^ 1) (by decide +kernel) (by decide +kernel) (by decide +kernel) (by decide +kernel) ?_
  intro q hq hd
  obtain rfl := (Nat.prime_dvd_prime_iff_eq hq prime_28dc22dab6f9).mp (hq.dvd_of_dvd_pow hd)
  decide +kernel

theorem prime_4d6f0fac5c0e : Nat.Prime 23964610537191310276190549303 := by
  refine pocklington _ 2 (35581458644053887931343 ^ 1) (by decide +kernel) (by decide +kernel) (by decide +kernel) (by decide +kernel) ?_
  intro q hq hd
  obtain rfl := (Nat.prime_dvd_prime_iff_eq hq prime_788dfeed61e9).mp (hq.dvd_of_dvd_pow hd)
  decide +kernel

theorem prime_ae39e343cf1f : Nat.Prime 862725979338887169942859774909 := by
  refine pocklington _ 2 (23964610537191310276190549303 ^ 1) (by decide +kernel) (by decide +kernel) (by decide +kernel) (by decide +kernel) ?_
  intro q hq hd
  obtain rfl := (Nat.prime_dvd_prime_iff_eq hq prime_4d6f0fac5c0e).mp (hq.dvd_of_dvd_pow hd)
  decide +kernel

theorem prime_10556d4e5b6a : Nat.Prime 20705423504133292078628634597817 := by
  refine pocklington _ 2 (862725979338887169942859774909 ^ 1) (by decide +kernel) (by decide +kernel) (by decide +kernel) (by decide +kernel) ?_
  intro q hq hd
  obtain rfl := (Nat.prime_dvd_prime_iff_eq hq prime_ae39e343cf1f).mp (hq.dvd_of_dvd_pow hd)
  decide +kernel

theorem prime_4be6ab2c8071 : Nat.Prime 413244619895455989650825325680172591660047 := by
  refine pocklington _ 2 (20705423504133292078628634597817 ^ 1) (by decide +kernel) (by decide +kernel) (by decide +kernel) (by decide +kernel) ?_
  intro q hq hd
  obtain rfl := (Nat.prime_dvd_prime_iff_eq hq prime_10556d4e5b6a).mp (hq.dvd_of_dvd_pow hd)
  decide +kernel

theorem prime_8e5080f370d4 : Nat.Prime 12397338596863679689524759770405177749801411 := by
  refine pocklington _ 2 (413244619895455989650825325680172591660047 ^ 1) (by decide +kernel) (by decide +kernel) (by decide +kernel) (by decide +kernel) ?_
  intro q hq hd
  obtain rfl := (Nat.prime_dvd_prime_iff_eq hq prime_4be6ab2c8071).mp (hq.dvd_of_dvd_pow hd)
  decide +kernel

theorem prime_21407 : Nat.Prime 21407 := by norm_num

theorem prime_246608641 : Nat.Prime 246608641 := by
  refine pocklington _ 2 (21407 ^ 1) (by decide +kernel) (by decide +kernel) (by decide +kernel) (by decide +kernel) ?_
  intro q hq hd
  obtain rfl := (Nat.prime_dvd_prime_iff_eq hq prime_21407).mp (hq.dvd_of_dvd_pow hd)
  decide +kernel

theorem prime_881 : Nat.Prime 881 := by norm_num

theorem prime_211 : Nat.Prime 211 := by norm_num

theorem prime_105957871 : Nat.Prime 105957871 := by
  refine pocklington _ 2 (881 ^ 1 * 211 ^ 1) (by decide +kernel) (by decide +kernel) (by decide +kernel) (by decide +kernel) ?_
  intro q hq hd
  rcases (Nat.Prime.dvd_mul hq).mp hd with hd | hd
  swap
  · obtain rfl := (Nat.prime_dvd_prime_iff_eq hq prime_211).mp (hq.dvd_of_dvd_pow hd)
    decide +kernel
  obtain rfl := (Nat.prime_dvd_prime_iff_eq hq prime_881).mp (hq.dvd_of_dvd_pow hd)
  decide +kernel

theorem prime_1cb733b306cf : Nat.Prime 529709925838459440593 := by
  refine pocklington _ 2 (246608641 ^ 1 * 105957871 ^ 1) (by decide +kernel) (by decide +kernel) (by decide +kernel) (by decide +kernel) ?_
  intro q hq hd
  rcases (Nat.Prime.dvd_mul hq).mp hd with hd | hd
  swap
  · obtain rfl := (Nat.prime_dvd_prime_iff_eq hq prime_105957871).mp (hq.dvd_of_dvd_pow hd)
    decide +kernel
  obtain rfl := (Nat.prime_dvd_prime_iff_eq hq prime_246608641).mp (hq.dvd_of_dvd_pow hd)
  decide +kernel

theorem prime_23108c4e1b41 : Nat.Prime 19173790298027098165721053155794528970226934547887232785722672956982046098136719667167519737147526097 := by
  refine pocklington _ 2 (12397338596863679689524759770405177749801411 ^ 1 * 529709925838459440593 ^ 1) (by decide +kernel) (by decide +kernel) (by decide +kernel) (by decide +kernel) ?_
  intro q hq hd
  rcases (Nat.Prime.dvd_mul hq).mp hd with hd | hd
  swap
  · obtain rfl := (Nat.prime_dvd_prime_iff_eq hq prime_1cb733b306cf).mp (hq.dvd_of_dvd_pow hd)
    decide +kernel
  obtain rfl := (Nat.prime_dvd_prime_iff_eq hq prime_8e5080f370d4).mp (hq.dvd_of_dvd_pow hd)
  decide +kernel

theorem prime_p384 : Nat.Prime 39402006196394479212279040100143613805079739270465446667948293404245721771496870329047266088258938001861606973112319 := by
  refine pocklington _ 2 (19173790298027098165721053155794528970226934547887232785722672956982046098136719667167519737147526097 ^ 1) (by decide +kernel) (by decide +kernel) (by decide +kernel) (by decide +kernel) ?_
  intro q hq hd
  obtain rfl := (Nat.prime_dvd_prime_iff_eq hq prime_23108c4e1b41).mp (hq.dvd_of_dvd_pow hd)
  decide +kernel

theorem prime_421 : Nat.Prime 421 := by norm_num

theorem prime_233 : Nat.Prime 233 := by norm_num

theorem prime_272109983 : Nat.Prime 272109983 := by
  refine pocklington _ 2 (421 ^ 1 * 233 ^ 1) (by decide +kernel) (by decide +kernel) (by decide +kernel) (by decide +kernel) ?_
  intro q hq hd
  rcases (Nat.Prime.dvd_mul hq).mp hd with hd | hd
  swap
  · obtain rfl := (Nat.prime_dvd_prime_iff_eq hq prime_233).mp (hq.dvd_of_dvd_pow hd)
    decide +kernel
  obtain rfl := (Nat.prime_dvd_prime_iff_eq hq prime_421).mp (hq.dvd_of_dvd_pow hd)
  decide +kernel

theorem prime_228572385721 : Nat.Prime 228572385721 := by
  refine pocklington _ 2 (272109983 ^ 1) (by decide +kernel) (by decide +kernel) (by decide +kernel) (by decide +kernel) ?_
  intro q hq hd
  obtain rfl := (Nat.prime_dvd_prime_iff_eq hq prime_272109983).mp (hq.dvd_of_dvd_pow hd)
  decide +kernel

theorem prime_15344d898fb7 : Nat.Prime 23314383343543 := by
  refine pocklington _ 2 (228572385721 ^ 1) (by decide +kernel) (by decide +kernel) (by decide +kernel) (by decide +kernel) ?_
  intro q hq hd
  obtain rfl := (Nat.prime_dvd_prime_iff_eq hq prime_228572385721).mp (hq.dvd_of_dvd_pow hd)
  decide +kernel

theorem prime_1720b72947fc : Nat.Prime 426632512014427833817 := by
  refine pocklington _ 2 (23314383343543 ^ 1) (by decide +kernel) (by decide +kernel) (by decide +kernel) (by decide +kernel) ?_
  intro q hq hd
  obtain rfl := (Nat.prime_dvd_prime_iff_eq hq prime_15344d898fb7).mp (hq.dvd_of_dvd_pow hd)
  decide +kernel

theorem prime_4d4ccc69f97d : Nat.Prime 1495199339761412565498084319 := by
  refine pocklington _ 2 (426632512014427833817 ^ 1) (by decide +kernel) (by decide +kernel) (by decide +kernel) (by decide +kernel) ?_
  intro q hq hd
  obtain rfl := (Nat.prime_dvd_prime_iff_eq hq prime_1720b72947fc).mp (hq.dvd_of_dvd_pow hd)
  decide +kernel

theorem prime_39f9994f7b1e : Nat.Prime 17942392077136950785977011829 := by
  refine pocklington _ 2 (1495199339761412565498084319 ^ 1) (by decide +kernel) (by decide +kernel) (by decide +kernel) (by decide +kernel) ?_
  intro q hq hd
  obtain rfl := (Nat.prime_dvd_prime_iff_eq hq prime_4d4ccc69f97d).mp (hq.dvd_of_dvd_pow hd)
  decide +kernel

theorem prime_9863677 : Nat.Prime 9863677 := by norm_num

theorem prime_21f701ae83c3 : Nat.Prime 37344768852931 := by
  refine pocklington _ 2 (9863677 ^ 1) (by decide +kernel) (by decide +kernel) (by decide +kernel) (by decide +kernel) ?_
  intro q hq hd
  obtain rfl := (Nat.prime_dvd_prime_iff_eq hq prime_9863677).mp (hq.dvd_of_dvd_pow hd)
  decide +kernel

theorem prime_c6bf5fd72f03 : Nat.Prime 55942463741690639 := by
  refine pocklington _ 2 (37344768852931 ^ 1) (by decide +kernel) (by decide +kernel) (by decide +kernel) (by decide +kernel) ?_
  intro q hq hd
  obtain rfl := (Nat.prime_dvd_prime_iff_eq hq prime_21f701ae83c3).mp (hq.dvd_of_dvd_pow hd)
  decide +kernel

theorem prime_a8c55f664384 : Nat.Prime 1059392654943455286185473617842338478315215895509773412096307 := by
  refine pocklington _ 2 (17942392077136950785977011829 ^ 1 * 55942463741690639 ^ 1) (by decide +kernel) (by decide +kernel) (by decide +kernel) (by decide +kernel) ?_
  intro q hq hd
  rcases (Nat.Prime.dvd_mul hq).mp hd with hd | hd
  swap
  · obtain rfl := (Nat.prime_dvd_prime_iff_eq hq prime_c6bf5fd72f03).mp (hq.dvd_of_dvd_pow hd)
    decide +kernel
  obtain rfl := (Nat.prime_dvd_prime_iff_eq hq prime_39f9994f7b1e).mp (hq.dvd_of_dvd_pow hd)
  decide +kernel

theorem prime_192a43d8f8a5 : Nat.Prime 3055465788140352002733946906144561090641249606160407884365391979704929268480326390471 := by
  refine pocklington _ 2 (1059392654943455286185473617842338478315215895509773412096307 ^ 1) (by decide +kernel) (by decide +kernel) (by decide +kernel) (by decide +kernel) ?_
  intro q hq hd
  obtain rfl := (Nat.prime_dvd_prime_iff_eq hq prime_a8c55f664384).mp (hq.dvd_of_dvd_pow hd)
  decide +kernel

theorem prime_n384 : Nat.Prime 39402006196394479212279040100143613805079739270465446667946905279627659399113263569398956308152294913554433653942643 := by
  refine pocklington _ 2 (3055465788140352002733946906144561090641249606160407884365391979704929268480326390471 ^ 1) (by decide +kernel) (by decide +kernel) (by decide +kernel) (by decide +kernel) ?_
  intro q hq hd
  obtain rfl := (Nat.prime_dvd_prime_iff_eq hq prime_192a43d8f8a5).mp (hq.dvd_of_dvd_pow hd)
  decide +kernel

theorem prime_9211861 : Nat.Prime 9211861 := by norm_num

theorem prime_24098228377 : Nat.Prime 24098228377 := by
  refine pocklington _ 2 (9211861 ^ 1) (by decide +kernel) (by decide +kernel) (by decide +kernel) (by decide +kernel) ?_
  intro q hq hd
  obtain rfl := (Nat.prime_dvd_prime_iff_eq hq prime_9211861).mp (hq.dvd_of_dvd_pow hd)
  decide +kernel

theorem prime_674750394557 : Nat.Prime 674750394557 := by
  refine pocklington _ 2 (24098228377 ^ 1) (by decide +kernel) (by decide +kernel) (by decide +kernel) (by decide +kernel) ?_
  intro q hq hd
  obtain rfl := (Nat.prime_dvd_prime_iff_eq hq prime_24098228377).mp (hq.dvd_of_dvd_pow hd)
  decide +kernel

theorem prime_5051b81d5588 : Nat.Prime 361725589517273017 := by
  refine pocklington _ 2 (674750394557 ^ 1) (by decide +kernel) (by decide +kernel) (by decide +kernel) (by decide +kernel) ?_
  intro q hq hd
  obtain rfl := (Nat.prime_dvd_prime_iff_eq hq prime_674750394557).mp (hq.dvd_of_dvd_pow hd)
  decide +kernel

theorem prime_8f5b78263ad9 : Nat.Prime 173308343918874810521923841 := by
  refine pocklington _ 3 (361725589517273017 ^ 1) (by decide +kernel) (by decide +kernel) (by decide +kernel) (by decide +kernel) ?_
  intro q hq hd
  obtain rfl := (Nat.prime_dvd_prime_iff_eq hq prime_5051b81d5588).mp (hq.dvd_of_dvd_pow hd)
  decide +kernel

theorem prime_8620289 : Nat.Prime 8620289 := by norm_num

theorem prime_2534364967 : Nat.Prime 2534364967 := by
  refine pocklington _ 2 (8620289 ^ 1) (by decide +kernel) (by decide +kernel) (by decide +kernel) (by decide +kernel) ?_
  intro q hq hd
  obtain rfl := (Nat.prime_dvd_prime_iff_eq hq prime_8620289).mp (hq.dvd_of_dvd_pow hd)
  decide +kernel

theorem prime_8425296b5bdf : Nat.Prime 145295143558111 := by
  refine pocklington _ 3 (2534364967 ^ 1) (by decide +kernel) (by decide +kernel) (by decide +kernel) (by decide +kernel) ?_
  intro q hq hd
  obtain rfl := (Nat.prime_dvd_prime_iff_eq hq prime_2534364967).mp (hq.dvd_of_dvd_pow hd)
  decide +kernel

theorem prime_23609 : Nat.Prime 23609 := by norm_num

theorem prime_1433 : Nat.Prime 1433 := by norm_num

theorem prime_625a8944af99 : Nat.Prime 108140989558681 := by
  refine pocklington _ 3 (23609 ^ 1 * 1433 ^ 1) (by decide +kernel) (by decide +kernel) (by decide +kernel) (by decide +kernel) ?_
  intro q hq hd
  rcases (Nat.Prime.dvd_mul hq).mp hd with hd | hd
  swap
  · obtain rfl := (Nat.prime_dvd_prime_iff_eq hq prime_1433).mp (hq.dvd_of_dvd_pow hd)
    decide +kernel
  obtain rfl := (Nat.prime_dvd_prime_iff_eq hq prime_23609).mp (hq.dvd_of_dvd_pow hd)
  decide +kernel

theorem prime_2995763 : Nat.Prime 2995763 := by norm_num

theorem prime_65427463921 : Nat.Prime 65427463921 := by
  refine pocklington _ 3 (2995763 ^ 1) (by decide +kernel) (by decide +kernel) (by decide +kernel) (by decide +kernel) ?_
  intro q hq hd
  obtain rfl := (Nat.prime_dvd_prime_iff_eq hq prime_2995763).mp (hq.dvd_of_dvd_pow hd)
  decide +kernel

theorem prime_1663 : Nat.Prime 1663 := by norm_num

theorem prime_347 : Nat.Prime 347 := by norm_num

theorem prime_2400573761 : Nat.Prime 2400573761 := by
  refine pocklington _ 3 (1663 ^ 1 * 347 ^ 1) (by decide +kernel) (by decide +kernel) (by decide +kernel) (by decide +kernel) ?_
  intro q hq hd
  rcases (Nat.Prime.dvd_mul hq).mp hd with hd | hd
  swap
  · obtain rfl := (Nat.prime_dvd_prime_iff_eq hq prime_347).mp (hq.dvd_of_dvd_pow hd)
    decide +kernel
  obtain rfl := (Nat.prime_dvd_prime_iff_eq hq prime_1663).mp (hq.dvd_of_dvd_pow hd)
  decide +kernel

theorem prime_49481 : Nat.Prime 49481 := by norm_num

theorem prime_308761441 : Nat.Prime 308761441 := by
  refine pocklington _ 3 (49481 ^ 1) (by decide +kernel) (by decide +kernel) (by decide +kernel) (by decide +kernel) ?_
  intro q hq hd
  obtain rfl := (Nat.prime_dvd_prime_iff_eq hq prime_49481).mp (hq.dvd_of_dvd_pow hd)
  decide +kernel

theorem prime_p521 : Nat.Prime 6864797660130609714981900799081393217269435300143305409394463459185543183397656052122559640661454554977296311391480858037121987999716643812574028291115057151 := by
  refine pocklington _ 3 (173308343918874810521923841 ^ 1 * 145295143558111 ^ 1 * 108140989558681 ^ 1 * 65427463921 ^ 1 * 2400573761 ^ 1 * 308761441 ^ 1) (by decide +kernel) (by decide +kernel) (by decide +kernel) (by decide +kernel) ?_
  intro q hq hd
  rcases (Nat.Prime.dvd_mul hq).mp hd with hd | hd
  swap
  · obtain rfl := (Nat.prime_dvd_prime_iff_eq hq prime_308761441).mp (hq.dvd_of_dvd_pow hd)
    decide +kernel
  rcases (Nat.Prime.dvd_mul hq).mp hd with hd | hd
  swap
  · obtain rfl := (Nat.prime_dvd_prime_iff_eq hq prime_2400573761).mp (hq.dvd_of_dvd_pow hd)
    decide +kernel
  rcases (Nat.Prime.dvd_mul hq).mp hd with hd | hd
  swap
  · obtain rfl := (Nat.prime_dvd_prime_iff_eq hq prime_65427463921).mp (hq.dvd_of_dvd_pow hd)
    decide +kernel
  rcases (Nat.Prime.dvd_mul hq).mp hd with hd | hd
  swap
  · obtain rfl := (Nat.prime_dvd_prime_iff_eq hq prime_625a8944af99).mp (hq.dvd_of_dvd_pow hd)
    decide +kernel
  rcases (Nat.Prime.dvd_mul hq).mp hd with hd | hd
  swap
  · obtain rfl := (Nat.prime_dvd_prime_iff_eq hq prime_8425296b5bdf).mp (hq.dvd_of_dvd_pow hd)
    decide +kernel
  obtain rfl := (Nat.prime_dvd_prime_iff_eq hq prime_8f5b78263ad9).mp (hq.dvd_of_dvd_pow hd)
  decide +kernel

theorem prime_13043 : Nat.Prime 13043 := by norm_num

theorem prime_3793 : Nat.Prime 3793 := by norm_num

theorem prime_1f5280e36413 : Nat.Prime 34439210165267 := by
  refine pocklington _ 2 (13043 ^ 1 * 3793 ^ 1) (by decide +kernel) (by decide +kernel) (by decide +kernel) (by decide +kernel) ?_
  intro q hq hd
  rcases (Nat.Prime.dvd_mul hq).mp hd with hd | hd
  swap
  · obtain rfl := (Nat.prime_dvd_prime_iff_eq hq prime_3793).mp (hq.dvd_of_dvd_pow hd)
    decide +kernel
  obtain rfl := (Nat.prime_dvd_prime_iff_eq hq prime_13043).mp (hq.dvd_of_dvd_pow hd)
  decide +kernel

theorem prime_118913 : Nat.Prime 118913 := by norm_num

theorem prime_11923882163 : Nat.Prime 11923882163 := by
  refine pocklington _ 2 (118913 ^ 1) (by decide +kernel) (by decide +kernel) (by decide +kernel) (by decide +kernel) ?_
  intro q hq hd
  obtain rfl := (Nat.prime_dvd_prime_iff_eq hq prime_118913).mp (hq.dvd_of_dvd_pow hd)
  decide +kernel

theorem prime_27e8950a0d3 : Nat.Prime 2742492897491 := by
  refine pocklington _ 2 (11923882163 ^ 1) (by decide +kernel) (by decide +kernel) (by decide +kernel) (by decide +kernel) ?_
  intro q hq hd
  obtain rfl := (Nat.prime_dvd_prime_iff_eq hq prime_11923882163).mp (hq.dvd_of_dvd_pow hd)
  decide +kernel

theorem prime_d748888b8665 : Nat.Prime 1117814976287443177659483657095414003 := by
  refine pocklington _ 2 (34439210165267 ^ 1 * 2742492897491 ^ 1) (by decide +kernel) (by decide +kernel) (by decide +kernel) (by decide +kernel) ?_
  intro q hq hd
  rcases (Nat.Prime.dvd_mul hq).mp hd with hd | hd
  swap
  · obtain rfl := (Nat.prime_dvd_prime_iff_eq hq prime_27e8950a0d3).mp (hq.dvd_of_dvd_pow hd)
    decide +kernel
  obtain rfl := (Nat.prime_dvd_prime_iff_eq hq prime_1f5280e36413).mp (hq.dvd_of_dvd_pow hd)
  decide +kernel

theorem prime_193899e40ecf : Nat.Prime 9894712450279245035225391287211308533561263802001480744023 := by
  refine pocklington _ 2 (1117814976287443177659483657095414003 ^ 1) (by decide +kernel) (by decide +kernel) (by decide +kernel) (by decide +kernel) ?_
  intro q hq hd
  obtain rfl := (Nat.prime_dvd_prime_iff_eq hq prime_d748888b8665).mp (hq.dvd_of_dvd_pow hd)
  decide +kernel

theorem prime_17a51045cde2 : Nat.Prime 2374730988067018808454093908930714048054703312480355378565521 := by
  refine pocklington _ 2 (9894712450279245035225391287211308533561263802001480744023 ^ 1) (by decide +kernel) (by decide +kernel) (by decide +kernel) (by decide +kernel) ?_
  intro q hq hd
  obtain rfl := (Nat.prime_dvd_prime_iff_eq hq prime_193899e40ecf).mp (hq.dvd_of_dvd_pow hd)
  decide +kernel

theorem prime_7818a54c11e3 : Nat.Prime 51804625509771251553534546678595322522265033968214829542043448183730599 := by
  refine pocklington _ 2 (2374730988067018808454093908930714048054703312480355378565521 ^ 1) (by decide +kernel) (by decide +kernel) (by decide +kernel) (by decide +kernel) ?_
  intro q hq hd
  obtain rfl := (Nat.prime_dvd_prime_iff_eq hq prime_17a51045cde2).mp (hq.dvd_of_dvd_pow hd)
  decide +kernel

theorem prime_18c61e9d6f53 : Nat.Prime 3636410625392624440351547907325502812950802686368714273274221490761556277859337865760708490235892541081304511 := by
  exact lucas_prime _ 51804625509771251553534546678595322522265033968214829542043448183730599 70194709248631365524608470823417908288 11 727282125078524888070309581465100562590160537273742854654844298152311255571867573152141698047178508216260901 727282125078524888070309581465100562590160537273742854654844298152311255571867573152141698047178508216260902 (by decide +kernel) prime_7818a54c11e3 (by decide +kernel) (by decide +kernel) (by decide +kernel) (by decide +kernel) (by decide +kernel)

theorem prime_5bc065010a97 : Nat.Prime 3615194794881930010216942559103847593050265703173292383701371712350878926821661243755933835426896058418509759880171943 := by
  refine pocklington _ 2 (3636410625392624440351547907325502812950802686368714273274221490761556277859337865760708490235892541081304511 ^ 1) (by decide +kernel) (by decide +kernel) (by decide +kernel) (by decide +kernel) ?_
  intro q hq hd
  obtain rfl := (Nat.prime_dvd_prime_iff_eq hq prime_18c61e9d6f53).mp (hq.dvd_of_dvd_pow hd)
  decide +kernel

theorem prime_n521 : Nat.Prime 6864797660130609714981900799081393217269435300143305409394463459185543183397655394245057746333217197532963996371363321113864768612440380340372808892707005449 := by
  refine pocklington _ 2 (3615194794881930010216942559103847593050265703173292383701371712350878926821661243755933835426896058418509759880171943 ^ 1) (by decide +kernel) (by decide +kernel) (by decide +kernel) (by decide +kernel) ?_
  intro q hq hd
  obtain rfl := (Nat.prime_dvd_prime_iff_eq hq prime_5bc065010a97).mp (hq.dvd_of_dvd_pow hd)
  decide +kernel

end Verif
