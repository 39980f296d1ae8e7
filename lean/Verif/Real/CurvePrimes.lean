import Verif.Real.Primes
import Verif.Real.Curve

/-!
# The numbers of the curves are prime
-/

namespace Psion.Real

open Psion

/-- Primes in increasing order, with the reasons why they are prime. -/
def certificates : List (Nat × Reason) := [
  (2, .small),
  (3, .small),
  (5, .small),
  (7, .small),
  (11, .small),
  (13, .small),
  (17, .small),
  (19, .small),
  (23, .small),
  (29, .small),
  (31, .small),
  (37, .small),
  (41, .small),
  (43, .small),
  (53, .small),
  (59, .small),
  (67, .small),
  (71, .small),
  (73, .small),
  (89, .small),
  (107, .small),
  (127, .small),
  (131, .small),
  (151, .small),
  (157, .small),
  (173, .small),
  (179, .small),
  (181, .small),
  (197, .small),
  (211, .small),
  (223, .small),
  (229, .small),
  (233, .small),
  (251, .small),
  (311, .small),
  (313, .small),
  (317, .small),
  (347, .small),
  (373, .small),
  (397, .small),
  (421, .small),
  (521, .small),
  (599, .small),
  (661, .small),
  (683, .small),
  (881, .small),
  (937, .small),
  (1051, .small),
  (1201, .small),
  (1381, .small),
  (1433, .small),
  (1613, .small),
  (1663, .small),
  (2411, .small),
  (2437, .small),
  (2657, .small),
  (2731, .small),
  (3023, .small),
  (3253, .small),
  (3407, .small),
  (3677, .small),
  (3769, .small),
  (3793, .small),
  (8191, .small),
  (8389, .small),
  (13043, .small),
  (17449, .small),
  (18169, .small),
  (21407, .small),
  (23609, .small),
  (37447, .small),
  (38189, .small),
  (38557, .small),
  (42641, .small),
  (49481, .small),
  (51481, .small),
  (61681, .small),
  (78283, .small),
  (104471, .small),
  (118913, .small),
  (155317, .lucas 5 [2, 2, 3, 7, 43, 43]),
  (248431, .lucas 3 [2, 3, 5, 7, 7, 13, 13]),
  (312289, .minus 3253 2),
  (363557, .minus 937 2),
  (409891, .minus 1051 3),
  (704251, .lucas 2 [2, 3, 3, 5, 5, 5, 313]),
  (858001, .lucas 17 [2, 2, 2, 2, 3, 5, 5, 5, 11, 13]),
  (2995763, .lucas 2 [2, 7, 7, 7, 11, 397]),
  (3154339, .lucas 2 [2, 3, 3, 11, 89, 179]),
  (3969899, .minus 104471 2),
  (5746001, .lucas 15 [2, 2, 2, 2, 5, 5, 5, 13, 13, 17]),
  (7623851, .lucas 6 [2, 5, 5, 13, 37, 317]),
  (8463023, .minus 37447 2),
  (8620289, .lucas 3 [2, 2, 2, 2, 2, 2, 2, 2, 151, 223]),
  (9211861, .lucas 2 [2, 2, 3, 3, 3, 5, 7, 2437]),
  (9350987, .lucas 2 [2, 17, 229, 1201]),
  (9863677, .lucas 5 [2, 2, 3, 3, 311, 881]),
  (12617357, .minus 3154339 2),
  (34110701, .lucas 15 [2, 2, 5, 5, 13, 19, 1381]),
  (105957871, .lucas 3 [2, 3, 5, 19, 211, 881]),
  (187019741, .minus 9350987 2),
  (191039911, .minus 155317 2),
  (204061199, .lucas 11 [2, 11, 23, 107, 3769]),
  (246608641, .minus 21407 2),
  (272109983, .lucas 5 [2, 19, 73, 233, 421]),
  (308761441, .minus 49481 3),
  (311245691, .lucas 2 [2, 5, 7, 17, 29, 29, 311]),
  (513928823, .lucas 5 [2, 11, 59, 599, 661]),
  (532247449, .minus 363557 2),
  (622491383, .minus 311245691 2),
  (2400573761, .lucas 3 [2, 2, 2, 2, 2, 2, 5, 13, 347, 1663]),
  (2534364967, .minus 8620289 2),
  (11923882163, .minus 118913 2),
  (24098228377, .minus 9211861 2),
  (34282281433, .minus 204061199 2),
  (53448597593, .minus 513928823 2),
  (65427463921, .minus 2995763 3),
  (66417393611, .lucas 6 [2, 5, 53, 173, 197, 3677]),
  (228572385721, .minus 272109983 2),
  (674750394557, .minus 24098228377 2),
  (1002328039319, .minus 3969899 2),
  (2742492897491, .minus 11923882163 2),
  (11290956913871, .minus 66417393611 2),
  (23314383343543, .minus 228572385721 2),
  (34439210165267, .lucas 2 [2, 131, 2657, 3793, 13043]),
  (37344768852931, .minus 9863677 2),
  (44925942675193, .minus 532247449 2),
  (108140989558681, .lucas 17 [2, 2, 2, 3, 3, 5, 13, 683, 1433, 23609]),
  (145295143558111, .minus 2534364967 3),
  (46076956964474543, .lucas 5 [2, 23, 18169, 78283, 704251]),
  (55942463741690639, .minus 37344768852931 2),
  (208150935158385979, .lucas 2 [2, 3, 11, 43, 127, 3023, 191039911]),
  (361725589517273017, .minus 674750394557 2),
  (1357291859799823621, .minus 53448597593 2),
  (426632512014427833817, .minus 23314383343543 2),
  (529709925838459440593, .lucas 3 [2, 2, 2, 2, 7, 181, 105957871, 246608641]),
  (35581458644053887931343, .minus 44925942675193 2),
  (173308343918874810521923841, .minus 361725589517273017 3),
  (1495199339761412565498084319, .minus 426632512014427833817 2),
  (2624747550333869278416773953, .minus 208150935158385979 2),
  (17942392077136950785977011829, .minus 1495199339761412565498084319 2),
  (23964610537191310276190549303, .minus 35581458644053887931343 2),
  (862725979338887169942859774909, .minus 23964610537191310276190549303 2),
  (20705423504133292078628634597817, .minus 862725979338887169942859774909 2),
  (1117814976287443177659483657095414003, .lucas 2 [2, 7, 67, 12617357, 2742492897491, 34439210165267]),
  (413244619895455989650825325680172591660047, .minus 20705423504133292078628634597817 2),
  (12397338596863679689524759770405177749801411, .minus 413244619895455989650825325680172591660047 2),
  (774023187263532362759620327192479577272145303, .lucas 3 [2, 3, 3, 2411, 34282281433, 11290956913871, 46076956964474543]),
  (835945042244614951780389953367877943453916927241, .minus 774023187263532362759620327192479577272145303 2),
  (9894712450279245035225391287211308533561263802001480744023, .minus 1117814976287443177659483657095414003 2),
  (1059392654943455286185473617842338478315215895509773412096307, .lucas 2 [2, 251, 248431, 8463023, 55942463741690639, 17942392077136950785977011829]),
  (2374730988067018808454093908930714048054703312480355378565521, .minus 9894712450279245035225391287211308533561263802001480744023 2),
  (51804625509771251553534546678595322522265033968214829542043448183730599, .minus 2374730988067018808454093908930714048054703312480355378565521 2),
  (115792089210356248762697446949407573529996955224135760342422259061068512044369, .lucas 7 [2, 2, 2, 2, 3, 71, 131, 373, 3407, 17449, 38189, 187019741, 622491383, 1002328039319, 2624747550333869278416773953]),
  (115792089210356248762697446949407573530086143415290314195533631308867097853951, .minus 835945042244614951780389953367877943453916927241 2),
  (3055465788140352002733946906144561090641249606160407884365391979704929268480326390471, .minus 1059392654943455286185473617842338478315215895509773412096307 2),
  (19173790298027098165721053155794528970226934547887232785722672956982046098136719667167519737147526097, .lucas 3 [2, 2, 2, 2, 11, 11, 11, 8389, 38557, 312289, 1357291859799823621, 529709925838459440593, 12397338596863679689524759770405177749801411]),
  (3636410625392624440351547907325502812950802686368714273274221490761556277859337865760708490235892541081304511, .plus 51804625509771251553534546678595322522265033968214829542043448183730599 11
    727282125078524888070309581465100562590160537273742854654844298152311255571867573152141698047178508216260901
    727282125078524888070309581465100562590160537273742854654844298152311255571867573152141698047178508216260902),
  (39402006196394479212279040100143613805079739270465446667946905279627659399113263569398956308152294913554433653942643, .minus 3055465788140352002733946906144561090641249606160407884365391979704929268480326390471 2),
  (39402006196394479212279040100143613805079739270465446667948293404245721771496870329047266088258938001861606973112319, .minus 19173790298027098165721053155794528970226934547887232785722672956982046098136719667167519737147526097 2),
  (3615194794881930010216942559103847593050265703173292383701371712350878926821661243755933835426896058418509759880171943, .minus 3636410625392624440351547907325502812950802686368714273274221490761556277859337865760708490235892541081304511 2),
  (6864797660130609714981900799081393217269435300143305409394463459185543183397655394245057746333217197532963996371363321113864768612440380340372808892707005449, .minus 3615194794881930010216942559103847593050265703173292383701371712350878926821661243755933835426896058418509759880171943 2),
  (6864797660130609714981900799081393217269435300143305409394463459185543183397656052122559640661454554977296311391480858037121987999716643812574028291115057151, .lucas 3 [2, 3, 5, 5, 11, 17, 31, 41, 53, 131, 157, 521, 1613, 2731, 8191, 42641, 51481, 61681, 409891, 858001, 5746001, 7623851, 34110701, 308761441, 2400573761, 65427463921, 108140989558681, 145295143558111, 173308343918874810521923841])]

theorem certificates_prime : ∀ nr ∈ certificates, nr.1.Prime :=
  allHold_sound (known := []) nofun (by decide +kernel)

theorem prime_of_certificate {n : Nat} (h : (certificates.map Prod.fst).contains n = true) : n.Prime := by
  obtain ⟨nr, hm, rfl⟩ := List.mem_map.mp (List.contains_iff_mem.mp h)
  exact certificates_prime nr hm

/-- The fields of the curves are prime fields. -/
theorem field_prime (c : Curve) : (domain c).p.Prime := by
  cases c <;> exact prime_of_certificate (by decide +kernel)

/-- The orders of the base points are prime. -/
theorem order_prime (c : Curve) : (domain c).n.Prime := by
  cases c <;> exact prime_of_certificate (by decide +kernel)

instance (c : Curve) : Fact (domain c).p.Prime := ⟨field_prime c⟩

instance (c : Curve) : Fact (domain c).n.Prime := ⟨order_prime c⟩

end Psion.Real
