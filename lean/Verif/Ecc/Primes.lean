import Verif.Ecc.Pocklington
import Verif.Ecc.CurveCert
import Mathlib.Tactic.NormNum.Prime

/-! Certificates of primality by Pocklington's criterion and by curves. Written by tools/primes.py. -/
namespace Torsion.Ecc

set_option linter.style.longLine false

theorem prime_8413201 : Nat.Prime 8413201 := by norm_num

theorem prime_252396031 :
    Nat.Prime 252396031 :=
  pocklington [(8413201, 1, 2)]
    (by simp only [List.forall_mem_cons, List.not_mem_nil, false_implies, implies_true, and_true]
        exact prime_8413201) (by decide +kernel)

theorem prime_455827231987 :
    Nat.Prime 455827231987 :=
  pocklington [(252396031, 1, 2)]
    (by simp only [List.forall_mem_cons, List.not_mem_nil, false_implies, implies_true, and_true]
        exact prime_252396031) (by decide +kernel)

theorem prime_5933177618131140283 :
    Nat.Prime 5933177618131140283 :=
  pocklington [(455827231987, 1, 2)]
    (by simp only [List.forall_mem_cons, List.not_mem_nil, false_implies, implies_true, and_true]
        exact prime_455827231987) (by decide +kernel)

theorem prime_288626509448065367648032903 :
    Nat.Prime 288626509448065367648032903 :=
  pocklington [(5933177618131140283, 1, 2)]
    (by simp only [List.forall_mem_cons, List.not_mem_nil, false_implies, implies_true, and_true]
        exact prime_5933177618131140283) (by decide +kernel)

theorem prime_275729 : Nat.Prime 275729 := by norm_num

theorem prime_54251 : Nat.Prime 54251 := by norm_num

theorem prime_108341181769254293 :
    Nat.Prime 108341181769254293 :=
  pocklington [(275729, 1, 2), (54251, 1, 2)]
    (by simp only [List.forall_mem_cons, List.not_mem_nil, false_implies, implies_true, and_true]
        exact ⟨prime_275729, prime_54251⟩) (by decide +kernel)

theorem prime_6277101735386680763835789423207666416083908700390324961279 :
    Nat.Prime 6277101735386680763835789423207666416083908700390324961279 :=
  pocklington [(288626509448065367648032903, 1, 2), (108341181769254293, 1, 2)]
    (by simp only [List.forall_mem_cons, List.not_mem_nil, false_implies, implies_true, and_true]
        exact ⟨prime_288626509448065367648032903, prime_108341181769254293⟩) (by decide +kernel)

theorem prime_2998279 : Nat.Prime 2998279 := by norm_num

theorem prime_373 : Nat.Prime 373 := by norm_num

theorem prime_67280421310721 :
    Nat.Prime 67280421310721 :=
  pocklington [(2998279, 1, 3), (373, 1, 3)]
    (by simp only [List.forall_mem_cons, List.not_mem_nil, false_implies, implies_true, and_true]
        exact ⟨prime_2998279, prime_373⟩) (by decide +kernel)

theorem prime_6700417 : Nat.Prime 6700417 := by norm_num

theorem prime_274177 : Nat.Prime 274177 := by norm_num

theorem prime_65537 : Nat.Prime 65537 := by norm_num

theorem prime_641 : Nat.Prime 641 := by norm_num

theorem prime_26959946667150639794667015087019630673557916260026308143510066298881 :
    Nat.Prime 26959946667150639794667015087019630673557916260026308143510066298881 :=
  pocklington [(67280421310721, 1, 2), (6700417, 1, 2), (274177, 1, 2), (65537, 1, 2), (641, 1, 2)]
    (by simp only [List.forall_mem_cons, List.not_mem_nil, false_implies, implies_true, and_true]
        exact ⟨prime_67280421310721, prime_6700417, prime_274177, prime_65537, prime_641⟩) (by decide +kernel)

theorem prime_704251 : Nat.Prime 704251 := by norm_num

theorem prime_78283 : Nat.Prime 78283 := by norm_num

theorem prime_46076956964474543 :
    Nat.Prime 46076956964474543 :=
  pocklington [(704251, 1, 2), (78283, 1, 2)]
    (by simp only [List.forall_mem_cons, List.not_mem_nil, false_implies, implies_true, and_true]
        exact ⟨prime_704251, prime_78283⟩) (by decide +kernel)

theorem prime_3677 : Nat.Prime 3677 := by norm_num

theorem prime_197 : Nat.Prime 197 := by norm_num

theorem prime_66417393611 :
    Nat.Prime 66417393611 :=
  pocklington [(3677, 1, 2), (197, 1, 2)]
    (by simp only [List.forall_mem_cons, List.not_mem_nil, false_implies, implies_true, and_true]
        exact ⟨prime_3677, prime_197⟩) (by decide +kernel)

theorem prime_11290956913871 :
    Nat.Prime 11290956913871 :=
  pocklington [(66417393611, 1, 2)]
    (by simp only [List.forall_mem_cons, List.not_mem_nil, false_implies, implies_true, and_true]
        exact prime_66417393611) (by decide +kernel)

theorem prime_774023187263532362759620327192479577272145303 :
    Nat.Prime 774023187263532362759620327192479577272145303 :=
  pocklington [(46076956964474543, 1, 2), (11290956913871, 1, 2)]
    (by simp only [List.forall_mem_cons, List.not_mem_nil, false_implies, implies_true, and_true]
        exact ⟨prime_46076956964474543, prime_11290956913871⟩) (by decide +kernel)

theorem prime_835945042244614951780389953367877943453916927241 :
    Nat.Prime 835945042244614951780389953367877943453916927241 :=
  pocklington [(774023187263532362759620327192479577272145303, 1, 2)]
    (by simp only [List.forall_mem_cons, List.not_mem_nil, false_implies, implies_true, and_true]
        exact prime_774023187263532362759620327192479577272145303) (by decide +kernel)

theorem prime_115792089210356248762697446949407573530086143415290314195533631308867097853951 :
    Nat.Prime 115792089210356248762697446949407573530086143415290314195533631308867097853951 :=
  pocklington [(835945042244614951780389953367877943453916927241, 1, 2)]
    (by simp only [List.forall_mem_cons, List.not_mem_nil, false_implies, implies_true, and_true]
        exact prime_835945042244614951780389953367877943453916927241) (by decide +kernel)

theorem prime_363557 : Nat.Prime 363557 := by norm_num

theorem prime_532247449 :
    Nat.Prime 532247449 :=
  pocklington [(363557, 1, 2)]
    (by simp only [List.forall_mem_cons, List.not_mem_nil, false_implies, implies_true, and_true]
        exact prime_363557) (by decide +kernel)

theorem prime_44925942675193 :
    Nat.Prime 44925942675193 :=
  pocklington [(532247449, 1, 2)]
    (by simp only [List.forall_mem_cons, List.not_mem_nil, false_implies, implies_true, and_true]
        exact prime_532247449) (by decide +kernel)

theorem prime_35581458644053887931343 :
    Nat.Prime 35581458644053887931343 :=
  pocklington [(44925942675193, 1, 2)]
    (by simp only [List.forall_mem_cons, List.not_mem_nil, false_implies, implies_true, and_true]
        exact prime_44925942675193) (by decide +kernel)

theorem prime_23964610537191310276190549303 :
    Nat.Prime 23964610537191310276190549303 :=
  pocklington [(35581458644053887931343, 1, 2)]
    (by simp only [List.forall_mem_cons, List.not_mem_nil, false_implies, implies_true, and_true]
        exact prime_35581458644053887931343) (by decide +kernel)

theorem prime_862725979338887169942859774909 :
    Nat.Prime 862725979338887169942859774909 :=
  pocklington [(23964610537191310276190549303, 1, 2)]
    (by simp only [List.forall_mem_cons, List.not_mem_nil, false_implies, implies_true, and_true]
        exact prime_23964610537191310276190549303) (by decide +kernel)

theorem prime_20705423504133292078628634597817 :
    Nat.Prime 20705423504133292078628634597817 :=
  pocklington [(862725979338887169942859774909, 1, 2)]
    (by simp only [List.forall_mem_cons, List.not_mem_nil, false_implies, implies_true, and_true]
        exact prime_862725979338887169942859774909) (by decide +kernel)

theorem prime_413244619895455989650825325680172591660047 :
    Nat.Prime 413244619895455989650825325680172591660047 :=
  pocklington [(20705423504133292078628634597817, 1, 2)]
    (by simp only [List.forall_mem_cons, List.not_mem_nil, false_implies, implies_true, and_true]
        exact prime_20705423504133292078628634597817) (by decide +kernel)

theorem prime_12397338596863679689524759770405177749801411 :
    Nat.Prime 12397338596863679689524759770405177749801411 :=
  pocklington [(413244619895455989650825325680172591660047, 1, 2)]
    (by simp only [List.forall_mem_cons, List.not_mem_nil, false_implies, implies_true, and_true]
        exact prime_413244619895455989650825325680172591660047) (by decide +kernel)

theorem prime_21407 : Nat.Prime 21407 := by norm_num

theorem prime_246608641 :
    Nat.Prime 246608641 :=
  pocklington [(21407, 1, 2)]
    (by simp only [List.forall_mem_cons, List.not_mem_nil, false_implies, implies_true, and_true]
        exact prime_21407) (by decide +kernel)

theorem prime_881 : Nat.Prime 881 := by norm_num

theorem prime_211 : Nat.Prime 211 := by norm_num

theorem prime_105957871 :
    Nat.Prime 105957871 :=
  pocklington [(881, 1, 2), (211, 1, 2)]
    (by simp only [List.forall_mem_cons, List.not_mem_nil, false_implies, implies_true, and_true]
        exact ⟨prime_881, prime_211⟩) (by decide +kernel)

theorem prime_529709925838459440593 :
    Nat.Prime 529709925838459440593 :=
  pocklington [(246608641, 1, 2), (105957871, 1, 2)]
    (by simp only [List.forall_mem_cons, List.not_mem_nil, false_implies, implies_true, and_true]
        exact ⟨prime_246608641, prime_105957871⟩) (by decide +kernel)

theorem prime_19173790298027098165721053155794528970226934547887232785722672956982046098136719667167519737147526097 :
    Nat.Prime 19173790298027098165721053155794528970226934547887232785722672956982046098136719667167519737147526097 :=
  pocklington [(12397338596863679689524759770405177749801411, 1, 2), (529709925838459440593, 1, 2)]
    (by simp only [List.forall_mem_cons, List.not_mem_nil, false_implies, implies_true, and_true]
        exact ⟨prime_12397338596863679689524759770405177749801411, prime_529709925838459440593⟩) (by decide +kernel)

theorem prime_39402006196394479212279040100143613805079739270465446667948293404245721771496870329047266088258938001861606973112319 :
    Nat.Prime 39402006196394479212279040100143613805079739270465446667948293404245721771496870329047266088258938001861606973112319 :=
  pocklington [(19173790298027098165721053155794528970226934547887232785722672956982046098136719667167519737147526097, 1, 2)]
    (by simp only [List.forall_mem_cons, List.not_mem_nil, false_implies, implies_true, and_true]
        exact prime_19173790298027098165721053155794528970226934547887232785722672956982046098136719667167519737147526097) (by decide +kernel)

theorem prime_8620289 : Nat.Prime 8620289 := by norm_num

theorem prime_2534364967 :
    Nat.Prime 2534364967 :=
  pocklington [(8620289, 1, 2)]
    (by simp only [List.forall_mem_cons, List.not_mem_nil, false_implies, implies_true, and_true]
        exact prime_8620289) (by decide +kernel)

theorem prime_145295143558111 :
    Nat.Prime 145295143558111 :=
  pocklington [(2534364967, 1, 3)]
    (by simp only [List.forall_mem_cons, List.not_mem_nil, false_implies, implies_true, and_true]
        exact prime_2534364967) (by decide +kernel)

theorem prime_23609 : Nat.Prime 23609 := by norm_num

theorem prime_1433 : Nat.Prime 1433 := by norm_num

theorem prime_108140989558681 :
    Nat.Prime 108140989558681 :=
  pocklington [(23609, 1, 3), (1433, 1, 3)]
    (by simp only [List.forall_mem_cons, List.not_mem_nil, false_implies, implies_true, and_true]
        exact ⟨prime_23609, prime_1433⟩) (by decide +kernel)

theorem prime_1381 : Nat.Prime 1381 := by norm_num

theorem prime_19 : Nat.Prime 19 := by norm_num

theorem prime_34110701 :
    Nat.Prime 34110701 :=
  pocklington [(1381, 1, 3), (19, 1, 3)]
    (by simp only [List.forall_mem_cons, List.not_mem_nil, false_implies, implies_true, and_true]
        exact ⟨prime_1381, prime_19⟩) (by decide +kernel)

theorem prime_7623851 : Nat.Prime 7623851 := by norm_num

theorem prime_409891 : Nat.Prime 409891 := by norm_num

theorem prime_51481 : Nat.Prime 51481 := by norm_num

theorem prime_8191 : Nat.Prime 8191 := by norm_num

theorem prime_2731 : Nat.Prime 2731 := by norm_num

theorem prime_1613 : Nat.Prime 1613 := by norm_num

theorem prime_521 : Nat.Prime 521 := by norm_num

theorem prime_157 : Nat.Prime 157 := by norm_num

theorem prime_131 : Nat.Prime 131 := by norm_num

theorem prime_53 : Nat.Prime 53 := by norm_num

theorem prime_41 : Nat.Prime 41 := by norm_num

theorem prime_31 : Nat.Prime 31 := by norm_num

theorem prime_17 : Nat.Prime 17 := by norm_num

theorem prime_11 : Nat.Prime 11 := by norm_num

theorem prime_5 : Nat.Prime 5 := by norm_num

theorem prime_6864797660130609714981900799081393217269435300143305409394463459185543183397656052122559640661454554977296311391480858037121987999716643812574028291115057151 :
    Nat.Prime 6864797660130609714981900799081393217269435300143305409394463459185543183397656052122559640661454554977296311391480858037121987999716643812574028291115057151 :=
  pocklington [(145295143558111, 1, 3), (108140989558681, 1, 3), (34110701, 1, 3), (7623851, 1, 3), (409891, 1, 3), (51481, 1, 3), (8191, 1, 3), (2731, 1, 3), (1613, 1, 3), (521, 1, 2), (157, 1, 3), (131, 1, 3), (53, 1, 3), (41, 1, 3), (31, 1, 3), (17, 1, 3), (11, 1, 3), (5, 2, 3)]
    (by simp only [List.forall_mem_cons, List.not_mem_nil, false_implies, implies_true, and_true]
        exact ⟨prime_145295143558111, prime_108140989558681, prime_34110701, prime_7623851, prime_409891, prime_51481, prime_8191, prime_2731, prime_1613, prime_521, prime_157, prime_131, prime_53, prime_41, prime_31, prime_17, prime_11, prime_5⟩) (by decide +kernel)

theorem prime_29 : Nat.Prime 29 := by norm_num

theorem prime_7 : Nat.Prime 7 := by norm_num

theorem prime_107590001 :
    Nat.Prime 107590001 :=
  pocklington [(53, 1, 2), (29, 1, 2), (7, 1, 2)]
    (by simp only [List.forall_mem_cons, List.not_mem_nil, false_implies, implies_true, and_true]
        exact ⟨prime_53, prime_29, prime_7⟩) (by decide +kernel)

theorem prime_7240687 : Nat.Prime 7240687 := by norm_num

theorem prime_96557 : Nat.Prime 96557 := by norm_num

theorem prime_255515944373312847190720520512484175977 :
    Nat.Prime 255515944373312847190720520512484175977 :=
  pocklington [(107590001, 1, 2), (7240687, 1, 2), (96557, 1, 2)]
    (by simp only [List.forall_mem_cons, List.not_mem_nil, false_implies, implies_true, and_true]
        exact ⟨prime_107590001, prime_7240687, prime_96557⟩) (by decide +kernel)

theorem prime_205115282021455665897114700593932402728804164701536103180137503955397371 :
    Nat.Prime 205115282021455665897114700593932402728804164701536103180137503955397371 :=
  pocklington [(255515944373312847190720520512484175977, 1, 2)]
    (by simp only [List.forall_mem_cons, List.not_mem_nil, false_implies, implies_true, and_true]
        exact prime_255515944373312847190720520512484175977) (by decide +kernel)

theorem prime_115792089237316195423570985008687907853269984665640564039457584007908834671663 :
    Nat.Prime 115792089237316195423570985008687907853269984665640564039457584007908834671663 :=
  pocklington [(205115282021455665897114700593932402728804164701536103180137503955397371, 1, 2)]
    (by simp only [List.forall_mem_cons, List.not_mem_nil, false_implies, implies_true, and_true]
        exact prime_205115282021455665897114700593932402728804164701536103180137503955397371) (by decide +kernel)

theorem prime_8574133 : Nat.Prime 8574133 := by norm_num

theorem prime_127 : Nat.Prime 127 := by norm_num

theorem prime_1919519569386763 :
    Nat.Prime 1919519569386763 :=
  pocklington [(8574133, 1, 2), (127, 1, 2)]
    (by simp only [List.forall_mem_cons, List.not_mem_nil, false_implies, implies_true, and_true]
        exact ⟨prime_8574133, prime_127⟩) (by decide +kernel)

theorem prime_569003 : Nat.Prime 569003 := by norm_num

theorem prime_2773320623 :
    Nat.Prime 2773320623 :=
  pocklington [(569003, 1, 2)]
    (by simp only [List.forall_mem_cons, List.not_mem_nil, false_implies, implies_true, and_true]
        exact prime_569003) (by decide +kernel)

theorem prime_72106336199 :
    Nat.Prime 72106336199 :=
  pocklington [(2773320623, 1, 2)]
    (by simp only [List.forall_mem_cons, List.not_mem_nil, false_implies, implies_true, and_true]
        exact prime_2773320623) (by decide +kernel)

theorem prime_75445702479781427272750846543864801 :
    Nat.Prime 75445702479781427272750846543864801 :=
  pocklington [(1919519569386763, 1, 2), (72106336199, 1, 2)]
    (by simp only [List.forall_mem_cons, List.not_mem_nil, false_implies, implies_true, and_true]
        exact ⟨prime_1919519569386763, prime_72106336199⟩) (by decide +kernel)

theorem prime_430751 : Nat.Prime 430751 := by norm_num

theorem prime_4153 : Nat.Prime 4153 := by norm_num

theorem prime_31757755568855353 :
    Nat.Prime 31757755568855353 :=
  pocklington [(430751, 1, 2), (4153, 1, 2)]
    (by simp only [List.forall_mem_cons, List.not_mem_nil, false_implies, implies_true, and_true]
        exact ⟨prime_430751, prime_4153⟩) (by decide +kernel)

theorem prime_74058212732561358302231226437062788676166966415465897661863160754340907 :
    Nat.Prime 74058212732561358302231226437062788676166966415465897661863160754340907 :=
  pocklington [(75445702479781427272750846543864801, 1, 2), (31757755568855353, 1, 2)]
    (by simp only [List.forall_mem_cons, List.not_mem_nil, false_implies, implies_true, and_true]
        exact ⟨prime_75445702479781427272750846543864801, prime_31757755568855353⟩) (by decide +kernel)

theorem prime_57896044618658097711785492504343953926634992332820282019728792003956564819949 :
    Nat.Prime 57896044618658097711785492504343953926634992332820282019728792003956564819949 :=
  pocklington [(74058212732561358302231226437062788676166966415465897661863160754340907, 1, 2)]
    (by simp only [List.forall_mem_cons, List.not_mem_nil, false_implies, implies_true, and_true]
        exact prime_74058212732561358302231226437062788676166966415465897661863160754340907) (by decide +kernel)

theorem prime_6197 : Nat.Prime 6197 := by norm_num

theorem prime_61 : Nat.Prime 61 := by norm_num

theorem prime_1335912079 :
    Nat.Prime 1335912079 :=
  pocklington [(6197, 1, 2), (61, 1, 2)]
    (by simp only [List.forall_mem_cons, List.not_mem_nil, false_implies, implies_true, and_true]
        exact ⟨prime_6197, prime_61⟩) (by decide +kernel)

theorem prime_32061889897 :
    Nat.Prime 32061889897 :=
  pocklington [(1335912079, 1, 2)]
    (by simp only [List.forall_mem_cons, List.not_mem_nil, false_implies, implies_true, and_true]
        exact prime_1335912079) (by decide +kernel)

theorem prime_25136521679249 :
    Nat.Prime 25136521679249 :=
  pocklington [(32061889897, 1, 2)]
    (by simp only [List.forall_mem_cons, List.not_mem_nil, false_implies, implies_true, and_true]
        exact prime_32061889897) (by decide +kernel)

theorem prime_116989 : Nat.Prime 116989 := by norm_num

theorem prime_1255525949 :
    Nat.Prime 1255525949 :=
  pocklington [(116989, 1, 2)]
    (by simp only [List.forall_mem_cons, List.not_mem_nil, false_implies, implies_true, and_true]
        exact prime_116989) (by decide +kernel)

theorem prime_37414057161322375957408148834323969 :
    Nat.Prime 37414057161322375957408148834323969 :=
  pocklington [(25136521679249, 1, 3), (1255525949, 1, 3)]
    (by simp only [List.forall_mem_cons, List.not_mem_nil, false_implies, implies_true, and_true]
        exact ⟨prime_25136521679249, prime_1255525949⟩) (by decide +kernel)

theorem prime_217003 : Nat.Prime 217003 := by norm_num

theorem prime_1764234391 :
    Nat.Prime 1764234391 :=
  pocklington [(217003, 1, 2)]
    (by simp only [List.forall_mem_cons, List.not_mem_nil, false_implies, implies_true, and_true]
        exact prime_217003) (by decide +kernel)

theorem prime_34741861125639557 :
    Nat.Prime 34741861125639557 :=
  pocklington [(1764234391, 1, 2)]
    (by simp only [List.forall_mem_cons, List.not_mem_nil, false_implies, implies_true, and_true]
        exact prime_1764234391) (by decide +kernel)

theorem prime_36131535570665139281 :
    Nat.Prime 36131535570665139281 :=
  pocklington [(34741861125639557, 1, 2)]
    (by simp only [List.forall_mem_cons, List.not_mem_nil, false_implies, implies_true, and_true]
        exact prime_34741861125639557) (by decide +kernel)

theorem prime_596242599987116128415063 :
    Nat.Prime 596242599987116128415063 :=
  pocklington [(36131535570665139281, 1, 3)]
    (by simp only [List.forall_mem_cons, List.not_mem_nil, false_implies, implies_true, and_true]
        exact prime_36131535570665139281) (by decide +kernel)

theorem prime_379979 : Nat.Prime 379979 := by norm_num

theorem prime_271 : Nat.Prime 271 := by norm_num

theorem prime_97859369123353 :
    Nat.Prime 97859369123353 :=
  pocklington [(379979, 1, 2), (271, 1, 2)]
    (by simp only [List.forall_mem_cons, List.not_mem_nil, false_implies, implies_true, and_true]
        exact ⟨prime_379979, prime_271⟩) (by decide +kernel)

theorem prime_167773885276849215533569 :
    Nat.Prime 167773885276849215533569 :=
  pocklington [(97859369123353, 1, 3)]
    (by simp only [List.forall_mem_cons, List.not_mem_nil, false_implies, implies_true, and_true]
        exact prime_97859369123353) (by decide +kernel)

theorem prime_726838724295606890549323807888004534353641360687318060281490199180612328166730772686396383698676545930088884461843637361053498018365439 :
    Nat.Prime 726838724295606890549323807888004534353641360687318060281490199180612328166730772686396383698676545930088884461843637361053498018365439 :=
  pocklington [(37414057161322375957408148834323969, 1, 2), (596242599987116128415063, 1, 2), (167773885276849215533569, 1, 2)]
    (by simp only [List.forall_mem_cons, List.not_mem_nil, false_implies, implies_true, and_true]
        exact ⟨prime_37414057161322375957408148834323969, prime_596242599987116128415063, prime_167773885276849215533569⟩) (by decide +kernel)

theorem prime_1135613 : Nat.Prime 1135613 := by norm_num

theorem prime_5113 : Nat.Prime 5113 := by norm_num

theorem prime_2032236244151 :
    Nat.Prime 2032236244151 :=
  pocklington [(1135613, 1, 2), (5113, 1, 2)]
    (by simp only [List.forall_mem_cons, List.not_mem_nil, false_implies, implies_true, and_true]
        exact ⟨prime_1135613, prime_5113⟩) (by decide +kernel)

theorem prime_297581916939273464475253 :
    Nat.Prime 297581916939273464475253 :=
  pocklington [(2032236244151, 1, 2)]
    (by simp only [List.forall_mem_cons, List.not_mem_nil, false_implies, implies_true, and_true]
        exact prime_2032236244151) (by decide +kernel)

theorem prime_22645347980446549950250344634517843 :
    Nat.Prime 22645347980446549950250344634517843 :=
  pocklington [(297581916939273464475253, 1, 2)]
    (by simp only [List.forall_mem_cons, List.not_mem_nil, false_implies, implies_true, and_true]
        exact prime_297581916939273464475253) (by decide +kernel)

theorem prime_1947073 : Nat.Prime 1947073 := by norm_num

theorem prime_401 : Nat.Prime 401 := by norm_num

theorem prime_20387630040577 :
    Nat.Prime 20387630040577 :=
  pocklington [(1947073, 1, 2), (401, 1, 2)]
    (by simp only [List.forall_mem_cons, List.not_mem_nil, false_implies, implies_true, and_true]
        exact ⟨prime_1947073, prime_401⟩) (by decide +kernel)

theorem prime_2151858718037429125511251 :
    Nat.Prime 2151858718037429125511251 :=
  pocklington [(20387630040577, 1, 2)]
    (by simp only [List.forall_mem_cons, List.not_mem_nil, false_implies, implies_true, and_true]
        exact prime_20387630040577) (by decide +kernel)

theorem prime_30510656070643106182115999270826633842178510774222732476374386585332681 :
    Nat.Prime 30510656070643106182115999270826633842178510774222732476374386585332681 :=
  pocklington [(22645347980446549950250344634517843, 1, 2), (2151858718037429125511251, 1, 2)]
    (by simp only [List.forall_mem_cons, List.not_mem_nil, false_implies, implies_true, and_true]
        exact ⟨prime_22645347980446549950250344634517843, prime_2151858718037429125511251⟩) (by decide +kernel)

theorem prime_3618502788666131106986593281521497120414687020801267626233049500247285301239 :
    Nat.Prime 3618502788666131106986593281521497120414687020801267626233049500247285301239 :=
  pocklington [(30510656070643106182115999270826633842178510774222732476374386585332681, 1, 2)]
    (by simp only [List.forall_mem_cons, List.not_mem_nil, false_implies, implies_true, and_true]
        exact prime_30510656070643106182115999270826633842178510774222732476374386585332681) (by decide +kernel)

theorem prime_51419 : Nat.Prime 51419 := by norm_num

theorem prime_4127 : Nat.Prime 4127 := by norm_num

theorem prime_7532705587894727 :
    Nat.Prime 7532705587894727 :=
  pocklington [(51419, 1, 2), (4127, 1, 2)]
    (by simp only [List.forall_mem_cons, List.not_mem_nil, false_implies, implies_true, and_true]
        exact ⟨prime_51419, prime_4127⟩) (by decide +kernel)

theorem prime_3433859179316188682119986911 :
    Nat.Prime 3433859179316188682119986911 :=
  pocklington [(7532705587894727, 1, 2)]
    (by simp only [List.forall_mem_cons, List.not_mem_nil, false_implies, implies_true, and_true]
        exact prime_7532705587894727) (by decide +kernel)

theorem prime_6829 : Nat.Prime 6829 := by norm_num

theorem prime_46245989 :
    Nat.Prime 46245989 :=
  pocklington [(6829, 1, 2)]
    (by simp only [List.forall_mem_cons, List.not_mem_nil, false_implies, implies_true, and_true]
        exact prime_6829) (by decide +kernel)

theorem prime_54623 : Nat.Prime 54623 := by norm_num

theorem prime_7244839476697597 :
    Nat.Prime 7244839476697597 :=
  pocklington [(46245989, 1, 2), (54623, 1, 2)]
    (by simp only [List.forall_mem_cons, List.not_mem_nil, false_implies, implies_true, and_true]
        exact ⟨prime_46245989, prime_54623⟩) (by decide +kernel)

theorem prime_9564682313913860059195669 :
    Nat.Prime 9564682313913860059195669 :=
  pocklington [(7244839476697597, 1, 2)]
    (by simp only [List.forall_mem_cons, List.not_mem_nil, false_implies, implies_true, and_true]
        exact prime_7244839476697597) (by decide +kernel)

theorem prime_6277101735386680763835789423176059013767194773182842284081 :
    Nat.Prime 6277101735386680763835789423176059013767194773182842284081 :=
  pocklington [(3433859179316188682119986911, 1, 2), (9564682313913860059195669, 1, 2)]
    (by simp only [List.forall_mem_cons, List.not_mem_nil, false_implies, implies_true, and_true]
        exact ⟨prime_3433859179316188682119986911, prime_9564682313913860059195669⟩) (by decide +kernel)

theorem prime_10909 : Nat.Prime 10909 := by norm_num

theorem prime_11105363 :
    Nat.Prime 11105363 :=
  pocklington [(10909, 1, 2)]
    (by simp only [List.forall_mem_cons, List.not_mem_nil, false_implies, implies_true, and_true]
        exact prime_10909) (by decide +kernel)

theorem prime_821796863 :
    Nat.Prime 821796863 :=
  pocklington [(11105363, 1, 2)]
    (by simp only [List.forall_mem_cons, List.not_mem_nil, false_implies, implies_true, and_true]
        exact prime_11105363) (by decide +kernel)

theorem prime_432621809776543 :
    Nat.Prime 432621809776543 :=
  pocklington [(821796863, 1, 2)]
    (by simp only [List.forall_mem_cons, List.not_mem_nil, false_implies, implies_true, and_true]
        exact prime_821796863) (by decide +kernel)

theorem prime_136401162692544977256234449 :
    Nat.Prime 136401162692544977256234449 :=
  pocklington [(432621809776543, 1, 2)]
    (by simp only [List.forall_mem_cons, List.not_mem_nil, false_implies, implies_true, and_true]
        exact prime_432621809776543) (by decide +kernel)

theorem prime_34646440928557194402992574983797 :
    Nat.Prime 34646440928557194402992574983797 :=
  pocklington [(136401162692544977256234449, 1, 2)]
    (by simp only [List.forall_mem_cons, List.not_mem_nil, false_implies, implies_true, and_true]
        exact prime_136401162692544977256234449) (by decide +kernel)

theorem prime_375503554633724504423937478103159147573209 :
    Nat.Prime 375503554633724504423937478103159147573209 :=
  pocklington [(34646440928557194402992574983797, 1, 2)]
    (by simp only [List.forall_mem_cons, List.not_mem_nil, false_implies, implies_true, and_true]
        exact prime_34646440928557194402992574983797) (by decide +kernel)

theorem prime_50520606258875818707470860153287666700917696099933389351507 :
    Nat.Prime 50520606258875818707470860153287666700917696099933389351507 :=
  pocklington [(375503554633724504423937478103159147573209, 1, 2)]
    (by simp only [List.forall_mem_cons, List.not_mem_nil, false_implies, implies_true, and_true]
        exact prime_375503554633724504423937478103159147573209) (by decide +kernel)

theorem prime_26959946667150639794667015087019625940457807714424391721682722368061 :
    Nat.Prime 26959946667150639794667015087019625940457807714424391721682722368061 :=
  pocklington [(50520606258875818707470860153287666700917696099933389351507, 1, 2)]
    (by simp only [List.forall_mem_cons, List.not_mem_nil, false_implies, implies_true, and_true]
        exact prime_50520606258875818707470860153287666700917696099933389351507) (by decide +kernel)

theorem prime_155317 : Nat.Prime 155317 := by norm_num

theorem prime_191039911 :
    Nat.Prime 191039911 :=
  pocklington [(155317, 1, 2)]
    (by simp only [List.forall_mem_cons, List.not_mem_nil, false_implies, implies_true, and_true]
        exact prime_155317) (by decide +kernel)

theorem prime_3023 : Nat.Prime 3023 := by norm_num

theorem prime_208150935158385979 :
    Nat.Prime 208150935158385979 :=
  pocklington [(191039911, 1, 2), (3023, 1, 2)]
    (by simp only [List.forall_mem_cons, List.not_mem_nil, false_implies, implies_true, and_true]
        exact ⟨prime_191039911, prime_3023⟩) (by decide +kernel)

theorem prime_2624747550333869278416773953 :
    Nat.Prime 2624747550333869278416773953 :=
  pocklington [(208150935158385979, 1, 2)]
    (by simp only [List.forall_mem_cons, List.not_mem_nil, false_implies, implies_true, and_true]
        exact prime_208150935158385979) (by decide +kernel)

theorem prime_3969899 : Nat.Prime 3969899 := by norm_num

theorem prime_1002328039319 :
    Nat.Prime 1002328039319 :=
  pocklington [(3969899, 1, 2)]
    (by simp only [List.forall_mem_cons, List.not_mem_nil, false_implies, implies_true, and_true]
        exact prime_3969899) (by decide +kernel)

theorem prime_115792089210356248762697446949407573529996955224135760342422259061068512044369 :
    Nat.Prime 115792089210356248762697446949407573529996955224135760342422259061068512044369 :=
  pocklington [(2624747550333869278416773953, 1, 2), (1002328039319, 1, 2)]
    (by simp only [List.forall_mem_cons, List.not_mem_nil, false_implies, implies_true, and_true]
        exact ⟨prime_2624747550333869278416773953, prime_1002328039319⟩) (by decide +kernel)

theorem prime_421 : Nat.Prime 421 := by norm_num

theorem prime_233 : Nat.Prime 233 := by norm_num

theorem prime_272109983 :
    Nat.Prime 272109983 :=
  pocklington [(421, 1, 2), (233, 1, 2)]
    (by simp only [List.forall_mem_cons, List.not_mem_nil, false_implies, implies_true, and_true]
        exact ⟨prime_421, prime_233⟩) (by decide +kernel)

theorem prime_228572385721 :
    Nat.Prime 228572385721 :=
  pocklington [(272109983, 1, 2)]
    (by simp only [List.forall_mem_cons, List.not_mem_nil, false_implies, implies_true, and_true]
        exact prime_272109983) (by decide +kernel)

theorem prime_23314383343543 :
    Nat.Prime 23314383343543 :=
  pocklington [(228572385721, 1, 2)]
    (by simp only [List.forall_mem_cons, List.not_mem_nil, false_implies, implies_true, and_true]
        exact prime_228572385721) (by decide +kernel)

theorem prime_426632512014427833817 :
    Nat.Prime 426632512014427833817 :=
  pocklington [(23314383343543, 1, 2)]
    (by simp only [List.forall_mem_cons, List.not_mem_nil, false_implies, implies_true, and_true]
        exact prime_23314383343543) (by decide +kernel)

theorem prime_1495199339761412565498084319 :
    Nat.Prime 1495199339761412565498084319 :=
  pocklington [(426632512014427833817, 1, 2)]
    (by simp only [List.forall_mem_cons, List.not_mem_nil, false_implies, implies_true, and_true]
        exact prime_426632512014427833817) (by decide +kernel)

theorem prime_17942392077136950785977011829 :
    Nat.Prime 17942392077136950785977011829 :=
  pocklington [(1495199339761412565498084319, 1, 2)]
    (by simp only [List.forall_mem_cons, List.not_mem_nil, false_implies, implies_true, and_true]
        exact prime_1495199339761412565498084319) (by decide +kernel)

theorem prime_9863677 : Nat.Prime 9863677 := by norm_num

theorem prime_37344768852931 :
    Nat.Prime 37344768852931 :=
  pocklington [(9863677, 1, 2)]
    (by simp only [List.forall_mem_cons, List.not_mem_nil, false_implies, implies_true, and_true]
        exact prime_9863677) (by decide +kernel)

theorem prime_55942463741690639 :
    Nat.Prime 55942463741690639 :=
  pocklington [(37344768852931, 1, 2)]
    (by simp only [List.forall_mem_cons, List.not_mem_nil, false_implies, implies_true, and_true]
        exact prime_37344768852931) (by decide +kernel)

theorem prime_1059392654943455286185473617842338478315215895509773412096307 :
    Nat.Prime 1059392654943455286185473617842338478315215895509773412096307 :=
  pocklington [(17942392077136950785977011829, 1, 2), (55942463741690639, 1, 2)]
    (by simp only [List.forall_mem_cons, List.not_mem_nil, false_implies, implies_true, and_true]
        exact ⟨prime_17942392077136950785977011829, prime_55942463741690639⟩) (by decide +kernel)

theorem prime_3055465788140352002733946906144561090641249606160407884365391979704929268480326390471 :
    Nat.Prime 3055465788140352002733946906144561090641249606160407884365391979704929268480326390471 :=
  pocklington [(1059392654943455286185473617842338478315215895509773412096307, 1, 2)]
    (by simp only [List.forall_mem_cons, List.not_mem_nil, false_implies, implies_true, and_true]
        exact prime_1059392654943455286185473617842338478315215895509773412096307) (by decide +kernel)

theorem prime_39402006196394479212279040100143613805079739270465446667946905279627659399113263569398956308152294913554433653942643 :
    Nat.Prime 39402006196394479212279040100143613805079739270465446667946905279627659399113263569398956308152294913554433653942643 :=
  pocklington [(3055465788140352002733946906144561090641249606160407884365391979704929268480326390471, 1, 2)]
    (by simp only [List.forall_mem_cons, List.not_mem_nil, false_implies, implies_true, and_true]
        exact prime_3055465788140352002733946906144561090641249606160407884365391979704929268480326390471) (by decide +kernel)

theorem prime_1627771 : Nat.Prime 1627771 := by norm_num

theorem prime_297159362677 :
    Nat.Prime 297159362677 :=
  pocklington [(1627771, 1, 2)]
    (by simp only [List.forall_mem_cons, List.not_mem_nil, false_implies, implies_true, and_true]
        exact prime_1627771) (by decide +kernel)

theorem prime_28181 : Nat.Prime 28181 := by norm_num

theorem prime_545358713 :
    Nat.Prime 545358713 :=
  pocklington [(28181, 1, 2)]
    (by simp only [List.forall_mem_cons, List.not_mem_nil, false_implies, implies_true, and_true]
        exact prime_28181) (by decide +kernel)

theorem prime_29047611873442575647497758179 :
    Nat.Prime 29047611873442575647497758179 :=
  pocklington [(297159362677, 1, 2), (545358713, 1, 2)]
    (by simp only [List.forall_mem_cons, List.not_mem_nil, false_implies, implies_true, and_true]
        exact ⟨prime_297159362677, prime_545358713⟩) (by decide +kernel)

theorem prime_341948486974166000522343609283189 :
    Nat.Prime 341948486974166000522343609283189 :=
  pocklington [(29047611873442575647497758179, 1, 2)]
    (by simp only [List.forall_mem_cons, List.not_mem_nil, false_implies, implies_true, and_true]
        exact prime_29047611873442575647497758179) (by decide +kernel)

theorem prime_9349 : Nat.Prime 9349 := by norm_num

theorem prime_44706919 :
    Nat.Prime 44706919 :=
  pocklington [(9349, 1, 2)]
    (by simp only [List.forall_mem_cons, List.not_mem_nil, false_implies, implies_true, and_true]
        exact prime_9349) (by decide +kernel)

theorem prime_120233 : Nat.Prime 120233 := by norm_num

theorem prime_174723607534414371449 :
    Nat.Prime 174723607534414371449 :=
  pocklington [(44706919, 1, 2), (120233, 1, 2)]
    (by simp only [List.forall_mem_cons, List.not_mem_nil, false_implies, implies_true, and_true]
        exact ⟨prime_44706919, prime_120233⟩) (by decide +kernel)

theorem prime_115792089237316195423570985008687907852837564279074904382605163141518161494337 :
    Nat.Prime 115792089237316195423570985008687907852837564279074904382605163141518161494337 :=
  pocklington [(341948486974166000522343609283189, 1, 2), (174723607534414371449, 1, 2)]
    (by simp only [List.forall_mem_cons, List.not_mem_nil, false_implies, implies_true, and_true]
        exact ⟨prime_341948486974166000522343609283189, prime_174723607534414371449⟩) (by decide +kernel)

theorem prime_1224481 : Nat.Prime 1224481 := by norm_num

theorem prime_531581 : Nat.Prime 531581 := by norm_num

theorem prime_1257559732178653 :
    Nat.Prime 1257559732178653 :=
  pocklington [(1224481, 1, 2), (531581, 1, 2)]
    (by simp only [List.forall_mem_cons, List.not_mem_nil, false_implies, implies_true, and_true]
        exact ⟨prime_1224481, prime_531581⟩) (by decide +kernel)

theorem prime_4434155615661930479 :
    Nat.Prime 4434155615661930479 :=
  pocklington [(1257559732178653, 1, 2)]
    (by simp only [List.forall_mem_cons, List.not_mem_nil, false_implies, implies_true, and_true]
        exact prime_1257559732178653) (by decide +kernel)

theorem prime_172054593956031949258510691 :
    Nat.Prime 172054593956031949258510691 :=
  pocklington [(4434155615661930479, 1, 2)]
    (by simp only [List.forall_mem_cons, List.not_mem_nil, false_implies, implies_true, and_true]
        exact prime_4434155615661930479) (by decide +kernel)

theorem prime_19757330305831588566944191468367130476339 :
    Nat.Prime 19757330305831588566944191468367130476339 :=
  pocklington [(172054593956031949258510691, 1, 2)]
    (by simp only [List.forall_mem_cons, List.not_mem_nil, false_implies, implies_true, and_true]
        exact prime_172054593956031949258510691) (by decide +kernel)

theorem prime_276602624281642239937218680557139826668747 :
    Nat.Prime 276602624281642239937218680557139826668747 :=
  pocklington [(19757330305831588566944191468367130476339, 1, 2)]
    (by simp only [List.forall_mem_cons, List.not_mem_nil, false_implies, implies_true, and_true]
        exact prime_19757330305831588566944191468367130476339) (by decide +kernel)

theorem prime_7237005577332262213973186563042994240857116359379907606001950938285454250989 :
    Nat.Prime 7237005577332262213973186563042994240857116359379907606001950938285454250989 :=
  pocklington [(276602624281642239937218680557139826668747, 1, 2)]
    (by simp only [List.forall_mem_cons, List.not_mem_nil, false_implies, implies_true, and_true]
        exact prime_276602624281642239937218680557139826668747) (by decide +kernel)

theorem prime_21143 : Nat.Prime 21143 := by norm_num

theorem prime_1373 : Nat.Prime 1373 := by norm_num

theorem prime_522528103 :
    Nat.Prime 522528103 :=
  pocklington [(21143, 1, 2), (1373, 1, 2)]
    (by simp only [List.forall_mem_cons, List.not_mem_nil, false_implies, implies_true, and_true]
        exact ⟨prime_21143, prime_1373⟩) (by decide +kernel)

theorem prime_95338435633553477 :
    Nat.Prime 95338435633553477 :=
  pocklington [(522528103, 1, 2)]
    (by simp only [List.forall_mem_cons, List.not_mem_nil, false_implies, implies_true, and_true]
        exact prime_522528103) (by decide +kernel)

theorem prime_762707485068427817 :
    Nat.Prime 762707485068427817 :=
  pocklington [(95338435633553477, 1, 2)]
    (by simp only [List.forall_mem_cons, List.not_mem_nil, false_implies, implies_true, and_true]
        exact prime_95338435633553477) (by decide +kernel)

theorem prime_6153491 : Nat.Prime 6153491 := by norm_num

theorem prime_196911713 :
    Nat.Prime 196911713 :=
  pocklington [(6153491, 1, 2)]
    (by simp only [List.forall_mem_cons, List.not_mem_nil, false_implies, implies_true, and_true]
        exact prime_6153491) (by decide +kernel)

theorem prime_176039071423 :
    Nat.Prime 176039071423 :=
  pocklington [(196911713, 1, 2)]
    (by simp only [List.forall_mem_cons, List.not_mem_nil, false_implies, implies_true, and_true]
        exact prime_196911713) (by decide +kernel)

theorem prime_43305611570059 :
    Nat.Prime 43305611570059 :=
  pocklington [(176039071423, 1, 2)]
    (by simp only [List.forall_mem_cons, List.not_mem_nil, false_implies, implies_true, and_true]
        exact prime_176039071423) (by decide +kernel)

theorem prime_152435752726607681 :
    Nat.Prime 152435752726607681 :=
  pocklington [(43305611570059, 1, 2)]
    (by simp only [List.forall_mem_cons, List.not_mem_nil, false_implies, implies_true, and_true]
        exact prime_43305611570059) (by decide +kernel)

theorem prime_545087 : Nat.Prime 545087 := by norm_num

theorem prime_231503 : Nat.Prime 231503 := by norm_num

theorem prime_60171084739669153 :
    Nat.Prime 60171084739669153 :=
  pocklington [(545087, 1, 2), (231503, 1, 2)]
    (by simp only [List.forall_mem_cons, List.not_mem_nil, false_implies, implies_true, and_true]
        exact ⟨prime_545087, prime_231503⟩) (by decide +kernel)

theorem prime_904625697166532776746648320380374280092339035279495474023489261773642975601 :
    Nat.Prime 904625697166532776746648320380374280092339035279495474023489261773642975601 :=
  pocklington [(762707485068427817, 1, 2), (152435752726607681, 1, 2), (60171084739669153, 1, 2)]
    (by simp only [List.forall_mem_cons, List.not_mem_nil, false_implies, implies_true, and_true]
        exact ⟨prime_762707485068427817, prime_152435752726607681, prime_60171084739669153⟩) (by decide +kernel)

theorem prime_3929 : Nat.Prime 3929 := by norm_num

theorem prime_12211333 :
    Nat.Prime 12211333 :=
  pocklington [(3929, 1, 2)]
    (by simp only [List.forall_mem_cons, List.not_mem_nil, false_implies, implies_true, and_true]
        exact prime_3929) (by decide +kernel)

theorem prime_80911 : Nat.Prime 80911 := by norm_num

theorem prime_363961040016398311 :
    Nat.Prime 363961040016398311 :=
  pocklington [(12211333, 1, 2), (80911, 1, 2)]
    (by simp only [List.forall_mem_cons, List.not_mem_nil, false_implies, implies_true, and_true]
        exact ⟨prime_12211333, prime_80911⟩) (by decide +kernel)

theorem prime_491 : Nat.Prime 491 := by norm_num

theorem prime_35301919 :
    Nat.Prime 35301919 :=
  pocklington [(521, 1, 2), (491, 1, 2)]
    (by simp only [List.forall_mem_cons, List.not_mem_nil, false_implies, implies_true, and_true]
        exact ⟨prime_521, prime_491⟩) (by decide +kernel)

theorem prime_7373935444559 :
    Nat.Prime 7373935444559 :=
  pocklington [(35301919, 1, 2)]
    (by simp only [List.forall_mem_cons, List.not_mem_nil, false_implies, implies_true, and_true]
        exact prime_35301919) (by decide +kernel)

theorem prime_110307921567191189197709869899947667793 :
    Nat.Prime 110307921567191189197709869899947667793 :=
  pocklington [(363961040016398311, 1, 2), (7373935444559, 1, 2)]
    (by simp only [List.forall_mem_cons, List.not_mem_nil, false_implies, implies_true, and_true]
        exact ⟨prime_363961040016398311, prime_7373935444559⟩) (by decide +kernel)

theorem prime_398082757205169713694762797485619957805722833 :
    Nat.Prime 398082757205169713694762797485619957805722833 :=
  ecpp (a := 0)
    (b := 314329657351206258493210433198303606322429680)
    (x := 396977739833473671556392317597064262161189573)
    (y := 380726887920034897460270663395448551874512710)
    (i := 126) (by norm_num)
    prime_110307921567191189197709869899947667793 (by decide +kernel)

theorem prime_4879698437820970350470403111390167715813625688027 :
    Nat.Prime 4879698437820970350470403111390167715813625688027 :=
  ecpp (a := 2886320366206757202348732672587022676906346930282)
    (b := 543079231074615558570245808644094127398653935863)
    (x := 1526112042158133791095205706464413821751006182898)
    (y := 3279870144809323826893695465882470876740722214945)
    (i := 148) (by norm_num)
    prime_398082757205169713694762797485619957805722833 (by decide +kernel)

theorem prime_290415252526915050408246041003581747959721207146635219 :
    Nat.Prime 290415252526915050408246041003581747959721207146635219 :=
  ecpp (a := 79768027125655460863766695314735497321755541901506358)
    (b := 225507695217230558580215171498206424541598156603148242)
    (x := 241170967449878033331494913520232551703430032948884759)
    (y := 19712779607855197285499482024140064724667711585216901)
    (i := 161) (by norm_num)
    prime_4879698437820970350470403111390167715813625688027 (by decide +kernel)

theorem prime_134550534057650170837670156561593932414553325888373204868335650431 :
    Nat.Prime 134550534057650170837670156561593932414553325888373204868335650431 :=
  ecpp (a := 12475659059329942726060094405307591327094581036951639140298587539)
    (b := 51483171964626574247878895884252444695210349080359104746297563045)
    (x := 69289220620194039915661833117631556838679677331171608576853114831)
    (y := 66196358882304065024974435487162190719707017971037854648052289696)
    (i := 177) (by norm_num)
    prime_290415252526915050408246041003581747959721207146635219 (by decide +kernel)

theorem prime_688044762048984009586789793086847668440019441714736173794864923748885561427 :
    Nat.Prime 688044762048984009586789793086847668440019441714736173794864923748885561427 :=
  ecpp (a := 0)
    (b := 587985461330892464577083442005624132967284021341351788651140068200770151387)
    (x := 225571328441662055371745756141290742293769846020713057358181740131559586616)
    (y := 418829540824666394297217073532266372182941915818283133828705281706081238628)
    (i := 216) (by norm_num)
    prime_134550534057650170837670156561593932414553325888373204868335650431 (by decide +kernel)

theorem prime_3036341534922166434306503356892258760823035644912853404968632662645344589724481 :
    Nat.Prime 3036341534922166434306503356892258760823035644912853404968632662645344589724481 :=
  ecpp (a := 0)
    (b := 2531461110426778624930000417934016952338779290126416661085639935045519797026405)
    (x := 476109649885995613319024807542943124053375666154761988522067850784899107848394)
    (y := 961231695858942634792972538526274228494952059396958715828844218611869362468404)
    (i := 248) (by norm_num)
    prime_688044762048984009586789793086847668440019441714736173794864923748885561427 (by decide +kernel)

theorem prime_10724358301345091845970569856543457943227015179648006529035551352514531914699602093 :
    Nat.Prime 10724358301345091845970569856543457943227015179648006529035551352514531914699602093 :=
  ecpp (a := 0)
    (b := 1459347561369210545626394902429084190700740590168246829397575927806946770944000641)
    (x := 8114074345263209741640433626152673794584690681407261466249861319660208827880018789)
    (y := 2395749498304222592247723445565372848013818676209787782061312837140374935970507354)
    (i := 260) (by norm_num)
    prime_3036341534922166434306503356892258760823035644912853404968632662645344589724481 (by decide +kernel)

theorem prime_25591450248043649089783333548581683637563753421990311166905462800731296741455655009012113613 :
    Nat.Prime 25591450248043649089783333548581683637563753421990311166905462800731296741455655009012113613 :=
  ecpp (a := 0)
    (b := 19687019878807072913434457904425069602992604960146688616479008430496152678802208449902083489)
    (x := 21029496105348547000033739991479230014139133330970098617852550270718694626327599082990860913)
    (y := 1846386958299244693428373682464388521955852454844068571064416105370364305704715785830640149)
    (i := 272) (by norm_num)
    prime_10724358301345091845970569856543457943227015179648006529035551352514531914699602093 (by decide +kernel)

theorem prime_645149558751025942996790371504628975272203984597541982776433413661811048942421769894138765495790066350441018473 :
    Nat.Prime 645149558751025942996790371504628975272203984597541982776433413661811048942421769894138765495790066350441018473 :=
  ecpp (a := 0)
    (b := 9320239585403671612111435020050314824180525649047823941522125419253399454451422520098975794263914076694399917)
    (x := 113000453756529869135068539381096317139516470323222176683438812549126323203613391387916808851407277544288779983)
    (y := 227274520164644117683917948141192357899082545218801553296730323889450384897463672833775698823054959509319069819)
    (i := 303) (by norm_num)
    prime_25591450248043649089783333548581683637563753421990311166905462800731296741455655009012113613 (by decide +kernel)

theorem prime_401441996845909976846617450191321678245107702203515793606916774704450521545753786389539190245437809501194520190342285993 :
    Nat.Prime 401441996845909976846617450191321678245107702203515793606916774704450521545753786389539190245437809501194520190342285993 :=
  ecpp (a := 203519377899077755477094285287768057827760483143033300133825560716607328387726118669164515109147678931077980559447226219)
    (b := 0)
    (x := 297074793804435515929745770726754394908698521303783899240115022553917220728696050618967191770779741539848388451141805452)
    (y := 305710277057159536234685694587034078018392677146627502501476173032012305142578742005773542865306085758035086242311372371)
    (i := 368) (by norm_num)
    prime_645149558751025942996790371504628975272203984597541982776433413661811048942421769894138765495790066350441018473 (by decide +kernel)

theorem prime_235940307690240362512016167235845872598353640031476744408180410356781280602168597579105461105384418714103242611383460770965197 :
    Nat.Prime 235940307690240362512016167235845872598353640031476744408180410356781280602168597579105461105384418714103242611383460770965197 :=
  ecpp (a := 19740431802108517051589693337714680283177865925928191966627466761975263479473877839085031992119140184436688368530744134924239)
    (b := 0)
    (x := 136305725593132874309039197997957392722765036457220920416371591431876162050333161386881963823803376825556573585153035698617328)
    (y := 200455961289062723760710667405044048674460848316196558993291742969398237488479368088852494796038487557751778758586740154062119)
    (i := 397) (by norm_num)
    prime_401441996845909976846617450191321678245107702203515793606916774704450521545753786389539190245437809501194520190342285993 (by decide +kernel)

theorem prime_15631517265093804497146095111709260751386125359365397270530768547181459003252256879771762058207937923094708070954355837726192459549 :
    Nat.Prime 15631517265093804497146095111709260751386125359365397270530768547181459003252256879771762058207937923094708070954355837726192459549 :=
  ecpp (a := 5821252966757880247282747452768371770972354020331861859430369334764414645617746899900625058217375754906560844415304381027510013857)
    (b := 5258167272980881703629299369656906930083073907957840023640512803280745023057495955117477336885256183415913411524753548486931818879)
    (x := 12731454928270204972950086958239076018457036690563809502746636062032725432956938560806469531775066646052010754501466992985355842369)
    (y := 13473967815581406370800640807593284145402991383957758919893620354666438341256752722357059403071072373183193932022519075246278005201)
    (i := 416) (by norm_num)
    prime_235940307690240362512016167235845872598353640031476744408180410356781280602168597579105461105384418714103242611383460770965197 (by decide +kernel)

theorem prime_541725167354261748087129082832763463531346909727327475326470131493992093451699854118477352840110414755771302087221454184888133860507555155631941607561 :
    Nat.Prime 541725167354261748087129082832763463531346909727327475326470131493992093451699854118477352840110414755771302087221454184888133860507555155631941607561 :=
  ecpp (a := 291797835682573328842854590088274452568258909306290014583619780281453268798421230833425716012976957789232024108168610778505105235994623631444335473108)
    (b := 0)
    (x := 145678930909977515477814333352822673052762874570607430216836329011194783644201243947550571441855372891247728448787370529113578618810086176188853577150)
    (y := 395417099984442244638756744390111078524511811063010088402326830239234767674505289901170386046464850819433982868370974916347133372256693570657255650708)
    (i := 432) (by norm_num)
    prime_15631517265093804497146095111709260751386125359365397270530768547181459003252256879771762058207937923094708070954355837726192459549 (by decide +kernel)

theorem prime_6864797660130609714981900799081393217269435300143305409394463459185543183397655394245057746333217197532963996371363321113864768612440380340372808892707005449 :
    Nat.Prime 6864797660130609714981900799081393217269435300143305409394463459185543183397655394245057746333217197532963996371363321113864768612440380340372808892707005449 :=
  ecpp (a := 5687885755246274187909428600796668834588949315274991380056380555259715763028350769874084104143719385592567071548247699541298699171807066409284191448905815600)
    (b := 5621621317248118096946308221590716323873111543075986912026279747702581633181974840579383363753138931493817287617589797992218214432586937400662914655306301436)
    (x := 6359092567667326222313867769094683880642753303082204073915147165701176409737155480543486658749850245927779666471990138056441949286613676946911865444508854117)
    (y := 113167169421676848536114968732571576806441284867989745952478645941777076976797523726739742283177446166223267442246844236388708374182558919604381924690281419)
    (i := 497) (by norm_num)
    prime_541725167354261748087129082832763463531346909727327475326470131493992093451699854118477352840110414755771302087221454184888133860507555155631941607561 (by decide +kernel)

theorem prime_3087181 : Nat.Prime 3087181 := by norm_num

theorem prime_18245239711 :
    Nat.Prime 18245239711 :=
  pocklington [(3087181, 1, 2)]
    (by simp only [List.forall_mem_cons, List.not_mem_nil, false_implies, implies_true, and_true]
        exact prime_3087181) (by decide +kernel)

theorem prime_77261 : Nat.Prime 77261 := by norm_num

theorem prime_122844991 :
    Nat.Prime 122844991 :=
  pocklington [(77261, 1, 2)]
    (by simp only [List.forall_mem_cons, List.not_mem_nil, false_implies, implies_true, and_true]
        exact prime_77261) (by decide +kernel)

theorem prime_195059046191794749398522364385771621 :
    Nat.Prime 195059046191794749398522364385771621 :=
  pocklington [(18245239711, 1, 2), (122844991, 1, 2)]
    (by simp only [List.forall_mem_cons, List.not_mem_nil, false_implies, implies_true, and_true]
        exact ⟨prime_18245239711, prime_122844991⟩) (by decide +kernel)

theorem prime_21849734118220080648804388887598414958497 :
    Nat.Prime 21849734118220080648804388887598414958497 :=
  ecpp (a := 20766925553506776634376460034102612632368)
    (b := 0)
    (x := 21310905881356097146154675926802941631683)
    (y := 13191498778461612017541373041514542555475)
    (i := 117) (by norm_num)
    prime_195059046191794749398522364385771621 (by decide +kernel)

theorem prime_413638920165861017052454786089148936785517763832277 :
    Nat.Prime 413638920165861017052454786089148936785517763832277 :=
  ecpp (a := 0)
    (b := 248086082181328422679757237369816563141884113202878)
    (x := 262509515326007850153250544470078727160840027403717)
    (y := 241685977439964230767871395533480274405880697087039)
    (i := 134) (by norm_num)
    prime_21849734118220080648804388887598414958497 (by decide +kernel)

theorem prime_4449314230085766231096457124763497939922060733781614567523479 :
    Nat.Prime 4449314230085766231096457124763497939922060733781614567523479 :=
  ecpp (a := 0)
    (b := 1595731914396293031327993431821055742781590366172585826764982)
    (x := 701647394878341077279486676190579328932837510172569545500196)
    (y := 861205652716690947588787290376741609527948512425545545929633)
    (i := 168) (by norm_num)
    prime_413638920165861017052454786089148936785517763832277 (by decide +kernel)

theorem prime_19385662100483683468887263692594838987112600320449890219566705387 :
    Nat.Prime 19385662100483683468887263692594838987112600320449890219566705387 :=
  ecpp (a := 8581668887864113820757256127566682481628718098323587607384205891)
    (b := 11239862911711952278144106528966381418296718366834381364686748736)
    (x := 12447519327525329412787445790027563558286690699955200546388520515)
    (y := 8450385981280266742890163827756048529662206516545717681224606906)
    (i := 201) (by norm_num)
    prime_4449314230085766231096457124763497939922060733781614567523479 (by decide +kernel)

theorem prime_285085822374949234683569919069081053750367887240853360750706578263872386077291 :
    Nat.Prime 285085822374949234683569919069081053750367887240853360750706578263872386077291 :=
  ecpp (a := 213742499240456448067111866571131740893998057686278452369595850971084817339672)
    (b := 114254079292288546921377820976886408060437131766962979540159745202006168997147)
    (x := 30222265718265390909458224507816751254792623350366183425454354218278266119532)
    (y := 222312655235197371470147057329475562953254043241580217164522581948628297056980)
    (i := 213) (by norm_num)
    prime_19385662100483683468887263692594838987112600320449890219566705387 (by decide +kernel)

theorem prime_64278015285057428994869826082586636108042199719441913853955704126706790593173753777 :
    Nat.Prime 64278015285057428994869826082586636108042199719441913853955704126706790593173753777 :=
  ecpp (a := 57794062403913776164961717256196470216338521164361118096073170254181566192318655346)
    (b := 20040639378667426307983373005717015675674079676035057480639683738367087431760776994)
    (x := 11044092815858201413003321289848149066886354186828503036403711194566437023330056151)
    (y := 28465217889020893069319857446543159013574395854515572259388704295267354853234518093)
    (i := 257) (by norm_num)
    prime_285085822374949234683569919069081053750367887240853360750706578263872386077291 (by decide +kernel)

theorem prime_106611972911372867348981531085562337509434976182911642622163215459256577211110993318548241201 :
    Nat.Prime 106611972911372867348981531085562337509434976182911642622163215459256577211110993318548241201 :=
  ecpp (a := 50805413652226287904689004813186457359751769482336553608424327846390446079325456293094493434)
    (b := 0)
    (x := 31635625966454541703304217574636896498034741009256061989912287567081204040572557475923744286)
    (y := 56190427222174856253727870766102012536894438911017197083663880887075505072948455288167271047)
    (i := 275) (by norm_num)
    prime_64278015285057428994869826082586636108042199719441913853955704126706790593173753777 (by decide +kernel)

theorem prime_32975443356732122488585892424376438021244345004724033473567868520583801485046027280894630217358508699 :
    Nat.Prime 32975443356732122488585892424376438021244345004724033473567868520583801485046027280894630217358508699 :=
  ecpp (a := 18231342171055252498469742820659633044283332275671647960417293098323931309692834046391038053492493325)
    (b := 28748199304804086725194288031454185956341289451660354024025228096458537346364904820330472751047871098)
    (x := 116582730447777659685321860828778669126532474722087397915652016973724310082366524777177438763925955)
    (y := 22068455727142610496225811933205147221438022690849051569132962351987192452854087051632078655066019373)
    (i := 305) (by norm_num)
    prime_106611972911372867348981531085562337509434976182911642622163215459256577211110993318548241201 (by decide +kernel)

theorem prime_60087094449440068759883975700172984704236956847673024722823703127242044249263385351802645877998800865190797 :
    Nat.Prime 60087094449440068759883975700172984704236956847673024722823703127242044249263385351802645877998800865190797 :=
  ecpp (a := 0)
    (b := 21682594586720026111211567960190709796420379642964607253328865873432570044097587853151045546586946374880148)
    (x := 9613763444908169379789586617303075335528567243543334148466115083098398962946758238325594121558706597563400)
    (y := 144359979618177389870432751720751832838323367093008385936856058325749406978821590971804714880942502320342)
    (i := 333) (by norm_num)
    prime_32975443356732122488585892424376438021244345004724033473567868520583801485046027280894630217358508699 (by decide +kernel)

theorem prime_53629084416708412713584302060581375442590161064683772532590432344043938622785458628678673597530543156110649722418171 :
    Nat.Prime 53629084416708412713584302060581375442590161064683772532590432344043938622785458628678673597530543156110649722418171 :=
  ecpp (a := 9064739007105572827187299211130355277149822045661523975685384010347014634036377150157057280593658392197624328309940)
    (b := 45905140012593405735184379288313597156545819300623058818609504523659589918500388290190547891145296697603571589784734)
    (x := 29820068773356845434165949354430240220856571729188949163664429005265912750557717052101644157609938051113048388074093)
    (y := 37653704833959156728180638110175510476391492384455941604304350930007794187561423753419666907892698099129368589508740)
    (i := 354) (by norm_num)
    prime_60087094449440068759883975700172984704236956847673024722823703127242044249263385351802645877998800865190797 (by decide +kernel)

theorem prime_826102416354976389440052588941195507317658841040388832092023216604562007317185449296661471814258691280816951490659149707 :
    Nat.Prime 826102416354976389440052588941195507317658841040388832092023216604562007317185449296661471814258691280816951490659149707 :=
  ecpp (a := 430681937464722753851370115944375040271641800855847385684420356537287334415297987993488936510330175245109398511724463469)
    (b := 355569647036610820172153710706969439707919907121347491979004011670443783410327589989128833232818849006523241529244685650)
    (x := 4045929811791528953345993700063601007502654046813695642197904158528992830558396192253070343330902617248077135666452688)
    (y := 506784931489869116116159960897887335059220174274558206688387175506521117306956590506841847236708191210347948605151427046)
    (i := 384) (by norm_num)
    prime_53629084416708412713584302060581375442590161064683772532590432344043938622785458628678673597530543156110649722418171 (by decide +kernel)

theorem prime_181709681073901722637330951972001133588410340171829515070372549795146003961539585716195755291692375963310293709091662304773755859649779 :
    Nat.Prime 181709681073901722637330951972001133588410340171829515070372549795146003961539585716195755291692375963310293709091662304773755859649779 :=
  ecpp (a := 73679058725289244379506759206167624555839097318232147972800023479761391371799567901532765676171876473346926641487872323219887704906132)
    (b := 175092741376227744109246075340432191380369104908472348351108696352384260483633406199835971730768905500093884700938443386739860940526974)
    (x := 111113260501528862070712167131124071984430414923514253339447797778503566122390076721325068019587196536233930997176613147602706557557621)
    (y := 26582829926368118832405377767670135913131064965995438758532520594939709989096805079609359672854537280890739552347337549292008641407269)
    (i := 398) (by norm_num)
    prime_826102416354976389440052588941195507317658841040388832092023216604562007317185449296661471814258691280816951490659149707 (by decide +kernel)

theorem prime_122939 : Nat.Prime 122939 := by norm_num

theorem prime_149 : Nat.Prime 149 := by norm_num

theorem prime_40116225091 :
    Nat.Prime 40116225091 :=
  pocklington [(122939, 1, 2), (149, 1, 2)]
    (by simp only [List.forall_mem_cons, List.not_mem_nil, false_implies, implies_true, and_true]
        exact ⟨prime_122939, prime_149⟩) (by decide +kernel)

theorem prime_2974828777533058309 :
    Nat.Prime 2974828777533058309 :=
  ecpp (a := 0)
    (b := 1800429663946761670)
    (x := 2011944969889055383)
    (y := 822731774827936726)
    (i := 35) (by norm_num)
    prime_40116225091 (by decide +kernel)

theorem prime_524807667301556714027468701 :
    Nat.Prime 524807667301556714027468701 :=
  ecpp (a := 0)
    (b := 466486506333723792134487630)
    (x := 105600360701297633837980455)
    (y := 350608156821391059892968971)
    (i := 61) (by norm_num)
    prime_2974828777533058309 (by decide +kernel)

theorem prime_730047403079947036543397202366241757 :
    Nat.Prime 730047403079947036543397202366241757 :=
  ecpp (a := 22836352610316365820582294338150734)
    (b := 0)
    (x := 726203474496356729982214867715484108)
    (y := 713073823632413946682692095044061769)
    (i := 88) (by norm_num)
    prime_524807667301556714027468701 (by decide +kernel)

theorem prime_779361525774857236942015147866527114595077844983 :
    Nat.Prime 779361525774857236942015147866527114595077844983 :=
  ecpp (a := 513811535891317960571196399805946951709870082973)
    (b := 411254235421784897639319441799742214566388855103)
    (x := 557481184230632257559339264177984186504689809251)
    (y := 82968570863515216194613183514323900862955428466)
    (i := 119) (by norm_num)
    prime_730047403079947036543397202366241757 (by decide +kernel)

theorem prime_33977045077680676101724092025040852892669746324768887 :
    Nat.Prime 33977045077680676101724092025040852892669746324768887 :=
  ecpp (a := 33477292660317707650021715091153779549112071928048760)
    (b := 20937476291172155876478665553477290373299458304750197)
    (x := 31878451717442469883046801715444186732443328384649499)
    (y := 32314746009347690337332125755943324582210086206150783)
    (i := 159) (by norm_num)
    prime_779361525774857236942015147866527114595077844983 (by decide +kernel)

theorem prime_667782295678355182052577675351708539193806177910497486743321 :
    Nat.Prime 667782295678355182052577675351708539193806177910497486743321 :=
  ecpp (a := 0)
    (b := 177820135656007062258810263623035086037845644035845140297914)
    (x := 410991732428779826100507289123400118390619593621432793966883)
    (y := 323712067519605953438336454553060278422478829415244930713011)
    (i := 174) (by norm_num)
    prime_33977045077680676101724092025040852892669746324768887 (by decide +kernel)

theorem prime_232995920785134906569964876706964393924293369021937885677845161371 :
    Nat.Prime 232995920785134906569964876706964393924293369021937885677845161371 :=
  ecpp (a := 217632174562305104611926023967619032626962000780825670087031584678)
    (b := 187094562303458047218392626759177002389267419133694652618633795187)
    (x := 112066046920960462690391554726074418665811434746538163050420817806)
    (y := 85148422883565627577683762557693344343243847989127667948227181092)
    (i := 198) (by norm_num)
    prime_667782295678355182052577675351708539193806177910497486743321 (by decide +kernel)

theorem prime_57742680060417628490514685499656865291243992150831587188998643802542089 :
    Nat.Prime 57742680060417628490514685499656865291243992150831587188998643802542089 :=
  ecpp (a := 0)
    (b := 22349014150741764125621739232357604284505244876977623700824120227379465)
    (x := 36927591203599636531486054811819207464871360670212038181004668856901281)
    (y := 27496699662785794669392575270749088218905247714875233855171272046316122)
    (i := 217) (by norm_num)
    prime_232995920785134906569964876706964393924293369021937885677845161371 (by decide +kernel)

theorem prime_14474011154664524427946373126085988481603263447650325797860494125407373907997 :
    Nat.Prime 14474011154664524427946373126085988481603263447650325797860494125407373907997 :=
  ecpp (a := 218559057886424893276547823946262570936051113154510078366472261705525539281)
    (b := 0)
    (x := 13447682409133518145362353529567859293369288715395538342941634858116374334228)
    (y := 9217473985071980564851230179287069894699512610022597405651885909452366368033)
    (i := 235) (by norm_num)
    prime_57742680060417628490514685499656865291243992150831587188998643802542089 (by decide +kernel)

theorem prime_47269 : Nat.Prime 47269 := by norm_num

theorem prime_771430081 :
    Nat.Prime 771430081 :=
  pocklington [(47269, 1, 2)]
    (by simp only [List.forall_mem_cons, List.not_mem_nil, false_implies, implies_true, and_true]
        exact prime_47269) (by decide +kernel)

theorem prime_78685868263 :
    Nat.Prime 78685868263 :=
  pocklington [(771430081, 1, 2)]
    (by simp only [List.forall_mem_cons, List.not_mem_nil, false_implies, implies_true, and_true]
        exact prime_771430081) (by decide +kernel)

theorem prime_517202257497439 :
    Nat.Prime 517202257497439 :=
  ecpp (a := 0)
    (b := 105126150221113)
    (x := 177347787734031)
    (y := 443951264024858)
    (i := 36) (by norm_num)
    prime_78685868263 (by decide +kernel)

theorem prime_133331386370985889930419907 :
    Nat.Prime 133331386370985889930419907 :=
  ecpp (a := 0)
    (b := 53183306083418359299404032)
    (x := 94511888152880915964153355)
    (y := 62358944020105736589936305)
    (i := 48) (by norm_num)
    prime_517202257497439 (by decide +kernel)

theorem prime_28980776810211129121767567137941 :
    Nat.Prime 28980776810211129121767567137941 :=
  ecpp (a := 0)
    (b := 19884460490808942299382189233155)
    (x := 15203402048195593743802479694047)
    (y := 21057576801585944690003833458108)
    (i := 86) (by norm_num)
    prime_133331386370985889930419907 (by decide +kernel)

theorem prime_2224071754746032684215346498685626377 :
    Nat.Prime 2224071754746032684215346498685626377 :=
  ecpp (a := 0)
    (b := 668331579133324424145734384837976145)
    (x := 55583668113240921005610356628471981)
    (y := 1020681863002443269420642563661107256)
    (i := 104) (by norm_num)
    prime_28980776810211129121767567137941 (by decide +kernel)

theorem prime_4488650679598134184438400616904046069470676023 :
    Nat.Prime 4488650679598134184438400616904046069470676023 :=
  ecpp (a := 0)
    (b := 2086786987895988481543207918670334204179127181)
    (x := 4193313386541303154748052890160699563764114878)
    (y := 1453164676851540459756425193524725117233243303)
    (i := 120) (by norm_num)
    prime_2224071754746032684215346498685626377 (by decide +kernel)

theorem prime_4837690818213538100313902024782927129549091140014448699 :
    Nat.Prime 4837690818213538100313902024782927129549091140014448699 :=
  ecpp (a := 0)
    (b := 479097062372482605174608414768482859538744394025676235)
    (x := 2539351639466705696847681411153818447685870106994837142)
    (y := 3442939001838063970709703445476337509216530067609822895)
    (i := 151) (by norm_num)
    prime_4488650679598134184438400616904046069470676023 (by decide +kernel)

theorem prime_15816930007048101676306740982014951231274244153404954052173925448889 :
    Nat.Prime 15816930007048101676306740982014951231274244153404954052173925448889 :=
  ecpp (a := 0)
    (b := 15583645257803772079480757673453546054232374807128338146502257330889)
    (x := 7557548028332852310853456451925870546165658635088894995384547909929)
    (y := 4374958096308976161673410564001780894770090277768261702429086641856)
    (i := 181) (by norm_num)
    prime_4837690818213538100313902024782927129549091140014448699 (by decide +kernel)

theorem prime_1229458605491632791562838240012598339403754040210497652317308773373138810307 :
    Nat.Prime 1229458605491632791562838240012598339403754040210497652317308773373138810307 :=
  ecpp (a := 463313476773773734206441477678237873076266297746300860062425646781565046727)
    (b := 1014712997002787002223206911192286314050047701877202453433167819671954466382)
    (x := 1007040211484748679467876416370454218080291202618616027828036435288021010696)
    (y := 598222179447888364570308989207090651885428547812987574032945365967583604724)
    (i := 223) (by norm_num)
    prime_15816930007048101676306740982014951231274244153404954052173925448889 (by decide +kernel)

theorem prime_70226675545682065054069320269519617146747222792176478154164077262732555282835753 :
    Nat.Prime 70226675545682065054069320269519617146747222792176478154164077262732555282835753 :=
  ecpp (a := 61926435030590324636854664363494451537779749032046415289474121301107779981364007)
    (b := 38374781216885190469734257168554716650760206735937134413765119726835740954127433)
    (x := 20086717341527145177121720354391287501860848702523576042681099242790656255078744)
    (y := 15180626731603542804098814464164424317264389970098000046034236080176987349302320)
    (i := 249) (by norm_num)
    prime_1229458605491632791562838240012598339403754040210497652317308773373138810307 (by decide +kernel)

theorem prime_1412539351925849056497550307901117579289675984470803186954751889874791644847820200441 :
    Nat.Prime 1412539351925849056497550307901117579289675984470803186954751889874791644847820200441 :=
  ecpp (a := 1341818115087061770996568248040671984360664257438020071058117453517690933764848526164)
    (b := 0)
    (x := 514723070992001189325987227560794368055264212974723096987876880759958112189433875411)
    (y := 1315135526490751045631598956472631634755544374462619151129207607622974333768279098337)
    (i := 265) (by norm_num)
    prime_70226675545682065054069320269519617146747222792176478154164077262732555282835753 (by decide +kernel)

theorem prime_77247950673608360529256300506605065205449637149607660419557131655007299533674598766317283885179297 :
    Nat.Prime 77247950673608360529256300506605065205449637149607660419557131655007299533674598766317283885179297 :=
  ecpp (a := 46851695597957690745294610070510880309310494789579485956649213101301592394648616572276098530963734)
    (b := 73509441113382501662754549810583188325292972612856287145414352172642741596204772976737504394272662)
    (x := 34912397233196962291026174339775578217416428366115420077064430605454903751650156217176333077668665)
    (y := 3023348678357848212447781164556349746892667578588881385122608043160570369478347359161000422365164)
    (i := 279) (by norm_num)
    prime_1412539351925849056497550307901117579289675984470803186954751889874791644847820200441 (by decide +kernel)

theorem prime_37203872674212814504371299746579076267251406178778294656219005152596324488949637759208322041000844676050319097 :
    Nat.Prime 37203872674212814504371299746579076267251406178778294656219005152596324488949637759208322041000844676050319097 :=
  ecpp (a := 25017842025394949256614998059357724086059477437192770682063217773973044167639873498130496461663479750888369467)
    (b := 0)
    (x := 8369339808614154849109125813386590622446229050662237256938454995985364601821802829566009539526425348933867923)
    (y := 25591856713324150977537334298089124166674977360617442401637356181904325853141801579899640809453472813097678424)
    (i := 325) (by norm_num)
    prime_77247950673608360529256300506605065205449637149607660419557131655007299533674598766317283885179297 (by decide +kernel)

theorem prime_17451322694842248556100598687598542862622180284557309298501579068593777986449696359502380327456582859639222938739273223637 :
    Nat.Prime 17451322694842248556100598687598542862622180284557309298501579068593777986449696359502380327456582859639222938739273223637 :=
  ecpp (a := 17017919293714509965167627159493377295299497153386989505487854581439241262468662477537704632698696213834358174004678471868)
    (b := 1677706829215613710630578886601115085444688144960607071156052445265051254902217899020094517652315865758613077232789774260)
    (x := 14834271521482153558785775722016943209652966245336359023459698304574042098572797734441285064431225712640864997276982447462)
    (y := 14301842772477701863971230934942505032293231735313623391137286494539233461374318853940321952460017194185768912892624465956)
    (i := 363) (by norm_num)
    prime_37203872674212814504371299746579076267251406178778294656219005152596324488949637759208322041000844676050319097 (by decide +kernel)

theorem prime_5449210414109881796139524141400020205939501038213588943075715062658210038759230006362343161549463176589895431216926010279147011 :
    Nat.Prime 5449210414109881796139524141400020205939501038213588943075715062658210038759230006362343161549463176589895431216926010279147011 :=
  ecpp (a := 2400998704673758137954810082732846904755907013558255705153274209333474555476389490630018618010306045586362645367457659569638648)
    (b := 1673543285068938997749419464320178799372484827862614967291939748355017888461259561116608188540336841830336699999785882592719215)
    (x := 2021682692930588998535193845581882077308668766273670216443903599112624058916397136886467734470722717095203809470874607484238908)
    (y := 2513722608924730234554986863650740041607419975760542874810937782681466587480598058245844849557389469078725362163016421920946854)
    (i := 402) (by norm_num)
    prime_17451322694842248556100598687598542862622180284557309298501579068593777986449696359502380327456582859639222938739273223637 (by decide +kernel)

theorem prime_181709681073901722637330951972001133588410340171829515070372549795160160121825800627002436557645897001734148521830156375752993149532941 :
    Nat.Prime 181709681073901722637330951972001133588410340171829515070372549795160160121825800627002436557645897001734148521830156375752993149532941 :=
  ecpp (a := 22923093493973181942622808983604344118088674195623182674061230600352291462676111582493562315647133899867682740186728092704641758348213)
    (b := 150060192399443081631399984670244438919978160188369026737626483607731767797594400623232568646114626471807358766003319002729634320410401)
    (x := 138752722822455161889145865469793873363622774233976805801454510972039066517152735282491890760043910372996350948795948243637010628785061)
    (y := 171949088625072506800528814915070669593882669467915880545572678792731795748417880891742334656661914232762843606153454049334157050803902)
    (i := 421) (by norm_num)
    prime_5449210414109881796139524141400020205939501038213588943075715062658210038759230006362343161549463176589895431216926010279147011 (by decide +kernel)

end Torsion.Ecc
