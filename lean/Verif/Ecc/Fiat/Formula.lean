import Verif.Ecc.Fiat.Code

/-!
# Model of the formulas for points in src/ecc.c (written by tools/formula.py)

The statements in their order with the variables as numbered registers: a point has its coordinates `x`, `y`, `z`, `t` in four registers
from the number given on, its flags `inf` and `aff` in two flags; the locals of each function have numbers of their own.
-/
namespace Torsion.Fiat

/-- src/ecc.c:4123-4135 `wei_mul_a`. -/
def wei_mul_a_code (cfg : Cfg) (z x : Nat) : Code := .block [
  (bif cfg.zero_a then (.block [.st (.un .set z 1006)]) else (.block [(bif cfg.three_a then (.block [.st (.un .negnc z x), .st (.un .mul3 z z)]) else (.block [.st (.bin .mul z x 1000)]))]))]

/-- src/ecc.c:2814-2824 `jge_zero`. -/
def jge_zero_code (r : Nat) : Code := .block [
  .st (.un .set (r + 0) 1005),
  .st (.un .set (r + 1) 1005),
  .st (.un .set (r + 2) 1006),
  .st (.setf r fun _ => true),
  .st (.setf (r + 1) fun _ => false)]

/-- src/ecc.c:3022-3067 `jge_dblj`. -/
def jge_dblj_code (_cfg : Cfg) (p3 p1 : Nat) : Code := .block [
  .st (.un .sqr 200 (p1 + 0)),
  .st (.un .sqr 201 (p1 + 1)),
  .st (.un .sqr 202 (p1 + 2)),
  .st (.un .mul4 203 (p1 + 0)),
  .st (.bin .mul 203 203 201),
  .st (.un .sqr 205 202),
  .st (.bin .mul 205 205 1000),
  .st (.un .mul3 204 200),
  .st (.bin .addnc 204 204 205),
  .st (.un .sqr 205 204),
  .st (.bin .sub 205 205 203),
  .st (.bin .sub 205 205 203),
  .st (.bin .addnc 200 (p1 + 1) (p1 + 1)),
  .st (.bin .mul (p3 + 2) (p1 + 2) 200),
  .st (.un .set (p3 + 0) 205),
  .st (.bin .subnc 203 203 205),
  .st (.un .sqr 201 201),
  .st (.un .mul8 201 201),
  .st (.bin .mul (p3 + 1) 204 203),
  .st (.bin .sub (p3 + 1) (p3 + 1) 201)]

/-- src/ecc.c:3069-3113 `jge_dbl0`. -/
def jge_dbl0_code (_cfg : Cfg) (p3 p1 : Nat) : Code := .block [
  .st (.un .sqr 300 (p1 + 0)),
  .st (.un .sqr 301 (p1 + 1)),
  .st (.un .sqr 302 301),
  .st (.bin .addnc 303 (p1 + 0) 301),
  .st (.un .sqr 303 303),
  .st (.bin .sub 303 303 300),
  .st (.bin .sub 303 303 302),
  .st (.bin .add 303 303 303),
  .st (.un .mul3 304 300),
  .st (.un .sqr 305 304),
  .st (.bin .addnc 300 (p1 + 1) (p1 + 1)),
  .st (.bin .mul (p3 + 2) (p1 + 2) 300),
  .st (.bin .sub (p3 + 0) 305 303),
  .st (.bin .sub (p3 + 0) (p3 + 0) 303),
  .st (.bin .subnc 303 303 (p3 + 0)),
  .st (.un .mul8 302 302),
  .st (.bin .mul (p3 + 1) 304 303),
  .st (.bin .sub (p3 + 1) (p3 + 1) 302)]

/-- src/ecc.c:3115-3157 `jge_dbl3`. -/
def jge_dbl3_code (_cfg : Cfg) (p3 p1 : Nat) : Code := .block [
  .st (.un .sqr 400 (p1 + 2)),
  .st (.un .sqr 401 (p1 + 1)),
  .st (.bin .mul 402 (p1 + 0) 401),
  .st (.bin .subnc 403 (p1 + 0) 400),
  .st (.bin .addnc 404 (p1 + 0) 400),
  .st (.un .mul3 403 403),
  .st (.bin .mul 403 403 404),
  .st (.bin .addnc (p3 + 2) (p1 + 1) (p1 + 2)),
  .st (.un .sqr (p3 + 2) (p3 + 2)),
  .st (.bin .sub (p3 + 2) (p3 + 2) 401),
  .st (.bin .sub (p3 + 2) (p3 + 2) 400),
  .st (.un .mul4 404 402),
  .st (.un .sqr (p3 + 0) 403),
  .st (.bin .sub (p3 + 0) (p3 + 0) 404),
  .st (.bin .sub (p3 + 0) (p3 + 0) 404),
  .st (.bin .subnc 404 404 (p3 + 0)),
  .st (.un .sqr 401 401),
  .st (.un .mul8 401 401),
  .st (.bin .mul (p3 + 1) 403 404),
  .st (.bin .sub (p3 + 1) (p3 + 1) 401)]

/-- src/ecc.c:3159-3184 `jge_dbl_var`. -/
def jge_dbl_var_code (cfg : Cfg) (p3 p1 : Nat) : Code := .block [
  .ite p1 (.block [jge_zero_code p3]) (.block [(bif cfg.cof then .st (.isz 500 (p1 + 1)) else .st (.setf 500 fun _ => false)), .ite 500 (.block [jge_zero_code p3]) (.block [(bif cfg.zero_a then (.block [jge_dbl0_code cfg p3 p1]) else (.block [(bif cfg.three_a then (.block [jge_dbl3_code cfg p3 p1]) else (.block [jge_dblj_code cfg p3 p1]))])), .st (.setf p3 fun _ => false), .st (.setf (p3 + 1) fun _ => false)])])]

/-- src/ecc.c:3186-3292 `jge_addsub_var`. -/
def jge_addsub_var_code (cfg : Cfg) (p3 p1 p2 : Nat) (sign : Bool) : Code := .block [
  .st (.un .sqr 500 (p1 + 2)),
  .st (.un .sqr 501 (p2 + 2)),
  .st (.bin .mul 502 (p1 + 0) 501),
  .st (.bin .mul 503 (p2 + 0) 500),
  .st (.bin .mul 504 (p1 + 1) (p2 + 2)),
  .st (.bin .mul 504 504 501),
  .st (.bin .mul 505 (p2 + 1) (p1 + 2)),
  .st (.bin .mul 505 505 500),
  .st (.bin .sub 500 503 502),
  (bif sign then (.block [.st (.bin .subnc 501 505 504)]) else (.block [.st (.bin .addnc 501 505 504)])),
  .st (.isz 551 500),
  .ite 551 (.block [.st (.un .carry 501 501), .st (.isz 550 501), .ite 550 (.block [jge_dbl_var_code cfg p3 p1]) (.block [jge_zero_code p3])]) (.block [.st (.un .sqr 503 500), .st (.bin .mul 505 500 503), .st (.bin .mul 502 502 503), .st (.un .sqr (p3 + 0) 501), .st (.bin .sub (p3 + 0) (p3 + 0) 505), .st (.bin .sub (p3 + 0) (p3 + 0) 502), .st (.bin .sub (p3 + 0) (p3 + 0) 502), (bif sign then (.block [.st (.bin .subnc 502 502 (p3 + 0))]) else (.block [.st (.bin .subnc 502 (p3 + 0) 502)])), .st (.bin .mul 504 504 505), .st (.bin .mul (p3 + 1) 501 502), .st (.bin .sub (p3 + 1) (p3 + 1) 504), .st (.bin .mul (p3 + 2) (p1 + 2) (p2 + 2)), .st (.bin .mul (p3 + 2) (p3 + 2) 500), .st (.setf p3 fun _ => false), .st (.setf (p3 + 1) fun _ => false)])]

/-- src/ecc.c:3340-3432 `jge_mixed_addsub_var`. -/
def jge_mixed_addsub_var_code (cfg : Cfg) (p3 p1 x2 y2 : Nat) (sign : Bool) : Code := .block [
  .st (.un .sqr 600 (p1 + 2)),
  .st (.bin .mul 601 x2 600),
  .st (.bin .mul 602 y2 (p1 + 2)),
  .st (.bin .mul 602 602 600),
  .st (.bin .sub 603 601 (p1 + 0)),
  (bif sign then (.block [.st (.bin .sub 600 602 (p1 + 1))]) else (.block [.st (.bin .add 600 602 (p1 + 1))])),
  .st (.isz 651 603),
  .ite 651 (.block [.st (.isz 650 600), .ite 650 (.block [jge_dbl_var_code cfg p3 p1]) (.block [jge_zero_code p3])]) (.block [.st (.bin .addnc 600 600 600), .st (.bin .addnc 601 603 603), .st (.bin .mul (p3 + 2) (p1 + 2) 601), .st (.un .sqr 601 601), .st (.bin .mul 602 603 601), .st (.bin .mul 601 601 (p1 + 0)), .st (.un .sqr (p3 + 0) 600), .st (.bin .sub (p3 + 0) (p3 + 0) 602), .st (.bin .sub (p3 + 0) (p3 + 0) 601), .st (.bin .sub (p3 + 0) (p3 + 0) 601), (bif sign then (.block [.st (.bin .subnc 601 601 (p3 + 0))]) else (.block [.st (.bin .subnc 601 (p3 + 0) 601)])), .st (.bin .mul 602 602 (p1 + 1)), .st (.bin .mul (p3 + 1) 600 601), .st (.bin .sub (p3 + 1) (p3 + 1) 602), .st (.bin .sub (p3 + 1) (p3 + 1) 602), .st (.setf p3 fun _ => false), .st (.setf (p3 + 1) fun _ => false)])]

/-- src/ecc.c:3504-3731 `jge_add`. -/
def jge_add_code (cfg : Cfg) (p3 p1 p2 : Nat) : Code := .block [
  .st (.un .sqr 700 (p1 + 2)),
  .st (.un .sqr 701 (p2 + 2)),
  .st (.bin .mul 702 (p1 + 0) 701),
  .st (.bin .mul 703 (p2 + 0) 700),
  .st (.bin .mul 704 (p1 + 1) 701),
  .st (.bin .mul 704 704 (p2 + 2)),
  .st (.bin .mul 705 (p2 + 1) 700),
  .st (.bin .mul 705 705 (p1 + 2)),
  .st (.bin .mul 706 (p1 + 2) (p2 + 2)),
  .st (.bin .addnc 707 702 703),
  .st (.bin .add 700 704 705),
  .st (.un .sqr 701 707),
  .st (.bin .mul 705 702 703),
  .st (.bin .sub 701 701 705),
  (bif !cfg.zero_a then (.block [.st (.un .sqr 705 706), .st (.un .sqr 705 705), wei_mul_a_code cfg 705 705, .st (.bin .add 701 701 705)]) else (.block [])),
  .st (.isz 750 700),
  .st (.isz 751 701),
  .st (.setf 700 fun f => (f 750) && (f 751)),
  .st (.bin .subnc 705 702 703),
  .st (.sel 700 700 705 700),
  .st (.bin .addnc 705 704 704),
  .st (.sel 701 701 705 700),
  .st (.bin .mul 702 706 700),
  .st (.un .sqr 705 700),
  .st (.bin .mul 703 707 705),
  .st (.un .sqr 704 701),
  .st (.bin .sub 704 704 703),
  .st (.un .sqr 705 705),
  .st (.sel 705 705 1006 700),
  .st (.un .mul4 706 704),
  .st (.bin .sub 707 703 704),
  .st (.bin .subnc 707 707 704),
  .st (.bin .mul 707 707 701),
  .st (.bin .subnc 707 707 705),
  .st (.un .mul4 707 707),
  .st (.bin .add 700 702 702),
  .st (.isz 752 700),
  .st (.setf 701 fun f => (f 752) && (!((f p1) || (f p2)))),
  .st (.sel 706 706 (p2 + 0) p1),
  .st (.sel 707 707 (p2 + 1) p1),
  .st (.sel 700 700 (p2 + 2) p1),
  .st (.sel 706 706 (p1 + 0) p2),
  .st (.sel 707 707 (p1 + 1) p2),
  .st (.sel 700 700 (p1 + 2) p2),
  .st (.sel 706 706 1005 701),
  .st (.sel 707 707 1005 701),
  .st (.sel 700 700 1006 701),
  .st (.un .set (p3 + 0) 706),
  .st (.un .set (p3 + 1) 707),
  .st (.un .set (p3 + 2) 700),
  .st (.setf p3 fun f => (f 701) || ((f p1) && (f p2))),
  .st (.setf (p3 + 1) fun _ => false)]

/-- src/ecc.c:3740-3908 `jge_mixed_add`. -/
def jge_mixed_add_code (cfg : Cfg) (p3 p1 p2 : Nat) : Code := .block [
  .st (.un .sqr 800 (p1 + 2)),
  .st (.bin .mul 801 (p2 + 0) 800),
  .st (.bin .mul 802 (p2 + 1) 800),
  .st (.bin .mul 802 802 (p1 + 2)),
  .st (.bin .addnc 803 (p1 + 0) 801),
  .st (.bin .add 804 (p1 + 1) 802),
  .st (.un .sqr 805 803),
  .st (.bin .mul 802 (p1 + 0) 801),
  .st (.bin .sub 805 805 802),
  (bif !cfg.zero_a then (.block [.st (.un .sqr 802 800), wei_mul_a_code cfg 802 802, .st (.bin .add 805 805 802)]) else (.block [])),
  .st (.isz 850 804),
  .st (.isz 851 805),
  .st (.setf 800 fun f => (f 850) && (f 851)),
  .st (.bin .subnc 802 (p1 + 0) 801),
  .st (.sel 804 804 802 800),
  .st (.bin .addnc 802 (p1 + 1) (p1 + 1)),
  .st (.sel 805 805 802 800),
  .st (.bin .mul 800 (p1 + 2) 804),
  .st (.un .sqr 802 804),
  .st (.bin .mul 801 803 802),
  .st (.un .sqr 803 805),
  .st (.bin .sub 803 803 801),
  .st (.un .sqr 802 802),
  .st (.sel 802 802 1006 800),
  .st (.un .mul4 804 803),
  .st (.bin .sub 801 801 803),
  .st (.bin .subnc 801 801 803),
  .st (.bin .mul 801 801 805),
  .st (.bin .subnc 801 801 802),
  .st (.un .mul4 801 801),
  .st (.bin .add 800 800 800),
  .st (.isz 852 800),
  .st (.setf 801 fun f => (f 852) && (!((f p1) || (f p2)))),
  .st (.sel 804 804 (p2 + 0) p1),
  .st (.sel 801 801 (p2 + 1) p1),
  .st (.sel 800 800 1005 p1),
  .st (.sel 804 804 (p1 + 0) p2),
  .st (.sel 801 801 (p1 + 1) p2),
  .st (.sel 800 800 (p1 + 2) p2),
  .st (.sel 804 804 1005 801),
  .st (.sel 801 801 1005 801),
  .st (.sel 800 800 1006 801),
  .st (.un .set (p3 + 0) 804),
  .st (.un .set (p3 + 1) 801),
  .st (.un .set (p3 + 2) 800),
  .st (.setf p3 fun f => (f 801) || ((f p1) && (f p2))),
  .st (.setf (p3 + 1) fun _ => false)]

/-- src/ecc.c:6047-6055 `mont_mul_a24`. -/
def mont_mul_a24_code (cfg : Cfg) (z x : Nat) : Code := .block [
  (bif cfg.sca24 then (.block [.st (.un .sca24 z x)]) else (.block [.st (.bin .mul z x 1001)]))]

/-- src/ecc.c:5756-5789 `pge_dbl`. -/
def pge_dbl_code (cfg : Cfg) (p3 p1 : Nat) : Code := .block [
  .st (.bin .addnc 200 (p1 + 0) (p1 + 2)),
  .st (.un .sqr 201 200),
  .st (.bin .subnc 202 (p1 + 0) (p1 + 2)),
  .st (.un .sqr 203 202),
  .st (.bin .subnc 204 201 203),
  .st (.bin .mul (p3 + 0) 201 203),
  mont_mul_a24_code cfg (p3 + 2) 204,
  .st (.bin .addnc (p3 + 2) (p3 + 2) 203),
  .st (.bin .mul (p3 + 2) (p3 + 2) 204),
  .st (.isz 250 (p3 + 2)),
  .st (.sel (p3 + 0) (p3 + 0) 1005 250)]

/-- src/ecc.c:5791-5854 `pge_ladder`. -/
def pge_ladder_code (cfg : Cfg) (p4 p5 p1 p2 p3 : Nat) (affine : Bool) : Code := .block [
  .st (.bin .addnc 300 (p2 + 0) (p2 + 2)),
  .st (.un .sqr 301 300),
  .st (.bin .subnc 302 (p2 + 0) (p2 + 2)),
  .st (.un .sqr 303 302),
  .st (.bin .subnc 304 301 303),
  .st (.bin .addnc 305 (p3 + 0) (p3 + 2)),
  .st (.bin .subnc 306 (p3 + 0) (p3 + 2)),
  .st (.bin .mul 307 306 300),
  .st (.bin .mul 308 305 302),
  .st (.bin .addnc (p5 + 0) 307 308),
  .st (.un .sqr (p5 + 0) (p5 + 0)),
  (bif !affine then (.block [.st (.bin .mul (p5 + 0) (p5 + 0) (p1 + 2))]) else (.block [])),
  .st (.bin .subnc (p5 + 2) 307 308),
  .st (.un .sqr (p5 + 2) (p5 + 2)),
  .st (.bin .mul (p5 + 2) (p5 + 2) (p1 + 0)),
  .st (.bin .mul (p4 + 0) 301 303),
  mont_mul_a24_code cfg (p4 + 2) 304,
  .st (.bin .addnc (p4 + 2) (p4 + 2) 303),
  .st (.bin .mul (p4 + 2) (p4 + 2) 304)]

/-- src/ecc.c:7319-7329 `edwards_mul_a`. -/
def edwards_mul_a_code (cfg : Cfg) (z x : Nat) : Code := .block [
  (bif cfg.mone_a then (.block [.st (.un .neg z x)]) else (.block [(bif cfg.one_a then (.block [.st (.un .set z x)]) else (.block [.st (.bin .mul z x 1000)]))]))]

/-- src/ecc.c:7331-7339 `edwards_mul_d`. -/
def edwards_mul_d_code (cfg : Cfg) (z x : Nat) : Code := .block [
  (bif cfg.scd then (.block [.st (.un .scd z x)]) else (.block [.st (.bin .mul z x 1002)]))]

/-- src/ecc.c:6714-6761 `xge_dbl`. -/
def xge_dbl_code (cfg : Cfg) (p3 p1 : Nat) : Code := .block [
  .st (.un .sqr 200 (p1 + 0)),
  .st (.un .sqr 201 (p1 + 1)),
  .st (.un .sqr 202 (p1 + 2)),
  .st (.bin .add 202 202 202),
  edwards_mul_a_code cfg 203 200,
  .st (.bin .addnc 204 (p1 + 0) (p1 + 1)),
  .st (.un .sqr 204 204),
  .st (.bin .sub 204 204 200),
  .st (.bin .subnc 204 204 201),
  .st (.bin .add 205 203 201),
  .st (.bin .subnc 206 205 202),
  .st (.bin .subnc 207 203 201),
  .st (.bin .mul (p3 + 0) 204 206),
  .st (.bin .mul (p3 + 1) 205 207),
  .st (.bin .mul (p3 + 3) 204 207),
  .st (.bin .mul (p3 + 2) 206 205)]

/-- src/ecc.c:6763-6819 `xge_add_a`. -/
def xge_add_a_code (cfg : Cfg) (p3 p1 p2 : Nat) (affine : Bool) : Code := .block [
  .st (.bin .mul 300 (p1 + 0) (p2 + 0)),
  .st (.bin .mul 301 (p1 + 1) (p2 + 1)),
  .st (.bin .mul 302 (p1 + 3) (p2 + 3)),
  edwards_mul_d_code cfg 302 302,
  (bif affine then (.block [.st (.un .set 303 (p1 + 2))]) else (.block [.st (.bin .mul 303 (p1 + 2) (p2 + 2))])),
  .st (.bin .addnc 305 (p1 + 0) (p1 + 1)),
  .st (.bin .addnc 306 (p2 + 0) (p2 + 1)),
  .st (.bin .mul 304 305 306),
  .st (.bin .sub 304 304 300),
  .st (.bin .subnc 304 304 301),
  .st (.bin .subnc 305 303 302),
  .st (.bin .addnc 306 303 302),
  edwards_mul_a_code cfg 307 300,
  .st (.bin .subnc 307 301 307),
  .st (.bin .mul (p3 + 0) 304 305),
  .st (.bin .mul (p3 + 1) 306 307),
  .st (.bin .mul (p3 + 3) 304 307),
  .st (.bin .mul (p3 + 2) 305 306)]

/-- src/ecc.c:6821-6877 `xge_sub_a`. -/
def xge_sub_a_code (cfg : Cfg) (p3 p1 p2 : Nat) (affine : Bool) : Code := .block [
  .st (.bin .mul 400 (p1 + 0) (p2 + 0)),
  .st (.bin .mul 401 (p1 + 1) (p2 + 1)),
  .st (.bin .mul 402 (p1 + 3) (p2 + 3)),
  edwards_mul_d_code cfg 402 402,
  (bif affine then (.block [.st (.un .set 403 (p1 + 2))]) else (.block [.st (.bin .mul 403 (p1 + 2) (p2 + 2))])),
  .st (.bin .addnc 405 (p1 + 1) (p1 + 0)),
  .st (.bin .subnc 406 (p2 + 1) (p2 + 0)),
  .st (.bin .mul 404 405 406),
  .st (.bin .add 404 404 400),
  .st (.bin .subnc 404 404 401),
  .st (.bin .addnc 405 403 402),
  .st (.bin .subnc 406 403 402),
  edwards_mul_a_code cfg 407 400,
  .st (.bin .addnc 407 401 407),
  .st (.bin .mul (p3 + 0) 404 405),
  .st (.bin .mul (p3 + 1) 406 407),
  .st (.bin .mul (p3 + 3) 404 407),
  .st (.bin .mul (p3 + 2) 405 406)]

/-- src/ecc.c:6879-6938 `xge_add_m1`. -/
def xge_add_m1_code (_cfg : Cfg) (p3 p1 p2 : Nat) (affine : Bool) : Code := .block [
  .st (.bin .subnc 502 (p1 + 1) (p1 + 0)),
  .st (.bin .subnc 503 (p2 + 1) (p2 + 0)),
  .st (.bin .mul 500 502 503),
  .st (.bin .addnc 502 (p1 + 1) (p1 + 0)),
  .st (.bin .addnc 503 (p2 + 1) (p2 + 0)),
  .st (.bin .mul 501 502 503),
  .st (.bin .mul 502 (p1 + 3) (p2 + 3)),
  .st (.bin .mul 502 502 1003),
  (bif affine then (.block [.st (.bin .add 503 (p1 + 2) (p1 + 2))]) else (.block [.st (.bin .addnc 503 (p1 + 2) (p1 + 2)), .st (.bin .mul 503 503 (p2 + 2))])),
  .st (.bin .subnc 504 501 500),
  .st (.bin .subnc 505 503 502),
  .st (.bin .addnc 506 503 502),
  .st (.bin .addnc 507 501 500),
  .st (.bin .mul (p3 + 0) 504 505),
  .st (.bin .mul (p3 + 1) 506 507),
  .st (.bin .mul (p3 + 3) 504 507),
  .st (.bin .mul (p3 + 2) 505 506)]

/-- src/ecc.c:6940-6999 `xge_sub_m1`. -/
def xge_sub_m1_code (_cfg : Cfg) (p3 p1 p2 : Nat) (affine : Bool) : Code := .block [
  .st (.bin .subnc 602 (p1 + 1) (p1 + 0)),
  .st (.bin .addnc 603 (p2 + 1) (p2 + 0)),
  .st (.bin .mul 600 602 603),
  .st (.bin .addnc 602 (p1 + 1) (p1 + 0)),
  .st (.bin .subnc 603 (p2 + 1) (p2 + 0)),
  .st (.bin .mul 601 602 603),
  .st (.bin .mul 602 (p1 + 3) (p2 + 3)),
  .st (.bin .mul 602 602 1003),
  (bif affine then (.block [.st (.bin .add 603 (p1 + 2) (p1 + 2))]) else (.block [.st (.bin .addnc 603 (p1 + 2) (p1 + 2)), .st (.bin .mul 603 603 (p2 + 2))])),
  .st (.bin .subnc 604 601 600),
  .st (.bin .addnc 605 603 602),
  .st (.bin .subnc 606 603 602),
  .st (.bin .addnc 607 601 600),
  .st (.bin .mul (p3 + 0) 604 605),
  .st (.bin .mul (p3 + 1) 606 607),
  .st (.bin .mul (p3 + 3) 604 607),
  .st (.bin .mul (p3 + 2) 605 606)]

end Torsion.Fiat
