import Verif.Ecc.Encode
import Verif.Ecc.Recode
import Verif.Asn1.Model
import Verif.Common.Proto

/-!
# Model: ECDSA (src/ecc.c)

Scalars are numbers below the order (see Scalar.lean for the limbs), points those of Point.lean and Mul.lean. Output buffers
are the returned strings; the last Boolean of a result is the returned `int`.

Elsewhere: `ecdsa_privkey_generate` and the functions which search for keys (Grind.lean), the functions which hash to the
curve (WeiHash.lean). Not modelled: the argument `redefine` (instrumentation for the checks of constant time) and the clearing of secrets.
-/
namespace Torsion

open Spec (beVal)

section
variable {fe : FieldCode} [Fact fe.p.Prime]

/-! ### Keys -/

/-- src/ecc.c:10531-10534 `ecdsa_privkey_size`. -/
def ecdsa_privkey_size (ec : WeiT fe) : Nat := scSize ec.n

/-- src/ecc.c:10541-10544 `ecdsa_sig_size`. -/
def ecdsa_sig_size (ec : WeiT fe) : Nat := scSize ec.n * 2

/-- src/ecc.c:10536-10539 `ecdsa_pubkey_size`. -/
def ecdsa_pubkey_size (_ec : WeiT fe) (compact : Bool) : Nat := if compact then 1 + feSize fe else 1 + feSize fe * 2

/-- The first two calls of src/ecc.c:10583-10595 `ecdsa_privkey_verify` and of most functions with a private key. -/
def ecdsa_key (ec : WeiT fe) (priv : List Byte) : C (Nat × Bool) := do
  let a ← num_import ec.n priv
  return (a.1, a.2 && a.1 != 0)

/-- src/ecc.c:10583-10595 `ecdsa_privkey_verify`. -/
def ecdsa_privkey_verify (ec : WeiT fe) (priv : List Byte) : C Bool := do
  let a ← ecdsa_key ec priv
  return a.2

/-- src/ecc.c:10597-10612 `ecdsa_privkey_export`. -/
def ecdsa_privkey_export (ec : WeiT fe) (priv : List Byte) : C (List Byte × Bool) := do
  let a ← ecdsa_key ec priv
  return (num_export ec.n a.1, a.2)

/-- src/ecc.c:10614-10630 `ecdsa_privkey_import`. -/
def ecdsa_privkey_import (ec : WeiT fe) (bytes : List Byte) : List Byte × Bool :=
  let a := num_import_pad ec.n bytes
  (num_export ec.n a.1, a.2 && a.1 != 0)

/-- src/ecc.c:10632-10654 `ecdsa_privkey_tweak_add`. -/
def ecdsa_privkey_tweak_add (ec : WeiT fe) (priv tweak : List Byte) : C (List Byte × Bool) := do
  let a ← ecdsa_key ec priv
  let t ← num_import ec.n tweak
  let r := (a.1 + t.1) % ec.n
  return (num_export ec.n r, a.2 && t.2 && r != 0)

/-- src/ecc.c:10656-10678 `ecdsa_privkey_tweak_mul`. -/
def ecdsa_privkey_tweak_mul (ec : WeiT fe) (priv tweak : List Byte) : C (List Byte × Bool) := do
  let a ← ecdsa_key ec priv
  let t ← num_import ec.n tweak
  let r := a.1 * t.1 % ec.n
  return (num_export ec.n r, a.2 && t.2 && r != 0)

/-- src/ecc.c:10680-10696 `ecdsa_privkey_negate`. -/
def ecdsa_privkey_negate (ec : WeiT fe) (priv : List Byte) : C (List Byte × Bool) := do
  let a ← ecdsa_key ec priv
  return (num_export ec.n (num_neg ec.n a.1), a.2)

/-- src/ecc.c:10698-10713 `ecdsa_privkey_invert`. -/
def ecdsa_privkey_invert (ec : WeiT fe) (priv : List Byte) : C (List Byte × Bool) := do
  let a ← num_import ec.n priv
  let i := num_invert ec.n a.1
  return (num_export ec.n i.1, a.2 && i.2)

/-- src/ecc.c:10715-10737 `ecdsa_pubkey_create`. -/
def ecdsa_pubkey_create (ec : WeiT fe) (priv : List Byte) (compact : Bool) : C (List Byte × Bool) := do
  let a ← ecdsa_key ec priv
  let A ← wei_mul_g ec.toWei a.1
  let r := wge_export ec A compact
  return (r.1, a.2 && r.2)

/-- src/ecc.c:10785-10799 `ecdsa_pubkey_convert`. -/
def ecdsa_pubkey_convert (ec : WeiT fe) (pub : List Byte) (compact : Bool) : C (List Byte × Bool) := do
  let A ← wge_import ec pub
  let r := wge_export ec A.1 compact
  return (r.1, A.2 && r.2)

/-- src/ecc.c:10859-10864 `ecdsa_pubkey_verify`. -/
def ecdsa_pubkey_verify (ec : WeiT fe) (pub : List Byte) : C Bool := do
  let A ← wge_import ec pub
  return A.2

/-- src/ecc.c:10866-10882 `ecdsa_pubkey_export`. -/
def ecdsa_pubkey_export (ec : WeiT fe) (pub : List Byte) : C (List Byte × List Byte × Bool) := do
  let A ← wge_import ec pub
  return (fe_export fe A.1.x, fe_export fe A.1.y, A.2)

/-- src/ecc.c:10884-10913 `ecdsa_pubkey_import`; `sign` is `none` for -1. -/
def ecdsa_pubkey_import (ec : WeiT fe) (x_raw y_raw : List Byte) (sign : Option Bool) (compact : Bool) :
    C (List Byte × Bool) := do
  let has_x := decide (x_raw.length > 0)
  let has_y := decide (y_raw.length > 0)
  let x ← fe_import_pad fe x_raw
  let y ← fe_import_pad fe y_raw
  let A ← if has_x && has_y then pure (wge_set_xy ec.toCurve x.1 y.1) else wge_set_x ec x.1 sign
  let r := wge_export ec A.1 compact
  return (r.1, has_x && x.2 && y.2 && A.2 && r.2)

/-- src/ecc.c:10915-10943 `ecdsa_pubkey_tweak_add`. -/
def ecdsa_pubkey_tweak_add (ec : WeiT fe) (pub tweak : List Byte) (compact : Bool) : C (List Byte × Bool) := do
  let A ← wge_import ec pub
  let t ← num_import ec.n tweak
  let T ← wei_jmul_g ec.toWei t.1
  let T := jge_mixed_add ec.toCurve T A.1
  let r := wge_export ec (wge_set_jge T) compact
  return (r.1, A.2 && t.2 && r.2)

/-- src/ecc.c:10945-10968 `ecdsa_pubkey_tweak_mul`. -/
def ecdsa_pubkey_tweak_mul (ec : WeiT fe) (pub tweak : List Byte) (compact : Bool) : C (List Byte × Bool) := do
  let A ← wge_import ec pub
  let t ← num_import ec.n tweak
  let T ← wei_mul ec.toWei A.1 t.1
  let r := wge_export ec T compact
  return (r.1, A.2 && t.2 && r.2)

/-- src/ecc.c:10970-10990 `ecdsa_pubkey_add`. -/
def ecdsa_pubkey_add (ec : WeiT fe) (pub1 pub2 : List Byte) (compact : Bool) : C (List Byte × Bool) := do
  let P ← wge_import ec pub1
  let Q ← wge_import ec pub2
  let r := wge_export ec (wge_add ec.toCurve P.1 Q.1) compact
  return (r.1, P.2 && Q.2 && r.2)

/-- src/ecc.c:10992-11024 `ecdsa_pubkey_combine`, the loop. -/
def pubkey_combine_loop (ec : WeiT fe) : List (List Byte) → Jge (ZMod fe.p) → Bool → C (Jge (ZMod fe.p) × Bool)
  | [], P, ret => return (P, ret)
  | pub :: pubs, P, ret => do
    let A ← wge_import ec pub
    pubkey_combine_loop ec pubs (jge_mixed_add ec.toCurve P A.1) (ret && A.2)

/-- src/ecc.c:10992-11024 `ecdsa_pubkey_combine`, the sum. -/
def pubkey_combine_sum (ec : WeiT fe) : List (List Byte) → C (Jge (ZMod fe.p) × Bool)
  | [] => return (jge_zero, true)
  | pub :: pubs => do
    let A ← wge_import ec pub
    pubkey_combine_loop ec pubs (jge_set_wge A.1) A.2

/-- src/ecc.c:10992-11024 `ecdsa_pubkey_combine`. -/
def ecdsa_pubkey_combine (ec : WeiT fe) (pubs : List (List Byte)) (compact : Bool) : C (List Byte × Bool) := do
  let s ← pubkey_combine_sum ec pubs
  let r := wge_export ec (wge_set_jge s.1) compact
  return (r.1, s.2 && r.2)

/-- src/ecc.c:11026-11043 `ecdsa_pubkey_negate`. -/
def ecdsa_pubkey_negate (ec : WeiT fe) (pub : List Byte) (compact : Bool) : C (List Byte × Bool) := do
  let A ← wge_import ec pub
  let r := wge_export ec (wge_neg A.1) compact
  return (r.1, A.2 && r.2)

/-- src/ecc.c:11532-11559 `ecdsa_derive`. -/
def ecdsa_derive (ec : WeiT fe) (pub priv : List Byte) (compact : Bool) : C (List Byte × Bool) := do
  let a ← ecdsa_key ec priv
  let A ← wge_import ec pub
  let P ← wei_mul ec.toWei A.1 a.1
  let r := wge_export ec P compact
  return (r.1, a.2 && A.2 && r.2)

/-! ### Signatures -/

/-- src/ecc.c:11045-11068 `ecdsa_encode_der`. -/
def ecdsa_encode_der (ec : WeiT fe) (r s : Nat) : C (List Byte) := do
  let rp := num_export ec.n r
  let sp := num_export ec.n s
  let size := asn1_size_int rp + asn1_size_int sp
  let o ← asn1_write_seq size
  let o1 ← asn1_write_int rp
  let o2 ← asn1_write_int sp
  return o ++ (o1 ++ o2)

/-- src/ecc.c:11070-11104 `ecdsa_decode_der`: the two numbers (zero if the result is 0). -/
def ecdsa_decode_der (ec : WeiT fe) (der : List Byte) (strict : Bool) : C (Nat × Nat × Bool) := do
  let s ← asn1_read_seq ⟨der, der.length⟩ strict
  if !s.2 then return (0, 0, false)
  let rp ← asn1_read_int (scSize ec.n) s.1 strict
  if !rp.ret then return (0, 0, false)
  let sp ← asn1_read_int (scSize ec.n) rp.st strict
  if !sp.ret then return (0, 0, false)
  if strict ∧ sp.st.len ≠ 0 then return (0, 0, false)
  let r ← num_import ec.n rp.out
  if !r.2 then return (0, 0, false)
  let s ← num_import ec.n sp.out
  if !s.2 then return (0, 0, false)
  return (r.1, s.1, true)

/-- src/ecc.c:11106-11142 `ecdsa_reduce`: the number, and 1 if it did not need the reduction. -/
def ecdsa_reduce (ec : WeiT fe) (msg : List Byte) : Nat × Bool :=
  let len := if msg.length > scSize ec.n then scSize ec.n else msg.length
  let r := beVal (msg.take len)
  let r := if len * 8 > ec.n.size then r >>> (len * 8 - ec.n.size) else r
  if r < ec.n then (r, true) else (r - ec.n, false)

/-- The first two calls of src/ecc.c:11200-11217 `ecdsa_sig_normalize` and of the other functions with a signature. -/
def ecdsa_rs (ec : WeiT fe) (sig : List Byte) : C ((Nat × Bool) × (Nat × Bool)) := do
  let r ← num_import ec.n sig
  let s ← num_import ec.n (sig.drop (scSize ec.n))
  return (r, s)

/-- src/ecc.c:11144-11164 `ecdsa_sig_export`. -/
def ecdsa_sig_export (ec : WeiT fe) (sig : List Byte) : C (List Byte × Bool) := do
  let rs ← ecdsa_rs ec sig
  let ret := rs.1.2 && rs.2.2
  let out ← if !ret then ecdsa_encode_der ec 0 0 else ecdsa_encode_der ec rs.1.1 rs.2.1
  return (out, ret)

/-- src/ecc.c:11166-11181 `ecdsa_sig_import`. -/
def ecdsa_sig_import (ec : WeiT fe) (der : List Byte) : C (List Byte × Bool) := do
  let rs ← ecdsa_decode_der ec der true
  return (num_export ec.n rs.1 ++ num_export ec.n rs.2.1, rs.2.2)

/-- src/ecc.c:11183-11198 `ecdsa_sig_import_lax`. -/
def ecdsa_sig_import_lax (ec : WeiT fe) (der : List Byte) : C (List Byte × Bool) := do
  let rs ← ecdsa_decode_der ec der false
  return (num_export ec.n rs.1 ++ num_export ec.n rs.2.1, rs.2.2)

/-- src/ecc.c:11200-11217 `ecdsa_sig_normalize`. -/
def ecdsa_sig_normalize (ec : WeiT fe) (sig : List Byte) : C (List Byte × Bool) := do
  let rs ← ecdsa_rs ec sig
  let s := (sc_minimize_var ec.n rs.2.1).1
  return (num_export ec.n rs.1.1 ++ num_export ec.n s, rs.1.2 && rs.2.2)

/-- src/ecc.c:11219-11230 `ecdsa_is_low_s`. -/
def ecdsa_is_low_s (ec : WeiT fe) (sig : List Byte) : C Bool := do
  let rs ← ecdsa_rs ec sig
  return rs.1.2 && rs.2.2 && !decide (rs.2.1 > ec.n / 2)

/-- What the loop of src/ecc.c:11242-11358 `ecdsa_sign_internal` leaves in its variables. -/
structure EcdsaNonce where
  k : Nat
  r : Nat
  sign : Bool
  high : Bool

/-- The loop of src/ecc.c:11242-11358 `ecdsa_sign_internal`. -/
def ecdsa_sign_loop {S : Type} (rng : ByteGen S) (ec : WeiT fe) : Nat → S → R EcdsaNonce
  | 0, _ => .spin
  | fuel + 1, st => do
    let b := rng.gen st (scSize ec.n)
    let k := ecdsa_reduce ec b.1
    let R ← wei_mul_g ec.toWei k.1
    let sign := fe_is_odd fe R.y
    let r := num_set_fe ec.n R.x
    let high := !r.2
    let ok := k.2 && k.1 != 0 && !R.inf && r.1 != 0
    if ok then .ok ⟨k.1, r.1, sign, high⟩ else ecdsa_sign_loop rng ec fuel b.2

/-- src/ecc.c:11242-11358 `ecdsa_sign_internal`: the signature, the parameter for the recovery and the result. -/
def ecdsa_sign {S : Type} (rng : Source S) (fuel : Nat) (ec : WeiT fe) (msg priv : List Byte) :
    R (List Byte × Nat × Bool) := do
  let a ← ecdsa_key ec priv
  let m := ecdsa_reduce ec msg
  let bytes := num_export ec.n a.1 ++ num_export ec.n m.1
  let v ← ecdsa_sign_loop rng.toByteGen ec fuel (rng.init bytes)
  let k := num_invert ec.n v.k
  C.check k.2
  let s := v.r * a.1 % ec.n
  let s := (s + m.1) % ec.n
  let s := s * k.1 % ec.n
  let s := sc_minimize_var ec.n s
  let sign := v.sign ^^ s.2
  .ok (num_export ec.n v.r ++ num_export ec.n s.1, (v.high.toNat <<< 1) ||| sign.toNat, a.2)

/-- src/ecc.c:2938-2990 `jge_equal_r_var`. -/
def jge_equal_r_var (ec : WeiT fe) (p : Jge (ZMod fe.p)) (x : Nat) : C Bool := do
  C.check ec.smallGap
  if p.inf then return false
  let rx ← fe_set_sc fe ec.n x
  if !rx.2 then return false
  let zz := p.z * p.z
  let rx := rx.1 * zz
  if fe_equal p.x rx then return true
  if ec.highOrder then return false
  if x ≥ ec.sc_p then return false
  let rn := ec.fe_n * zz
  let rx := rx + rn
  return fe_equal p.x rx

/-- src/ecc.c:11360-11440 `ecdsa_verify`. -/
def ecdsa_verify (ec : WeiT fe) (msg sig pub : List Byte) : C Bool := do
  let r ← num_import ec.n sig
  if !r.2 then return false
  let s ← num_import ec.n (sig.drop (scSize ec.n))
  if !s.2 then return false
  if r.1 = 0 ∨ s.1 = 0 then return false
  if s.1 > ec.n / 2 then return false
  let A ← wge_import ec pub
  if !A.2 then return false
  let m := ecdsa_reduce ec msg
  let si := num_invert ec.n s.1
  C.check si.2
  let u1 := m.1 * si.1 % ec.n
  let u2 := r.1 * si.1 % ec.n
  if ec.smallGap then
    let J ← wei_jmul_double_var ec.toWei u1 A.1 u2
    jge_equal_r_var ec J r.1
  else
    let R ← wei_mul_double_var ec.toWei u1 A.1 u2
    if R.inf then return false
    let x := num_set_fe ec.n R.x
    return x.1 == r.1

/-- src/ecc.c:11442-11530 `ecdsa_recover`: the point, infinity after a failure. -/
def ecdsa_recover_point (ec : WeiT fe) (msg sig : List Byte) (param : Nat) : C (Wge (ZMod fe.p)) := do
  let sign := param &&& 1
  let high := param >>> 1
  let r ← num_import ec.n sig
  if !r.2 then return wge_zero
  let s ← num_import ec.n (sig.drop (scSize ec.n))
  if !s.2 then return wge_zero
  if r.1 = 0 ∨ s.1 = 0 then return wge_zero
  if s.1 > ec.n / 2 then return wge_zero
  let x ← fe_set_sc fe ec.n r.1
  if !x.2 then return wge_zero
  if high ≠ 0 ∧ ec.highOrder then return wge_zero
  if high ≠ 0 ∧ r.1 ≥ ec.sc_p then return wge_zero
  let x := if high ≠ 0 then x.1 + ec.fe_n else x.1
  let R ← wge_set_x ec x (some (sign == 1))
  if !R.2 then return wge_zero
  let m := ecdsa_reduce ec msg
  let ri := num_invert ec.n r.1
  C.check ri.2
  let s1 := m.1 * ri.1 % ec.n
  let s2 := s.1 * ri.1 % ec.n
  let s1 := num_neg ec.n s1
  wei_mul_double_var ec.toWei s1 R.1 s2

/-- src/ecc.c:11442-11530 `ecdsa_recover`. -/
def ecdsa_recover (ec : WeiT fe) (msg sig : List Byte) (param : Nat) (compact : Bool) : C (List Byte × Bool) := do
  let A ← ecdsa_recover_point ec msg sig param
  return wge_export ec A compact

end

end Torsion
