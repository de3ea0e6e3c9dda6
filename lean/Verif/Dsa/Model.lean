import Verif.Rsa.Model

/-!
# Model: DSA (src/dsa.c)

Conventions as in the model of RSA. Output buffers are the returned strings.

Generation is in Verif/Dsa/Generate.lean.
-/
namespace Torsion

/-- include/torsion/dsa.h:52, `DSA_MIN_BITS`. -/
def DSA_MIN_BITS : Nat := 512
/-- include/torsion/dsa.h:53, `DSA_MAX_BITS`. -/
def DSA_MAX_BITS : Nat := 10000
/-- include/torsion/dsa.h:59, `DSA_MAX_QSIZE`. -/
def DSA_MAX_QSIZE : Nat := 32

/-- src/dsa.c:41-45, `dsa_group_t`. -/
structure DsaGroup where
  p : Mpz
  q : Mpz
  g : Mpz
deriving DecidableEq, Repr

/-- src/dsa.c:47-52, `dsa_pub_t`. -/
structure DsaPub extends DsaGroup where
  y : Mpz
deriving DecidableEq, Repr

/-- src/dsa.c:54-60, `dsa_priv_t`. The conversions `toDsaPub` and `toDsaGroup` are src/dsa.c:334-340 `dsa_pub_roset_priv` and
src/dsa.c:92-97 `dsa_group_roset_pub`. -/
structure DsaPriv extends DsaPub where
  x : Mpz
deriving DecidableEq, Repr

/-- src/dsa.c:62-65, `dsa_sig_t`. -/
structure DsaSig where
  r : Mpz
  s : Mpz
deriving DecidableEq, Repr

/-! ## Group -/

/-- src/dsa.c:99-117 `dsa_group_import`. -/
def dsa_group_import (data : List Byte) : R DsaGroup := do
  let s ← asn1_read_seq ⟨data, data.length⟩ true
  R.need s.2
  let p ← need_mpz s.1
  let q ← need_mpz p.2
  let g ← need_mpz q.2
  R.need (g.2.len = 0)
  .ok ⟨p.1, q.1, g.1⟩

/-- src/dsa.c:119-136 `dsa_group_export`. -/
def dsa_group_export (group : DsaGroup) : C (List Byte) := do
  let size := asn1_size_mpz (mpz_nat group.p) + asn1_size_mpz (mpz_nat group.q) + asn1_size_mpz (mpz_nat group.g)
  let sq ← asn1_write_seq size
  let p ← asn1_write_mpz (mpz_nat group.p)
  let q ← asn1_write_mpz (mpz_nat group.q)
  let g ← asn1_write_mpz (mpz_nat group.g)
  .ok (sq ++ (p ++ (q ++ g)))

/-- src/dsa.c:138-152 `dsa_group_import_dumb`. -/
def dsa_group_import_dumb (data : List Byte) : R DsaGroup := do
  let p ← need_dumb ⟨data, data.length⟩
  let q ← need_dumb p.2
  let g ← need_dumb q.2
  .ok ⟨p.1, q.1, g.1⟩

/-- src/dsa.c:154-165 `dsa_group_export_dumb`. -/
def dsa_group_export_dumb (group : DsaGroup) : C (List Byte) := do
  let p ← asn1_write_dumb (mpz_nat group.p)
  let q ← asn1_write_dumb (mpz_nat group.q)
  let g ← asn1_write_dumb (mpz_nat group.g)
  .ok (p ++ (q ++ g))

/-- src/dsa.c:261-294 `dsa_group_is_sane`. -/
def dsa_group_is_sane (group : DsaGroup) : R Unit := do
  let pbits ← mpz_bitlen group.p
  let qbits ← mpz_bitlen group.q
  R.need (¬ (pbits < DSA_MIN_BITS ∨ pbits > DSA_MAX_BITS))
  R.need (¬ (qbits ≠ 160 ∧ qbits ≠ 224 ∧ qbits ≠ 256))
  R.need (¬ (mpz_cmp_ui group.g 2 < 0 ∨ mpz_cmp group.g group.p ≥ 0))
  let odd ← mpz_odd_p group.p
  R.need odd
  let odd ← mpz_odd_p group.q
  R.need odd
  let pm1 ← mpz_sub_ui .heap group.p 1
  R.need (¬ mpz_cmp group.g pm1 ≥ 0)

/-- src/dsa.c:296-312 `dsa_group_verify`. -/
def dsa_group_verify (group : DsaGroup) : R Unit := do
  dsa_group_is_sane group
  let t ← mpz_powm .heap group.g group.q group.p
  R.need (mpz_cmp_ui t 1 = 0)

/-! ## Public key -/

/-- src/dsa.c:342-363 `dsa_pub_import`. -/
def dsa_pub_import (data : List Byte) : R DsaPub := do
  let s ← asn1_read_seq ⟨data, data.length⟩ true
  R.need s.2
  let y ← need_mpz s.1
  let p ← need_mpz y.2
  let q ← need_mpz p.2
  let g ← need_mpz q.2
  R.need (g.2.len = 0)
  .ok ⟨⟨p.1, q.1, g.1⟩, y.1⟩

/-- src/dsa.c:365-382 `dsa_pub_export`. -/
def dsa_pub_export (k : DsaPub) : C (List Byte) := do
  let size := asn1_size_mpz (mpz_nat k.y) + asn1_size_mpz (mpz_nat k.p) + asn1_size_mpz (mpz_nat k.q)
    + asn1_size_mpz (mpz_nat k.g)
  let sq ← asn1_write_seq size
  let y ← asn1_write_mpz (mpz_nat k.y)
  let p ← asn1_write_mpz (mpz_nat k.p)
  let q ← asn1_write_mpz (mpz_nat k.q)
  let g ← asn1_write_mpz (mpz_nat k.g)
  .ok (sq ++ (y ++ (p ++ (q ++ g))))

/-- src/dsa.c:384-399 `dsa_pub_import_dumb`. -/
def dsa_pub_import_dumb (data : List Byte) : R DsaPub := do
  let p ← need_dumb ⟨data, data.length⟩
  let q ← need_dumb p.2
  let g ← need_dumb q.2
  let y ← need_dumb g.2
  .ok ⟨⟨p.1, q.1, g.1⟩, y.1⟩

/-- src/dsa.c:401-411 `dsa_pub_export_dumb`. -/
def dsa_pub_export_dumb (k : DsaPub) : C (List Byte) := do
  let p ← asn1_write_dumb (mpz_nat k.p)
  let q ← asn1_write_dumb (mpz_nat k.q)
  let g ← asn1_write_dumb (mpz_nat k.g)
  let y ← asn1_write_dumb (mpz_nat k.y)
  .ok (p ++ (q ++ (g ++ y)))

/-- src/dsa.c:413-434 `dsa_pub_is_sane`. -/
def dsa_pub_is_sane (k : DsaPub) : R Unit := do
  dsa_group_is_sane k.toDsaGroup
  let pm1 ← mpz_sub_ui .heap k.p 1
  R.need (¬ (mpz_cmp_ui k.y 2 < 0 ∨ mpz_cmp k.y pm1 ≥ 0))

/-- src/dsa.c:436-458 `dsa_pub_verify`. -/
def dsa_pub_verify (k : DsaPub) : R Unit := do
  dsa_group_verify k.toDsaGroup
  dsa_pub_is_sane k
  let t ← mpz_powm .heap k.y k.q k.p
  R.need (mpz_cmp_ui t 1 = 0)

/-! ## Private key -/

/-- src/dsa.c:482-509 `dsa_priv_import`. -/
def dsa_priv_import (data : List Byte) : R DsaPriv := do
  let s ← asn1_read_seq ⟨data, data.length⟩ true
  R.need s.2
  let s ← asn1_read_version s.1 0 true
  R.need s.2
  let p ← need_mpz s.1
  let q ← need_mpz p.2
  let g ← need_mpz q.2
  let y ← need_mpz g.2
  let x ← need_mpz y.2
  R.need (x.2.len = 0)
  .ok ⟨⟨⟨p.1, q.1, g.1⟩, y.1⟩, x.1⟩

/-- src/dsa.c:511-532 `dsa_priv_export`. -/
def dsa_priv_export (k : DsaPriv) : C (List Byte) := do
  let size := asn1_size_version 0 + asn1_size_mpz (mpz_nat k.p) + asn1_size_mpz (mpz_nat k.q)
    + asn1_size_mpz (mpz_nat k.g) + asn1_size_mpz (mpz_nat k.y) + asn1_size_mpz (mpz_nat k.x)
  let sq ← asn1_write_seq size
  let vs ← asn1_write_version 0
  let p ← asn1_write_mpz (mpz_nat k.p)
  let q ← asn1_write_mpz (mpz_nat k.q)
  let g ← asn1_write_mpz (mpz_nat k.g)
  let y ← asn1_write_mpz (mpz_nat k.y)
  let x ← asn1_write_mpz (mpz_nat k.x)
  .ok (sq ++ (vs ++ (p ++ (q ++ (g ++ (y ++ x))))))

/-- src/dsa.c:534-552 `dsa_priv_import_dumb`. -/
def dsa_priv_import_dumb (data : List Byte) : R DsaPriv := do
  let p ← need_dumb ⟨data, data.length⟩
  let q ← need_dumb p.2
  let g ← need_dumb q.2
  let y ← need_dumb g.2
  let x ← need_dumb y.2
  .ok ⟨⟨⟨p.1, q.1, g.1⟩, y.1⟩, x.1⟩

/-- src/dsa.c:554-565 `dsa_priv_export_dumb`. -/
def dsa_priv_export_dumb (k : DsaPriv) : C (List Byte) := do
  let p ← asn1_write_dumb (mpz_nat k.p)
  let q ← asn1_write_dumb (mpz_nat k.q)
  let g ← asn1_write_dumb (mpz_nat k.g)
  let y ← asn1_write_dumb (mpz_nat k.y)
  let x ← asn1_write_dumb (mpz_nat k.x)
  .ok (p ++ (q ++ (g ++ (y ++ x))))

/-- src/dsa.c:567-580 `dsa_priv_is_sane`. -/
def dsa_priv_is_sane (k : DsaPriv) : R Unit := do
  dsa_pub_is_sane k.toDsaPub
  R.need (¬ mpz_sgn k.x = 0)
  R.need (mpz_cmp k.x k.q < 0)

/-- src/dsa.c:582-604 `dsa_priv_verify`. -/
def dsa_priv_verify (k : DsaPriv) : R Unit := do
  dsa_priv_is_sane k
  dsa_pub_verify k.toDsaPub
  let y ← mpz_powm_sec .heap k.g k.x k.p
  R.need (mpz_cmp y k.y = 0)

/-- The loop of src/dsa.c:606-625 `dsa_priv_create`. -/
def dsa_secret {S : Type} (rng : Source S) (fuel : Nat) (q : Mpz) : Nat → S → R Mpz
  | 0, _ => .spin
  | k + 1, st => do
    let x ← mpz_urandomm rng.toByteGen fuel st q
    if mpz_sgn x.1 = 0 then dsa_secret rng fuel q k x.2 else .ok x.1

/-- src/dsa.c:606-625 `dsa_priv_create`. -/
def dsa_priv_create {S : Type} (rng : Source S) (fuel : Nat) (group : DsaGroup) (entropy : List Byte) : R DsaPriv := do
  let p ← mpz_set .heap group.p
  let q ← mpz_set .heap group.q
  let g ← mpz_set .heap group.g
  let x ← dsa_secret rng fuel q fuel (rng.init entropy)
  let y ← mpz_powm_sec .heap g x p
  .ok ⟨⟨⟨p, q, g⟩, y⟩, x⟩

/-- src/dsa.c:653-671 `dsa_priv_recover`. -/
def dsa_priv_recover (k : DsaPriv) : R DsaPriv := do
  dsa_group_is_sane k.toDsaGroup
  R.need (¬ mpz_sgn k.x = 0)
  R.need (¬ mpz_cmp k.x k.q ≥ 0)
  let y ← mpz_powm_sec .heap k.g k.x k.p
  .ok { k with y := y }

/-! ## Signature -/

/-- src/dsa.c:689-693 `dsa_sig_is_sane`. -/
def dsa_sig_is_sane (sig : DsaSig) : R Unit := do
  let r ← mpz_bytelen sig.r
  R.need (r ≤ DSA_MAX_QSIZE)
  let s ← mpz_bytelen sig.s
  R.need (s ≤ DSA_MAX_QSIZE)

/-- src/dsa.c:695-710 `dsa_sig_import_der`. -/
def dsa_sig_import_der (data : List Byte) : R DsaSig := do
  let s ← asn1_read_seq ⟨data, data.length⟩ true
  R.need s.2
  let r ← need_mpz s.1
  let s ← need_mpz r.2
  R.need (s.2.len = 0)
  .ok ⟨r.1, s.1⟩

/-- src/dsa.c:712-725 `dsa_sig_export_der`. -/
def dsa_sig_export_der (sig : DsaSig) : C (List Byte) := do
  let size := asn1_size_mpz (mpz_nat sig.r) + asn1_size_mpz (mpz_nat sig.s)
  let sq ← asn1_write_seq size
  let r ← asn1_write_mpz (mpz_nat sig.r)
  let s ← asn1_write_mpz (mpz_nat sig.s)
  .ok (sq ++ (r ++ s))

/-- src/dsa.c:727-742 `dsa_sig_import_rs`. -/
def dsa_sig_import_rs (data : List Byte) (qsize : Nat) : R DsaSig := do
  let qsize := if qsize = 0 then data.length / 2 else qsize
  R.need (data.length = qsize * 2)
  let a ← C.slice data 0 qsize
  let r ← mpz_import .heap a 1
  let b ← C.slice data qsize qsize
  let s ← mpz_import .heap b 1
  .ok ⟨r, s⟩

/-- src/dsa.c:744-758 `dsa_sig_export_rs`. -/
def dsa_sig_export_rs (sig : DsaSig) (qsize : Nat) : R (List Byte) := do
  let rl ← mpz_bytelen sig.r
  R.need (¬ rl > qsize)
  let sl ← mpz_bytelen sig.s
  R.need (¬ sl > qsize)
  let r ← mpz_export sig.r qsize 1
  let s ← mpz_export sig.s qsize 1
  .ok (r ++ s)

/-! ## DSA -/

/-- src/dsa.c:764-791 `dsa_params_create`. -/
def dsa_params_create (key : List Byte) : R (List Byte) := do
  let priv ← R.test (dsa_priv_import key)
  let group ← (if priv then do
      let k ← dsa_priv_import key
      .ok k.toDsaGroup
    else do
      let k ← dsa_pub_import key
      .ok k.toDsaGroup)
  dsa_group_is_sane group
  let out ← dsa_group_export group
  .ok out

/-- src/dsa.c:816-833 `dsa_params_bits`; 0 is a failure. -/
def dsa_params_bits (params : List Byte) : R Nat := do
  let group ← dsa_group_import params
  dsa_group_is_sane group
  let bits ← mpz_bitlen group.p
  .ok bits

/-- src/dsa.c:835-852 `dsa_params_qbits`; 0 is a failure. -/
def dsa_params_qbits (params : List Byte) : R Nat := do
  let group ← dsa_group_import params
  dsa_group_is_sane group
  let bits ← mpz_bitlen group.q
  .ok bits

/-- src/dsa.c:854-868 `dsa_params_verify`. -/
def dsa_params_verify (params : List Byte) : R Unit := do
  let group ← dsa_group_import params
  dsa_group_verify group

/-- src/dsa.c:870-889 `dsa_params_import`. -/
def dsa_params_import (params : List Byte) : R (List Byte) := do
  let group ← dsa_group_import_dumb params
  dsa_group_is_sane group
  let out ← dsa_group_export group
  .ok out

/-- src/dsa.c:891-910 `dsa_params_export`. -/
def dsa_params_export (params : List Byte) : R (List Byte) := do
  let group ← dsa_group_import params
  dsa_group_is_sane group
  let out ← dsa_group_export_dumb group
  .ok out

/-- src/dsa.c:912-939 `dsa_privkey_create`. -/
def dsa_privkey_create {S : Type} (rng : Source S) (fuel : Nat) (params entropy : List Byte) : R (List Byte) := do
  let group ← dsa_group_import params
  dsa_group_is_sane group
  let k ← dsa_priv_create rng fuel group entropy
  let out ← dsa_priv_export k
  .ok out

/-- src/dsa.c:964-981 `dsa_privkey_bits`; 0 is a failure. -/
def dsa_privkey_bits (key : List Byte) : R Nat := do
  let k ← dsa_priv_import key
  dsa_priv_is_sane k
  let bits ← mpz_bitlen k.p
  .ok bits

/-- src/dsa.c:983-1000 `dsa_privkey_qbits`; 0 is a failure. -/
def dsa_privkey_qbits (key : List Byte) : R Nat := do
  let k ← dsa_priv_import key
  dsa_priv_is_sane k
  let bits ← mpz_bitlen k.q
  .ok bits

/-- src/dsa.c:1002-1016 `dsa_privkey_verify`. -/
def dsa_privkey_verify (key : List Byte) : R Unit := do
  let k ← dsa_priv_import key
  dsa_priv_verify k

/-- src/dsa.c:1018-1042 `dsa_privkey_import`. -/
def dsa_privkey_import (key : List Byte) : R (List Byte) := do
  let k ← dsa_priv_import_dumb key
  let k ← (if mpz_sgn k.y = 0 then dsa_priv_recover k
    else do
      dsa_priv_is_sane k
      .ok k)
  let out ← dsa_priv_export k
  .ok out

/-- src/dsa.c:1044-1063 `dsa_privkey_export`. -/
def dsa_privkey_export (key : List Byte) : R (List Byte) := do
  let k ← dsa_priv_import key
  dsa_priv_is_sane k
  let out ← dsa_priv_export_dumb k
  .ok out

/-- src/dsa.c:1065-1086 `dsa_pubkey_create`. -/
def dsa_pubkey_create (key : List Byte) : R (List Byte) := do
  let k ← dsa_priv_import key
  dsa_priv_is_sane k
  let out ← dsa_pub_export k.toDsaPub
  .ok out

/-- src/dsa.c:1088-1105 `dsa_pubkey_bits`; 0 is a failure. -/
def dsa_pubkey_bits (key : List Byte) : R Nat := do
  let k ← dsa_pub_import key
  dsa_pub_is_sane k
  let bits ← mpz_bitlen k.p
  .ok bits

/-- src/dsa.c:1107-1124 `dsa_pubkey_qbits`; 0 is a failure. -/
def dsa_pubkey_qbits (key : List Byte) : R Nat := do
  let k ← dsa_pub_import key
  dsa_pub_is_sane k
  let bits ← mpz_bitlen k.q
  .ok bits

/-- src/dsa.c:1126-1140 `dsa_pubkey_verify`. -/
def dsa_pubkey_verify (key : List Byte) : R Unit := do
  let k ← dsa_pub_import key
  dsa_pub_verify k

/-- src/dsa.c:1142-1161 `dsa_pubkey_import`. -/
def dsa_pubkey_import (key : List Byte) : R (List Byte) := do
  let k ← dsa_pub_import_dumb key
  dsa_pub_is_sane k
  let out ← dsa_pub_export k
  .ok out

/-- src/dsa.c:1163-1182 `dsa_pubkey_export`. -/
def dsa_pubkey_export (key : List Byte) : R (List Byte) := do
  let k ← dsa_pub_import key
  dsa_pub_is_sane k
  let out ← dsa_pub_export_dumb k
  .ok out

/-- src/dsa.c:1184-1212 `dsa_sig_export`. -/
def dsa_sig_export (sig : List Byte) (qsize : Nat) : R (List Byte) := do
  R.need (¬ sig.length > DSA_MAX_QSIZE * 2)
  R.need (¬ (qsize ≠ 0 ∧ qsize > DSA_MAX_QSIZE))
  let s ← dsa_sig_import_rs sig qsize
  dsa_sig_is_sane s
  let out ← dsa_sig_export_der s
  .ok out

/-- src/dsa.c:1214-1235 `dsa_sig_import`. -/
def dsa_sig_import (sig : List Byte) (qsize : Nat) : R (List Byte) := do
  let s ← dsa_sig_import_der sig
  dsa_sig_is_sane s
  dsa_sig_export_rs s qsize

/-- src/dsa.c:1237-1273 `dsa_reduce`. -/
def dsa_reduce (msg : List Byte) (q : Mpz) : C (Mpz × Bool) := do
  let bits ← mpz_bitlen q
  let bytes := (bits + 7) / 8
  let msg_len := if msg.length > bytes then bytes else msg.length
  let a ← C.slice msg 0 msg_len
  let m ← mpz_import .heap a 1
  let m ← (if msg_len * 8 > bits then mpz_quo_2exp .heap m (msg_len * 8 - bits) else .ok m)
  let r ← (if mpz_cmp m q ≥ 0 then do
      let m ← mpz_sub .heap m q
      .ok (m, false)
    else .ok (m, true))
  if mpz_cmp r.1 q < 0 then .ok r else .abort

/-- The loop of src/dsa.c:1275-1426 `dsa_sign`; `d` and `st` are the states of `drbg` and `rng`. -/
def dsa_sign_loop {S : Type} (rng : Source S) (fuel : Nat) (priv : DsaPriv) (m : Mpz) (qsize : Nat) :
    Nat → S → S → R DsaSig
  | 0, _, _ => .spin
  | n + 1, d, st => do
    let b ← mpz_urandomm rng.toByteGen fuel st priv.q
    if mpz_sgn b.1 = 0 then dsa_sign_loop rng fuel priv m qsize n d b.2 else
      let bytes := (rng.gen d qsize).1
      let d := (rng.gen d qsize).2
      let kr ← dsa_reduce bytes priv.q
      if kr.2 = false then dsa_sign_loop rng fuel priv m qsize n d b.2 else
        if mpz_sgn kr.1 = 0 then dsa_sign_loop rng fuel priv m qsize n d b.2 else do
          let r ← mpz_powm_sec .heap priv.g kr.1 priv.p
          let r ← mpz_mod .heap r priv.q
          if mpz_sgn r = 0 then dsa_sign_loop rng fuel priv m qsize n d b.2 else do
            let k ← mpz_mul .heap kr.1 b.1
            let k ← mpz_mod .heap k priv.q
            let bx ← mpz_mul .heap priv.x b.1
            let bx ← mpz_mod .heap bx priv.q
            let bm ← mpz_mul .heap m b.1
            let bm ← mpz_mod .heap bm priv.q
            let ki ← mpz_invert .heap k priv.q
            R.need ki.2
            let s ← mpz_mul .heap r bx
            let s ← mpz_add .heap s bm
            let s ← mpz_mod .heap s priv.q
            let s ← mpz_mul .heap s ki.1
            let s ← mpz_mod .heap s priv.q
            if mpz_sgn s = 0 then dsa_sign_loop rng fuel priv m qsize n d b.2 else .ok ⟨r, s⟩

/-- src/dsa.c:1275-1426 `dsa_sign`. -/
def dsa_sign {S : Type} (rng : Source S) (fuel : Nat) (msg key entropy : List Byte) : R (List Byte) := do
  let priv ← dsa_priv_import key
  dsa_priv_is_sane priv
  let qsize ← mpz_bytelen priv.q
  let mr ← dsa_reduce msg priv.q
  C.check (qsize * 2 ≤ DSA_MAX_QSIZE * 2)
  let xs ← mpz_export priv.x qsize 1
  let ms ← mpz_export mr.1 qsize 1
  let s ← dsa_sign_loop rng fuel priv mr.1 qsize fuel (rng.init (xs ++ ms)) (rng.init entropy)
  dsa_sig_export_rs s qsize

/-- src/dsa.c:1428-1519 `dsa_verify`. -/
def dsa_verify (msg sig key : List Byte) : R Unit := do
  let k ← dsa_pub_import key
  dsa_pub_is_sane k
  let qsize ← mpz_bytelen k.q
  let s ← dsa_sig_import_rs sig qsize
  dsa_sig_is_sane s
  R.need (¬ (mpz_sgn s.r = 0 ∨ mpz_cmp s.r k.q ≥ 0))
  R.need (¬ (mpz_sgn s.s = 0 ∨ mpz_cmp s.s k.q ≥ 0))
  let m ← dsa_reduce msg k.q
  let si ← mpz_invert .heap s.s k.q
  R.need si.2
  let u1 ← mpz_mul .heap m.1 si.1
  let u1 ← mpz_mod .heap u1 k.q
  let u2 ← mpz_mul .heap s.r si.1
  let u2 ← mpz_mod .heap u2 k.q
  let e1 ← mpz_powm .heap k.g u1 k.p
  let e2 ← mpz_powm .heap k.y u2 k.p
  let re ← mpz_mul .heap e1 e2
  let re ← mpz_mod .heap re k.p
  let re ← mpz_mod .heap re k.q
  R.need (mpz_cmp re s.r = 0)

/-- src/dsa.c:1521-1563 `dsa_derive`. -/
def dsa_derive (pub priv : List Byte) : R (List Byte) := do
  let k1 ← dsa_pub_import pub
  let k2 ← dsa_priv_import priv
  R.need (¬ (mpz_cmp k1.p k2.p ≠ 0 ∨ mpz_cmp k1.q k2.q ≠ 0 ∨ mpz_cmp k1.g k2.g ≠ 0))
  dsa_priv_is_sane k2
  dsa_pub_verify k1
  let e ← mpz_powm_sec .heap k1.y k2.x k1.p
  let n ← mpz_bytelen k1.p
  let out ← mpz_export e n 1
  .ok out

end Torsion
