import Verif.Cipher.Modes

/-!
# Model of the authenticated modes of src/cipher.c: GHASH, GCM, CBC-MAC, CCM, CMAC, EAX
-/
namespace Torsion

/-! ## GHASH -/

/-- include/torsion/cipher.h:282-285, `ghash_fe_s`. -/
structure Gfe where
  lo : BitVec 64
  hi : BitVec 64
deriving DecidableEq

/-- src/cipher.c:6487-6492, `ghash_reduction`. -/
def ghash_reduction : Vector (BitVec 16) 16 := #v[
  0x0000, 0x1c20, 0x3840, 0x2460,
  0x7080, 0x6ca0, 0x48c0, 0x54e0,
  0xe100, 0xfd20, 0xd940, 0xc560,
  0x9180, 0x8da0, 0xa9c0, 0xb5e0]

/-- src/cipher.c:6495-6500 `revbits`; `unsigned int` values, `x < 16` at every call. -/
def revbits (x : Nat) : Nat :=
  let x := ((x <<< 2) &&& 0x0c) ||| ((x >>> 2) &&& 0x03)
  ((x <<< 1) &&& 0x0a) ||| ((x >>> 1) &&& 0x05)

/-- src/cipher.c:6502-6506 `gfe_add`. -/
def gfe_add (x y : Gfe) : Gfe := ⟨x.lo ^^^ y.lo, x.hi ^^^ y.hi⟩

/-- src/cipher.c:6508-6516 `gfe_dbl`. -/
def gfe_dbl (x : Gfe) : Gfe :=
  let msb := x.hi &&& 1
  ⟨(x.lo >>> 1) ^^^ (0xe100000000000000 &&& -msb), (x.hi >>> 1) ||| (x.lo <<< 63)⟩

/-- `table[w & 0x0f]` in src/cipher.c:6518-6551 `gfe_mul`: always inside the 16 entries. -/
def nib {α : Type} (table : Vector α 16) (w : BitVec 64) : α :=
  table[(w &&& 0x0f).toNat]'(by
    rw [BitVec.toNat_and]
    exact Nat.lt_of_le_of_lt Nat.and_le_right (by decide))

/-- The inner loop of src/cipher.c:6518-6551 `gfe_mul`; first argument = rounds left. -/
def gfe_mul_word (table : Vector Gfe 16) : Nat → BitVec 64 → Gfe → Gfe
  | 0, _, z => z
  | k + 1, word, z =>
    let msw := z.hi
    let hi := (z.hi >>> 4) ||| (z.lo <<< 60)
    let lo := z.lo >>> 4
    let lo := lo ^^^ ((nib ghash_reduction msw).zeroExtend 64 <<< 48)
    let t := nib table word
    gfe_mul_word table k (word >>> 4) ⟨lo ^^^ t.lo, hi ^^^ t.hi⟩

/-- src/cipher.c:6518-6551 `gfe_mul`. -/
def gfe_mul (x : Gfe) (table : Vector Gfe 16) : Gfe :=
  gfe_mul_word table 16 x.lo (gfe_mul_word table 16 x.hi ⟨0, 0⟩)

/-- src/cipher.c:6553-6559 `ghash_transform`. -/
def ghash_transform (table : Vector Gfe 16) (st : Gfe) (block : Vector Byte 16) : Gfe :=
  gfe_mul ⟨st.lo ^^^ read64be (vsub block 0 8), st.hi ^^^ read64be (vsub block 8 8)⟩ table

/-- include/torsion/cipher.h:287-294, `ghash_s`. -/
structure Ghash where
  buf : Buf Gfe
  table : Vector Gfe 16
  adlen : BitVec 64
  ctlen : BitVec 64

/-- src/cipher.c:6561-6591 `ghash_absorb`. -/
def ghash_absorb (ctx : Ghash) (data : List Byte) : C Ghash := do
  let buf ← buf_update 16 (ghash_transform ctx.table) ctx.buf data
  .ok { ctx with buf := buf }

/-- src/cipher.c:6593-6603 `ghash_pad`. -/
def ghash_pad (ctx : Ghash) : C Ghash :=
  if ctx.buf.pos > 0 then do
    let r ← zero_loop 16 16 ctx.buf.block ctx.buf.pos
    let v ← C.vec 16 r.1
    .ok { ctx with buf := ⟨ghash_transform ctx.table ctx.buf.st v, r.1, 0⟩ }
  else .ok ctx

/-- The table loop of src/cipher.c:6605-6632 `ghash_init`: the values `i` still to do. -/
def ghash_table (x : Gfe) : List Nat → Vector Gfe 16 → Vector Gfe 16
  | [], t => t
  | i :: is, t =>
    let t := t.setIfInBounds (revbits (i + 0)) (gfe_dbl (t.getD (revbits (i / 2)) ⟨0, 0⟩))
    let t := t.setIfInBounds (revbits (i + 1)) (gfe_add (t.getD (revbits i) ⟨0, 0⟩) x)
    ghash_table x is t

/-- src/cipher.c:6605-6632 `ghash_init`; the loop runs over `i = 2, 4, ..., 14`, all table indices are
literals below 16. -/
def ghash_init (key : Vector Byte 16) : Ghash :=
  let x : Gfe := ⟨read64be (vsub key 0 8), read64be (vsub key 8 8)⟩
  let t : Vector Gfe 16 := Vector.replicate 16 ⟨0, 0⟩
  let t := t.setIfInBounds (revbits 1) x
  { buf := ⟨⟨0, 0⟩, List.replicate 16 0, 0⟩
    table := ghash_table x [2, 4, 6, 8, 10, 12, 14] t
    adlen := 0
    ctlen := 0 }

/-- src/cipher.c:6634-6638 `ghash_aad`. -/
def ghash_aad (ctx : Ghash) (data : List Byte) : C Ghash :=
  ghash_absorb { ctx with adlen := ctx.adlen + BitVec.ofNat 64 data.length } data

/-- src/cipher.c:6640-6648 `ghash_update`. -/
def ghash_update (ctx : Ghash) (data : List Byte) : C Ghash := do
  let ctx ← (if ctx.ctlen = 0 then ghash_pad ctx else .ok ctx)
  ghash_absorb { ctx with ctlen := ctx.ctlen + BitVec.ofNat 64 data.length } data

/-- src/cipher.c:6650-6661 `ghash_final`: the 16 bytes of `out`. -/
def ghash_final (ctx : Ghash) : C (List Byte) := do
  let ctx ← ghash_pad ctx
  let st := ctx.buf.st
  let st := gfe_mul ⟨st.lo ^^^ (ctx.adlen <<< 3), st.hi ^^^ (ctx.ctlen <<< 3)⟩ ctx.table
  .ok ((write64be st.lo).toList ++ (write64be st.hi).toList)

/-! ## GCM -/

/-- include/torsion/cipher.h:296-300, `gcm_t`. -/
structure Gcm (n : Nat) where
  ctr : StreamMode n
  hash : Ghash
  mask : List Byte

/-- src/cipher.c:6667-6671 `gcm_stream`. -/
def gcm_stream {n : Nat} (c : Cipher n) (m : StreamMode n) : C (StreamMode n) := do
  let t ← C.slice m.iv.toList 12 4
  let t ← increment_be t
  let iv ← C.putat m.iv 12 t
  .ok { m with state := c.enc m.iv, iv := iv }

/-- src/cipher.c:6673-6680 `gcm_crypt`, on the field `ctr`. -/
def gcm_crypt {n : Nat} (c : Cipher n) (m : StreamMode n) (src : List Byte) :
    C (List Byte × StreamMode n) := xstream_update (gcm_stream c) ctr_xor m src

/-- The counter block of src/cipher.c:6682-6716 `gcm_init` for nonce `iv` and hash key `key`. -/
def gcm_iv (key : Vector Byte 16) (iv : List Byte) : C (List Byte) :=
  if iv.length = 12 then .ok (iv ++ [0, 0, 0, 1])
  else do
    let h ← ghash_update (ghash_init key) iv
    ghash_final h

/-- src/cipher.c:6682-6716 `gcm_init`; `none` = return value 0. -/
def gcm_init {n : Nat} (c : Cipher n) (iv : List Byte) : C (Option (Gcm n)) :=
  if n ≠ 16 then .ok none
  else do
    let r ← gcm_crypt c ⟨Vector.replicate n 0, Vector.replicate n 0, 0⟩ (List.replicate 16 0)
    let key ← C.vec 16 r.1
    let j ← gcm_iv key iv
    let j ← C.vec n j
    let q ← gcm_crypt c { r.2 with iv := j } (List.replicate 16 0)
    .ok (some { ctr := q.2, hash := ghash_init key, mask := q.1 })

/-- src/cipher.c:6718-6721 `gcm_aad`. -/
def gcm_aad {n : Nat} (m : Gcm n) (aad : List Byte) : C (Gcm n) := do
  let h ← ghash_aad m.hash aad
  .ok { m with hash := h }

/-- src/cipher.c:6723-6728 `gcm_encrypt`. -/
def gcm_encrypt {n : Nat} (c : Cipher n) (m : Gcm n) (src : List Byte) : C (List Byte × Gcm n) := do
  let r ← gcm_crypt c m.ctr src
  let h ← ghash_update m.hash r.1
  .ok (r.1, { m with ctr := r.2, hash := h })

/-- src/cipher.c:6730-6735 `gcm_decrypt`. -/
def gcm_decrypt {n : Nat} (c : Cipher n) (m : Gcm n) (src : List Byte) : C (List Byte × Gcm n) := do
  let h ← ghash_update m.hash src
  let r ← gcm_crypt c m.ctr src
  .ok (r.1, { m with ctr := r.2, hash := h })

/-- src/cipher.c:6737-6745 `gcm_digest`: the 16 bytes of `mac`. -/
def gcm_digest {n : Nat} (m : Gcm n) : C (List Byte) := do
  let mac ← ghash_final m.hash
  .ok (memxor3 mac m.mask)

/-! ## CBC-MAC -/

/-- include/torsion/cipher.h:302-305, `cmac_s`. -/
structure Cmac (n : Nat) where
  mac : Vector Byte n
  pos : Nat

/-- src/cipher.c:6753-6757 `cbcmac_init`. -/
def cbcmac_init (n : Nat) : Cmac n := ⟨Vector.replicate n 0, 0⟩

/-- The loop of src/cipher.c:6759-6793 `cbcmac_update` (`more len` is `len >= size`) and of
src/cipher.c:7023-7057 `cmac_update` (`len > size`); first argument = an upper bound of the rounds. -/
def cbcmac_loop {n : Nat} (c : Cipher n) (more : Nat → Bool) :
    Nat → Vector Byte n → List Byte → C (Vector Byte n × List Byte)
  | 0, mac, raw => if more raw.length then .ub else .ok (mac, raw)
  | k + 1, mac, raw =>
    if more raw.length then do
      let b ← C.slice raw 0 n
      let mac ← C.xorat mac 0 b
      cbcmac_loop c more k (c.enc mac) (raw.drop n)
    else .ok (mac, raw)

/-- The common body of src/cipher.c:6759-6793 `cbcmac_update` and src/cipher.c:7023-7057 `cmac_update`, which differ
in comparing with `>=` or `>`: `more len lim`. -/
def mac_update {n : Nat} (c : Cipher n) (more : Nat → Nat → Bool) (ctx : Cmac n) (data : List Byte) :
    C (Cmac n) := do
  let pos := ctx.pos
  let want := n - pos
  let a ←
    (if more data.length want then do
      let a ←
        (if pos > 0 then do
          let b ← C.slice data 0 want
          let mac ← C.xorat ctx.mac pos b
          .ok (c.enc mac, data.drop want, 0)
        else .ok (ctx.mac, data, pos))
      let q ← cbcmac_loop c (fun len => more len n) a.2.1.length a.1 a.2.1
      .ok (q.1, q.2, a.2.2)
    else .ok (ctx.mac, data, pos))
  if a.2.1.length > 0 then do
    let mac ← C.xorat a.1 a.2.2 a.2.1
    .ok ⟨mac, a.2.2 + a.2.1.length⟩
  else .ok ⟨a.1, a.2.2⟩

/-- src/cipher.c:6759-6793 `cbcmac_update`. -/
def cbcmac_update {n : Nat} (c : Cipher n) (ctx : Cmac n) (data : List Byte) : C (Cmac n) :=
  mac_update c (fun len lim => len ≥ lim) ctx data

/-- src/cipher.c:6795-6801 `cbcmac_pad`. -/
def cbcmac_pad {n : Nat} (c : Cipher n) (ctx : Cmac n) : Cmac n :=
  if ctx.pos > 0 then ⟨c.enc ctx.mac, 0⟩ else ctx

/-- src/cipher.c:6803-6807 `cbcmac_final`. -/
def cbcmac_final {n : Nat} (c : Cipher n) (ctx : Cmac n) : List Byte := (cbcmac_pad c ctx).mac.toList

/-! ## CCM -/

/-- include/torsion/cipher.h:307-310, `ccm_t`. -/
structure Ccm (n : Nat) where
  ctr : StreamMode n
  hash : Cmac n

/-- src/cipher.c:6814-6847 `ccm_init`; `none` = return value 0. -/
def ccm_init (n : Nat) (iv : List Byte) : C (Option (Ccm n)) :=
  if n ≠ 16 then .ok none
  else if iv.length < 7 then .ok none
  else do
    let len := if iv.length > 13 then 13 else iv.length
    let st ← C.putat (Vector.replicate n 0) 0 (iv.take len)
    .ok (some ⟨⟨st, Vector.replicate n 0, len⟩, cbcmac_init n⟩)

/-- The loop of src/cipher.c:6849-6864 `ccm_log256`: bits of a `size_t`; first argument = bits left, running
out is `ub`. -/
def ccm_bits : Nat → Nat → Nat → C Nat
  | k, x, z =>
    if x > 0 then
      match k with
      | 0 => .ub
      | k + 1 => ccm_bits k (x >>> 1) (z + 1)
    else .ok z

/-- src/cipher.c:6849-6864 `ccm_log256`. -/
def ccm_log256 (x : Nat) : C Nat := do
  let z ← ccm_bits 64 x 0
  let z := (z + 7) / 8
  .ok (if z < 2 then 2 else z)

/-- The length loop of src/cipher.c:6866-6949 `ccm_setup` (`block[i] = lm & 0xff; lm >>= 8;` from the last
byte downwards); first argument = bytes left. -/
def ccm_len_loop : Nat → Nat → List Byte → List Byte × Nat
  | 0, lm, acc => (acc, lm)
  | k + 1, lm, acc => ccm_len_loop k (lm >>> 8) (BitVec.ofNat 8 (lm &&& 0xff) :: acc)

/-- The bytes `buf` of src/cipher.c:6866-6949 `ccm_setup` announcing `aad_len` bytes of data; `aad_len` is a
`size_t`. -/
def ccm_aad_head (len : Nat) : List Byte :=
  if len < 0xff00 then (write16be (BitVec.ofNat 16 len)).toList
  else if len - 1 < 0xffffffff then
    (write16be 0xfffe).toList ++ (write32be (BitVec.ofNat 32 len)).toList
  else (write16be 0xffff).toList ++ (write64be (BitVec.ofNat 64 len)).toList

/-- The data part of src/cipher.c:6866-6949 `ccm_setup` (the branch `if (Adata)`). -/
def ccm_adata {n : Nat} (c : Cipher n) (h : Cmac n) (aad : List Byte) : C (Cmac n) :=
  if aad.length > 0 then do
    let h ← cbcmac_update c h (ccm_aad_head aad.length)
    let h ← cbcmac_update c h aad
    .ok (cbcmac_pad c h)
  else .ok h

/-- src/cipher.c:6866-6949 `ccm_setup`; `none` = return value 0 (the mode is unchanged then). The counter
block is assembled as a list: `block[0] & 7`, the bytes up to `N`, zeros, and 1 in `block[15]`. -/
def ccm_setup {n : Nat} (c : Cipher n) (m : Ccm n) (msg_len tag_len : Nat) (aad : List Byte) :
    C (Option (Ccm n)) := do
  let iv_len := m.ctr.pos
  let L ← ccm_log256 msg_len
  let N := 15 - L
  let M := tag_len
  if n ≠ 16 then .ok none
  else if iv_len < 7 ∨ iv_len > 13 then .ok none
  else if N < 7 ∨ N > 13 then .ok none
  else if M < 4 ∨ M > 16 ∨ M &&& 1 ≠ 0 then .ok none
  else do
    let iv_len := if iv_len > N then N else iv_len
    let flags := 64 * (if aad.length > 0 then 1 else 0) + 8 * ((M - 2) / 2) + (L - 1)
    let nonce ← C.slice m.ctr.state.toList 0 iv_len
    let r := ccm_len_loop (15 - iv_len) msg_len []
    C.check (r.2 = 0)
    let block := BitVec.ofNat 8 flags :: (nonce ++ r.1)
    let h ← cbcmac_update c m.hash block
    let h ← ccm_adata c h aad
    let iv ← C.vec n ((BitVec.ofNat 8 flags &&& 7) :: ((block.drop 1).take N ++
      List.replicate (14 - N) 0 ++ [1]))
    .ok (some ⟨{ m.ctr with iv := iv, pos := 0 }, h⟩)

/-- src/cipher.c:6957-6962 `ccm_encrypt` (with src/cipher.c:6951-6955 `ccm_crypt`). -/
def ccm_encrypt {n : Nat} (c : Cipher n) (m : Ccm n) (src : List Byte) : C (List Byte × Ccm n) := do
  let h ← cbcmac_update c m.hash src
  let r ← ctr_crypt c m.ctr src
  .ok (r.1, ⟨r.2, h⟩)

/-- src/cipher.c:6964-6969 `ccm_decrypt`. -/
def ccm_decrypt {n : Nat} (c : Cipher n) (m : Ccm n) (src : List Byte) : C (List Byte × Ccm n) := do
  let r ← ctr_crypt c m.ctr src
  let h ← cbcmac_update c m.hash r.1
  .ok (r.1, ⟨r.2, h⟩)

/-- src/cipher.c:6971-6985 `ccm_digest`: the 16 bytes of `mac`. -/
def ccm_digest {n : Nat} (c : Cipher n) (m : Ccm n) : C (List Byte) := do
  let b0 ← C.rd m.ctr.iv.toList 0
  let i := 16 - ((b0 &&& 7).toNat + 1)
  let mac := cbcmac_final c m.hash
  let iv ← C.putat m.ctr.iv i (List.replicate (16 - i) 0)
  let r ← ctr_crypt c { m.ctr with iv := iv, pos := 0 } mac
  .ok r.1

/-! ## CMAC -/

/-- src/cipher.c:6994-7004 `cmac_init`; `none` = the flag -1. -/
def cmac_init (n : Nat) : Option Byte → C (Cmac n)
  | none => .ok ⟨Vector.replicate n 0, 0⟩
  | some flag => do
    let mac ← C.xorat (Vector.replicate n 0) (n - 1) [flag]
    .ok ⟨mac, n⟩

/-- src/cipher.c:7006-7021 `cmac_shift` (with `dst = src`, as at every call). -/
def cmac_shift {n : Nat} (src : Vector Byte n) : C (Vector Byte n) := do
  let poly ← C.rd poly_table (n >>> 4)
  let top ← C.rd src.toList 0
  let c := top >>> 7
  let sh := Vector.ofFn fun i : Fin n =>
    (src[i.val] <<< (1 : Nat)) ||| (if h : i.val + 1 < n then src[i.val + 1] >>> (7 : Nat) else (0 : Byte))
  C.xorat sh (n - 3)
    [(poly >>> 16).truncate 8 &&& -c, (poly >>> 8).truncate 8 &&& -c, poly.truncate 8 &&& -c]

/-- src/cipher.c:7023-7057 `cmac_update`. -/
def cmac_update {n : Nat} (c : Cipher n) (ctx : Cmac n) (data : List Byte) : C (Cmac n) :=
  mac_update c (fun len lim => len > lim) ctx data

/-- src/cipher.c:7059-7078 `cmac_final`: the bytes of `mac`. -/
def cmac_final {n : Nat} (c : Cipher n) (ctx : Cmac n) : C (Vector Byte n) := do
  let k ← cmac_shift (c.enc (Vector.replicate n 0))
  if ctx.pos < n then do
    let mac ← C.xorat ctx.mac ctx.pos [0x80]
    let k ← cmac_shift k
    .ok (c.enc (vxor mac k))
  else .ok (c.enc (vxor ctx.mac k))

/-! ## EAX -/

/-- include/torsion/cipher.h:312-317, `eax_t`. -/
structure Eax (n : Nat) where
  ctr : StreamMode n
  hash1 : Cmac n
  hash2 : Cmac n
  mask : Vector Byte n

/-- src/cipher.c:7084-7109 `eax_init`; `none` = return value 0. -/
def eax_init {n : Nat} (c : Cipher n) (iv : List Byte) : C (Option (Eax n)) :=
  if iv.length = 0 then .ok none
  else do
    let h ← cmac_init n (some 0)
    let h ← cmac_update c h iv
    let mask ← cmac_final c h
    let h1 ← cmac_init n (some 1)
    let h2 ← cmac_init n (some 2)
    .ok (some ⟨⟨Vector.replicate n 0, mask, 0⟩, h1, h2, mask⟩)

/-- src/cipher.c:7111-7115 `eax_aad`. -/
def eax_aad {n : Nat} (c : Cipher n) (m : Eax n) (aad : List Byte) : C (Eax n) := do
  let h ← cmac_update c m.hash1 aad
  .ok { m with hash1 := h }

/-- src/cipher.c:7117-7121 `eax_stream`. -/
def eax_stream {n : Nat} (c : Cipher n) (m : StreamMode n) : C (StreamMode n) := do
  let iv ← increment_be m.iv.toList
  let iv ← C.vec n iv
  .ok { m with state := c.enc m.iv, iv := iv }

/-- src/cipher.c:7123-7130 `eax_crypt`, on the field `ctr`. -/
def eax_crypt {n : Nat} (c : Cipher n) (m : StreamMode n) (src : List Byte) :
    C (List Byte × StreamMode n) := xstream_update (eax_stream c) ctr_xor m src

/-- src/cipher.c:7132-7137 `eax_encrypt`. -/
def eax_encrypt {n : Nat} (c : Cipher n) (m : Eax n) (src : List Byte) : C (List Byte × Eax n) := do
  let r ← eax_crypt c m.ctr src
  let h ← cmac_update c m.hash2 r.1
  .ok (r.1, { m with ctr := r.2, hash2 := h })

/-- src/cipher.c:7139-7144 `eax_decrypt`. -/
def eax_decrypt {n : Nat} (c : Cipher n) (m : Eax n) (src : List Byte) : C (List Byte × Eax n) := do
  let h ← cmac_update c m.hash2 src
  let r ← eax_crypt c m.ctr src
  .ok (r.1, { m with ctr := r.2, hash2 := h })

/-- src/cipher.c:7146-7157 `eax_digest`: the `cipher->size` bytes of `mac`. -/
def eax_digest {n : Nat} (c : Cipher n) (m : Eax n) : C (List Byte) := do
  let mac1 ← cmac_final c m.hash1
  let mac2 ← cmac_final c m.hash2
  .ok (vxor (vxor mac1 mac2) m.mask).toList

end Torsion
