import Verif.Kdf.Model

/-!
# Model of src/drbg.c

`junk` supplies the bytes of uninitialised context memory, as in the model of src/kdf.c. An optional
input that is absent (`NULL`, 0) is the empty list. Outputs are returned together with the new state.
The `hash_t` inside `hash_drbg_t` is initialised before every use, so it is not part of the state.
-/
namespace Torsion

/-! ## HMAC-DRBG -/

/-- include/torsion/drbg.h:43-49 `hmac_drbg_s`; of `K` and `V` the `size` bytes in use. -/
structure HmacDrbg where
  type : HashId
  size : Nat
  kmac : HmacCtx
  K : List Byte
  V : List Byte

/-- `hmac_init(&kmac, type, K, size)`, some calls of `hmac_update`, then `hmac_final` into an array of
HASH_MAX_OUTPUT_SIZE bytes of which the first `size` are used, as done four times in src/drbg.c:24-54
`hmac_drbg_update`. -/
def drbg_hmac (junk : Junk) (type : HashId) (size : Nat) (K : List Byte) (msgs : List (List Byte)) :
    C (List Byte) := do
  let key ← C.slice K 0 size
  let h ← hmac_init (junk 0) type key
  let h ← msgs.foldlM hmac_update h
  let out ← hmac_final (junk 1) h
  let out ← C.fits 64 out
  C.slice out 0 size

/-- src/drbg.c:24-54 `hmac_drbg_update`. -/
def hmac_drbg_update (junk : Nat → Junk) (drbg : HmacDrbg) (seed : List Byte) : C HmacDrbg := do
  let v ← C.slice drbg.V 0 drbg.size
  let K ← drbg_hmac (junk 0) drbg.type drbg.size drbg.K [v, [0x00], seed]
  let V ← drbg_hmac (junk 1) drbg.type drbg.size K [v]
  let (K, V) ← (if seed.length > 0 then do
      let K ← drbg_hmac (junk 2) drbg.type drbg.size K [V, [0x01], seed]
      let V ← drbg_hmac (junk 3) drbg.type drbg.size K [V]
      .ok (K, V)
    else .ok (K, V))
  let kmac ← hmac_init (junk 4 0) drbg.type K
  .ok { drbg with kmac := kmac, K := K, V := V }

/-- src/drbg.c:56-75 `hmac_drbg_init`. The zeroed `kmac` is overwritten before use. -/
def hmac_drbg_init (junk : Nat → Junk) (type : HashId) (seed : List Byte) : C HmacDrbg := do
  let size := hash_output_size type
  C.check (decide (size ≠ 0))
  let K ← C.fits 64 (List.replicate size 0x00)
  let V ← C.fits 64 (List.replicate size 0x01)
  hmac_drbg_update junk ⟨type, size, ⟨type, ⟨type, .none⟩, ⟨type, .none⟩⟩, K, V⟩ seed

/-- src/drbg.c:77-82 `hmac_drbg_reseed`. -/
def hmac_drbg_reseed (junk : Nat → Junk) (drbg : HmacDrbg) (seed : List Byte) : C HmacDrbg :=
  hmac_drbg_update junk drbg seed

/-- The loop of src/drbg.c:84-109 `hmac_drbg_generate`; first argument = upper bound of the rounds. Returns the
bytes appended to `out` and the new `V`. -/
def hmac_drbg_loop (junk : Junk) (kmac : HmacCtx) : Nat → Nat → Nat → List Byte → C (List Byte × List Byte)
  | 0, _, _, V => .ok ([], V)
  | n + 1, size, len, V =>
    if len > 0 then do
      let v ← C.slice V 0 size
      let h ← hmac_update kmac v
      let V ← hmac_final (junk n) h
      let V ← C.fits 64 V
      let size := if size > len then len else size
      let out ← C.slice V 0 size
      let (rest, V) ← hmac_drbg_loop junk kmac n size (len - size) V
      .ok (out ++ rest, V)
    else .ok ([], V)

/-- src/drbg.c:84-109 `hmac_drbg_generate`. -/
def hmac_drbg_generate (junk : Nat → Nat → Junk) (drbg : HmacDrbg) (len : Nat) (add : List Byte) :
    C (List Byte × HmacDrbg) := do
  let drbg ← (if add.length > 0 then hmac_drbg_update (junk 0) drbg add else .ok drbg)
  let (out, V) ← hmac_drbg_loop (junk 1 0) drbg.kmac len drbg.size len drbg.V
  let drbg ← hmac_drbg_update (junk 2) { drbg with V := V } add
  .ok (out, drbg)

/-! ## Hash-DRBG -/

/-- include/torsion/drbg.h:51-59 `hash_drbg_s`; of `V` and `C` the `length` bytes in use. -/
structure HashDrbg where
  type : HashId
  size : Nat
  length : Nat
  V : List Byte
  C : List Byte
  rounds : BitVec 64

/-- `hash_init`, some calls of `hash_update`, `hash_final` into an array with room for at least `size`
bytes, as in src/drbg.c:120-174 `hash_drbg_init`: the `size` bytes of the digest. A digest longer than
`size` is `ub`. -/
def drbg_hash (junk : Nat → Nat → Byte) (type : HashId) (size : Nat) (msgs : List (List Byte)) :
    C (List Byte) := do
  let h ← hash_init (junk 0) type
  let h ← msgs.foldlM hash_update h
  let out ← hash_final (junk 1) h size
  let out ← C.fits size out
  C.slice out 0 size

/-- The five bytes `state[0..4]` of src/drbg.c:120-174 `hash_drbg_init`. -/
def hash_drbg_state (ctr : Byte) (length : Nat) : List Byte :=
  [ctr, BitVec.ofNat 8 (length >>> 21), BitVec.ofNat 8 (length >>> 13), BitVec.ofNat 8 (length >>> 5),
    BitVec.ofNat 8 ((length &&& 0x1f) <<< 3)]

/-- The loops `for (i = 0; i < blocks; i++)` of src/drbg.c:120-174 `hash_drbg_init` and src/drbg.c:176-224
`hash_drbg_reseed`, hashing `state` (followed by `msgs`); first argument = rounds left. -/
def hash_drbg_df (junk : Junk) (type : HashId) (size length : Nat) (msgs : List (List Byte)) :
    Nat → Byte → C (List Byte)
  | 0, _ => .ok []
  | n + 1, ctr => do
    let out ← drbg_hash (junk n) type size (hash_drbg_state ctr length :: msgs)
    let rest ← hash_drbg_df junk type size length msgs n (ctr + 1)
    .ok (out ++ rest)

/-- src/drbg.c:120-174 `hash_drbg_init`; `state[5]` is the first byte of the message of the second loop. -/
def hash_drbg_init (junk : Nat → Junk) (type : HashId) (seed : List Byte) : C HashDrbg := do
  let size := hash_output_size type
  let length := if size ≤ 32 then 55 else 111
  C.check (decide (size ≠ 0))
  let blocks := (length + size - 1) / size
  C.check (decide (165 ≥ blocks * size))
  let output ← hash_drbg_df (junk 0) type size length [seed] blocks 0x01
  let V ← C.slice output 0 length
  let output ← hash_drbg_df (junk 1) type size length [[0x00], V] blocks 0x01
  let C ← C.slice output 0 length
  .ok ⟨type, size, length, V, C, 1⟩

/-- src/drbg.c:176-224 `hash_drbg_reseed`. -/
def hash_drbg_reseed (junk : Nat → Junk) (drbg : HashDrbg) (seed : List Byte) : C HashDrbg := do
  let size := drbg.size
  let length := drbg.length
  let blocks := (length + size - 1) / size
  C.check (decide (165 ≥ blocks * size))
  let v ← C.slice drbg.V 0 length
  let output ← hash_drbg_df (junk 0) drbg.type size length [[0x01], v, seed] blocks 0x01
  let V ← C.slice output 0 length
  let output ← hash_drbg_df (junk 1) drbg.type size length [[0x00], V] blocks 0x01
  let C ← C.slice output 0 length
  .ok ⟨drbg.type, size, length, V, C, 1⟩

/-- The first loop of src/drbg.c:226-244 `accumulate`; first argument = `slen`, `off = dlen - slen`. Returns `c`
and `dst`. -/
def accumulate_src (src : List Byte) (off : Nat) : Nat → Nat → List Byte → C (Nat × List Byte)
  | 0, c, dst => .ok (c, dst)
  | k + 1, c, dst => do
    let s ← C.rd src k
    let d ← C.rd dst (off + k)
    let c := c + (s.toNat + d.toNat)
    let dst ← C.wr dst (off + k) (BitVec.ofNat 8 c)
    accumulate_src src off k (c / 256) dst

/-- The second loop of src/drbg.c:226-244 `accumulate`; first argument = `dlen`. -/
def accumulate_rest : Nat → Nat → List Byte → C (List Byte)
  | 0, _, dst => .ok dst
  | k + 1, c, dst => do
    let d ← C.rd dst k
    let c := c + d.toNat
    let dst ← C.wr dst k (BitVec.ofNat 8 c)
    accumulate_rest k (c / 256) dst

/-- src/drbg.c:226-244 `accumulate`, with `dlen = dst.length` and `slen = src.length`. -/
def accumulate (dst src : List Byte) : C (List Byte) := do
  C.check (decide (dst.length ≥ src.length))
  let off := dst.length - src.length
  let (c, dst) ← accumulate_src src off src.length 0 dst
  accumulate_rest off c dst

/-- src/drbg.c:246-263 `hash_drbg_update`. -/
def hash_drbg_update (junk : Junk) (drbg : HashDrbg) : C HashDrbg := do
  let v ← C.slice drbg.V 0 drbg.length
  let H ← drbg_hash (junk 0) drbg.type drbg.size [[0x03], v]
  let H ← C.fits 64 H
  let L := (write64be drbg.rounds).toList
  let V ← accumulate v H
  let c ← C.slice drbg.C 0 drbg.length
  let V ← accumulate V c
  let V ← accumulate V L
  .ok { drbg with V := V }

/-- The loop of src/drbg.c:265-312 `hash_drbg_generate`; first argument = upper bound of the rounds. -/
def hash_drbg_loop (junk : Junk) (type : HashId) (size : Nat) : Nat → Nat → List Byte → C (List Byte)
  | 0, _, _ => .ok []
  | n + 1, len, V =>
    if len > 0 then do
      let H ← drbg_hash (junk n) type size [V]
      if len < size then do
        let H ← C.fits 64 H
        C.slice H 0 len
      else do
        let V ← accumulate V [0x01]
        let rest ← hash_drbg_loop junk type size n (len - size) V
        .ok (H ++ rest)
    else .ok []

/-- src/drbg.c:265-312 `hash_drbg_generate`. -/
def hash_drbg_generate (junk : Nat → Junk) (drbg : HashDrbg) (len : Nat) (add : List Byte) :
    C (List Byte × HashDrbg) := do
  let v ← C.slice drbg.V 0 drbg.length
  let v ← (if add.length > 0 then do
      let H ← drbg_hash (junk 0 0) drbg.type drbg.size [[0x02], v, add]
      let H ← C.fits 64 H
      accumulate v H
    else .ok v)
  let V ← C.fits 111 v
  let out ← hash_drbg_loop (junk 1) drbg.type drbg.size len len V
  let drbg ← hash_drbg_update (junk 2) { drbg with V := v }
  .ok (out, { drbg with rounds := drbg.rounds + 1 })

/-! ## CTR-DRBG

The block cipher is a parameter: `enc key block` stands for `aes_init_encrypt(&aes, 8 * key_size, key)`
followed by `aes_encrypt(&aes, out, block)`. -/

/-- include/torsion/drbg.h:61-71 `ctr_drbg_s`: `key` is the key `aes` was initialised with; `K` and `V`
point to `KV` and `KV + key_size`. `blk_size` is 16. -/
structure CtrDrbg where
  key : List Byte
  key_size : Nat
  ent_size : Nat
  derivation : Bool
  KV : List Byte
  state : List Byte

section
variable (enc : List Byte → List Byte → C (List Byte))

/-- src/drbg.c:329-336 `ctr_drbg_rekey` with `key = K`, `iv = V`. -/
def ctr_drbg_rekey (drbg : CtrDrbg) : C CtrDrbg := do
  let key ← C.slice drbg.KV 0 drbg.key_size
  let iv ← C.slice drbg.KV drbg.key_size 16
  .ok { drbg with key := key, state := iv }

/-- src/drbg.c:338-342 `ctr_drbg_encrypt`: the block and the new `state`. -/
def ctr_drbg_encrypt (key state : List Byte) : C (List Byte × List Byte) := do
  let state ← increment_be state
  let out ← enc key state
  .ok (out, state)

/-- The first loop of src/drbg.c:344-358 `ctr_drbg_update`; first argument = upper bound of the rounds. -/
def ctr_drbg_fill (key : List Byte) (ent_size : Nat) :
    Nat → Nat → List Byte → List Byte → C (List Byte × List Byte)
  | 0, _, KV, state => .ok (KV, state)
  | n + 1, i, KV, state =>
    if i < ent_size then do
      let (b, state) ← ctr_drbg_encrypt enc key state
      let KV ← C.blit KV i b
      ctr_drbg_fill key ent_size n (i + 16) KV state
    else .ok (KV, state)

/-- `for (i = 0; i < len; i++) dst[i] ^= src[i]`, as in src/drbg.c:344-358 `ctr_drbg_update` and src/drbg.c:460-502
`ctr_drbg_init`; outside of the arrays it is `ub`. -/
def drbg_xor (dst src : List Byte) (len : Nat) : C (List Byte) := do
  let s ← C.slice src 0 len
  let d ← C.slice dst 0 len
  .ok (List.zipWith (· ^^^ ·) d s ++ dst.drop len)

/-- src/drbg.c:344-358 `ctr_drbg_update`. -/
def ctr_drbg_update (drbg : CtrDrbg) (seed : List Byte) : C CtrDrbg := do
  let seed_len := if seed.length > drbg.ent_size then drbg.ent_size else seed.length
  let (KV, state) ← ctr_drbg_fill enc drbg.key drbg.ent_size drbg.ent_size 0 drbg.KV drbg.state
  let KV ← drbg_xor KV seed seed_len
  ctr_drbg_rekey { drbg with KV := KV, state := state }

/-- src/drbg.c:360-405 `ctr_drbg_serialize`: the `size` bytes of `out`. The position advances over the two
words, the nonce and the personalisation string; the byte after them is 0x80. -/
def ctr_drbg_serialize (ent_size : Nat) (nonce pers : List Byte) : C (List Byte) := do
  let nonce := if nonce.length > 512 then nonce.take 512 else nonce
  let pers := if pers.length > 512 then pers.take 512 else pers
  let L := nonce.length + pers.length
  let size := 16 + 4 + 4 + L + 1
  let size := if size % 16 ≠ 0 then size + (16 - size % 16) else size
  C.check (decide (size ≤ 1056))
  C.check (decide (size % 16 = 0))
  let out := List.replicate size 0
  let out ← C.blit out 16 (write32be (BitVec.ofNat 32 L)).toList
  let out ← C.blit out 20 (write32be (BitVec.ofNat 32 ent_size)).toList
  let out ← C.blit out 24 nonce
  let out ← C.blit out (24 + nonce.length) pers
  C.wr out (24 + nonce.length + pers.length) 0x80

/-- The inner loop `for (j = 0; j < N; j++)` of src/drbg.c:407-458 `ctr_drbg_derive`; first argument = rounds
left. -/
def ctr_drbg_bcc (K S : List Byte) : Nat → Nat → List Byte → C (List Byte)
  | 0, _, chain => .ok chain
  | n + 1, j, chain => do
    let s ← C.slice S (j * 16) 16
    let chain ← enc K (List.zipWith (· ^^^ ·) chain s)
    ctr_drbg_bcc K S n (j + 1) chain

/-- The loop over `i` of src/drbg.c:407-458 `ctr_drbg_derive` that fills `slab`; first argument = rounds left. -/
def ctr_drbg_chains (K S : List Byte) : Nat → Nat → C (List Byte)
  | 0, _ => .ok []
  | n + 1, i => do
    let S ← C.blit S 0 (write32be (BitVec.ofNat 32 i)).toList
    let chain ← ctr_drbg_bcc enc K S (S.length / 16) 0 (List.replicate 16 0)
    let rest ← ctr_drbg_chains K S n (i + 1)
    .ok (chain ++ rest)

/-- The last loop of src/drbg.c:407-458 `ctr_drbg_derive`; first argument = rounds left. -/
def ctr_drbg_expand (key : List Byte) : Nat → List Byte → C (List Byte)
  | 0, _ => .ok []
  | n + 1, x => do
    let x ← enc key x
    let rest ← ctr_drbg_expand key n x
    .ok (x ++ rest)

/-- src/drbg.c:407-458 `ctr_drbg_derive`: the `ent_size` bytes of `out`. -/
def ctr_drbg_derive (key_size ent_size : Nat) (nonce pers : List Byte) : C (List Byte) := do
  let S ← ctr_drbg_serialize ent_size nonce pers
  let K := (List.range key_size).map (BitVec.ofNat 8)
  let K ← C.fits 32 K
  let blocks := (ent_size + 16 - 1) / 16
  let slab ← ctr_drbg_chains enc K S blocks 0
  let slab ← C.fits 64 slab
  let key ← C.slice slab 0 key_size
  let x ← C.slice slab key_size 16
  let tmp ← ctr_drbg_expand enc key blocks x
  let tmp ← C.fits 64 tmp
  C.slice tmp 0 ent_size

/-- The part without derivation function of src/drbg.c:460-502 `ctr_drbg_init` and src/drbg.c:504-532
`ctr_drbg_reseed`: the `ent_size` bytes of `entropy`. -/
def ctr_drbg_plain (ent_size : Nat) (nonce pers : List Byte) : C (List Byte) := do
  let entropy ← C.fits 48 (List.replicate ent_size 0)
  let nonce_len := if nonce.length > ent_size then ent_size else nonce.length
  let pers_len := if pers.length > ent_size then ent_size else pers.length
  let entropy ← C.blit entropy 0 (nonce.take nonce_len)
  drbg_xor entropy pers pers_len

/-- src/drbg.c:460-502 `ctr_drbg_init`; `bits` is 128, 192 or 256. `junk` gives the initial contents of `KV`. -/
def ctr_drbg_init (junk : Nat → Byte) (bits : Nat) (derivation : Bool) (nonce pers : List Byte) :
    C CtrDrbg := do
  C.check (decide (bits = 128 ∨ bits = 192 ∨ bits = 256))
  let key_size := bits / 8
  let ent_size := key_size + 16
  let entropy ← (if derivation then ctr_drbg_derive enc key_size ent_size nonce pers
    else ctr_drbg_plain ent_size nonce pers)
  let KV := (List.range 48).map junk
  let KV ← C.blit KV 0 (List.replicate ent_size 0)
  let drbg ← ctr_drbg_rekey ⟨[], key_size, ent_size, derivation, KV, []⟩
  ctr_drbg_update enc drbg entropy

/-- src/drbg.c:504-532 `ctr_drbg_reseed`. -/
def ctr_drbg_reseed (drbg : CtrDrbg) (nonce add : List Byte) : C CtrDrbg := do
  let entropy ← (if drbg.derivation then ctr_drbg_derive enc drbg.key_size drbg.ent_size nonce add
    else ctr_drbg_plain drbg.ent_size nonce add)
  ctr_drbg_update enc drbg entropy

/-- The loop of src/drbg.c:534-573 `ctr_drbg_generate`; first argument = upper bound of the rounds. Returns the
bytes appended to `out` and the new `state`. -/
def ctr_drbg_loop (key : List Byte) : Nat → Nat → List Byte → C (List Byte × List Byte)
  | 0, _, state => .ok ([], state)
  | n + 1, len, state =>
    if len > 0 then do
      let (b, state) ← ctr_drbg_encrypt enc key state
      if len < 16 then do
        let out ← C.slice b 0 len
        .ok (out, state)
      else do
        let (rest, state) ← ctr_drbg_loop key n (len - 16) state
        .ok (b ++ rest, state)
    else .ok ([], state)

/-- src/drbg.c:534-573 `ctr_drbg_generate`. -/
def ctr_drbg_generate (drbg : CtrDrbg) (len : Nat) (add : List Byte) : C (List Byte × CtrDrbg) := do
  let (drbg, add) ← (if add.length > 0 then
      if drbg.derivation then do
        let tmp ← ctr_drbg_derive enc drbg.key_size drbg.ent_size add []
        let drbg ← ctr_drbg_update enc drbg tmp
        .ok (drbg, tmp)
      else do
        let drbg ← ctr_drbg_update enc drbg add
        .ok (drbg, add)
    else .ok (drbg, add))
  let (out, state) ← ctr_drbg_loop enc drbg.key len len drbg.state
  let drbg ← ctr_drbg_update enc { drbg with state := state } add
  .ok (out, drbg)

end

end Torsion
