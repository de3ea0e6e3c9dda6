import Verif.Cipher.Gcm

/-!
# Model of the cipher stream API of src/cipher.c

`output` does not overlap `input`, except that the flag `same` covers the case that the whole
blocks are enciphered in place (`dst == src` inside `cbc_decrypt`). Besides the bytes announced by
`*output_len` the functions return the number of bytes written to `output`, which can be larger.
-/
namespace Torsion

/-- include/torsion/cipher.h:172-184, `mode_id_t`. -/
inductive ModeId where
  | raw | ecb | cbc | cts | xts | ctr | cfb | ofb | gcm | ccm | eax
deriving DecidableEq, Repr

/-- The numeric value of a mode, include/torsion/cipher.h:172-184, `mode_id_t` (compared with `<`
and `>=` by src/cipher.c:7611-7678 `cipher_stream_update` and src/cipher.c:7583-7598 `cipher_stream_get_tag`). -/
def ModeId.num : ModeId → Nat
  | .raw => 0 | .ecb => 1 | .cbc => 2 | .cts => 3 | .xts => 4 | .ctr => 5 | .cfb => 6 | .ofb => 7
  | .gcm => 8 | .ccm => 9 | .eax => 10

/-- A `cipher_id_t` as used here: the block size (src/cipher.c:5550-5604 `cipher_block_size`) and
src/cipher.c:5606-5840 `cipher_init`, which fails (`none`) for key lengths it does not accept. -/
structure CipherType where
  size : Nat
  init : List Byte → Option (Cipher size)

/-- include/torsion/cipher.h:319-328, `cipher_mode_s`. -/
inductive CipherMode (n : Nat) where
  | raw
  | ecb
  | cbc (prev : Vector Byte n)
  | cts (prev : Vector Byte n)
  | xts (m : XtsMode n)
  | ctr (m : StreamMode n)
  | cfb (m : StreamMode n)
  | ofb (m : StreamMode n)
  | gcm (m : Gcm n)
  | ccm (m : Ccm n)
  | eax (m : Eax n)

/-- The field `type` of include/torsion/cipher.h:319-328, `cipher_mode_s`. -/
def CipherMode.id {n : Nat} : CipherMode n → ModeId
  | .raw => .raw | .ecb => .ecb | .cbc _ => .cbc | .cts _ => .cts | .xts _ => .xts | .ctr _ => .ctr
  | .cfb _ => .cfb | .ofb _ => .ofb | .gcm _ => .gcm | .ccm _ => .ccm | .eax _ => .eax

/-- Apply a constructor below the two result layers of the `*_init` functions called by
src/cipher.c:7165-7241 `cipher_mode_init`. -/
def mode_some {α β : Type} (f : α → β) (x : C (Option α)) : C (Option β) := do
  let r ← x
  .ok (r.map f)

/-- src/cipher.c:7165-7241 `cipher_mode_init`; `none` = return value 0. -/
def cipher_mode_init {n : Nat} (c : Cipher n) (type : ModeId) (iv : List Byte) :
    C (Option (CipherMode n)) :=
  match type with
  | .raw => .ok (if iv.length ≠ 0 then none else some .raw)
  | .ecb => .ok (if iv.length ≠ 0 then none else some .ecb)
  | .cbc => if iv.length ≠ n then .ok none else do let m ← cbc_init n iv; .ok (some (.cbc m))
  | .cts => if iv.length ≠ n then .ok none else do let m ← cbc_init n iv; .ok (some (.cts m))
  | .xts => if iv.length ≠ n then .ok none else do let m ← xts_init n iv; .ok (some (.xts m))
  | .ctr => if iv.length ≠ n then .ok none else do let m ← ctr_init n iv; .ok (some (.ctr m))
  | .cfb => if iv.length ≠ n then .ok none else do let m ← cfb_init n iv; .ok (some (.cfb m))
  | .ofb => if iv.length ≠ n then .ok none else do let m ← ofb_init n iv; .ok (some (.ofb m))
  | .gcm => mode_some .gcm (gcm_init c iv)
  | .ccm => mode_some .ccm (ccm_init n iv)
  | .eax => mode_some .eax (eax_init c iv)

/-- src/cipher.c:7268-7282 `cipher_mode_aad`. -/
def cipher_mode_aad {n : Nat} (c : Cipher n) (m : CipherMode n) (aad : List Byte) :
    C (CipherMode n) :=
  match m with
  | .gcm g => do let g ← gcm_aad g aad; .ok (.gcm g)
  | .eax e => do let e ← eax_aad c e aad; .ok (.eax e)
  | _ => .abort

/-- The new mode state put back by src/cipher.c:7284-7324 `cipher_mode_encrypt`. -/
def mode_put {α β γ : Type} (f : α → γ) (x : C (β × α)) : C (β × γ) := do
  let r ← x
  .ok (r.1, f r.2)

/-- src/cipher.c:7284-7324 `cipher_mode_encrypt`. -/
def cipher_mode_encrypt {n : Nat} (c : Cipher n) (m : CipherMode n) (src : List Byte) :
    C (List Byte × CipherMode n) :=
  match m with
  | .raw => do let o ← ecb_encrypt c src; .ok (o, .raw)
  | .ecb => do let o ← ecb_encrypt c src; .ok (o, .ecb)
  | .cbc p => mode_put .cbc (cbc_encrypt c p src)
  | .cts p => mode_put .cts (cbc_encrypt c p src)
  | .xts x => mode_put .xts (xts_encrypt c x src)
  | .ctr s => mode_put .ctr (ctr_crypt c s src)
  | .cfb s => mode_put .cfb (cfb_encrypt c s src)
  | .ofb s => mode_put .ofb (ofb_crypt c s src)
  | .gcm g => mode_put .gcm (gcm_encrypt c g src)
  | .ccm g => mode_put .ccm (ccm_encrypt c g src)
  | .eax e => mode_put .eax (eax_encrypt c e src)

/-- src/cipher.c:7326-7366 `cipher_mode_decrypt`; `same` tells `dst == src`. -/
def cipher_mode_decrypt {n : Nat} (c : Cipher n) (same : Bool) (m : CipherMode n) (src : List Byte) :
    C (List Byte × CipherMode n) :=
  match m with
  | .raw => do let o ← ecb_decrypt c src; .ok (o, .raw)
  | .ecb => do let o ← ecb_decrypt c src; .ok (o, .ecb)
  | .cbc p => mode_put .cbc (cbc_decrypt c same p src)
  | .cts p => mode_put .cts (cbc_decrypt c same p src)
  | .xts x => mode_put .xts (xts_decrypt c x src)
  | .ctr s => mode_put .ctr (ctr_crypt c s src)
  | .cfb s => mode_put .cfb (cfb_decrypt c s src)
  | .ofb s => mode_put .ofb (ofb_crypt c s src)
  | .gcm g => mode_put .gcm (gcm_decrypt c g src)
  | .ccm g => mode_put .ccm (ccm_decrypt c g src)
  | .eax e => mode_put .eax (eax_decrypt c e src)

/-- src/cipher.c:7368-7385 `cipher_mode_steal`: the new `last`, `block` and mode. -/
def cipher_mode_steal {n : Nat} (c : Cipher n) (m : CipherMode n) (last : Vector Byte n)
    (block : List Byte) (len : Nat) : C (Vector Byte n × List Byte × CipherMode n) :=
  match m with
  | .cts p => do
    let r ← cbc_steal c p last block len
    .ok (r.1, r.2.1, .cts r.2.2)
  | .xts x => do
    let r ← xts_steal c x last block len
    .ok (r.1, r.2, .xts x)
  | _ => .abort

/-- src/cipher.c:7387-7404 `cipher_mode_unsteal`: the new `last`, `block` and mode. -/
def cipher_mode_unsteal {n : Nat} (c : Cipher n) (m : CipherMode n) (last : Vector Byte n)
    (block : List Byte) (len : Nat) : C (Vector Byte n × List Byte × CipherMode n) :=
  match m with
  | .cts p => do
    let r ← cbc_unsteal c p last block len
    .ok (r.1, r.2.1, .cts r.2.2)
  | .xts x => do
    let r ← xts_unsteal c x last block len
    .ok (r.1, r.2, .xts x)
  | _ => .abort

/-- src/cipher.c:7406-7424 `cipher_mode_digest`; the state left behind is not used by any caller and not
returned. -/
def cipher_mode_digest {n : Nat} (c : Cipher n) (m : CipherMode n) : C (List Byte) :=
  match m with
  | .gcm g => gcm_digest g
  | .ccm g => ccm_digest c g
  | .eax e => eax_digest c e
  | _ => .abort

/-- src/cipher.c:7426-7442 `cipher_mode_verify`: `tag` is the `tag_len` bytes at `tag`. -/
def cipher_mode_verify {n : Nat} (c : Cipher n) (m : CipherMode n) (tag : List Byte) : C Bool :=
  if tag.length = 0 ∨ tag.length > 16 then .ok false
  else do
    let d ← cipher_mode_digest c m
    let mac ← C.blit (List.replicate 16 0) 0 d
    let x ← C.slice mac 0 tag.length
    .ok (torsion_memequal x tag ≠ 0)

/-- include/torsion/cipher.h:330-344, `cipher_stream_t`; `block_size` is `n`. Of `last` only the first
`n` bytes are used. -/
structure CipherStream (n : Nat) where
  encrypt : Bool
  padding : Bool
  unpad : Bool
  block_pos : Nat
  last_size : Nat
  tag_len : Nat
  ccm_len : Nat
  block : List Byte
  last : Vector Byte n
  tag : List Byte
  cipher : Cipher n
  mode : CipherMode n

/-- `is_pad` of src/cipher.c:7448-7497 `cipher_stream_init` and src/cipher.c:7499-7521 `cipher_stream_set_padding`. -/
def ModeId.pads (m : ModeId) : Bool := m = .ecb ∨ m = .cbc

/-- `is_cts` of src/cipher.c:7448-7497 `cipher_stream_init` and src/cipher.c:7499-7521 `cipher_stream_set_padding`. -/
def ModeId.steals (m : ModeId) : Bool := m = .cts ∨ m = .xts

/-- The context src/cipher.c:7448-7497 `cipher_stream_init` sets up for a cipher and mode. -/
def cipher_stream_new {n : Nat} (encrypt : Bool) (c : Cipher n) (mode : CipherMode n) :
    CipherStream n :=
  { encrypt := encrypt
    padding := true
    unpad := (mode.id.pads && !encrypt) || mode.id.steals
    block_pos := 0
    last_size := 0
    tag_len := 0
    ccm_len := 0
    block := List.replicate 16 0
    last := Vector.replicate n 0
    tag := List.replicate 16 0
    cipher := c
    mode := mode }

/-- The two halves of an XTS key, src/cipher.c:7448-7497 `cipher_stream_init`; `none` for an empty key, an odd
length or equal halves. -/
def xts_keys (key : List Byte) : Option (List Byte × List Byte) :=
  if key.length = 0 ∨ key.length &&& 1 ≠ 0 then none
  else
    let k := key.length / 2
    if torsion_memequal (key.take k) (key.drop k) ≠ 0 then none
    else some (key.take k, key.drop k)

/-- src/cipher.c:7448-7497 `cipher_stream_init`; `none` = return value 0. `xts` is `some (key1, key2)` in XTS
mode; `cipher_mode_xts_setup` is inlined. -/
def cipher_stream_init (t : CipherType) (mode : ModeId) (encrypt : Bool) (key iv : List Byte) :
    C (Option (CipherStream t.size)) :=
  if mode = .xts then
    match xts_keys key with
    | none => .ok none
    | some ks =>
      match t.init ks.1 with
      | none => .ok none
      | some c =>
        if iv.length ≠ t.size then .ok none
        else do
          let m ← xts_init t.size iv
          match t.init ks.2 with
          | none => .ok none
          | some c2 => .ok (some (cipher_stream_new encrypt c (.xts (xts_setup m c2))))
  else
    match t.init key with
    | none => .ok none
    | some c => do
      let m ← cipher_mode_init c mode iv
      .ok (m.map (cipher_stream_new encrypt c))

/-- src/cipher.c:7499-7521 `cipher_stream_set_padding`. -/
def cipher_stream_set_padding {n : Nat} (ctx : CipherStream n) (padding : Bool) :
    Bool × CipherStream n :=
  let is_pad := ctx.mode.id.pads
  let is_cts := ctx.mode.id.steals
  if !is_pad && !is_cts then (false, ctx)
  else if (!ctx.encrypt || is_cts) && (ctx.last_size ≠ 0 || ctx.block_pos ≠ 0) then (false, ctx)
  else (true, { ctx with padding := padding, unpad := padding && (!ctx.encrypt || is_cts) })

/-- src/cipher.c:7523-7534 `cipher_stream_set_aad`. -/
def cipher_stream_set_aad {n : Nat} (ctx : CipherStream n) (aad : List Byte) :
    C (Bool × CipherStream n) :=
  if ctx.mode.id = .gcm ∨ ctx.mode.id = .eax then do
    let m ← cipher_mode_aad ctx.cipher ctx.mode aad
    .ok (true, { ctx with mode := m })
  else .ok (false, ctx)

/-- src/cipher.c:7536-7549 `cipher_stream_set_ccm` (with src/cipher.c:7254-7266 `cipher_mode_ccm_setup`). -/
def cipher_stream_set_ccm {n : Nat} (ctx : CipherStream n) (msg_len tag_len : Nat)
    (aad : List Byte) : C (Bool × CipherStream n) :=
  match ctx.mode with
  | .ccm m => do
    let r ← ccm_setup ctx.cipher m msg_len tag_len aad
    match r with
    | none => .ok (false, ctx)
    | some m => .ok (true, { ctx with mode := .ccm m, ccm_len := tag_len })
  | _ => .ok (false, ctx)

/-- The length test of src/cipher.c:7551-7581 `cipher_stream_set_tag`. -/
def tag_len_ok {n : Nat} (ctx : CipherStream n) (len : Nat) : Bool :=
  match ctx.mode.id with
  | .gcm => !(len ≠ 4 && len ≠ 8 && !(len ≥ 12 && len ≤ 16))
  | .ccm => !(ctx.ccm_len = 0 || len ≠ ctx.ccm_len)
  | .eax => !(len = 0 || len > n)
  | _ => false

/-- src/cipher.c:7551-7581 `cipher_stream_set_tag`. -/
def cipher_stream_set_tag {n : Nat} (ctx : CipherStream n) (tag : List Byte) :
    C (Bool × CipherStream n) :=
  if ctx.encrypt then .ok (false, ctx)
  else if !tag_len_ok ctx tag.length then .ok (false, ctx)
  else do
    C.check (tag.length ≤ n)
    let t ← C.blit ctx.tag 0 tag
    .ok (true, { ctx with tag := t, tag_len := tag.length })

/-- src/cipher.c:7583-7598 `cipher_stream_get_tag`; `none` = return value 0. -/
def cipher_stream_get_tag {n : Nat} (ctx : CipherStream n) : C (Option (List Byte)) :=
  if ctx.mode.id.num < ModeId.gcm.num ∨ ¬ ctx.encrypt then .ok none
  else if ctx.tag_len = 0 then .ok none
  else do
    let t ← C.slice ctx.tag 0 ctx.tag_len
    .ok (some t)

/-- src/cipher.c:7600-7609 `cipher_stream_encipher`. -/
def cipher_stream_encipher {n : Nat} (ctx : CipherStream n) (same : Bool) (src : List Byte) :
    C (List Byte × CipherStream n) := do
  let r ← (if ctx.encrypt then cipher_mode_encrypt ctx.cipher ctx.mode src
    else cipher_mode_decrypt ctx.cipher same ctx.mode src)
  .ok (r.1, { ctx with mode := r.2 })

/-- `len & -block_size` on `size_t`, src/cipher.c:7611-7678 `cipher_stream_update`. -/
def align_down (n len : Nat) : Nat := len &&& (2 ^ 64 - n)

/-- The part of src/cipher.c:7611-7678 `cipher_stream_update` that completes a partial block. Returns the
bytes written, the context and the rest of the input. -/
def cipher_stream_fill {n : Nat} (ctx : CipherStream n) (input : List Byte) :
    C (List Byte × CipherStream n × List Byte) :=
  if ctx.block_pos > 0 then do
    let want := n - ctx.block_pos
    let head ← C.slice input 0 want
    let block ← C.blit ctx.block ctx.block_pos head
    let src ← C.slice block 0 n
    let r ← cipher_stream_encipher { ctx with block := block } false src
    .ok (r.1, { r.2 with block_pos := 0 }, input.drop want)
  else .ok ([], ctx, input)

/-- The part of src/cipher.c:7611-7678 `cipher_stream_update` that enciphers whole blocks of the input. -/
def cipher_stream_whole {n : Nat} (ctx : CipherStream n) (same : Bool) (input : List Byte) :
    C (List Byte × CipherStream n × List Byte) :=
  if input.length ≥ n then do
    let aligned := align_down n input.length
    let src ← C.slice input 0 aligned
    let r ← cipher_stream_encipher ctx same src
    .ok (r.1, r.2, input.drop aligned)
  else .ok ([], ctx, input)

/-- The part of src/cipher.c:7611-7678 `cipher_stream_update` that keeps the rest of the input. -/
def cipher_stream_keep {n : Nat} (ctx : CipherStream n) (input : List Byte) : C (CipherStream n) :=
  if input.length > 0 then do
    let block ← C.blit ctx.block 0 input
    .ok { ctx with block := block, block_pos := input.length }
  else .ok ctx

/-- src/cipher.c:7611-7678 `cipher_stream_update`: the `*output_len` bytes of output, the number of bytes
written to `output`, and the context. -/
def cipher_stream_update {n : Nat} (ctx : CipherStream n) (same : Bool) (input : List Byte) :
    C (List Byte × Nat × CipherStream n) :=
  if ctx.mode.id.num > ModeId.xts.num then do
    let r ← cipher_stream_encipher ctx same input
    .ok (r.1, r.1.length, r.2)
  else if ctx.block_pos + input.length < n then do
    let block ← C.blit ctx.block ctx.block_pos input
    .ok ([], 0, { ctx with block := block, block_pos := ctx.block_pos + input.length })
  else do
    let held ← (if ctx.unpad then C.slice ctx.last.toList 0 ctx.last_size else .ok [])
    let a ← cipher_stream_fill ctx input
    let b ← cipher_stream_whole a.2.1 same a.2.2
    let ctx ← cipher_stream_keep b.2.1 b.2.2
    let output := held ++ a.1 ++ b.1
    C.check (output.length ≥ n)
    if ctx.unpad then do
      let last ← C.vec n (output.drop (output.length - n))
      .ok (output.take (output.length - n), output.length,
        { ctx with last := last, last_size := n })
    else .ok (output, output.length, ctx)

/-- src/cipher.c:7680-7706 `cipher_stream_update_size`. -/
def cipher_stream_update_size {n : Nat} (ctx : CipherStream n) (input_len : Nat) : C Nat :=
  if ctx.mode.id.num > ModeId.xts.num then .ok input_len
  else if ctx.block_pos + input_len < n then .ok 0
  else do
    let out := if ctx.unpad then ctx.last_size else 0
    let len := if ctx.block_pos > 0 then input_len - (n - ctx.block_pos) else input_len
    let out := if ctx.block_pos > 0 then out + n else out
    let out := if len ≥ n then out + align_down n len else out
    C.check (out ≥ n)
    .ok out

/-- src/cipher.c:7708-7727 `cipher_stream_crypt`; `none` = return value 0. -/
def cipher_stream_crypt {n : Nat} (ctx : CipherStream n) (same : Bool) (src : List Byte) :
    C (Option (List Byte × CipherStream n)) :=
  if ctx.mode.id.num > ModeId.xts.num then do
    let r ← cipher_stream_encipher ctx same src
    .ok (some r)
  else if ctx.unpad ∨ ctx.block_pos ≠ 0 then .ok none
  else if src.length &&& (n - 1) ≠ 0 then .ok none
  else do
    let r ← cipher_stream_encipher ctx same src
    .ok (some r)

/-- What src/cipher.c:7729-7835 `cipher_stream_final` leaves: the return value, the `*output_len` bytes of
output, the number of bytes written to `output`, the context. -/
structure CipherFinal (n : Nat) where
  ret : Bool
  out : List Byte
  written : Nat
  ctx : CipherStream n

/-- The tag computation of src/cipher.c:7729-7835 `cipher_stream_final`. -/
def cipher_final_tag {n : Nat} (ctx : CipherStream n) (tag_len : Nat) : C (CipherFinal n) :=
  if ¬ ctx.encrypt then do
    let t ← C.slice ctx.tag 0 ctx.tag_len
    let r ← cipher_mode_verify ctx.cipher ctx.mode t
    .ok ⟨r, [], 0, ctx⟩
  else do
    let d ← cipher_mode_digest ctx.cipher ctx.mode
    let t ← C.blit ctx.tag 0 d
    .ok ⟨true, [], 0, { ctx with tag := t, tag_len := tag_len }⟩

/-- The ECB/CBC case of src/cipher.c:7729-7835 `cipher_stream_final`. -/
def cipher_final_pad {n : Nat} (ctx : CipherStream n) : C (CipherFinal n) :=
  if ¬ ctx.padding then .ok ⟨ctx.block_pos = 0, [], 0, ctx⟩
  else if ¬ ctx.encrypt then
    if ctx.block_pos ≠ 0 then .ok ⟨false, [], 0, ctx⟩
    else if ctx.last_size = 0 then .ok ⟨false, [], 0, ctx⟩
    else do
      let r ← pkcs7_unpad ctx.last.toList
      .ok ⟨r.1 ≠ 0, r.2.2.take r.2.1, n, ctx⟩
  else do
    let b ← C.slice ctx.block 0 ctx.block_pos
    let p ← pkcs7_pad b n
    let r ← cipher_stream_encipher ctx true p
    .ok ⟨true, r.1, r.1.length, r.2⟩

/-- The CTS/XTS case of src/cipher.c:7729-7835 `cipher_stream_final`. -/
def cipher_final_steal {n : Nat} (ctx : CipherStream n) : C (CipherFinal n) :=
  if ¬ ctx.padding then .ok ⟨ctx.block_pos = 0, [], 0, ctx⟩
  else if ctx.last_size = 0 then .ok ⟨false, [], 0, ctx⟩
  else do
    let r ← (if ctx.encrypt then
        cipher_mode_steal ctx.cipher ctx.mode ctx.last ctx.block ctx.block_pos
      else cipher_mode_unsteal ctx.cipher ctx.mode ctx.last ctx.block ctx.block_pos)
    let b ← C.slice r.2.1 0 ctx.block_pos
    .ok ⟨true, r.1.toList ++ b, n + ctx.block_pos,
      { ctx with last := r.1, block := r.2.1, mode := r.2.2 }⟩

/-- src/cipher.c:7729-7835 `cipher_stream_final`. -/
def cipher_stream_final {n : Nat} (ctx : CipherStream n) : C (CipherFinal n) :=
  match ctx.mode.id with
  | .raw => .ok ⟨ctx.block_pos = 0, [], 0, ctx⟩
  | .ecb | .cbc => cipher_final_pad ctx
  | .cts | .xts => cipher_final_steal ctx
  | .gcm | .eax => cipher_final_tag ctx n
  | .ccm => if ctx.ccm_len = 0 then .ok ⟨false, [], 0, ctx⟩ else cipher_final_tag ctx ctx.ccm_len
  | .ctr | .cfb | .ofb => .ok ⟨true, [], 0, ctx⟩

/-- src/cipher.c:7837-7862 `cipher_stream_final_size`. -/
def cipher_stream_final_size {n : Nat} (ctx : CipherStream n) : Nat :=
  match ctx.mode.id with
  | .ecb | .cbc => if ctx.padding then n else 0
  | .cts | .xts => if ctx.padding then n + ctx.block_pos else 0
  | _ => 0

/-- src/cipher.c:7868-7902 `cipher_static_crypt` (called by src/cipher.c:7904-7920 `cipher_static_encrypt` and
src/cipher.c:7922-7938 `cipher_static_decrypt`); `none` = return value 0. -/
def cipher_static_crypt (t : CipherType) (mode : ModeId) (encrypt : Bool) (key iv : List Byte)
    (same : Bool) (input : List Byte) : C (Option (List Byte)) :=
  if mode.num ≥ ModeId.gcm.num then .ok none
  else do
    let ctx ← cipher_stream_init t mode encrypt key iv
    match ctx with
    | none => .ok none
    | some ctx => do
      let u ← cipher_stream_update ctx same input
      let f ← cipher_stream_final u.2.2
      .ok (if f.ret then some (u.1 ++ f.out) else none)

end Torsion
