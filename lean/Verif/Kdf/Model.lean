import Verif.Hash.Dispatch
import Verif.Stream.Model

/-!
# Model of src/kdf.c (bcrypt is in Kdf/Bcrypt.lean)

A function that returns 0 gives `none`, one that returns 1 gives `some` of the bytes written to
`out`. `size_t` has 64 bits. `junk` supplies the bytes of uninitialised context memory, one function
for every call. The clearing of temporaries (`torsion_memzero`) is not modelled.
-/
namespace Torsion

/-- Uninitialised memory such as `hmac_t pmac` in src/kdf.c:662-720 `hkdf_expand`: call number, array,
byte. -/
abbrev Junk := Nat → Nat → Nat → Byte

/-- The bytes written to an array of `n` bytes, such as `prev` in src/kdf.c:662-720 `hkdf_expand`; writing
more is `ub`. -/
def C.fits (n : Nat) (xs : List Byte) : C (List Byte) := if xs.length ≤ n then .ok xs else .ub

/-! ## EB2K -/

/-- The loop `while ((key_len | iv_len) > 0)` of src/kdf.c:566-636 `eb2k_derive`; first argument = upper
bound of the rounds. `prev` holds the `prev_len` bytes that are set. Returns what is appended to `key`
and `iv`. -/
def eb2k_loop (junk : Junk) (type : HashId) (passwd salt : List Byte) :
    Nat → List Byte → Nat → Nat → C (List Byte × List Byte)
  | 0, _, _, _ => .ok ([], [])
  | n + 1, prev, key_len, iv_len =>
    if key_len = 0 ∧ iv_len = 0 then .ok ([], [])
    else do
      let hash_size := hash_output_size type
      let h ← hash_init (junk n 0) type
      let h ← hash_update h prev
      let h ← hash_update h passwd
      let h ← hash_update h salt
      let prev ← hash_final (junk n 1) h hash_size
      let prev ← C.fits 64 prev
      let prev ← C.slice prev 0 hash_size
      let block := prev
      let want := if block.length > key_len then key_len else block.length
      let k := if key_len > 0 then block.take want else []
      let block := if key_len > 0 then block.drop want else block
      let key_len := if key_len > 0 then key_len - want else key_len
      let want := if block.length > iv_len then iv_len else block.length
      let v := if iv_len > 0 then block.take want else []
      let iv_len := if iv_len > 0 then iv_len - want else iv_len
      let (ks, vs) ← eb2k_loop junk type passwd salt n prev key_len iv_len
      .ok (k ++ ks, v ++ vs)

/-- src/kdf.c:566-636 `eb2k_derive`: the bytes of `key` and `iv`. -/
def eb2k_derive (junk : Junk) (type : HashId) (passwd salt : List Byte) (key_len iv_len : Nat) :
    C (Option (List Byte × List Byte)) :=
  let salt := if salt.length > 8 then salt.take 8 else salt
  if hash_has_backend type = false then .ok none
  else if salt.length ≠ 0 ∧ salt.length ≠ 8 then .ok none
  else do
    let r ← eb2k_loop junk type passwd salt (key_len + iv_len) [] key_len iv_len
    .ok (some r)

/-! ## HKDF -/

/-- src/kdf.c:646-660 `hkdf_extract`. -/
def hkdf_extract (junk : Junk) (type : HashId) (ikm salt : List Byte) : C (Option (List Byte)) :=
  if hash_has_backend type = false then .ok none
  else do
    let h ← hmac_init (junk 0) type salt
    let h ← hmac_update h ikm
    let out ← hmac_final (junk 1) h
    .ok (some out)

/-- The loop of src/kdf.c:662-720 `hkdf_expand`; first argument = rounds left, `prev` holds the `prev_len`
bytes that are set. Returns what is appended to `out`. -/
def hkdf_loop (junk : Junk) (pmac : HmacCtx) (info : List Byte) :
    Nat → List Byte → Byte → Nat → Nat → C (List Byte)
  | 0, _, _, _, _ => .ok []
  | n + 1, prev, ctr, hash_size, len => do
    let ctr := ctr + 1
    let h ← hmac_update pmac prev
    let h ← hmac_update h info
    let h ← hmac_update h [ctr]
    let prev ← hmac_final (junk n) h
    let prev ← C.fits 64 prev
    let prev ← C.slice prev 0 hash_size
    let hash_size := if hash_size > len then len else hash_size
    let out ← C.slice prev 0 hash_size
    let rest ← hkdf_loop junk pmac info n prev ctr hash_size (len - hash_size)
    .ok (out ++ rest)

/-- src/kdf.c:662-720 `hkdf_expand`. -/
def hkdf_expand (junk : Junk) (junk' : Nat → Nat → Byte) (type : HashId) (prk info : List Byte)
    (len : Nat) : C (Option (List Byte)) :=
  let hash_size := hash_output_size type
  if hash_has_backend type = false then .ok none
  else if (len + hash_size - 1) % 2 ^ 64 < len then .ok none
  else
    let blocks := (len + hash_size - 1) % 2 ^ 64 / hash_size
    if blocks > 255 then .ok none
    else if len = 0 then .ok (some [])
    else do
      let key ← C.slice prk 0 hash_size
      let pmac ← hmac_init junk' type key
      let out ← hkdf_loop junk pmac info blocks [] 0 hash_size len
      .ok (some out)

/-! ## PBKDF2 -/

/-- The loop `for (j = 1; j < iter; j++)` of src/kdf.c:734-811 `pbkdf2_derive`; first argument = rounds
left. -/
def pbkdf2_iter (junk : Junk) (pmac : HmacCtx) (hash_size : Nat) :
    Nat → List Byte → List Byte → C (List Byte)
  | 0, block, _ => .ok block
  | n + 1, block, mac => do
    let m ← C.slice mac 0 hash_size
    let h ← hmac_update pmac m
    let mac ← hmac_final (junk n) h
    let mac ← C.fits 64 mac
    let b ← C.slice block 0 hash_size
    let m ← C.slice mac 0 hash_size
    pbkdf2_iter junk pmac hash_size n (List.zipWith (· ^^^ ·) b m) mac

/-- The loop over the blocks of src/kdf.c:734-811 `pbkdf2_derive`; first argument = rounds left, `i` = block
number. Returns what is appended to `out`. -/
def pbkdf2_loop (junk : Nat → Junk) (pmac smac : HmacCtx) (iter : Nat) :
    Nat → Nat → Nat → Nat → C (List Byte)
  | 0, _, _, _ => .ok []
  | n + 1, i, hash_size, len => do
    let ctr := (write32be (BitVec.ofNat 32 (i + 1))).toList
    let h ← hmac_update smac ctr
    let block ← hmac_final (junk n 0) h
    let block ← C.fits 64 block
    let mac ← C.slice block 0 hash_size
    let block ← pbkdf2_iter (fun k => junk n (k + 1)) pmac hash_size (iter - 1) block mac
    let hash_size := if hash_size > len then len else hash_size
    let out ← C.slice block 0 hash_size
    let rest ← pbkdf2_loop junk pmac smac iter n (i + 1) hash_size (len - hash_size)
    .ok (out ++ rest)

/-- src/kdf.c:734-811 `pbkdf2_derive`; `iter` is a `uint32_t`. -/
def pbkdf2_derive (junk : Nat → Junk) (junk' : Nat → Nat → Byte) (type : HashId)
    (pass salt : List Byte) (iter len : Nat) : C (Option (List Byte)) :=
  let hash_size := hash_output_size type
  if hash_has_backend type = false then .ok none
  else if (len + hash_size - 1) % 2 ^ 64 < len then .ok none
  else
    let blocks := (len + hash_size - 1) % 2 ^ 64 / hash_size
    if blocks > 2 ^ 32 - 1 then .ok none
    else if len = 0 then .ok (some [])
    else do
      let pmac ← hmac_init junk' type pass
      let smac ← hmac_update pmac salt
      let out ← pbkdf2_loop junk pmac smac iter blocks 0 hash_size len
      .ok (some out)

/-! ## PGPDF -/

/-- The loop `for (j = 0; j < i; j++) hash_update(&hash, &zero, 1)` of src/kdf.c:829-872
`pgpdf_derive_salted`. -/
def pgpdf_zeros : Nat → HashCtx → C HashCtx
  | 0, h => .ok h
  | n + 1, h => do
    let h ← hash_update h [0]
    pgpdf_zeros n h

/-- The loop `while (len > 0)` of src/kdf.c:829-872 `pgpdf_derive_salted` and src/kdf.c:874-942
`pgpdf_derive_iterated`, where `feed` makes the calls of `hash_update` after the zeros; first argument =
upper bound of the rounds. -/
def pgpdf_loop (junk : Junk) (type : HashId) (feed : HashCtx → C HashCtx) :
    Nat → Nat → Nat → Nat → C (List Byte)
  | 0, _, _, _ => .ok []
  | n + 1, i, hash_size, len =>
    if len > 0 then do
      let h ← hash_init (junk n 0) type
      let h ← pgpdf_zeros i h
      let h ← feed h
      let buf ← hash_final (junk n 1) h hash_size
      let buf ← C.fits 64 buf
      let hash_size := if hash_size > len then len else hash_size
      let out ← C.slice buf 0 hash_size
      let rest ← pgpdf_loop junk type feed n (i + 1) hash_size (len - hash_size)
      .ok (out ++ rest)
    else .ok []

/-- src/kdf.c:829-872 `pgpdf_derive_salted`. -/
def pgpdf_derive_salted (junk : Junk) (type : HashId) (pass salt : List Byte) (len : Nat) :
    C (Option (List Byte)) :=
  let hash_size := hash_output_size type
  if hash_has_backend type = false then .ok none
  else do
    let feed := fun h => do
      let h ← hash_update h salt
      hash_update h pass
    let out ← pgpdf_loop junk type feed len 0 hash_size len
    .ok (some out)

/-- src/kdf.c:820-827 `pgpdf_derive_simple`. -/
def pgpdf_derive_simple (junk : Junk) (type : HashId) (pass : List Byte) (len : Nat) :
    C (Option (List Byte)) :=
  pgpdf_derive_salted junk type pass [] len

/-- The loop `while (left >= total)` of src/kdf.c:874-942 `pgpdf_derive_iterated`; first argument = bound of
the rounds (with `total = 0` the loop never ends; the model then stops after the bound and reports
`ub`). Returns the context and `left`. -/
def pgpdf_feed (pass salt : List Byte) (total : Nat) : Nat → Nat → HashCtx → C (HashCtx × Nat)
  | 0, left, h => if left ≥ total then .ub else .ok (h, left)
  | n + 1, left, h =>
    if left ≥ total then do
      let h ← hash_update h salt
      let h ← hash_update h pass
      pgpdf_feed pass salt total n (left - total) h
    else .ok (h, left)

/-- src/kdf.c:874-942 `pgpdf_derive_iterated`. -/
def pgpdf_derive_iterated (junk : Junk) (type : HashId) (pass salt : List Byte) (count len : Nat) :
    C (Option (List Byte)) :=
  let hash_size := hash_output_size type
  if hash_has_backend type = false then .ok none
  else
    let total := (salt.length + pass.length) % 2 ^ 64
    if total < salt.length then .ok none
    else
      let count := if count < total then total else count
      do
        let feed := fun h => do
          let (h, left) ← pgpdf_feed pass salt total count count h
          if left > 0 then
            if left > salt.length then do
              let h ← hash_update h salt
              let p ← C.slice pass 0 (left - salt.length)
              hash_update h p
            else do
              let s ← C.slice salt 0 left
              hash_update h s
          else .ok h
        let out ← pgpdf_loop junk type feed len 0 hash_size len
        .ok (some out)

/-! ## Scrypt -/

/-- src/kdf.c:1058-1125 `salsa20_8`, not in place: the 64 bytes are returned. The 32 assignments of a double round are those of `salsa20_rounds` in the same order,
`x[b] ^= R(x[a] + x[d], k)` with the macro `R` a rotation. -/
def salsa20_8 (B : List Byte) : C (List Byte) := do
  let v ← C.vec 64 B
  let B32 := Vector.ofFn fun i : Fin 16 => read32le (vsub v (4 * i.val) 4 (by omega))
  let x := salsa20_rounds 4 B32
  .ok (bytes32le (Vector.ofFn fun i : Fin 16 => B32[i] + x[i]).toList)

/-- The first loop of src/kdf.c:1127-1151 `blockmix_salsa8`; first argument = rounds left, `X` = running block.
Returns the blocks `Y_i`. -/
def blockmix_loop (B : List Byte) : Nat → Nat → List Byte → C (List Byte)
  | 0, _, _ => .ok []
  | n + 1, i, X => do
    let b ← C.slice B (i * 64) 64
    let X ← salsa20_8 (List.zipWith (· ^^^ ·) X b)
    let Y ← blockmix_loop B n (i + 1) X
    .ok (X ++ Y)

/-- `for (i = 0; i < r; i++) blkcpy(dst + i * 64, &Y[(i * 2 + o) * 64], 64)`, the last loops of
src/kdf.c:1127-1151 `blockmix_salsa8`; first argument = rounds left. Returns the bytes copied. -/
def blockmix_pick (Y : List Byte) (o : Nat) : Nat → Nat → C (List Byte)
  | 0, _ => .ok []
  | n + 1, i => do
    let b ← C.slice Y ((i * 2 + o) * 64) 64
    let rest ← blockmix_pick Y o n (i + 1)
    .ok (b ++ rest)

/-- src/kdf.c:1127-1151 `blockmix_salsa8`: the new contents of `B` (128 * r bytes). -/
def blockmix_salsa8 (B : List Byte) (r : Nat) : C (List Byte) := do
  let X ← C.slice B ((2 * r - 1) * 64) 64
  let Y ← blockmix_loop B (2 * r) 0 X
  let even ← blockmix_pick Y 0 r 0
  let odd ← blockmix_pick Y 1 r 0
  .ok (even ++ odd)

/-- src/kdf.c:1153-1158 `integerify`. -/
def integerify (B : List Byte) (r : Nat) : C (BitVec 64) := do
  let v ← C.vec 8 (B.drop ((2 * r - 1) * 64))
  .ok (read64le v)

/-- The first loop of src/kdf.c:1160-1191 `smix`; first argument = rounds left. `V` is the part of the array
written so far. -/
def smix_fill (r : Nat) : Nat → List Byte → List Byte → C (List Byte × List Byte)
  | 0, V, X => .ok (V, X)
  | n + 1, V, X => do
    let V := V ++ X
    let X ← blockmix_salsa8 X r
    smix_fill r n V X

/-- The second loop of src/kdf.c:1160-1191 `smix`; first argument = rounds left. -/
def smix_mix (r : Nat) (N : BitVec 64) (V : List Byte) : Nat → List Byte → C (List Byte)
  | 0, X => .ok X
  | n + 1, X => do
    let v ← integerify X r
    let j := (v &&& (N - 1)).toNat
    let b ← C.slice V (j * (128 * r)) (128 * r)
    let X ← blockmix_salsa8 (List.zipWith (· ^^^ ·) X b) r
    smix_mix r N V n X

/-- src/kdf.c:1160-1191 `smix`: the new contents of the `128 * r` bytes at `B`. -/
def smix (B : List Byte) (r N : Nat) : C (List Byte) := do
  let X ← C.slice B 0 (128 * r)
  let (V, X) ← smix_fill r N [] X
  smix_mix r (BitVec.ofNat 64 N) V N X

/-- The loop over `smix` in src/kdf.c:961-1040 `scrypt_derive`; first argument = rounds left. Returns the new
contents of the rest of `B`. -/
def smix_loop (r N : Nat) (B : List Byte) : Nat → Nat → C (List Byte)
  | 0, _ => .ok []
  | n + 1, i => do
    let b ← C.slice B (i * 128 * r) (128 * r)
    let x ← smix b r N
    let rest ← smix_loop r N B n (i + 1)
    .ok (x ++ rest)

/-- src/kdf.c:961-1040 `scrypt_derive`; `N` is a `uint64_t`, `r` and `p` are `uint32_t`. `mem` tells whether
the three calls of `malloc` succeed. -/
def scrypt_derive (junk : Nat → Nat → Junk) (junk' : Nat → Nat → Nat → Byte) (mem : Bool)
    (pass salt : List Byte) (N r p len : Nat) : C (Option (List Byte)) :=
  if N = 0 ∨ r = 0 ∨ p = 0 then .ok none
  else if len > (2 ^ 32 - 1) * 32 then .ok none
  else if r * p % 2 ^ 64 ≥ 2 ^ 30 then .ok none
  else if r > (2 ^ 64 - 1) / 128 / p then .ok none
  else if r > (2 ^ 64 - 1) / 256 then .ok none
  else if N > (2 ^ 64 - 1) / 128 / r then .ok none
  else if N &&& (N - 1) ≠ 0 then .ok none
  else if len = 0 then .ok (some [])
  else if mem = false then .ok none
  else do
    let B ← pbkdf2_derive (junk 0) (junk' 0) .SHA256 pass salt 1 (p * 128 * r)
    match B with
    | none => .ok none
    | some B => do
      let B ← smix_loop r N B p 0
      pbkdf2_derive (junk 1) (junk' 1) .SHA256 pass B 1 len

end Torsion
