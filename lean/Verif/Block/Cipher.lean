import Verif.Block.Aes
import Verif.Block.Arc2
import Verif.Block.Blowfish
import Verif.Block.Camellia
import Verif.Block.Cast5
import Verif.Block.Des
import Verif.Block.Idea
import Verif.Block.Serpent
import Verif.Block.Twofish

/-!
# Model of the block cipher interface, src/cipher.c

A block is the list of the bytes at a pointer; fewer bytes than the cipher reads are `ub`. The key
schedule of each cipher is the member of the union `ctx` that was written last; an access to another
member is `ub`.
-/
namespace Torsion

/-- include/torsion/cipher.h:141-166, `cipher_id_t`; `other` stands for every other integer. -/
inductive CipherId where
  | aes128
  | aes192
  | aes256
  | arc2
  | arc2_gutmann
  | arc2_40
  | arc2_64
  | arc2_128
  | arc2_128_gutmann
  | blowfish
  | camellia128
  | camellia192
  | camellia256
  | cast5
  | des
  | des_ede
  | des_ede3
  | idea
  | serpent128
  | serpent192
  | serpent256
  | twofish128
  | twofish192
  | twofish256
  | other
deriving DecidableEq

/-- include/torsion/cipher.h:244-260, `cipher_t`: the members of the union `ctx`. -/
inductive CipherUnion where
  | aes (c : Aes)
  | arc2 (c : Arc2)
  | blowfish (c : Blowfish)
  | camellia (c : Camellia)
  | cast5 (c : Cast5)
  | des (c : Des)
  | ede (c : DesEde)
  | ede3 (c : DesEde3)
  | idea (c : Idea)
  | serpent (c : Serpent)
  | twofish (c : Twofish)

/-- include/torsion/cipher.h:244-260, `cipher_t`. -/
structure CipherT where
  type : CipherId
  size : Nat
  ctx : CipherUnion

/-- src/cipher.c:5494-5548 `cipher_key_size`. -/
def cipher_key_size : CipherId → Nat
  | .aes128 => 16
  | .aes192 => 24
  | .aes256 => 32
  | .arc2 => 8
  | .arc2_gutmann => 8
  | .arc2_40 => 5
  | .arc2_64 => 8
  | .arc2_128 => 16
  | .arc2_128_gutmann => 16
  | .blowfish => 16
  | .camellia128 => 16
  | .camellia192 => 24
  | .camellia256 => 32
  | .cast5 => 16
  | .des => 8
  | .des_ede => 16
  | .des_ede3 => 24
  | .idea => 16
  | .serpent128 => 16
  | .serpent192 => 24
  | .serpent256 => 32
  | .twofish128 => 16
  | .twofish192 => 24
  | .twofish256 => 32
  | .other => 0

/-- src/cipher.c:5550-5604 `cipher_block_size`. -/
def cipher_block_size : CipherId → Nat
  | .aes128 => 16
  | .aes192 => 16
  | .aes256 => 16
  | .arc2 => 8
  | .arc2_gutmann => 8
  | .arc2_40 => 8
  | .arc2_64 => 8
  | .arc2_128 => 8
  | .arc2_128_gutmann => 8
  | .blowfish => 8
  | .camellia128 => 16
  | .camellia192 => 16
  | .camellia256 => 16
  | .cast5 => 8
  | .des => 8
  | .des_ede => 8
  | .des_ede3 => 8
  | .idea => 8
  | .serpent128 => 16
  | .serpent192 => 16
  | .serpent256 => 16
  | .twofish128 => 16
  | .twofish192 => 16
  | .twofish256 => 16
  | .other => 0

/-- One `case` of src/cipher.c:5606-5840 `cipher_init`: `ok` is the negation of the condition of `goto fail`;
`none` stands for the return value 0. -/
def cipher_case {α : Type} (type : CipherId) (ok : Bool) (init : C α) (member : α → CipherUnion) :
    C (Option CipherT) :=
  if ok then do
    let c ← init
    .ok (some ⟨type, cipher_block_size type, member c⟩)
  else .ok none

/-- src/cipher.c:5606-5840 `cipher_init`; `key_len` is the length of the list. -/
def cipher_init (type : CipherId) (key : List Byte) : C (Option CipherT) :=
  match type with
  | .aes128 => cipher_case .aes128 (decide (key.length = 16))
      (aes_init 128 key) .aes
  | .aes192 => cipher_case .aes192 (decide (key.length = 24))
      (aes_init 192 key) .aes
  | .aes256 => cipher_case .aes256 (decide (key.length = 32))
      (aes_init 256 key) .aes
  | .arc2 => cipher_case .arc2 (decide (1 ≤ key.length ∧ key.length ≤ 128))
      (arc2_init key (key.length * 8)) .arc2
  | .arc2_gutmann => cipher_case .arc2_gutmann (decide (1 ≤ key.length ∧ key.length ≤ 128))
      (arc2_init key 0) .arc2
  | .arc2_40 => cipher_case .arc2_40 (decide (key.length = 5))
      (arc2_init key 40) .arc2
  | .arc2_64 => cipher_case .arc2_64 (decide (key.length = 8))
      (arc2_init key 64) .arc2
  | .arc2_128 => cipher_case .arc2_128 (decide (key.length = 16))
      (arc2_init key 128) .arc2
  | .arc2_128_gutmann => cipher_case .arc2_128_gutmann (decide (key.length = 16))
      (arc2_init key 1024) .arc2
  | .blowfish => cipher_case .blowfish (decide (1 ≤ key.length ∧ key.length ≤ 72))
      (.ok (blowfish_init key [])) .blowfish
  | .camellia128 => cipher_case .camellia128 (decide (key.length = 16))
      (camellia_init 128 key) .camellia
  | .camellia192 => cipher_case .camellia192 (decide (key.length = 24))
      (camellia_init 192 key) .camellia
  | .camellia256 => cipher_case .camellia256 (decide (key.length = 32))
      (camellia_init 256 key) .camellia
  | .cast5 => cipher_case .cast5 (decide (key.length = 16))
      (cast5_init key) .cast5
  | .des => cipher_case .des (decide (key.length = 8))
      (des_init key) .des
  | .des_ede => cipher_case .des_ede (decide (key.length = 16))
      (des_ede_init key) .ede
  | .des_ede3 => cipher_case .des_ede3 (decide (key.length = 24))
      (des_ede3_init key) .ede3
  | .idea => cipher_case .idea (decide (key.length = 16))
      (idea_init key) .idea
  | .serpent128 => cipher_case .serpent128 (decide (key.length = 16))
      (serpent_init 128 key) .serpent
  | .serpent192 => cipher_case .serpent192 (decide (key.length = 24))
      (serpent_init 192 key) .serpent
  | .serpent256 => cipher_case .serpent256 (decide (key.length = 32))
      (serpent_init 256 key) .serpent
  | .twofish128 => cipher_case .twofish128 (decide (key.length = 16))
      (twofish_init 128 key) .twofish
  | .twofish192 => cipher_case .twofish192 (decide (key.length = 24))
      (twofish_init 192 key) .twofish
  | .twofish256 => cipher_case .twofish256 (decide (key.length = 32))
      (twofish_init 256 key) .twofish
  | .other => .ok none

/-- A call `xxx_encrypt(&ctx->ctx.xxx, dst, src)` of src/cipher.c:5842-5897 `cipher_encrypt` for a block of `n`
bytes. -/
def cipher_call (n : Nat) (f : Vector Byte n → Vector Byte n) (src : List Byte) : C (List Byte) := do
  let b ← C.vec n src
  .ok (f b).toList

/-- src/cipher.c:5842-5897 `cipher_encrypt`. -/
def cipher_encrypt (ctx : CipherT) (src : List Byte) : C (List Byte) :=
  match ctx.type, ctx.ctx with
  | .aes128, .aes c => do
    let b ← C.vec 16 src
    let r ← aes_encrypt c b
    .ok r.toList
  | .aes192, .aes c => do
    let b ← C.vec 16 src
    let r ← aes_encrypt c b
    .ok r.toList
  | .aes256, .aes c => do
    let b ← C.vec 16 src
    let r ← aes_encrypt c b
    .ok r.toList
  | .arc2, .arc2 c => cipher_call 8 (arc2_encrypt c) src
  | .arc2_gutmann, .arc2 c => cipher_call 8 (arc2_encrypt c) src
  | .arc2_40, .arc2 c => cipher_call 8 (arc2_encrypt c) src
  | .arc2_64, .arc2 c => cipher_call 8 (arc2_encrypt c) src
  | .arc2_128, .arc2 c => cipher_call 8 (arc2_encrypt c) src
  | .arc2_128_gutmann, .arc2 c => cipher_call 8 (arc2_encrypt c) src
  | .blowfish, .blowfish c => cipher_call 8 (blowfish_encrypt c) src
  | .camellia128, .camellia c => cipher_call 16 (camellia_encrypt c) src
  | .camellia192, .camellia c => cipher_call 16 (camellia_encrypt c) src
  | .camellia256, .camellia c => cipher_call 16 (camellia_encrypt c) src
  | .cast5, .cast5 c => cipher_call 8 (cast5_encrypt c) src
  | .des, .des c => cipher_call 8 (des_encrypt c) src
  | .des_ede, .ede c => cipher_call 8 (des_ede_encrypt c) src
  | .des_ede3, .ede3 c => cipher_call 8 (des_ede3_encrypt c) src
  | .idea, .idea c => cipher_call 8 (idea_encrypt c) src
  | .serpent128, .serpent c => cipher_call 16 (serpent_encrypt c) src
  | .serpent192, .serpent c => cipher_call 16 (serpent_encrypt c) src
  | .serpent256, .serpent c => cipher_call 16 (serpent_encrypt c) src
  | .twofish128, .twofish c => cipher_call 16 (twofish_encrypt c) src
  | .twofish192, .twofish c => cipher_call 16 (twofish_encrypt c) src
  | .twofish256, .twofish c => cipher_call 16 (twofish_encrypt c) src
  | .other, _ => .abort
  | _, _ => .ub

/-- src/cipher.c:5899-5954 `cipher_decrypt`. -/
def cipher_decrypt (ctx : CipherT) (src : List Byte) : C (List Byte) :=
  match ctx.type, ctx.ctx with
  | .aes128, .aes c => do
    let b ← C.vec 16 src
    let r ← aes_decrypt c b
    .ok r.toList
  | .aes192, .aes c => do
    let b ← C.vec 16 src
    let r ← aes_decrypt c b
    .ok r.toList
  | .aes256, .aes c => do
    let b ← C.vec 16 src
    let r ← aes_decrypt c b
    .ok r.toList
  | .arc2, .arc2 c => cipher_call 8 (arc2_decrypt c) src
  | .arc2_gutmann, .arc2 c => cipher_call 8 (arc2_decrypt c) src
  | .arc2_40, .arc2 c => cipher_call 8 (arc2_decrypt c) src
  | .arc2_64, .arc2 c => cipher_call 8 (arc2_decrypt c) src
  | .arc2_128, .arc2 c => cipher_call 8 (arc2_decrypt c) src
  | .arc2_128_gutmann, .arc2 c => cipher_call 8 (arc2_decrypt c) src
  | .blowfish, .blowfish c => cipher_call 8 (blowfish_decrypt c) src
  | .camellia128, .camellia c => cipher_call 16 (camellia_decrypt c) src
  | .camellia192, .camellia c => cipher_call 16 (camellia_decrypt c) src
  | .camellia256, .camellia c => cipher_call 16 (camellia_decrypt c) src
  | .cast5, .cast5 c => cipher_call 8 (cast5_decrypt c) src
  | .des, .des c => cipher_call 8 (des_decrypt c) src
  | .des_ede, .ede c => cipher_call 8 (des_ede_decrypt c) src
  | .des_ede3, .ede3 c => cipher_call 8 (des_ede3_decrypt c) src
  | .idea, .idea c => cipher_call 8 (idea_decrypt c) src
  | .serpent128, .serpent c => cipher_call 16 (serpent_decrypt c) src
  | .serpent192, .serpent c => cipher_call 16 (serpent_decrypt c) src
  | .serpent256, .serpent c => cipher_call 16 (serpent_decrypt c) src
  | .twofish128, .twofish c => cipher_call 16 (twofish_decrypt c) src
  | .twofish192, .twofish c => cipher_call 16 (twofish_decrypt c) src
  | .twofish256, .twofish c => cipher_call 16 (twofish_decrypt c) src
  | .other, _ => .abort
  | _, _ => .ub

end Torsion
