import Verif.Hash.OldLemmas
import Verif.Hash.B2Lemmas

/-!
# The context of the generic interface stands for a message
-/
namespace Torsion.Hsh
open Spec Blk Strm

def okMd4 : MdOk md4Alg leBytes (0 : BitVec 64) :=
  ok64le md4Alg rfl rfl rfl (fun _ => rfl) (fun _ _ => rfl) (fun _ => rfl)
def okMd5 : MdOk md5Alg leBytes (0 : BitVec 64) :=
  ok64le md5Alg rfl rfl rfl (fun _ => rfl) (fun _ _ => rfl) (fun _ => rfl)
def okRmd : MdOk ripemd160Alg leBytes (0 : BitVec 64) :=
  ok64le ripemd160Alg rfl rfl rfl (fun _ => rfl) (fun _ _ => rfl) (fun _ => rfl)
def okSha1 : MdOk sha1Alg bigBytes (0 : BitVec 64) :=
  ok64be sha1Alg rfl rfl rfl (fun _ => rfl) (fun _ _ => rfl) (fun _ => rfl)
def okSha256 : MdOk sha256Alg bigBytes (0 : BitVec 64) :=
  ok64be sha256Alg rfl rfl rfl (fun _ => rfl) (fun _ _ => rfl) (fun _ => rfl)

def ivMd4 : md4Alg.St :=
  (#v[0x67452301, 0xefcdab89, 0x98badcfe, 0x10325476] : Vector (BitVec 32) 4)
def ivMd5 : md5Alg.St :=
  (#v[0x67452301, 0xefcdab89, 0x98badcfe, 0x10325476] : Vector (BitVec 32) 4)
def ivRmd : ripemd160Alg.St :=
  (#v[0x67452301, 0xefcdab89, 0x98badcfe, 0x10325476, 0xc3d2e1f0] : Vector (BitVec 32) 5)
def ivSha1 : sha1Alg.St :=
  (#v[0x67452301, 0xefcdab89, 0x98badcfe, 0x10325476, 0xc3d2e1f0] : Vector (BitVec 32) 5)
def ivSha256 : sha256Alg.St :=
  (#v[0x6a09e667, 0xbb67ae85, 0x3c6ef372, 0xa54ff53a, 0x510e527f, 0x9b05688c, 0x1f83d9ab,
    0x5be0cd19] : Vector (BitVec 32) 8)
def ivSha224 : sha256Alg.St :=
  (#v[0xc1059ed8, 0x367cd507, 0x3070dd17, 0xf70e5939, 0xffc00b31, 0x68581511, 0x64f98fa7,
    0xbefa4fa4] : Vector (BitVec 32) 8)
def ivSha512 : sha512Alg.St :=
  (#v[0x6a09e667f3bcc908, 0xbb67ae8584caa73b, 0x3c6ef372fe94f82b, 0xa54ff53a5f1d36f1,
    0x510e527fade682d1, 0x9b05688c2b3e6c1f, 0x1f83d9abfb41bd6b, 0x5be0cd19137e2179] : Vector (BitVec 64) 8)
def ivSha384 : sha512Alg.St :=
  (#v[0xcbbb9d5dc1059ed8, 0x629a292a367cd507, 0x9159015a3070dd17, 0x152fecd8f70e5939,
    0x67332667ffc00b31, 0x8eb44a8768581511, 0xdb0c2e0d64f98fa7, 0x47b5481dbefa4fa4] : Vector (BitVec 64) 8)
def ivWhirl : whirlpoolAlg.St :=
  (Vector.replicate 8 0 : Vector (BitVec 64) 8)

theorem iv_sha256 : Std.blake2sIV = ivSha256 := by
  exact (by decide +kernel : Std.blake2sIV = (#v[0x6a09e667, 0xbb67ae85, 0x3c6ef372, 0xa54ff53a,
    0x510e527f, 0x9b05688c, 0x1f83d9ab, 0x5be0cd19] : Vector (BitVec 32) 8))
theorem iv_sha224 : sha224IV = ivSha224 := by
  exact (by decide +kernel : sha224IV = (#v[0xc1059ed8, 0x367cd507, 0x3070dd17, 0xf70e5939,
    0xffc00b31, 0x68581511, 0x64f98fa7, 0xbefa4fa4] : Vector (BitVec 32) 8))
theorem iv_sha512 : Std.blake2bIV = ivSha512 := rfl
theorem iv_sha384 : sha384IV = ivSha384 := rfl

/-- SHA-256 with the modelled transform, which is the one to compute with. -/
theorem sha256_model : Spec.sha256 = mdHash 64 56 bigBytes sha256_transform ivSha256 be32Out := by
  rw [Spec.sha256, Cmp.sha256_fn, iv_sha256]

theorem md4_out : md4Alg.out = le32Out := by
  funext s
  exact congrArg (fun g => List.flatMap g (Vector.toList s)) (funext fun x => write32le_eq x)

theorem md5_out : md5Alg.out = le32Out := by
  funext s
  exact congrArg (fun g => List.flatMap g (Vector.toList s)) (funext fun x => write32le_eq x)

theorem ripemd160_out : ripemd160Alg.out = le32Out := by
  funext s
  exact congrArg (fun g => List.flatMap g (Vector.toList s)) (funext fun x => write32le_eq x)

theorem sha1_out : sha1Alg.out = be32Out := by
  funext s
  exact congrArg (fun g => List.flatMap g (Vector.toList s)) (funext fun x => write32be_eq x)

theorem sha256_out : sha256Alg.out = be32Out := by
  funext s
  exact congrArg (fun g => List.flatMap g (Vector.toList s)) (funext fun x => write32be_eq x)

theorem sha512_out : sha512Alg.out = be64Out := by
  funext s
  exact congrArg (fun g => List.flatMap g (Vector.toList s)) (funext fun x => write64be_eq x)

theorem whirlpool_out : whirlpoolAlg.out = be64Out := by
  funext s
  exact congrArg (fun g => List.flatMap g (Vector.toList s)) (funext fun x => write64be_eq x)

theorem md4_ini (junk : Nat → Byte) : MdRep okMd4 ivMd4 (md4_init junk) [] :=
  md_rep_init okMd4 ivMd4 _ (by simp [rawBytes, md4Alg])

theorem md4_fin {c : MdCtx md4Alg} {m : List Byte} (h : MdRep okMd4 ivMd4 c m) :
    md_final md4Alg c = .ok (Spec.md4 m) := by
  rw [md_rep_final okMd4 h, md4_out, Spec.md4, Cmp.md4_fn]
  rfl

theorem md5_ini (junk : Nat → Byte) : MdRep okMd5 ivMd5 (md5_init junk) [] :=
  md_rep_init okMd5 ivMd5 _ (by simp [rawBytes, md5Alg])

theorem md5_fin {c : MdCtx md5Alg} {m : List Byte} (h : MdRep okMd5 ivMd5 c m) :
    md_final md5Alg c = .ok (Spec.md5 m) := by
  rw [md_rep_final okMd5 h, md5_out, Spec.md5, Cmp.md5_fn]
  rfl

theorem ripemd160_ini (junk : Nat → Byte) : MdRep okRmd ivRmd (ripemd160_init junk) [] :=
  md_rep_init okRmd ivRmd _ (by simp [rawBytes, ripemd160Alg])

theorem ripemd160_fin {c : MdCtx ripemd160Alg} {m : List Byte} (h : MdRep okRmd ivRmd c m) :
    md_final ripemd160Alg c = .ok (Spec.ripemd160 m) := by
  rw [md_rep_final okRmd h, ripemd160_out, Spec.ripemd160, Cmp.ripemd160_fn]
  rfl

theorem sha1_ini (junk : Nat → Byte) : MdRep okSha1 ivSha1 (sha1_init junk) [] :=
  md_rep_init okSha1 ivSha1 _ (by simp [rawBytes, sha1Alg])

theorem sha1_fin {c : MdCtx sha1Alg} {m : List Byte} (h : MdRep okSha1 ivSha1 c m) :
    md_final sha1Alg c = .ok (Spec.sha1 m) := by
  rw [md_rep_final okSha1 h, sha1_out, Spec.sha1, Cmp.sha1_fn]
  rfl

theorem sha256_ini (junk : Nat → Byte) : MdRep okSha256 ivSha256 (sha256_init junk) [] :=
  md_rep_init okSha256 ivSha256 _ (by simp [rawBytes, sha256Alg])

theorem sha256_fin {c : MdCtx sha256Alg} {m : List Byte} (h : MdRep okSha256 ivSha256 c m) :
    md_final sha256Alg c = .ok (Spec.sha256 m) := by
  rw [md_rep_final okSha256 h, sha256_out, Spec.sha256, Cmp.sha256_fn, iv_sha256]
  rfl

theorem sha224_ini (junk : Nat → Byte) : MdRep okSha256 ivSha224 (sha224_init junk) [] :=
  md_rep_init okSha256 ivSha224 _ (by simp [rawBytes, sha256Alg])

theorem sha512_ini (junk : Nat → Byte) : MdRep ok512 ivSha512 (sha512_init junk) [] :=
  md_rep_init ok512 ivSha512 _ (by simp [rawBytes, sha512Alg])

theorem sha512_fin {c : MdCtx sha512Alg} {m : List Byte} (h : MdRep ok512 ivSha512 c m) :
    md_final sha512Alg c = .ok (Spec.sha512 m) := by
  rw [md_rep_final ok512 h, sha512_out, Spec.sha512, Cmp.sha512_fn, iv_sha512]
  rfl

theorem sha384_ini (junk : Nat → Byte) : MdRep ok512 ivSha384 (sha384_init junk) [] :=
  md_rep_init ok512 ivSha384 _ (by simp [rawBytes, sha512Alg])

theorem whirlpool_ini (junk : Nat → Byte) : MdRep ok4 ivWhirl (whirlpool_init junk) [] :=
  md_rep_init ok4 ivWhirl _ (by simp [rawBytes, whirlpoolAlg])

theorem whirlpool_fin {c : MdCtx whirlpoolAlg} {m : List Byte} (h : MdRep ok4 ivWhirl c m) :
    md_final whirlpoolAlg c = .ok (Spec.whirlpool m) := by
  rw [md_rep_final ok4 h, whirlpool_out, Spec.whirlpool, Cmp.whirlpool_fn]
  rfl

theorem mdHash_le {St : Type} (bs lenOff : Nat) (enc : Nat → Nat → List Byte)
    (f : St → Vector Byte bs → St) (iv : St) (out : St → List Byte) (k : Nat)
    (hk : ∀ s, (out s).length = k) (m : List Byte) : (mdHash bs lenOff enc f iv out m).length = k := hk _

theorem le32_len {n : Nat} (s : Vector (BitVec 32) n) : (le32Out s).length = n * 4 := by
  rw [le32Out, flat_len _ 4 (fun x => leBytes_len _ _), Vector.length_toList]
theorem be32_len {n : Nat} (s : Vector (BitVec 32) n) : (be32Out s).length = n * 4 := by
  rw [be32Out, flat_len _ 4 (fun x => bigBytes_len _ _), Vector.length_toList]
theorem be64_len {n : Nat} (s : Vector (BitVec 64) n) : (be64Out s).length = n * 8 := by
  rw [be64Out, flat_len _ 8 (fun x => bigBytes_len _ _), Vector.length_toList]
theorem md4_len (m : List Byte) : (Spec.md4 m).length = 16 := le32_len _
theorem md5_len (m : List Byte) : (Spec.md5 m).length = 16 := le32_len _
theorem ripemd160_len (m : List Byte) : (Spec.ripemd160 m).length = 20 := le32_len _
theorem sha1_len (m : List Byte) : (Spec.sha1 m).length = 20 := be32_len _
theorem sha256_len (m : List Byte) : (Spec.sha256 m).length = 32 := be32_len _
theorem sha224_len (m : List Byte) : (Spec.sha224 m).length = 28 := by
  rw [Spec.sha224, List.length_take, mdHash, be32_len]; rfl
theorem sha512_len (m : List Byte) : (Spec.sha512 m).length = 64 := be64_len _
theorem sha384_len (m : List Byte) : (Spec.sha384 m).length = 48 := by
  rw [Spec.sha384, List.length_take, mdHash, be64_len]; rfl
theorem whirlpool_len (m : List Byte) : (Spec.whirlpool m).length = 64 := be64_len _
theorem keccak_len (bs : Nat) (pad : Byte) (len : Nat) (h : len ≤ 200) (m : List Byte) :
    (Spec.keccak bs pad len m).length = len := by
  rw [Spec.keccak, List.length_take, flat_len _ 8 (fun x => leBytes_len _ _), Vector.length_toList]
  omega
theorem blake2b_len (len : Nat) (h : len ≤ 64) (key m : List Byte) :
    (Spec.blake2b len key m).length = len := by
  rw [Spec.blake2b, Spec.blake2, List.length_take, flat_len _ 8 (fun x => leBytes_len _ _),
    Vector.length_toList]
  omega
theorem blake2s_len (len : Nat) (h : len ≤ 32) (key m : List Byte) :
    (Spec.blake2s len key m).length = len := by
  rw [Spec.blake2s, Spec.blake2, List.length_take, flat_len _ 4 (fun x => leBytes_len _ _),
    Vector.length_toList]
  omega
theorem gost94_len (m : List Byte) : (Spec.gost94 m).length = 32 := by
  rw [Spec.gost94, Vector.length_toList]
theorem md2_len (m : List Byte) : (Spec.md2 m).length = 16 := by rw [Spec.md2, Vector.length_toList]

theorem slice_take (xs : List Byte) (n : Nat) (h : n ≤ xs.length) : C.slice xs 0 n = .ok (xs.take n) := by
  rw [C.slice, if_pos (by omega)]; rfl

theorem sha224_fin {c : MdCtx sha256Alg} {m : List Byte} (h : MdRep okSha256 ivSha224 c m) :
    sha224_final c = .ok (Spec.sha224 m) := by
  rw [sha224_final, md_rep_final okSha256 h, sha256_out]
  simp only [C.ok_bind]
  rw [slice_take _ _ (by exact (be32_len (n := 8) _).symm ▸ (by decide : 28 ≤ 32)), Spec.sha224, Cmp.sha256_fn, iv_sha224]
  rfl

theorem sha384_fin {c : MdCtx sha512Alg} {m : List Byte} (h : MdRep ok512 ivSha384 c m) :
    sha384_final c = .ok (Spec.sha384 m) := by
  rw [sha384_final, md_rep_final ok512 h, sha512_out]
  simp only [C.ok_bind]
  rw [slice_take _ _ (by exact (be64_len (n := 8) _).symm ▸ (by decide : 48 ≤ 64)), Spec.sha384, Cmp.sha512_fn, iv_sha384]
  rfl

theorem hash160_fin (junk : Nat → Byte) {c : MdCtx sha256Alg} {m : List Byte}
    (h : MdRep okSha256 ivSha256 c m) :
    hash160_final junk c = .ok (Spec.ripemd160 (Spec.sha256 m)) := by
  have hl := sha256_len m
  obtain ⟨r, h1, h2⟩ := md_rep_update okRmd (ripemd160_ini junk) (Spec.sha256 m) (by rw [hl]; decide)
  rw [hash160_final, sha256_fin h]
  simp only [C.ok_bind]
  rw [slice_take _ _ (by omega), List.take_of_length_le (by omega)]
  simp only [C.ok_bind]
  rw [h1]
  simp only [C.ok_bind]
  rw [ripemd160_fin h2]
  rfl

theorem hash256_fin (junk : Nat → Byte) {c : MdCtx sha256Alg} {m : List Byte}
    (h : MdRep okSha256 ivSha256 c m) :
    hash256_final junk c = .ok (Spec.sha256 (Spec.sha256 m)) := by
  have hl := sha256_len m
  obtain ⟨r, h1, h2⟩ := md_rep_update okSha256 (sha256_ini junk) (Spec.sha256 m) (by rw [hl]; decide)
  rw [hash256_final, sha256_fin h]
  simp only [C.ok_bind]
  rw [slice_take _ _ (by omega), List.take_of_length_le (by omega)]
  simp only [C.ok_bind]
  rw [h1]
  simp only [C.ok_bind]
  rw [sha256_fin h2]
  rfl

/-- The chaining value BLAKE2 starts from. -/
def b2iv {w : Nat} (A : B2Alg w) (klen len : Nat) : Vector (BitVec w) 8 :=
  A.iv.set 0 (A.iv[0] ^^^ BitVec.ofNat w (0x01010000 + 256 * klen + len))

theorem blake2b_ini (junk : Nat → Byte) (len : Nat) (key : List Byte) (h1 : 1 ≤ len) (h2 : len ≤ 64)
    (h3 : key.length ≤ 64) :
    ∃ c, blake2_init blake2bAlg 64 junk len key = .ok c ∧
      B2Rep blake2bAlg (b2iv blake2bAlg key.length len) len c (b2data 128 key []) :=
  b2_init (A := blake2bAlg) 64 (by decide) (by decide) junk len key h1 h2 h3

theorem blake2s_ini (junk : Nat → Byte) (len : Nat) (key : List Byte) (h1 : 1 ≤ len) (h2 : len ≤ 32)
    (h3 : key.length ≤ 32) :
    ∃ c, blake2_init blake2sAlg 32 junk len key = .ok c ∧
      B2Rep blake2sAlg (b2iv blake2sAlg key.length len) len c (b2data 64 key []) :=
  b2_init (A := blake2sAlg) 32 (by decide) (by decide) junk len key h1 h2 h3

theorem blake2b_fin {len : Nat} (h2 : len ≤ 64) {c : B2Ctx 64} {key m : List Byte}
    (h : B2Rep blake2bAlg (b2iv blake2bAlg key.length len) len c (b2data 128 key m)) :
    blake2_final blake2bAlg c = .ok (Spec.blake2b len key m) := by
  rw [Spec.blake2b, Cmp.blake2b_fn, Cmp.blake2b_iv_eq]
  exact b2_final (A := blake2bAlg) (by decide) (by decide) 8 rfl (by decide) (fun x => write64le_eq x) h2 h

theorem blake2s_fin {len : Nat} (h2 : len ≤ 32) {c : B2Ctx 32} {key m : List Byte}
    (h : B2Rep blake2sAlg (b2iv blake2sAlg key.length len) len c (b2data 64 key m)) :
    blake2_final blake2sAlg c = .ok (Spec.blake2s len key m) := by
  rw [Spec.blake2s, Cmp.blake2s_fn, Cmp.blake2s_iv_eq]
  exact b2_final (A := blake2sAlg) (by decide) (by decide) 4 rfl (by decide) (fun x => write32le_eq x) h2 h

/-- A context of the generic interface that has absorbed `m`. -/
inductive HashRep : HashId → HashCtx → List Byte → Prop where
  | none (m) : HashRep .NONE ⟨.NONE, .none⟩ m
  | blake2b (t len c m) (ht : (t, len) ∈ [(HashId.BLAKE2B_160, 20), (HashId.BLAKE2B_256, 32), (HashId.BLAKE2B_384, 48), (HashId.BLAKE2B_512, 64)])
    (h : B2Rep blake2bAlg (b2iv blake2bAlg 0 len) len c m) : HashRep t ⟨t, .blake2b c⟩ m
  | blake2s (t len c m) (ht : (t, len) ∈ [(HashId.BLAKE2S_128, 16), (HashId.BLAKE2S_160, 20), (HashId.BLAKE2S_224, 28), (HashId.BLAKE2S_256, 32)])
    (h : B2Rep blake2sAlg (b2iv blake2sAlg 0 len) len c m) : HashRep t ⟨t, .blake2s c⟩ m
  | keccak (t bs c m) (ht : (t, bs) ∈ [(HashId.KECCAK224, 144), (HashId.KECCAK256, 136), (HashId.KECCAK384, 104), (HashId.KECCAK512, 72), (HashId.SHA3_224, 144), (HashId.SHA3_256, 136), (HashId.SHA3_384, 104), (HashId.SHA3_512, 72), (HashId.SHAKE128, 168), (HashId.SHAKE256, 136)])
    (h : KecRep bs c m) : HashRep t ⟨t, .keccak c⟩ m
  | gost94 (c m) (h : GostRep c m) : HashRep .GOST94 ⟨.GOST94, .gost94 c⟩ m
  | md2 (c m) (h : Md2Rep c m) : HashRep .MD2 ⟨.MD2, .md2 c⟩ m
  | md5sha1 (c m) (h : MdRep okMd5 ivMd5 c.md5 m) (h2 : MdRep okSha1 ivSha1 c.sha1 m) :
    HashRep .MD5SHA1 ⟨.MD5SHA1, .md5sha1 c⟩ m
  | md4 (c m) (h : MdRep okMd4 ivMd4 c m) : HashRep .MD4 ⟨.MD4, .md4 c⟩ m
  | md5 (c m) (h : MdRep okMd5 ivMd5 c m) : HashRep .MD5 ⟨.MD5, .md5 c⟩ m
  | ripemd160 (c m) (h : MdRep okRmd ivRmd c m) : HashRep .RIPEMD160 ⟨.RIPEMD160, .ripemd160 c⟩ m
  | sha1 (c m) (h : MdRep okSha1 ivSha1 c m) : HashRep .SHA1 ⟨.SHA1, .sha1 c⟩ m
  | sha256 (c m) (h : MdRep okSha256 ivSha256 c m) : HashRep .SHA256 ⟨.SHA256, .sha256 c⟩ m
  | sha224 (c m) (h : MdRep okSha256 ivSha224 c m) : HashRep .SHA224 ⟨.SHA224, .sha256 c⟩ m
  | sha512 (c m) (h : MdRep ok512 ivSha512 c m) : HashRep .SHA512 ⟨.SHA512, .sha512 c⟩ m
  | sha384 (c m) (h : MdRep ok512 ivSha384 c m) : HashRep .SHA384 ⟨.SHA384, .sha512 c⟩ m
  | whirlpool (c m) (h : MdRep ok4 ivWhirl c m) : HashRep .WHIRLPOOL ⟨.WHIRLPOOL, .whirlpool c⟩ m
  | hash160 (c m) (h : MdRep okSha256 ivSha256 c m) : HashRep .HASH160 ⟨.HASH160, .sha256 c⟩ m
  | hash256 (c m) (h : MdRep okSha256 ivSha256 c m) : HashRep .HASH256 ⟨.HASH256, .sha256 c⟩ m

theorem rep_init (junk : Nat → Byte) (t : HashId) (ht : ∀ n, t ≠ .other n) :
    ∃ h, hash_init junk t = .ok h ∧ HashRep t h [] := by
  have hb : ∀ len, (h1 : 1 ≤ len) → (h2 : len ≤ 64) → _ := fun len h1 h2 =>
    blake2b_ini junk len [] h1 h2 (by simp)
  have hs : ∀ len, (h1 : 1 ≤ len) → (h2 : len ≤ 32) → _ := fun len h1 h2 =>
    blake2s_ini junk len [] h1 h2 (by simp)
  cases t with
  | other n => exact absurd rfl (ht n)
  | NONE => exact ⟨_, rfl, .none _⟩
  | GOST94 => exact ⟨_, rfl, .gost94 _ _ gost_rep_init⟩
  | MD2 => exact ⟨_, rfl, .md2 _ _ md2_rep_init⟩
  | MD5SHA1 => exact ⟨_, rfl, .md5sha1 _ _ (md5_ini _) (sha1_ini _)⟩
  | HASH160 => exact ⟨_, rfl, .hash160 _ _ (sha256_ini _)⟩
  | HASH256 => exact ⟨_, rfl, .hash256 _ _ (sha256_ini _)⟩
  | MD4 => exact ⟨_, rfl, .md4 _ _ (md4_ini _)⟩
  | MD5 => exact ⟨_, rfl, .md5 _ _ (md5_ini _)⟩
  | RIPEMD160 => exact ⟨_, rfl, .ripemd160 _ _ (ripemd160_ini _)⟩
  | SHA1 => exact ⟨_, rfl, .sha1 _ _ (sha1_ini _)⟩
  | SHA256 => exact ⟨_, rfl, .sha256 _ _ (sha256_ini _)⟩
  | SHA224 => exact ⟨_, rfl, .sha224 _ _ (sha224_ini _)⟩
  | SHA512 => exact ⟨_, rfl, .sha512 _ _ (sha512_ini _)⟩
  | SHA384 => exact ⟨_, rfl, .sha384 _ _ (sha384_ini _)⟩
  | WHIRLPOOL => exact ⟨_, rfl, .whirlpool _ _ (whirlpool_ini _)⟩
  | BLAKE2B_160 =>
    obtain ⟨c, h1, h2⟩ := hb 20 (by decide) (by decide)
    exact ⟨_, by rw [hash_init, h1]; rfl, .blake2b _ 20 _ _ (by decide) h2⟩
  | BLAKE2B_256 =>
    obtain ⟨c, h1, h2⟩ := hb 32 (by decide) (by decide)
    exact ⟨_, by rw [hash_init, h1]; rfl, .blake2b _ 32 _ _ (by decide) h2⟩
  | BLAKE2B_384 =>
    obtain ⟨c, h1, h2⟩ := hb 48 (by decide) (by decide)
    exact ⟨_, by rw [hash_init, h1]; rfl, .blake2b _ 48 _ _ (by decide) h2⟩
  | BLAKE2B_512 =>
    obtain ⟨c, h1, h2⟩ := hb 64 (by decide) (by decide)
    exact ⟨_, by rw [hash_init, h1]; rfl, .blake2b _ 64 _ _ (by decide) h2⟩
  | BLAKE2S_128 =>
    obtain ⟨c, h1, h2⟩ := hs 16 (by decide) (by decide)
    exact ⟨_, by rw [hash_init, h1]; rfl, .blake2s _ 16 _ _ (by decide) h2⟩
  | BLAKE2S_160 =>
    obtain ⟨c, h1, h2⟩ := hs 20 (by decide) (by decide)
    exact ⟨_, by rw [hash_init, h1]; rfl, .blake2s _ 20 _ _ (by decide) h2⟩
  | BLAKE2S_224 =>
    obtain ⟨c, h1, h2⟩ := hs 28 (by decide) (by decide)
    exact ⟨_, by rw [hash_init, h1]; rfl, .blake2s _ 28 _ _ (by decide) h2⟩
  | BLAKE2S_256 =>
    obtain ⟨c, h1, h2⟩ := hs 32 (by decide) (by decide)
    exact ⟨_, by rw [hash_init, h1]; rfl, .blake2s _ 32 _ _ (by decide) h2⟩
  | KECCAK224 =>
    obtain ⟨c, h1, h2⟩ := kec_init 224 junk (by decide) (by decide) (by decide)
    exact ⟨_, by rw [hash_init, h1]; rfl, .keccak _ 144 _ _ (by decide) h2⟩
  | KECCAK256 =>
    obtain ⟨c, h1, h2⟩ := kec_init 256 junk (by decide) (by decide) (by decide)
    exact ⟨_, by rw [hash_init, h1]; rfl, .keccak _ 136 _ _ (by decide) h2⟩
  | KECCAK384 =>
    obtain ⟨c, h1, h2⟩ := kec_init 384 junk (by decide) (by decide) (by decide)
    exact ⟨_, by rw [hash_init, h1]; rfl, .keccak _ 104 _ _ (by decide) h2⟩
  | KECCAK512 =>
    obtain ⟨c, h1, h2⟩ := kec_init 512 junk (by decide) (by decide) (by decide)
    exact ⟨_, by rw [hash_init, h1]; rfl, .keccak _ 72 _ _ (by decide) h2⟩
  | SHA3_224 =>
    obtain ⟨c, h1, h2⟩ := kec_init 224 junk (by decide) (by decide) (by decide)
    exact ⟨_, by rw [hash_init, h1]; rfl, .keccak _ 144 _ _ (by decide) h2⟩
  | SHA3_256 =>
    obtain ⟨c, h1, h2⟩ := kec_init 256 junk (by decide) (by decide) (by decide)
    exact ⟨_, by rw [hash_init, h1]; rfl, .keccak _ 136 _ _ (by decide) h2⟩
  | SHA3_384 =>
    obtain ⟨c, h1, h2⟩ := kec_init 384 junk (by decide) (by decide) (by decide)
    exact ⟨_, by rw [hash_init, h1]; rfl, .keccak _ 104 _ _ (by decide) h2⟩
  | SHA3_512 =>
    obtain ⟨c, h1, h2⟩ := kec_init 512 junk (by decide) (by decide) (by decide)
    exact ⟨_, by rw [hash_init, h1]; rfl, .keccak _ 72 _ _ (by decide) h2⟩
  | SHAKE128 =>
    obtain ⟨c, h1, h2⟩ := kec_init 128 junk (by decide) (by decide) (by decide)
    exact ⟨_, by rw [hash_init, h1]; rfl, .keccak _ 168 _ _ (by decide) h2⟩
  | SHAKE256 =>
    obtain ⟨c, h1, h2⟩ := kec_init 256 junk (by decide) (by decide) (by decide)
    exact ⟨_, by rw [hash_init, h1]; rfl, .keccak _ 136 _ _ (by decide) h2⟩

theorem rep_update {t : HashId} {h : HashCtx} {m : List Byte} (hr : HashRep t h m) (data : List Byte)
    (hd : data.length < 2 ^ 64) : ∃ h', hash_update h data = .ok h' ∧ HashRep t h' (m ++ data) := by
  cases hr with
  | none => exact ⟨_, rfl, .none _⟩
  | blake2b _ len c _ ht hc =>
    obtain ⟨c', h1, h2⟩ := b2_update (by decide) hc data
    refine ⟨⟨t, .blake2b c'⟩, ?_, .blake2b _ len _ _ ht h2⟩
    simp only [List.mem_cons, List.not_mem_nil, or_false, Prod.mk.injEq] at ht
    rcases ht with ⟨rfl, rfl⟩ | ⟨rfl, rfl⟩ | ⟨rfl, rfl⟩ | ⟨rfl, rfl⟩ <;> (simp only [hash_update]; rw [h1]; rfl)
  | blake2s _ len c _ ht hc =>
    obtain ⟨c', h1, h2⟩ := b2_update (by decide) hc data
    refine ⟨⟨t, .blake2s c'⟩, ?_, .blake2s _ len _ _ ht h2⟩
    simp only [List.mem_cons, List.not_mem_nil, or_false, Prod.mk.injEq] at ht
    rcases ht with ⟨rfl, rfl⟩ | ⟨rfl, rfl⟩ | ⟨rfl, rfl⟩ | ⟨rfl, rfl⟩ <;> (simp only [hash_update]; rw [h1]; rfl)
  | keccak _ bs c _ ht hc =>
    obtain ⟨c', h1, h2⟩ := kec_update hc data
    refine ⟨⟨t, .keccak c'⟩, ?_, .keccak _ bs _ _ ht h2⟩
    simp only [List.mem_cons, List.not_mem_nil, or_false, Prod.mk.injEq] at ht
    rcases ht with ⟨rfl, rfl⟩ | ⟨rfl, rfl⟩ | ⟨rfl, rfl⟩ | ⟨rfl, rfl⟩ | ⟨rfl, rfl⟩ | ⟨rfl, rfl⟩ | ⟨rfl, rfl⟩ | ⟨rfl, rfl⟩ | ⟨rfl, rfl⟩ | ⟨rfl, rfl⟩ <;> (simp only [hash_update]; rw [h1]; rfl)
  | gost94 c _ hc =>
    obtain ⟨c', h1, h2⟩ := gost_rep_update hc data hd
    exact ⟨_, by simp only [hash_update]; rw [h1]; rfl, .gost94 _ _ h2⟩
  | md2 c _ hc =>
    obtain ⟨c', h1, h2⟩ := md2_rep_update hc data
    exact ⟨_, by simp only [hash_update]; rw [h1]; rfl, .md2 _ _ h2⟩
  | md5sha1 c _ hc hc2 =>
    obtain ⟨c', h1, h2⟩ := md_rep_update okMd5 hc data hd
    obtain ⟨c2', h3, h4⟩ := md_rep_update okSha1 hc2 data hd
    exact ⟨_, by simp only [hash_update, md5sha1_update]; rw [h1, C.ok_bind, h3]; rfl,
      .md5sha1 ⟨c', c2'⟩ _ h2 h4⟩
  | md4 c _ hc =>
    obtain ⟨c', h1, h2⟩ := md_rep_update okMd4 hc data hd
    exact ⟨_, by simp only [hash_update]; rw [h1]; rfl, .md4 _ _ h2⟩
  | md5 c _ hc =>
    obtain ⟨c', h1, h2⟩ := md_rep_update okMd5 hc data hd
    exact ⟨_, by simp only [hash_update]; rw [h1]; rfl, .md5 _ _ h2⟩
  | ripemd160 c _ hc =>
    obtain ⟨c', h1, h2⟩ := md_rep_update okRmd hc data hd
    exact ⟨_, by simp only [hash_update]; rw [h1]; rfl, .ripemd160 _ _ h2⟩
  | sha1 c _ hc =>
    obtain ⟨c', h1, h2⟩ := md_rep_update okSha1 hc data hd
    exact ⟨_, by simp only [hash_update]; rw [h1]; rfl, .sha1 _ _ h2⟩
  | sha256 c _ hc =>
    obtain ⟨c', h1, h2⟩ := md_rep_update okSha256 hc data hd
    exact ⟨_, by simp only [hash_update]; rw [h1]; rfl, .sha256 _ _ h2⟩
  | sha224 c _ hc =>
    obtain ⟨c', h1, h2⟩ := md_rep_update okSha256 hc data hd
    exact ⟨_, by simp only [hash_update]; rw [h1]; rfl, .sha224 _ _ h2⟩
  | sha512 c _ hc =>
    obtain ⟨c', h1, h2⟩ := md_rep_update ok512 hc data hd
    exact ⟨_, by simp only [hash_update]; rw [h1]; rfl, .sha512 _ _ h2⟩
  | sha384 c _ hc =>
    obtain ⟨c', h1, h2⟩ := md_rep_update ok512 hc data hd
    exact ⟨_, by simp only [hash_update]; rw [h1]; rfl, .sha384 _ _ h2⟩
  | whirlpool c _ hc =>
    obtain ⟨c', h1, h2⟩ := md_rep_update ok4 hc data hd
    exact ⟨_, by simp only [hash_update]; rw [h1]; rfl, .whirlpool _ _ h2⟩
  | hash160 c _ hc =>
    obtain ⟨c', h1, h2⟩ := md_rep_update okSha256 hc data hd
    exact ⟨_, by simp only [hash_update]; rw [h1]; rfl, .hash160 _ _ h2⟩
  | hash256 c _ hc =>
    obtain ⟨c', h1, h2⟩ := md_rep_update okSha256 hc data hd
    exact ⟨_, by simp only [hash_update]; rw [h1]; rfl, .hash256 _ _ h2⟩

theorem rep_final {t : HashId} {h : HashCtx} {m : List Byte} (hr : HashRep t h m) (junk : Nat → Byte)
    (len : Nat) (hl : t = .SHAKE128 ∨ t = .SHAKE256 → len ≤ 200) :
    hash_final junk h len = .ok (Spec.hash t len m) := by
  cases hr with
  | none => rfl
  | blake2b _ len c _ ht hc =>
    have h1 : len ≤ 64 → blake2_final blake2bAlg c = .ok (Spec.blake2b len [] m) := fun hle =>
      blake2b_fin (key := []) hle hc
    simp only [List.mem_cons, List.not_mem_nil, or_false, Prod.mk.injEq] at ht
    rcases ht with ⟨rfl, rfl⟩ | ⟨rfl, rfl⟩ | ⟨rfl, rfl⟩ | ⟨rfl, rfl⟩ <;> exact h1 (by decide)
  | blake2s _ len c _ ht hc =>
    have h1 : len ≤ 32 → blake2_final blake2sAlg c = .ok (Spec.blake2s len [] m) := fun hle =>
      blake2s_fin (key := []) hle hc
    simp only [List.mem_cons, List.not_mem_nil, or_false, Prod.mk.injEq] at ht
    rcases ht with ⟨rfl, rfl⟩ | ⟨rfl, rfl⟩ | ⟨rfl, rfl⟩ | ⟨rfl, rfl⟩ <;> exact h1 (by decide)
  | keccak _ bs c _ ht hc =>
    simp only [List.mem_cons, List.not_mem_nil, or_false, Prod.mk.injEq] at ht
    rcases ht with ⟨rfl, rfl⟩ | ⟨rfl, rfl⟩ | ⟨rfl, rfl⟩ | ⟨rfl, rfl⟩ | ⟨rfl, rfl⟩ | ⟨rfl, rfl⟩ | ⟨rfl, rfl⟩ | ⟨rfl, rfl⟩ | ⟨rfl, rfl⟩ | ⟨rfl, rfl⟩
    · exact kec_final hc 0x01 0 (by decide)
    · exact kec_final hc 0x01 0 (by decide)
    · exact kec_final hc 0x01 0 (by decide)
    · exact kec_final hc 0x01 0 (by decide)
    · exact kec_final hc 0x06 0 (by decide)
    · exact kec_final hc 0x06 0 (by decide)
    · exact kec_final hc 0x06 0 (by decide)
    · exact kec_final hc 0x06 0 (by decide)
    · exact kec_final hc 0x1f len (hl (by decide))
    · exact kec_final hc 0x1f len (hl (by decide))
  | gost94 c _ hc => exact gost_rep_final hc
  | md2 c _ hc => exact md2_rep_final hc
  | md5sha1 c _ hc hc2 =>
    simp only [hash_final, md5sha1_final]
    rw [md5_fin hc, C.ok_bind, sha1_fin hc2]
    rfl
  | hash160 c _ hc => exact hash160_fin junk hc
  | hash256 c _ hc => exact hash256_fin junk hc
  | md4 c _ hc => exact md4_fin hc
  | md5 c _ hc => exact md5_fin hc
  | ripemd160 c _ hc => exact ripemd160_fin hc
  | sha1 c _ hc => exact sha1_fin hc
  | sha256 c _ hc => exact sha256_fin hc
  | sha224 c _ hc => exact sha224_fin hc
  | sha512 c _ hc => exact sha512_fin hc
  | sha384 c _ hc => exact sha384_fin hc
  | whirlpool c _ hc => exact whirlpool_fin hc

theorem rep_updates {t : HashId} : ∀ (chunks : List (List Byte)) {h : HashCtx} {m : List Byte},
    HashRep t h m → (∀ d ∈ chunks, d.length < 2 ^ 64) →
    ∃ h', updates hash_update h chunks = .ok h' ∧ HashRep t h' (m ++ chunks.flatten)
  | [], h, m, hr, _ => ⟨h, rfl, by simpa using hr⟩
  | d :: ds, h, m, hr, hd => by
    obtain ⟨h1, e1, r1⟩ := rep_update hr d (hd d (by simp))
    obtain ⟨h2, e2, r2⟩ := rep_updates ds r1 (fun x hx => hd x (by simp [hx]))
    refine ⟨h2, ?_, by simpa using r2⟩
    rw [updates, e1, C.ok_bind, e2]

end Torsion.Hsh
