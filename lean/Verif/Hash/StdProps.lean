import Verif.Hash.StdUse
import Verif.Hash.StdPrimes
import Verif.Hash.RepLemmas

/-!
# The compression functions are those of the standards

The right-hand sides are those of Verif/Hash/StdSpec.lean, written after the standards; the constants
that are digits of roots are characterised as such.
-/
namespace Torsion
open Spec Spec.Std

/-- C83. MD4, RFC 1320. -/
theorem md4_compression (h : Vector (BitVec 32) 4) (b : Vector Byte 64) :
    md4_transform h b = md4Compress h b.toList := Cmp.md4_eq h b

/-- C83. MD5, RFC 1321. -/
theorem md5_compression (h : Vector (BitVec 32) 4) (b : Vector Byte 64) :
    md5_transform h b = md5Compress h b.toList := Cmp.md5_eq h b

/-- C83. RIPEMD-160. -/
theorem ripemd160_compression (h : Vector (BitVec 32) 5) (b : Vector Byte 64) :
    ripemd160_transform h b = ripemd160Compress h b.toList := Cmp.ripemd160_eq h b

/-- C83. SHA-1, FIPS 180-4. -/
theorem sha1_compression (h : Vector (BitVec 32) 5) (b : Vector Byte 64) :
    sha1_transform h b = sha1Compress h b.toList := Cmp.sha1_eq h b

/-- C83. SHA-224 and SHA-256, FIPS 180-4. -/
theorem sha256_compression (h : Vector (BitVec 32) 8) (b : Vector Byte 64) :
    sha256_transform h b = sha256Compress h b.toList := Cmp.sha256_eq h b

/-- C83. SHA-384 and SHA-512, FIPS 180-4. -/
theorem sha512_compression (h : Vector (BitVec 64) 8) (b : Vector Byte 128) :
    sha512_transform h b = sha512Compress h b.toList := Cmp.sha512_eq h b

/-- C83. BLAKE2b, RFC 7693. -/
theorem blake2b_compression (h : Vector (BitVec 64) 8) (t0 t1 : BitVec 64) (b : Vector Byte 128)
    (f : BitVec 64) : blake2b_compress h t0 t1 b f = blake2bF h t0 t1 b.toList f :=
  Cmp.blake2b_eq h t0 t1 b f

/-- C83. BLAKE2s, RFC 7693. -/
theorem blake2s_compression (h : Vector (BitVec 32) 8) (t0 t1 : BitVec 32) (b : Vector Byte 64)
    (f : BitVec 32) : blake2s_compress h t0 t1 b f = blake2sF h t0 t1 b.toList f :=
  Cmp.blake2s_eq h t0 t1 b f

/-- C83. Keccak-f[1600], FIPS 202. -/
theorem keccak_permutation (A : Vector (BitVec 64) 25) (x y : Fin 5) :
    kLanes (keccak_compress A) x y = keccakF (kLanes A) x y := by
  rw [Cmp.keccak_eq]
  have hx := x.2
  have hy := y.2
  simp only [kLanes, keccakPerm, Vector.getElem_ofFn]
  congr 1
  · exact Fin.ext (by show (5 * y.val + x.val) % 5 = x.val; omega)
  · exact Fin.ext (by show (5 * y.val + x.val) / 5 = y.val; omega)

/-- C83. MD2, RFC 1319: one block through state and checksum. -/
theorem md2_compression (s : Vector Byte 16 × Vector Byte 16) (b : Vector Byte 16) :
    md2_transform s b = md2Step s b := Cmp.md2_eq s b

/-- C83. Whirlpool, ISO/IEC 10118-3. -/
theorem whirlpool_compression (h : Vector (BitVec 64) 8) (b : Vector Byte 64) :
    whirlpool_transform h b = whirlpoolCompress h b.toList := Cmp.whirlpool_eq h b

/-- C83. GOST R 34.11-94. -/
theorem gost94_compression (h m : Vector Byte 32) : gost94_compress h m = gost94Compress h m :=
  Cmp.gost_eq h m

/-- The test vector of FIPS 180-4 for the message "abc". -/
example : Spec.sha256 [0x61, 0x62, 0x63] =
    [0xba, 0x78, 0x16, 0xbf, 0x8f, 0x01, 0xcf, 0xea, 0x41, 0x41, 0x40, 0xde, 0x5d, 0xae, 0x22, 0x23,
     0xb0, 0x03, 0x61, 0xa3, 0x96, 0x17, 0x7a, 0x9c, 0xb4, 0x10, 0xff, 0x61, 0xf2, 0x00, 0x15, 0xad] := by
  rw [Hsh.sha256_model]
  set_option maxRecDepth 100000 in decide +kernel

/-! ## The constants -/

/-- C83. The round constants of SHA-512 are the cube roots of the first eighty primes. -/
theorem sha512_constants (i : Fin 80) : IsCbrtFrac64 sha512K[i].toNat (Nat.nth Nat.Prime i) := by
  rw [← Cmp.primes_nth]
  revert i
  exact Cmp.cbrts_ok

/-- C83. The initial value of SHA-512 (and BLAKE2b) are the square roots of the first eight primes, that
of SHA-384 those of the next eight. -/
theorem sha512_initial (i : Fin 8) :
    IsSqrtFrac64 blake2bIV[i].toNat (Nat.nth Nat.Prime i) ∧
    IsSqrtFrac64 sha384IV[i].toNat (Nat.nth Nat.Prime (8 + i)) := by
  have h1 := Cmp.primes_nth ⟨i, by omega⟩
  have h2 := Cmp.primes_nth ⟨8 + i, by omega⟩
  simp only at h1 h2
  rw [← h1, ← h2]
  exact Cmp.sqrts_ok i

/-- C83. The constants of MD4, SHA-1 and RIPEMD-160 are square and cube roots. -/
theorem root_constants :
    (∀ t, IsSqrt30 (md4K t).toNat (#v[0, 2, 3] : Vector Nat 3)[t.val / 16]) ∧
    (∀ t, IsSqrt30 (sha1K t).toNat (#v[2, 3, 5, 10] : Vector Nat 4)[t.val / 20]) ∧
    (∀ t, IsSqrt30 (rmdK false t).toNat (#v[0, 2, 3, 5, 7] : Vector Nat 5)[t.val / 16]) ∧
    (∀ t, IsCbrt30 (rmdK true t).toNat (#v[2, 3, 5, 7, 0] : Vector Nat 5)[t.val / 16]) := by
  refine ⟨?_, ?_, ?_, ?_⟩
  · unfold IsSqrt30; decide +kernel
  · unfold IsSqrt30; decide +kernel
  · unfold IsSqrt30; decide +kernel
  · unfold IsCbrt30; decide +kernel

end Torsion
