import Verif.Hash.Spec
import Verif.Hash.StdGost

/-!
# The compression functions of the specification are the modelled ones
-/
namespace Torsion.Cmp
open Spec Spec.Std

theorem md4_fn : md4Fn = md4_transform := funext fun h => funext fun b => (md4_eq h b).symm
theorem md5_fn : md5Fn = md5_transform := funext fun h => funext fun b => (md5_eq h b).symm
theorem ripemd160_fn : ripemd160Fn = ripemd160_transform :=
  funext fun h => funext fun b => (ripemd160_eq h b).symm
theorem sha1_fn : sha1Fn = sha1_transform := funext fun h => funext fun b => (sha1_eq h b).symm
theorem sha256_fn : sha256Fn = sha256_transform := funext fun h => funext fun b => (sha256_eq h b).symm
theorem sha512_fn : sha512Fn = sha512_transform := funext fun h => funext fun b => (sha512_eq h b).symm
theorem whirlpool_fn : whirlpoolFn = whirlpool_transform :=
  funext fun h => funext fun b => (whirlpool_eq h b).symm
theorem blake2b_fn : blake2bFn = blake2b_compress :=
  funext fun h => funext fun t0 => funext fun t1 => funext fun b => funext fun f =>
    (blake2b_eq h t0 t1 b f).symm
theorem blake2s_fn : blake2sFn = blake2s_compress :=
  funext fun h => funext fun t0 => funext fun t1 => funext fun b => funext fun f =>
    (blake2s_eq h t0 t1 b f).symm
theorem keccak_fn : keccakPerm = keccak_compress := funext fun A => (keccak_eq A).symm
theorem gost94_fn : gost94Compress = gost94_compress := funext fun h => funext fun b => (gost_eq h b).symm
theorem md2_fn : md2Step = md2_transform := funext fun h => funext fun b => (md2_eq h b).symm
theorem blake2b_iv_eq : blake2bIV = blake2b_iv := rfl
theorem blake2s_iv_eq : blake2sIV = blake2s_iv := by decide +kernel

end Torsion.Cmp
