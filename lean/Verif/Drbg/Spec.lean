import Verif.Kdf.Spec

/-!
# Independent specification of the three generators of NIST SP 800-90A

Over an arbitrary keyed hash `mac key msg`, hash `H` and block cipher `E key block`.
-/
namespace Torsion.Spec

/-! ## HMAC_DRBG, 10.1.2 -/

/-- HMAC_DRBG_Update on (Key, V). -/
def hmacUpdate (mac : List Byte → List Byte → List Byte) (data : List Byte) (s : List Byte × List Byte) :
    List Byte × List Byte :=
  let K := mac s.1 (s.2 ++ [0x00] ++ data)
  let V := mac K s.2
  if data = [] then (K, V)
  else
    let K := mac K (V ++ [0x01] ++ data)
    (K, mac K V)

/-- Instantiation: Key = 00...00, V = 01...01. -/
def hmacInit (mac : List Byte → List Byte → List Byte) (hs : Nat) (seed : List Byte) : List Byte × List Byte :=
  hmacUpdate mac seed (List.replicate hs 0x00, List.replicate hs 0x01)

/-- Generation: V is replaced by HMAC(Key, V) for every block of output. -/
def hmacGenerate (mac : List Byte → List Byte → List Byte) (hs : Nat) (s : List Byte × List Byte) (len : Nat)
    (add : List Byte) : List Byte × (List Byte × List Byte) :=
  let s := if add = [] then s else hmacUpdate mac add s
  let V := fun i => (mac s.1)^[i] s.2
  (cut (fun i => V (i + 1)) hs len, hmacUpdate mac add (s.1, V ((len + hs - 1) / hs)))

/-! ## Hash_DRBG, 10.1.1

V and C are numbers below 256^n where n = seedlen / 8. -/

/-- Hash_df (10.3.1): `n` bytes. -/
def hashDf (H : List Byte → List Byte) (hs n : Nat) (input : List Byte) : List Byte :=
  cut (fun i => H (bigBytes 1 (i + 1) ++ bigBytes 4 (8 * n) ++ input)) hs n

/-- Working state: V, C, reseed counter. -/
structure HashDrbgState where
  V : Nat
  C : Nat
  ctr : Nat
deriving DecidableEq

/-- Instantiation, and the end of reseeding: V = Hash_df(seed material), C = Hash_df(00 || V). -/
def hashInit (H : List Byte → List Byte) (hs n : Nat) (seed : List Byte) : HashDrbgState :=
  let V := hashDf H hs n seed
  ⟨beVal V, beVal (hashDf H hs n (0x00 :: V)), 1⟩

/-- Reseeding: the seed material is 01 || V || entropy. -/
def hashReseed (H : List Byte → List Byte) (hs n : Nat) (s : HashDrbgState) (seed : List Byte) : HashDrbgState :=
  hashInit H hs n (0x01 :: (bigBytes n s.V ++ seed))

/-- Generation: V + H(02 || V || add), then Hashgen, then V + H(03 || V) + C + counter. The counter is kept
modulo 2^64. -/
def hashGenerate (H : List Byte → List Byte) (hs n : Nat) (s : HashDrbgState) (len : Nat) (add : List Byte) :
    List Byte × HashDrbgState :=
  let V := if add = [] then s.V else (s.V + beVal (H (0x02 :: (bigBytes n s.V ++ add)))) % 256 ^ n
  (cut (fun i => H (bigBytes n ((V + i) % 256 ^ n))) hs len,
    ⟨(V + beVal (H (0x03 :: bigBytes n V)) + s.C + s.ctr) % 256 ^ n, s.C, (s.ctr + 1) % 2 ^ 64⟩)

/-! ## CTR_DRBG, 10.2.1, for a block of 16 bytes and keys of `kl` bytes

V is a number below 2^128. -/

/-- `x` cut or filled with zeros to `n` bytes. -/
def fitTo (n : Nat) (x : List Byte) : List Byte := x.take n ++ List.replicate (n - x.length) 0

/-- Blocks E(Key, V + 1), E(Key, V + 2), .... -/
def ctrBlocks (E : List Byte → List Byte → List Byte) (s : List Byte × Nat) (i : Nat) : List Byte :=
  E s.1 (bigBytes 16 ((s.2 + 1 + i) % 2 ^ 128))

/-- CTR_DRBG_Update. -/
def ctrUpdate (E : List Byte → List Byte → List Byte) (kl : Nat) (data : List Byte) (s : List Byte × Nat) :
    List Byte × Nat :=
  let t := xorBytes (cut (ctrBlocks E s) 16 (kl + 16)) (fitTo (kl + 16) data)
  (t.take kl, beVal (t.drop kl))

/-- BCC (10.3.3): CBC-MAC over the 16-byte blocks of `data`, counted by the first argument. -/
def bcc (E : List Byte → List Byte → List Byte) (K data : List Byte) : Nat → List Byte
  | 0 => List.replicate 16 0
  | n + 1 => E K (xorBytes (bcc E K data n) ((data.drop (16 * n)).take 16))

/-- Block_Cipher_df (10.3.2): `kl + 16` bytes. -/
def ctrDf (E : List Byte → List Byte → List Byte) (kl : Nat) (input : List Byte) : List Byte :=
  let S := bigBytes 4 input.length ++ bigBytes 4 (kl + 16) ++ input ++ [0x80]
  let S := S ++ List.replicate ((16 - S.length % 16) % 16) 0
  let K := (List.range kl).map (BitVec.ofNat 8)
  let t := cut (fun i => bcc E K (bigBytes 4 i ++ List.replicate 12 0 ++ S) (1 + S.length / 16)) 16 (kl + 16)
  cut (fun i => (E (t.take kl))^[i + 1] (t.drop kl)) 16 (kl + 16)

/-- Seed material: with a derivation function both inputs (at most 512 bytes of each) go through it, without
one they are cut or filled to `kl + 16` bytes and combined by XOR. -/
def ctrSeed (E : List Byte → List Byte → List Byte) (kl : Nat) (df : Bool) (a b : List Byte) : List Byte :=
  if df then ctrDf E kl (a.take 512 ++ b.take 512) else xorBytes (fitTo (kl + 16) a) (fitTo (kl + 16) b)

/-- Instantiation. -/
def ctrInit (E : List Byte → List Byte → List Byte) (kl : Nat) (df : Bool) (nonce pers : List Byte) :
    List Byte × Nat :=
  ctrUpdate E kl (ctrSeed E kl df nonce pers) (List.replicate kl 0, 0)

/-- Reseeding. -/
def ctrReseed (E : List Byte → List Byte → List Byte) (kl : Nat) (df : Bool) (s : List Byte × Nat)
    (nonce add : List Byte) : List Byte × Nat :=
  ctrUpdate E kl (ctrSeed E kl df nonce add) s

/-- Generation. -/
def ctrGenerate (E : List Byte → List Byte → List Byte) (kl : Nat) (df : Bool) (s : List Byte × Nat) (len : Nat)
    (add : List Byte) : List Byte × (List Byte × Nat) :=
  let data := if add = [] then [] else if df then ctrDf E kl (add.take 512) else add
  let s := if add = [] then s else ctrUpdate E kl data s
  (cut (ctrBlocks E s) 16 len, ctrUpdate E kl data (s.1, (s.2 + (len + 15) / 16) % 2 ^ 128))

/-! ## Histories of calls -/

/-- A call on an instantiated HMAC- or Hash-DRBG. -/
inductive DrbgCall where
  | reseed (seed : List Byte)
  | generate (len : Nat) (add : List Byte)

/-- The inputs of a call are shorter than 2^64 bytes. -/
def DrbgCall.small : DrbgCall → Prop
  | .reseed seed => seed.length < 2 ^ 64
  | .generate _ add => add.length < 2 ^ 64

/-- The outputs of the generate calls of a history. -/
def drbgRun {S : Type} (reseed : S → List Byte → S) (gen : S → Nat → List Byte → List Byte × S) :
    S → List DrbgCall → List (List Byte)
  | _, [] => []
  | s, .reseed seed :: cs => drbgRun reseed gen (reseed s seed) cs
  | s, .generate len add :: cs => (gen s len add).1 :: drbgRun reseed gen (gen s len add).2 cs

/-- A call on an instantiated CTR-DRBG. -/
inductive CtrCall where
  | reseed (nonce add : List Byte)
  | generate (len : Nat) (add : List Byte)

/-- The outputs of the generate calls of a history. -/
def ctrRun (E : List Byte → List Byte → List Byte) (kl : Nat) (df : Bool) :
    List Byte × Nat → List CtrCall → List (List Byte)
  | _, [] => []
  | s, .reseed nonce add :: cs => ctrRun E kl df (ctrReseed E kl df s nonce add) cs
  | s, .generate len add :: cs =>
    (ctrGenerate E kl df s len add).1 :: ctrRun E kl df (ctrGenerate E kl df s len add).2 cs

end Torsion.Spec
