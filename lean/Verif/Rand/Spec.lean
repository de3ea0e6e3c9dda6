import Verif.Rand.Model
import Verif.Stream.Spec
import Verif.Hash.Spec

/-!
# Specification of the global generator

The generator as a stream of words: a key, a nonce and the queue of words still to be handed out.
-/
namespace Torsion.Spec

/-- The abstract state of a seeded generator: `left` is the queue of words not yet handed out. -/
structure RngSt where
  key : List (BitVec 32)
  nonce : BitVec 64
  left : List (BitVec 32)
  hw : Bool

/-- The ChaCha20 key stream of a key and a nonce, from block 0. -/
def rngStream (key : List (BitVec 32)) (nonce : BitVec 64) : Nat → Byte :=
  chachaStream (chachaInit (key.flatMap fun w => leBytes 4 w.toNat) (leBytes 8 nonce.toNat) 0)

/-- The first `n` little-endian words of a byte stream. -/
def wordsOf (n : Nat) (f : Nat → Byte) : List (BitVec 32) :=
  (List.range n).map fun i =>
    BitVec.ofNat 32 (leVal [f (4 * i), f (4 * i + 1), f (4 * i + 2), f (4 * i + 3)])

/-- XOR into one word of the key. -/
def mix (key : List (BitVec 32)) (i : Nat) (x : BitVec 32) : List (BitVec 32) :=
  key.modify i (· ^^^ x)

/-- `n` bytes from the current key stream; then the key is replaced: the size and a hardware word are
mixed in, the nonce is increased and the key is XORed with its own key stream. -/
def rngBytes (hw : BitVec 32) (s : RngSt) (n : Nat) : List Byte × RngSt :=
  let key := mix s.key 0 (BitVec.ofNat 32 n)
  let key := if s.hw then mix key 7 hw else key
  ((List.range n).map (rngStream s.key s.nonce),
   { s with key := List.zipWith (· ^^^ ·) key (wordsOf 8 (rngStream key (s.nonce + 1))),
            nonce := s.nonce + 1 })

/-- A new queue of 120 words from 512 bytes of key stream; the last 8 words go into the key. -/
def refill (hw : BitVec 32) (s : RngSt) : RngSt :=
  let ks := wordsOf 128 (rngStream s.key s.nonce)
  let key := if s.hw then mix s.key 7 hw else s.key
  { s with key := List.zipWith (· ^^^ ·) key (ks.drop 120), nonce := s.nonce + 1,
           left := (ks.take 120).reverse }

/-- The next word of the queue, which is refilled when empty. -/
def rngWord (hw : BitVec 32) (s : RngSt) : BitVec 32 × RngSt :=
  let s := if s.left = [] then refill hw s else s
  (s.left.headD 0, { s with left := s.left.tail })

/-- Draw words until one is below the largest multiple of `max` that fits into 32 bits; its remainder
modulo `max` is the result. `none`: no draw among the first `n` was accepted. -/
def rngBelow (hw : Nat → BitVec 32) (max : BitVec 32) : Nat → Nat → RngSt → Option (BitVec 32) × RngSt
  | 0, _, s => (none, s)
  | n + 1, i, s =>
    let (x, s) := rngWord (hw i) s
    if x.toNat < 2 ^ 32 / max.toNat * max.toNat then (some (BitVec.ofNat 32 (x.toNat % max.toNat)), s)
    else rngBelow hw max n (i + 1) s

/-- The seed material: the system source (mandatory where there is one) and the hardware source
(mandatory where there is no system source). -/
def seedOf (env : Env) : Option (List Byte) :=
  if env.hasSysrand then
    env.sysrand.map fun s => s.toList ++ (env.hwrand.map Vector.toList).getD []
  else env.hwrand.map Vector.toList

/-- A freshly seeded generator: the key is the SHA-256 digest of the seed material. -/
def freshRng (env : Env) : Option RngSt :=
  (seedOf env).map fun m =>
    ⟨wordsOf 8 fun i => (sha256 m).getD i 0, 0, [], env.hasRdrand⟩

/-- The generator a call works on: the stored one if it belongs to the current process, otherwise a
fresh one. -/
def useRng (env : Env) (st : Option (Int × RngSt)) : Option RngSt :=
  match st with
  | some (pid, s) => if pid = env.pid then some s else freshRng env
  | none => freshRng env

/-- The calls of the public interface; `uniform` is cut off after `fuel` draws. -/
inductive RCall where
  | bytes (n : Nat)
  | word
  | uniform (max : BitVec 32) (fuel : Nat)

/-- What a call returns: success and the output (`none`: cut off). -/
inductive RVal where
  | bytes (ok : Bool) (b : List Byte)
  | word (ok : Bool) (x : BitVec 32)
  | num (ok : Bool) (x : Option (BitVec 32))
deriving DecidableEq

/-- One call. Without entropy the output is zero and nothing is stored. -/
def callSpec (env : Env) (st : Option (Int × RngSt)) (c : RCall) : RVal × Option (Int × RngSt) :=
  match useRng env st, c with
  | none, .bytes n => (.bytes false (List.replicate n 0), none)
  | none, .word => (.word false 0, none)
  | none, .uniform _ _ => (.num false (some 0), none)
  | some s, .bytes n => let (b, s) := rngBytes (env.rdrand32 0) s n; (.bytes true b, some (env.pid, s))
  | some s, .word => let (x, s) := rngWord (env.rdrand32 0) s; (.word true x, some (env.pid, s))
  | some s, .uniform max fuel =>
    if max.toNat ≤ 1 then (.num true (some 0), some (env.pid, s))
    else let (x, s) := rngBelow env.rdrand32 max fuel 0 s; (.num true x, some (env.pid, s))

/-- The outputs of a history of calls, each with the environment it meets. -/
def histSpec : Option (Int × RngSt) → List (Env × RCall) → List RVal × Option (Int × RngSt)
  | st, [] => ([], st)
  | st, (env, c) :: cs =>
    let (v, st) := callSpec env st c
    let (vs, st) := histSpec st cs
    (v :: vs, st)

/-- One call of the modelled code. -/
def callRng (env : Env) (rng : Rng) : RCall → C (RVal × Rng)
  | .bytes n => do let (ok, b, rng) ← torsion_getrandom env rng n; .ok (.bytes ok b, rng)
  | .word => do let (ok, x, rng) ← torsion_random env rng; .ok (.word ok x, rng)
  | .uniform max fuel => do
    let (ok, x, rng) ← torsion_uniform env fuel rng max
    .ok (.num ok x, rng)

/-- A history of calls of the modelled code. -/
def histRng : Rng → List (Env × RCall) → C (List RVal × Rng)
  | rng, [] => .ok ([], rng)
  | rng, (env, c) :: cs => do
    let (v, rng) ← callRng env rng c
    let (vs, rng) ← histRng rng cs
    .ok (v :: vs, rng)

/-- The generator stored in memory. -/
def absRng (rng : Rng) : Option (Int × RngSt) :=
  if rng.started then
    some (rng.pid, ⟨rng.key, rng.nonce, (rng.pool.take rng.pos).reverse, rng.rdrand⟩)
  else none

end Torsion.Spec
