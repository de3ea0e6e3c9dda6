import Verif.Ecc.EcdsaSpec
import Verif.Hash.Spec

/-!
# Independent specification of the Schnorr signatures

BIP 340, generalised to the other curves by taking the hash `xof`, and the older proposal with the square ordinate. Numbers are
private keys and nonces, `G` is the generator and `n` its order.
-/
namespace Torsion.Spec

/-- The bytes of an ASCII string. -/
def ascii (s : String) : List Byte := s.toList.map fun c => BitVec.ofNat 8 c.toNat

/-- A digest as a scalar: as many bytes as the order has, cut to the bits of the order, reduced. -/
def digestScalar (n : Nat) (d : List Byte) : Nat := beVal (d.take ((n.size + 7) / 8)) % 2 ^ n.size % n

/-- The digest of a tag, which fills half a block; it comes from SHAKE256 if the digest of `xof` has another length. -/
def tagDigest (xof : HashId) (tag : List Byte) : List Byte :=
  if hash_output_size xof = hash_block_size xof / 2 then hash xof (hash_output_size xof) tag
  else hash .SHAKE256 (hash_block_size xof / 2) tag

/-- The tagged hashes of BIP 340. -/
def taggedHash (xof : HashId) (len : Nat) (tag : String) (m : List Byte) : List Byte :=
  hash xof len (tagDigest xof (ascii tag) ++ tagDigest xof (ascii tag) ++ m)

/-- The hashes of the curves, long enough for the order. -/
structure XofOk (xof : HashId) (n : Nat) : Prop where
  mem : xof = .SHA256 ∨ xof = .SHA384 ∨ xof = .SHAKE256
  long : xof ≠ .SHAKE256 → (n.size + 7) / 8 ≤ hash_output_size xof
  short : (n.size + 7) / 8 ≤ 200

variable {fe : FieldCode} [Fact fe.p.Prime] {c : Curve (ZMod fe.p)}

/-- The bytes of the abscissa. -/
def xBytes (P : Pt c) : List Byte := bigBytes ((fe.p.size + 7) / 8) (absc P)

/-- A finite point with an even ordinate. -/
def EvenPt (P : Pt c) : Prop := P ≠ 0 ∧ ordin P % 2 = 0

/-- The public keys of BIP 340: `raw` is the abscissa of `P`, whose ordinate is even. -/
def XOnly (P : Pt c) (raw : List Byte) : Prop := EvenPt P ∧ raw = xBytes P

open Classical in
/-- `d` or `n - d`, whichever has a multiple of `G` with an even ordinate. -/
noncomputable def evenKey (G : Pt c) (n d : Nat) : Nat := if EvenPt (d • G) then d else n - d

/-- The challenge of BIP 340. -/
def bip340E (xof : HashId) (n : Nat) (r pub msg : List Byte) : Nat :=
  digestScalar n (taggedHash xof ((n.size + 7) / 8) "BIP0340/challenge" (r ++ pub ++ msg))

/-- The secret which goes into the nonce: the key, masked if there is auxiliary randomness. -/
def bip340Secret (xof : HashId) (n d : Nat) : Option (List Byte) → List Byte
  | none => bigBytes ((n.size + 7) / 8) d
  | some aux => List.zipWith (· ^^^ ·) (bigBytes ((n.size + 7) / 8) d)
      ((taggedHash xof ((n.size + 7) / 8) "BIP0340/aux" aux).take ((n.size + 7) / 8))

/-- The nonce of BIP 340. -/
def bip340Nonce (xof : HashId) (n d : Nat) (pub msg : List Byte) (aux : Option (List Byte)) : Nat :=
  digestScalar n (taggedHash xof ((n.size + 7) / 8) "BIP0340/nonce" (bip340Secret xof n d aux ++ pub ++ msg))

/-- `(R, s)` as bytes. -/
def schnorrSig (n : Nat) (R : Pt c) (s : Nat) : List Byte := xBytes R ++ bigBytes ((n.size + 7) / 8) s

/-- A valid signature of BIP 340. -/
def Bip340Valid (xof : HashId) (G : Pt c) (n : Nat) (msg sig pub : List Byte) : Prop :=
  ∃ (A R : Pt c) (s : Nat), XOnly A pub ∧ EvenPt R ∧ s < n ∧ sig = schnorrSig n R s ∧
    s • G = R + bip340E xof n (xBytes R) pub msg • A

/-- A well-formed signature under a well-formed key, and the defect of its equation, which is zero if it is valid. -/
def Bip340Defect (xof : HashId) (G : Pt c) (n : Nat) (msg sig pub : List Byte) (D : Pt c) : Prop :=
  ∃ (A R : Pt c) (s : Nat), XOnly A pub ∧ EvenPt R ∧ s < n ∧ sig = schnorrSig n R s ∧
    D = s • G - (R + bip340E xof n (xBytes R) pub msg • A)

/-- The signature of BIP 340 with the private key `d`, the nonce being `k`. -/
noncomputable def bip340Sig (xof : HashId) (G : Pt c) (n d k : Nat) (msg : List Byte) : List Byte :=
  schnorrSig n (k • G)
    ((evenKey G n k + bip340E xof n (xBytes (k • G)) (xBytes (d • G)) msg * evenKey G n d) % n)

/-- A finite point whose ordinate is a square. -/
def SquarePt (P : Pt c) : Prop := P ≠ 0 ∧ IsSquare (affine P).y

open Classical in
/-- `k` or `n - k`, whichever has a multiple of `G` with a square ordinate. -/
noncomputable def squareKey (G : Pt c) (n k : Nat) : Nat := if SquarePt (k • G) then k else n - k

/-- The challenge of the older scheme, with the compressed form of the key. -/
def schnorrE (xof : HashId) (n : Nat) (r pub msg : List Byte) : Nat :=
  digestScalar n (hash xof ((n.size + 7) / 8) (r ++ pub ++ msg))

/-- The nonce of the older scheme. -/
def schnorrNonce (xof : HashId) (n : Nat) (priv msg : List Byte) : Nat :=
  digestScalar n (hash xof ((n.size + 7) / 8) (priv ++ msg))

/-- A valid signature of the older scheme; the key may be in any of the encodings. -/
def SchnorrValid (xof : HashId) (G : Pt c) (n : Nat) (msg sig pub : List Byte) : Prop :=
  ∃ (A R : Pt c) (s : Nat), Sec1 A pub ∧ SquarePt R ∧ s < n ∧ sig = schnorrSig n R s ∧
    s • G = R + schnorrE xof n (xBytes R) (sec1Out A true) msg • A

/-- A well-formed signature under a well-formed key, and the defect of its equation, which is zero if it is valid. -/
def SchnorrDefect (xof : HashId) (G : Pt c) (n : Nat) (msg sig pub : List Byte) (D : Pt c) : Prop :=
  ∃ (A R : Pt c) (s : Nat), Sec1 A pub ∧ SquarePt R ∧ s < n ∧ sig = schnorrSig n R s ∧
    D = s • G - (R + schnorrE xof n (xBytes R) (sec1Out A true) msg • A)

/-- The signature of the older scheme with the private key `d`, the nonce being `k`. -/
noncomputable def schnorrSigned (xof : HashId) (G : Pt c) (n d k : Nat) (msg : List Byte) : List Byte :=
  schnorrSig n (k • G)
    ((squareKey G n k + schnorrE xof n (xBytes (k • G)) (sec1Out (d • G) true) msg * d) % n)

/-- A draw of a number between one and `n`: the generator is asked for whole limbs, the number is cut to the bits of `n`, and it
is drawn again if it is not in range. -/
inductive Draw {S : Type} (gen : S → Nat → List Byte × S) (n : Nat) : S → Nat → S → Prop
  | take {s a} : leVal (gen s ((n.size + 63) / 64 * 8)).1 % 2 ^ n.size = a → 0 < a → a < n →
      Draw gen n s a (gen s ((n.size + 63) / 64 * 8)).2
  | skip {s a s'} : ¬ (0 < leVal (gen s ((n.size + 63) / 64 * 8)).1 % 2 ^ n.size ∧
      leVal (gen s ((n.size + 63) / 64 * 8)).1 % 2 ^ n.size < n) →
      Draw gen n (gen s ((n.size + 63) / 64 * 8)).2 a s' → Draw gen n s a s'

/-- The coefficients of a batch, in chunks of `cap` of which `m` are done: the first of every chunk is one, the others are
drawn. -/
inductive Coeffs {S : Type} (gen : S → Nat → List Byte × S) (n cap : Nat) : Nat → S → List Nat → Prop
  | nil {m s} : Coeffs gen n cap m s []
  | first {s as} : Coeffs gen n cap (1 % cap) s as → Coeffs gen n cap 0 s (1 :: as)
  | next {m s a s' as} : 0 < m → Draw gen n s a s' → Coeffs gen n cap ((m + 1) % cap) s' as → Coeffs gen n cap m s (a :: as)

/-- The seed of a batch of messages, signatures and keys. -/
def batchSeed (ts : List (List Byte × List Byte × List Byte)) : List Byte :=
  sha256 (ts.flatMap fun t => sha256 t.1 ++ t.2.1 ++ t.2.2)

/-- The key in the seed of the older scheme: the compressed form, from the length and the last byte alone. -/
def quickKey (fe : FieldCode) (pub : List Byte) : List Byte :=
  if pub.length = (fe.p.size + 7) / 8 + 1 then pub
  else if pub.length = (fe.p.size + 7) / 8 * 2 + 1 then (0x02 ||| (pub.getLastD 0 &&& 1)) :: (pub.drop 1).take ((fe.p.size + 7) / 8)
  else List.replicate ((fe.p.size + 7) / 8 + 1) 0

/-- What goes into the seed of the older scheme. -/
def seedArgs (fe : FieldCode) (ts : List (List Byte × List Byte × List Byte)) : List (List Byte × List Byte × List Byte) :=
  ts.map fun t => (t.1, t.2.1, quickKey fe t.2.2)

/-- In every chunk of `cap` the combination of the points with the coefficients vanishes. -/
def ChunksVanish {M : Type} [AddCommMonoid M] (cap : Nat) (as : List Nat) (Ds : List M) : Prop :=
  ∀ q, (((List.zipWith (· • ·) as Ds).drop (q * cap)).take cap).sum = 0

end Torsion.Spec
