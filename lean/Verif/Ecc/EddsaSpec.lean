import Verif.Ecc.EdMulSpec
import Verif.Ecc.EcdhSpec
import Verif.Ecc.SchnorrSpec
import Verif.Hash.Spec

/-!
# Independent specification of EdDSA

RFC 8032 over the group `EPt a d` of the curve: `G` is the generator, `n` its order, `t` the hash, and `dom` what is hashed before
everything else.
-/
namespace Torsion.Spec

/-- The bytes of a point: the bits of the prime and one for the sign, in whole bytes. -/
def edLen (fe : FieldCode) : Nat := fe.p.size / 8 + 1

section
variable {fe : FieldCode} [Fact fe.p.Prime] {a d : ZMod fe.p}

/-- A point as bytes: the ordinate in little-endian order, and the parity of the abscissa in the highest bit. -/
def edBytes (P : EPt a d) : List Byte := leBytes (edLen fe) (P.y.val + 2 ^ (8 * edLen fe - 1) * (P.x.val % 2))

/-- The parity of a coordinate is the wanted one, if one is wanted. -/
def CoordSign (v : ZMod fe.p) : Option Bool → Prop
  | none => True
  | some s => (v.val % 2 = 1 ↔ s = true)

end

/-- The separation of the domains: the flag says whether the message is a digest, the context has at most 255 bytes. Nothing is hashed for
Ed25519 when neither is there. -/
def edDom (d : EdwardsDef) (ph : Int) (ctx : List Byte) : List Byte :=
  if d.context = false ∧ ph = -1 ∧ ctx = [] then []
  else d.pfx ++ [if ph > 0 then 1 else 0, BitVec.ofNat 8 (ctx.take 255).length] ++ ctx.take 255

/-- The hash of a private key. -/
def edExpand (d : EdwardsDef) (priv : List Byte) : List Byte := hash d.hash (2 * edLen d.fe) priv

/-- The bytes of a scalar. -/
def edScLen (d : EdwardsDef) : Nat := ((beVal d.sc.n).size + 7) / 8

/-- The secret scalar. -/
def edSecret (d : EdwardsDef) (priv : List Byte) : Nat := clamp d.fe.p.size d.h (leVal ((edExpand d priv).take (edScLen d)))

/-- The second half of the hash, from which the nonces are derived. -/
def edPrefix (d : EdwardsDef) (priv : List Byte) : List Byte := (edExpand d priv).drop (edLen d.fe)

/-- The nonce prefix of a key with a tweak. -/
def edTweakPrefix (d : EdwardsDef) (pre tweak : List Byte) : List Byte := (hash d.hash (edLen d.fe) (pre ++ tweak)).take (edLen d.fe)

/-- A hash as a scalar. -/
def edHashNum (d : EdwardsDef) (m : List Byte) : Nat := leVal (hash d.hash (2 * edLen d.fe) m) % beVal d.sc.n

section
variable (e : EdwardsDef) [Fact e.fe.p.Prime] {a d : ZMod e.fe.p}

/-- `(R, s)` as bytes. -/
def edSig (R : EPt a d) (s : Nat) : List Byte := edBytes R ++ leBytes (edLen e.fe) s

variable [EdGood a d] (G : EPt a d)

/-- The signature with the secret scalar `k` and the nonce prefix `pre`. -/
def edSigned (dom : List Byte) (k : Nat) (pre msg : List Byte) : List Byte :=
  let r := edHashNum e (dom ++ pre ++ msg)
  edSig e (r • G) ((r + edHashNum e (dom ++ edBytes (r • G) ++ edBytes (k • G) ++ msg) * k) % beVal e.sc.n)

/-- A well-formed signature under a well-formed key, and the defect of its equation. -/
def EddsaDefect (dom msg sig pub : List Byte) (D : EPt a d) : Prop :=
  ∃ (A R : EPt a d) (s : Nat), pub = edBytes A ∧ s < beVal e.sc.n ∧ sig = edSig e R s ∧
    D = s • G - (R + edHashNum e (dom ++ edBytes R ++ edBytes A ++ msg) • A)

/-- A valid signature: `s G = R + e A`. -/
def EddsaValid (dom msg sig pub : List Byte) : Prop :=
  ∃ (A R : EPt a d) (s : Nat), pub = edBytes A ∧ s < beVal e.sc.n ∧ sig = edSig e R s ∧
    s • G = R + edHashNum e (dom ++ edBytes R ++ edBytes A ++ msg) • A

/-- A valid signature in the weaker sense: `h s G = h R + h e A`. -/
def EddsaValidH (dom msg sig pub : List Byte) : Prop :=
  ∃ (A R : EPt a d) (s : Nat), pub = edBytes A ∧ s < beVal e.sc.n ∧ sig = edSig e R s ∧
    e.h • (s • G) = e.h • R + (e.h * edHashNum e (dom ++ edBytes R ++ edBytes A ++ msg)) • A

end

end Torsion.Spec
