import Verif.Mac.Spec

/-!
# Independent specification of ChaCha20-Poly1305 (RFC 7539 2.8) and NaCl secretbox
-/
namespace Torsion.Spec

/-- The first `n` bytes of a key stream. -/
def firstBytes (n : Nat) (ks : Nat → Byte) : List Byte := (List.range n).map ks

/-- The key stream of ChaCha20-Poly1305: initial counter 0. -/
def aeadStream (key iv : List Byte) : Nat → Byte := chachaStream (chachaInit key iv 0)

/-- RFC 7539 2.8: the one-time key is in block 0; the tag covers the padded additional data, the
padded ciphertext and the two lengths. -/
def aeadTag (key iv aad ct : List Byte) : List Byte :=
  poly1305 (firstBytes 32 (aeadStream key iv))
    (pad16 aad ++ pad16 ct ++ leBytes 8 aad.length ++ leBytes 8 ct.length)

/-- RFC 7539 2.8: encryption starts with block 1. -/
def aeadCrypt (key iv m : List Byte) : List Byte := xorStream (aeadStream key iv) 64 m

/-- The key stream of secretbox (XSalsa20 for a 24-byte nonce). -/
def boxStream (key nonce : List Byte) : Nat → Byte := salsaStream (salsaInit key nonce 0)

/-- The message XOR the key stream from byte 32 on. -/
def boxCrypt (key nonce m : List Byte) : List Byte := xorStream (boxStream key nonce) 32 m

/-- The tag: Poly1305 of the ciphertext with the first 32 bytes of key stream. -/
def boxTag (key nonce ct : List Byte) : List Byte :=
  poly1305 (firstBytes 32 (boxStream key nonce)) ct

end Torsion.Spec
