import Verif.Cipher.CStream
import Verif.Cipher.Spec

/-!
# Specification of the cipher stream API
-/
namespace Torsion.Spec

/-- The block modes on whole blocks. -/
def blockwise {n : Nat} (E : Vector Byte n → Vector Byte n) (mode : ModeId) (v : Vector Byte n)
    (bl : List (Vector Byte n)) : List (Vector Byte n) :=
  match mode with
  | .cbc | .cts => cbcEnc E v bl
  | .xts => xtsBlocks E v bl
  | _ => bl.map E

/-- `ct` is the ciphertext of the message `m`. `v` is the initial value (for XTS the encrypted
tweak), `pad` whether padding (ECB, CBC) or stealing (CTS, XTS) is on. Without it, and in raw mode,
only whole blocks have a ciphertext; with stealing only messages of at least a block. -/
def Encrypts {n : Nat} (E : Vector Byte n → Vector Byte n) (mode : ModeId) (pad : Bool) (v : Vector Byte n)
    (m ct : List Byte) : Prop :=
  match mode, pad with
  | .ecb, true | .cbc, true => ct = unblocks (blockwise E mode v (blocks n (pad7 n m)))
  | .cts, true => n ≤ m.length ∧ ct = ctsEnc E v m
  | .xts, true => n ≤ m.length ∧ ct = xtsEnc E v m
  | .raw, _ | .ecb, _ | .cbc, _ | .cts, _ | .xts, _ => n ∣ m.length ∧ ct = unblocks (blockwise E mode v (blocks n m))
  | .ctr, _ => ct = xorStream (ctrStream E v) 0 m
  | .ofb, _ => ct = xorStream (ofbStream E v) 0 m
  | .cfb, _ => Cfb E v m ct
  | _, _ => False

/-- The key and iv are accepted in the given mode and lead to the block cipher `c` and the initial
value `v`. XTS keys are two different keys of equal length, the second one for the tweak. -/
def Opens (t : CipherType) (mode : ModeId) (key iv : List Byte) (c : Cipher t.size)
    (v : Vector Byte t.size) : Prop :=
  match mode with
  | .raw | .ecb => t.init key = some c ∧ iv = [] ∧ v = Vector.replicate t.size 0
  | .xts => ∃ k1 k2 c2 w, key = k1 ++ k2 ∧ k1.length = k2.length ∧ k1 ≠ k2 ∧ t.init k1 = some c ∧
      t.init k2 = some c2 ∧ iv = w.toList ∧ v = c2.enc w
  | _ => t.init key = some c ∧ iv = v.toList

/-- One update, keeping the announced output only. -/
def streamUpdate {n : Nat} (same : Bool) (ctx : CipherStream n) (input : List Byte) :
    C (List Byte × CipherStream n) := do
  let r ← cipher_stream_update ctx same input
  .ok (r.1, r.2.2)

/-- A whole session: padding is switched on or off, then any number of updates, then the final
call. The result is the return value of the final call and all the output. -/
def session {n : Nat} (ctx : CipherStream n) (pad same : Bool) (chunks : List (List Byte)) :
    C (Bool × List Byte) := do
  let r ← calls (streamUpdate same) (cipher_stream_set_padding ctx pad).2 chunks
  let f ← cipher_stream_final r.2
  .ok (f.ret, r.1 ++ f.out)

/-- `CIPHER_MAX_UPDATE_SIZE`, the documented size of an output buffer for an update of `len`
bytes. -/
def maxUpdate (len : Nat) : Nat := ((len + 15) / 16 + 1) * 16

end Torsion.Spec
