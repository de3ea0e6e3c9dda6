import Verif.Cipher.CStream

/-!
# C43: when the padding of a stream can be switched
-/
namespace Torsion

/-- While a stream that decrypts or steals ciphertext holds bytes back, in either of its buffers, its padding cannot be switched: the call
reports failure and the session goes on as it was. -/
theorem padding_kept_within {n : Nat} {ctx : CipherStream n} (h : ctx.encrypt = false ∨ ctx.mode.id = .cts ∨ ctx.mode.id = .xts)
    (hb : ctx.last_size ≠ 0 ∨ ctx.block_pos ≠ 0) (padding : Bool) : cipher_stream_set_padding ctx padding = (false, ctx) := by
  have h1 : (!ctx.encrypt || ctx.mode.id.steals) = true := by
    rcases h with h | h | h
    · simp [h]
    · simp [h, ModeId.steals]
    · simp [h, ModeId.steals]
  have h2 : (decide (ctx.last_size ≠ 0) || decide (ctx.block_pos ≠ 0)) = true := by
    rcases hb with h | h <;> simp [h]
  unfold cipher_stream_set_padding
  simp only [h1, h2, Bool.and_self, if_true]
  split <;> rfl

/-- The modes without padding refuse it always; in the others a stream that holds nothing back accepts it, and so does one that encrypts with ECB or
CBC. -/
theorem padding_switch {n : Nat} (ctx : CipherStream n) (padding : Bool) :
    (cipher_stream_set_padding ctx padding).1 = true ↔
      (ctx.mode.id = .ecb ∨ ctx.mode.id = .cbc) ∧ (ctx.encrypt = true ∨ ctx.last_size = 0 ∧ ctx.block_pos = 0) ∨
      (ctx.mode.id = .cts ∨ ctx.mode.id = .xts) ∧ ctx.last_size = 0 ∧ ctx.block_pos = 0 := by
  unfold cipher_stream_set_padding ModeId.pads ModeId.steals
  generalize ctx.mode.id = m
  by_cases h1 : ctx.last_size = 0 <;> by_cases h2 : ctx.block_pos = 0 <;> cases h3 : ctx.encrypt <;> cases m <;> simp [h1, h2]

/-- Whatever the answer, nothing but the two flags of the padding changes. -/
theorem padding_switch_only {n : Nat} (ctx : CipherStream n) (padding : Bool) :
    { (cipher_stream_set_padding ctx padding).2 with padding := ctx.padding, unpad := ctx.unpad } = ctx := by
  unfold cipher_stream_set_padding
  dsimp only
  split
  · rfl
  · split <;> rfl

/-- A stream decrypting with a cipher in ECB mode that has seen one byte. -/
example (c : Cipher 16) : let ctx := { cipher_stream_new false c (.ecb : CipherMode 16) with block_pos := 1 }
    ctx.encrypt = false ∧ (ctx.last_size ≠ 0 ∨ ctx.block_pos ≠ 0) := by
  simp [cipher_stream_new]

end Torsion
