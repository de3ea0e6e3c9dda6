import Verif.Hash.Props

/-!
# Lemmas: an HMAC context in the middle of a message
-/
namespace Torsion.Hsh
open Torsion Spec

/-- The padded key of RFC 2104. -/
def hkey (t : HashId) (key : List Byte) : List Byte :=
  let k := if key.length > hash_block_size t then Spec.hash t (hash_output_size t) key else key
  k ++ List.replicate (hash_block_size t - k.length) 0

/-- The HMAC function of hash `t` with a key. -/
abbrev macOf (t : HashId) (key : List Byte) : List Byte → List Byte :=
  Spec.hmac (Spec.hash t (hash_output_size t)) (hash_block_size t) key

/-- The context has been started with `key` and has taken in `m`. -/
structure HmacRep (t : HashId) (key : List Byte) (h : HmacCtx) (m : List Byte) : Prop where
  type : h.type = t
  inner : HashRep t h.inner ((hkey t key).map (· ^^^ 0x36) ++ m)
  outer : HashRep t h.outer ((hkey t key).map (· ^^^ 0x5c))

theorem sizes {t : HashId} (ht : hash_has_backend t = true) :
    16 ≤ hash_output_size t ∧ hash_output_size t ≤ 64 ∧ hash_output_size t ≤ hash_block_size t ∧
      hash_block_size t ≤ 168 := by
  cases t <;> first | (cases ht; done) | decide

theorem hash_len {t : HashId} (ht : hash_has_backend t = true) (m : List Byte) :
    (Spec.hash t (hash_output_size t) m).length = hash_output_size t := by
  have := sizes ht
  rw [hash_length t _ m (fun _ => by omega)]
  split <;> rfl

theorem macOf_len {t : HashId} (ht : hash_has_backend t = true) (key m : List Byte) :
    (macOf t key m).length = hash_output_size t := hash_len ht _

theorem not_other {t : HashId} (ht : hash_has_backend t = true) : ∀ n, t ≠ .other n := by
  rintro n rfl; cases ht

theorem hmac_rep_init (junk : Nat → Nat → Byte) (t : HashId) (ht : hash_has_backend t = true)
    (key : List Byte) (hk : key.length < 2 ^ 64) :
    ∃ h, hmac_init junk t key = .ok h ∧ HmacRep t key h [] := by
  have hto := not_other ht
  obtain ⟨_, hs1, hs2, hs3⟩ := sizes ht
  have hout : hash_output_size t ≤ 200 := by omega
  have hlen := hash_len ht
  have hkey' : (if key.length > hash_block_size t then do
        let h ← hash_init (junk 0) t
        let h ← hash_update h key
        let tmp ← hash_final (junk 1) h (hash_output_size t)
        if tmp.length > 64 then .ub
        else C.slice tmp 0 (hash_output_size t)
      else C.ok key) =
      C.ok (if key.length > hash_block_size t then Spec.hash t (hash_output_size t) key else key) := by
    by_cases hlong : key.length > hash_block_size t
    · rw [if_pos hlong, if_pos hlong]
      obtain ⟨h, e1, r1⟩ := rep_init (junk 0) t hto
      obtain ⟨h', e2, r2⟩ := rep_update r1 key hk
      rw [e1, C.ok_bind, e2, C.ok_bind, rep_final r2 (junk 1) _ (fun _ => hout), C.ok_bind, List.nil_append,
        if_neg (by rw [hlen]; omega), slice_take _ _ (by rw [hlen]), List.take_of_length_le (by rw [hlen])]
    · rw [if_neg hlong, if_neg hlong]
  have hkl : (if key.length > hash_block_size t then Spec.hash t (hash_output_size t) key else key).length ≤
      hash_block_size t := by
    split
    · rw [hlen]; exact hs2
    · omega
  have hdef : hkey t key = (if key.length > hash_block_size t then Spec.hash t (hash_output_size t) key else key) ++
      List.replicate (hash_block_size t -
        (if key.length > hash_block_size t then Spec.hash t (hash_output_size t) key else key).length) 0 := rfl
  rw [hmac_init, hkey', C.ok_bind]
  generalize (if key.length > hash_block_size t then Spec.hash t (hash_output_size t) key else key) = k at *
  have hpad : ∀ b : Byte, ∃ pad, hmac_pad k b = .ok pad ∧ C.slice pad 0 (hash_block_size t) =
      .ok ((hkey t key).map (· ^^^ b)) := by
    intro b
    refine ⟨_, by rw [hmac_pad, if_pos (by omega)], ?_⟩
    rw [slice_take _ _ (by simp; omega), hdef]
    congr 1
    rw [List.take_append, List.take_of_length_le (by simpa using hkl), List.length_map, List.take_replicate,
      Nat.min_eq_left (by omega), List.map_append, List.map_replicate]
    simp
  obtain ⟨pi, hp1, hp2⟩ := hpad 0x36
  obtain ⟨po, hp3, hp4⟩ := hpad 0x5c
  have hml : ∀ b : Byte, ((hkey t key).map (· ^^^ b)).length < 2 ^ 64 := by
    intro b; rw [hdef]; simp; omega
  obtain ⟨i0, e1, r1⟩ := rep_init (junk 2) t hto
  obtain ⟨i1, e2, r2⟩ := rep_update r1 _ (hml 0x36)
  obtain ⟨o0, e3, r3⟩ := rep_init (junk 3) t hto
  obtain ⟨o1, e4, r4⟩ := rep_update r3 _ (hml 0x5c)
  refine ⟨⟨t, i1, o1⟩, ?_, rfl, by simpa using r2, by simpa using r4⟩
  rw [C.check, if_pos (by simpa using hkl), C.ok_bind, hp1, C.ok_bind, e1, C.ok_bind, hp2, C.ok_bind, e2,
    C.ok_bind, hp3, C.ok_bind, e3, C.ok_bind, hp4, C.ok_bind, e4, C.ok_bind]

theorem hmac_rep_update {t : HashId} {key : List Byte} {h : HmacCtx} {m : List Byte}
    (hr : HmacRep t key h m) (data : List Byte) (hd : data.length < 2 ^ 64) :
    ∃ h', hmac_update h data = .ok h' ∧ HmacRep t key h' (m ++ data) := by
  obtain ⟨i, e, r⟩ := rep_update hr.inner data hd
  refine ⟨{ h with inner := i }, ?_, hr.type, by simpa using r, hr.outer⟩
  rw [hmac_update, e, C.ok_bind]

theorem hmac_rep_final {t : HashId} {key : List Byte} {h : HmacCtx} {m : List Byte}
    (hr : HmacRep t key h m) (ht : hash_has_backend t = true) (junk : Nat → Nat → Byte) :
    hmac_final junk h = .ok (macOf t key m) := by
  obtain ⟨_, hs1, hs2, hs3⟩ := sizes ht
  have hlen := hash_len ht
  rw [hmac_final, hr.type, rep_final hr.inner _ _ (fun _ => by omega), C.ok_bind,
    slice_take _ _ (by rw [hlen]), C.ok_bind, List.take_of_length_le (by rw [hlen])]
  obtain ⟨o, e, r⟩ := rep_update hr.outer (Spec.hash t (hash_output_size t)
    ((hkey t key).map (· ^^^ 0x36) ++ m)) (by rw [hlen]; omega)
  rw [e, C.ok_bind, rep_final r _ _ (fun _ => by omega)]
  rfl

end Torsion.Hsh
