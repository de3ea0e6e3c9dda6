import Verif.Stream.Model
import Verif.Stream.Spec
import Mathlib.Logic.Function.Basic
import Mathlib.Data.Fintype.EquivFin
import Mathlib.Tactic.ByContra

/-!
# RC4: correspondence of the array code with the permutation specification
-/
namespace Torsion.Rc4
open Spec

theorem at_swap (s : Vector Byte 256) (i j : Byte) :
    arc4_at (arc4_swap s i j) = rc4Swap (arc4_at s) i j := by
  funext x
  simp only [arc4_at, arc4_swap, rc4Swap, Vector.getElem_set]
  have hi : (i.toNat = x.toNat) ↔ x = i :=
    ⟨fun h => BitVec.eq_of_toNat_eq h.symm, fun h => by rw [h]⟩
  have hj : (j.toNat = x.toNat) ↔ x = j :=
    ⟨fun h => BitVec.eq_of_toNat_eq h.symm, fun h => by rw [h]⟩
  by_cases h1 : x = j
  · subst h1
    by_cases h2 : x = i
    · subst h2; simp
    · simp [h2]
  · by_cases h2 : x = i
    · subst h2; simp [hj, h1]
    · simp [hi, hj, h1, h2]

theorem swap_inj {s : Byte → Byte} (h : Function.Injective s) (i j : Byte) :
    Function.Injective (rc4Swap s i j) := by
  intro a b hab
  simp only [rc4Swap] at hab
  by_cases h1 : a = i <;> by_cases h2 : a = j <;> by_cases h3 : b = i <;> by_cases h4 : b = j <;>
    simp only [h1, h2, h3, h4, if_true, if_false] at hab ⊢ <;>
    (try simp_all) <;> first
      | rfl
      | (have := h hab; simp_all)

theorem foldl_inj (key : List Byte) : ∀ (is : List Nat) (p : (Byte → Byte) × Byte),
    Function.Injective p.1 →
    Function.Injective (is.foldl (fun (p : (Byte → Byte) × Byte) i =>
      let j := p.2 + p.1 (BitVec.ofNat 8 i) + key.getD (i % key.length) 0
      (rc4Swap p.1 (BitVec.ofNat 8 i) j, j)) p).1
  | [], _, h => h
  | i :: is, p, h => by
    rw [List.foldl_cons]
    exact foldl_inj key is _ (swap_inj h _ _)

theorem key_inj (key : List Byte) : Function.Injective (rc4Key key) :=
  foldl_inj key _ _ (fun _ _ h => h)

theorem arc4_key_eq (key : List Byte) (hk : 0 < key.length) : ∀ (n i : Nat) (s : Vector Byte 256)
    (j : Byte), ∃ s', arc4_key key n i s j = .ok s' ∧
      arc4_at s' = ((List.range' i n).foldl (fun (p : (Byte → Byte) × Byte) i =>
        let j := p.2 + p.1 (BitVec.ofNat 8 i) + key.getD (i % key.length) 0
        (rc4Swap p.1 (BitVec.ofNat 8 i) j, j)) (arc4_at s, j)).1
  | 0, i, s, j => ⟨s, rfl, rfl⟩
  | n + 1, i, s, j => by
    have hlt : i % key.length < key.length := Nat.mod_lt _ hk
    have e : C.rd key (i % key.length) = .ok (key.getD (i % key.length) 0) := by
      rw [C.rd, List.getD_eq_getElem?_getD, List.getElem?_eq_getElem hlt]
      rfl
    rw [arc4_key, e, C.ok_bind]
    obtain ⟨s', h1, h2⟩ := arc4_key_eq key hk n (i + 1) (arc4_swap s (BitVec.ofNat 8 i)
      (j + arc4_at s (BitVec.ofNat 8 i) + key.getD (i % key.length) 0))
      (j + arc4_at s (BitVec.ofNat 8 i) + key.getD (i % key.length) 0)
    refine ⟨s', h1, ?_⟩
    rw [h2, List.range'_succ, List.foldl_cons, at_swap]

theorem init_ok {key : List Byte} (h : 1 ≤ key.length ∧ key.length ≤ 256) :
    ∃ s, arc4_init key = .ok ⟨s, 0, 0⟩ ∧ arc4_at s = rc4Key key := by
  obtain ⟨s, h1, h2⟩ := arc4_key_eq key h.1 256 0
    (Vector.ofFn fun i : Fin 256 => BitVec.ofNat 8 i.val) 0
  refine ⟨s, ?_, ?_⟩
  · rw [arc4_init, C.check, if_pos (by simpa using h), C.ok_bind, h1, C.ok_bind]
  · rw [h2, rc4Key, List.range_eq_range']
    have e : arc4_at (Vector.ofFn fun i : Fin 256 => BitVec.ofNat 8 i.val) = id := by
      funext x
      simp [arc4_at]
    rw [e]

/-- The generator state of a context. -/
def gen (c : Arc4) : (Byte → Byte) × Byte × Byte := (arc4_at c.s, c.i, c.j)

def out (p : (Byte → Byte) × Byte × Byte) : Byte := p.1 (p.1 p.2.1 + p.1 p.2.2)

theorem crypt_eq : ∀ (src : List Byte) (c : Arc4),
    (arc4_crypt c src).1 = src.mapIdx (fun n b => b ^^^ out (rc4Next^[n + 1] (gen c))) ∧
    gen (arc4_crypt c src).2 = rc4Next^[src.length] (gen c)
  | [], c => by simp [arc4_crypt]
  | b :: src, c => by
    rw [arc4_crypt]
    dsimp only
    have hg : gen ⟨arc4_swap c.s (c.i + 1) (c.j + arc4_at c.s (c.i + 1)), c.i + 1,
        c.j + arc4_at c.s (c.i + 1)⟩ = rc4Next (gen c) := by
      simp [gen, rc4Next, at_swap]
    obtain ⟨h1, h2⟩ := crypt_eq src ⟨arc4_swap c.s (c.i + 1) (c.j + arc4_at c.s (c.i + 1)), c.i + 1,
        c.j + arc4_at c.s (c.i + 1)⟩
    rw [h1, h2, hg]
    refine ⟨?_, ?_⟩
    · rw [List.mapIdx_cons]
      congr 1
      rw [Function.iterate_one, ← hg]
      rfl
    · rw [List.length_cons, Function.iterate_succ_apply]

theorem next_inj (p : (Byte → Byte) × Byte × Byte) (h : Function.Injective p.1) :
    ∀ n, Function.Injective (rc4Next^[n] p).1
  | 0 => h
  | n + 1 => by
    rw [Function.iterate_succ_apply']
    exact swap_inj (next_inj p h n) _ _

theorem bij {s : Byte → Byte} (h : Function.Injective s) : Function.Bijective s := by
  let e : Byte ≃ Fin 256 := ⟨fun b => ⟨b.toNat, b.isLt⟩, fun i => BitVec.ofNat 8 i.val,
    fun b => by simp, fun i => by ext; simp⟩
  have : Finite Byte := Finite.of_equiv _ e.symm
  exact Finite.injective_iff_bijective.mp h

end Torsion.Rc4
