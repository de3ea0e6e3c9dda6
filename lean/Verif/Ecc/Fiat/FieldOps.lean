import Verif.Ecc.Fiat.FieldLemmas

/-!
# What passing the checks means for the functions of src/ecc.c
-/
namespace Torsion.Fiat
open Torsion.Spec

theorem check_parts {fe : FiatField} (h : fieldCheck fe = true) :
    addCheck fe.p 1 3 fe.bits fe.add 1 = true ∧ addCheck fe.p 1 3 fe.bits fe.sub (fe.p - 1) = true ∧
    linCheck fe.p 1 3 fe.bits fe.opp (fe.p - 1) = true ∧ linCheck fe.p 3 1 fe.bits fe.carry 1 = true ∧
    mulCheck fe.p 3 1 fe.bits fe.mul = true ∧ sqrCheck fe.p 3 1 fe.bits fe.square = true ∧
    linCheck fe.p 3 1 fe.bits fe.scmul_3 3 = true ∧ linCheck fe.p 3 1 fe.bits fe.scmul_4 4 = true ∧
    linCheck fe.p 3 1 fe.bits fe.scmul_8 8 = true ∧ a24Check fe = true ∧ dCheck fe = true ∧
    readCheck fe.p fe.bits ((2 ^ 64 - 1) :: List.replicate (fe.bits.length - 1) 0) fe.bits fe.carry = true ∧
    readCheck fe.p (List.replicate fe.size 8) (byteBounds fe) fe.bits fe.from_bytes = true ∧
    bytesCheck (2 ^ 640) fe.p fe.size fe.bits fe.to_bytes = true ∧
    fe.bits.length ≤ 20 ∧ fe.size ≤ 100 ∧ 1 < fe.p ∧ 0 < fe.size ∧ 0 < fe.bits.length ∧ ∀ b ∈ fe.bits, b ≤ 60 := by
  unfold fieldCheck at h
  simp only [Bool.and_eq_true] at h
  obtain ⟨⟨⟨⟨⟨⟨⟨⟨⟨⟨⟨⟨⟨⟨⟨⟨⟨⟨⟨a1, a2⟩, a3⟩, a4⟩, a5⟩, a6⟩, a7⟩, a8⟩, a9⟩, a10⟩, a11⟩, a12⟩, a13⟩, a14⟩, a15⟩, a16⟩, a17⟩, a18⟩, a19⟩, a20⟩ := h
  refine ⟨a1, a2, a3, a4, a5, a6, a7, a8, a9, a10, a11, a12, a13, a14, Nat.le_of_ble_eq_true a15, Nat.le_of_ble_eq_true a16,
    Nat.blt_eq.mp a17, Nat.blt_eq.mp a18, Nat.blt_eq.mp a19, ?_⟩
  intro b hb
  exact Nat.le_of_ble_eq_true (List.all_eq_true.mp a20 b hb)

theorem rep_mono {bits : List Nat} {p j k : Nat} (hjk : j ≤ k) {x : List Nat} {z : ZMod p} (hx : FieldRep bits p j x z) : FieldRep bits p k x z :=
  ⟨hx.1.imp fun _ _ h => le_trans h (Nat.mul_le_mul_right _ hjk), hx.2⟩

section
variable {fe : FiatField} (h : fieldCheck fe = true)
include h

theorem ops_pos : 0 < fe.p := by
  have := (check_parts h).2.2.2.2.2.2.2.2.2.2.2.2.2.2.2.2.1
  omega

theorem ops_len : fe.bits.length ≤ 100 := by
  have := (check_parts h).2.2.2.2.2.2.2.2.2.2.2.2.2.2.1
  omega

theorem neg_cast : ((fe.p - 1 : Nat) : ZMod fe.p) = -1 := by
  rw [Nat.cast_sub (ops_pos h)]
  simp

theorem carry_ok {x : List Nat} {z : ZMod fe.p} (hx : FieldRep fe.bits fe.p 3 x z) : ∃ out, run fe.carry [x] = .ok out ∧ FieldRep fe.bits fe.p 1 out z := by
  obtain ⟨o, o1, o2⟩ := lin_sound (ops_pos h) (check_parts h).2.2.2.1 (ops_len h) hx
  exact ⟨o, o1, by simpa using o2⟩

theorem opp_ok {x : List Nat} {z : ZMod fe.p} (hx : FieldRep fe.bits fe.p 1 x z) : ∃ out, run fe.opp [x] = .ok out ∧ FieldRep fe.bits fe.p 3 out (-z) := by
  obtain ⟨o, o1, o2⟩ := lin_sound (ops_pos h) (check_parts h).2.2.1 (ops_len h) hx
  rw [neg_cast h] at o2
  exact ⟨o, o1, by simpa using o2⟩

theorem add_ok {x y : List Nat} {u v : ZMod fe.p} (hx : FieldRep fe.bits fe.p 1 x u) (hy : FieldRep fe.bits fe.p 1 y v) :
    ∃ out, run fe.add [x, y] = .ok out ∧ FieldRep fe.bits fe.p 3 out (u + v) := by
  obtain ⟨o, o1, o2⟩ := add_sound (ops_pos h) (check_parts h).1 (ops_len h) hx hy
  exact ⟨o, o1, by simpa using o2⟩

theorem sub_ok {x y : List Nat} {u v : ZMod fe.p} (hx : FieldRep fe.bits fe.p 1 x u) (hy : FieldRep fe.bits fe.p 1 y v) :
    ∃ out, run fe.sub [x, y] = .ok out ∧ FieldRep fe.bits fe.p 3 out (u - v) := by
  obtain ⟨o, o1, o2⟩ := add_sound (ops_pos h) (check_parts h).2.1 (ops_len h) hx hy
  rw [neg_cast h, neg_one_mul, ← sub_eq_add_neg] at o2
  exact ⟨o, o1, o2⟩

theorem scmul_a24_ok {c : Int} {q : List Prog} (hq : fe.scmul_a24 = some (c, q)) {x : List Nat} {z : ZMod fe.p} (hx : FieldRep fe.bits fe.p 3 x z) :
    ∃ out, runAll q x = .ok out ∧ FieldRep fe.bits fe.p 1 out ((c : ZMod fe.p) * z) := by
  have hc := (check_parts h).2.2.2.2.2.2.2.2.2.1
  unfold a24Check at hc
  rw [hq] at hc
  split at hc
  next he => simp at he
  next k r he =>
    cases he
    obtain ⟨o, o1, o2⟩ := lin_sound (ops_pos h) hc (ops_len h) hx
    refine ⟨o, by rw [runAll, o1, C.ok_bind, runAll], ?_⟩
    simpa using o2
  next => exact absurd hc (by simp)

theorem scmul_d_ok {c : Int} {q : List Prog} (hq : fe.scmul_d = some (c, q)) {x : List Nat} {z : ZMod fe.p} (hx : FieldRep fe.bits fe.p 1 x z) :
    ∃ out, runAll q x = .ok out ∧ FieldRep fe.bits fe.p 1 out ((c : ZMod fe.p) * z) := by
  have hc := (check_parts h).2.2.2.2.2.2.2.2.2.2.1
  unfold dCheck at hc
  rw [hq] at hc
  split at hc
  next he => simp at he
  next k o r he =>
    cases he
    rw [Bool.and_eq_true] at hc
    obtain ⟨a, a1, a2⟩ := lin_sound (ops_pos h) hc.1 (ops_len h) hx
    obtain ⟨b, b1, b2⟩ := lin_sound (ops_pos h) hc.2 (ops_len h) a2
    refine ⟨b, by rw [runAll, a1, C.ok_bind, runAll, b1, C.ok_bind, runAll], ?_⟩
    rw [neg_cast h] at b2
    have : ((Int.negSucc k : Int) : ZMod fe.p) = -((k + 1 : Nat) : ZMod fe.p) := by
      rw [Int.cast_negSucc]
    rw [this]
    have e : ((k + 1 : Nat) : ZMod fe.p) * (-1 * z) = -((k + 1 : Nat) : ZMod fe.p) * z := by ring
    rw [← e]
    exact b2
  next => exact absurd hc (by simp)

theorem to_bytes_ok {x : List Nat} {z : ZMod fe.p} (hx : FieldRep fe.bits fe.p 1 x z) :
    ∃ out, run fe.to_bytes [x] = .ok out ∧ out.length = fe.size ∧ (∀ b ∈ out, b < 256) ∧ bytesValue out = z.val := by
  obtain ⟨o, o1, o2, o3⟩ := bytes_sound (check_parts h).2.2.2.2.2.2.2.2.2.2.2.2.2.1 (ops_len h) hx.1
  refine ⟨o, o1, o2.1, o2.2, ?_⟩
  rw [bytesValue, o2.1, o3, ← hx.2, ZMod.val_natCast]

end

theorem cmov_zero {x y : Nat} (hx : x < 2 ^ 64) : cmovznz 0 x y = x := by
  have e : (2 ^ 64 - 1 : Nat) &&& x = x := by
    rw [Nat.and_comm, Nat.and_two_pow_sub_one_eq_mod, Nat.mod_eq_of_lt hx]
  show ((2 ^ 64 - 0) % 2 ^ 64 &&& 0xffffffffffffffff) &&& y ||| ((2 ^ 64 - 1 - ((2 ^ 64 - 0) % 2 ^ 64 &&& 0xffffffffffffffff)) &&& x) = x
  have z : ((2 ^ 64 - 0) % 2 ^ 64 &&& 0xffffffffffffffff : Nat) = 0 := by decide
  rw [z, Nat.zero_and, Nat.zero_or, Nat.sub_zero, e]

theorem cmov_one {x y : Nat} (hy : y < 2 ^ 64) : cmovznz 1 x y = y := by
  have e : (2 ^ 64 - 1 : Nat) &&& y = y := by
    rw [Nat.and_comm, Nat.and_two_pow_sub_one_eq_mod, Nat.mod_eq_of_lt hy]
  show ((2 ^ 64 - 1) % 2 ^ 64 &&& 0xffffffffffffffff) &&& y ||| ((2 ^ 64 - 1 - ((2 ^ 64 - 1) % 2 ^ 64 &&& 0xffffffffffffffff)) &&& x) = y
  have z : ((2 ^ 64 - 1) % 2 ^ 64 &&& 0xffffffffffffffff : Nat) = 2 ^ 64 - 1 := by decide
  rw [z, Nat.sub_self, Nat.zero_and, Nat.or_zero, e]

theorem select_ok : ∀ {x y : List Nat} (_ : x.length = y.length) (_ : ∀ n ∈ x, n < 2 ^ 64) (_ : ∀ n ∈ y, n < 2 ^ 64) (flag : Int),
    fe_select x y flag = if flag ≠ 0 then y else x
  | [], [], _, _, _, flag => by simp [fe_select, selectznz]
  | [], _ :: _, h, _, _, _ => absurd h (by simp)
  | _ :: _, [], h, _, _, _ => absurd h (by simp)
  | a :: x, b :: y, h, hx, hy, flag => by
    have ih := select_ok (x := x) (y := y) (by simpa using h) (fun n hn => hx n (List.mem_cons_of_mem _ hn)) (fun n hn => hy n (List.mem_cons_of_mem _ hn)) flag
    unfold fe_select selectznz at ih ⊢
    rw [List.zipWith_cons_cons, ih]
    split
    · rw [cmov_one (hy b (List.mem_cons_self ..))]
    · rw [cmov_zero (hx a (List.mem_cons_self ..))]

theorem rep_lt {bits : List Nat} {p k : Nat} (hk : k ≤ 3) (hb : ∀ b ∈ bits, b ≤ 60) {x : List Nat} {z : ZMod p} (hx : FieldRep bits p k x z) :
    ∀ n ∈ x, n < 2 ^ 64 := by
  have h1 := hx.1
  clear hx
  induction h1 with
  | nil => simp
  | cons h _ ih =>
    rename_i b n bs ns _
    intro m hm
    rcases List.mem_cons.mp hm with rfl | hm
    · have : 2 ^ b ≤ 2 ^ 60 := Nat.pow_le_pow_right (by decide) (hb b (List.mem_cons_self ..))
      have : k * 2 ^ b ≤ 3 * 2 ^ 60 := Nat.mul_le_mul hk this
      omega
    · exact ih (fun b hb' => hb b (List.mem_cons_of_mem _ hb')) m hm

theorem foldl_or (l : List Nat) : ∀ a, l.foldl (fun z b => z ||| b) a = 0 ↔ a = 0 ∧ ∀ b ∈ l, b = 0 := by
  induction l with
  | nil => simp
  | cons b l ih =>
    intro a
    rw [List.foldl_cons, ih]
    simp [Nat.or_eq_zero_iff, and_assoc]

theorem foldl_lt (l : List Nat) : ∀ a, a < 256 → (∀ b ∈ l, b < 256) → l.foldl (fun z b => z ||| b) a < 256 := by
  induction l with
  | nil => intro a ha _; exact ha
  | cons b l ih =>
    intro a ha hl
    rw [List.foldl_cons]
    exact ih _ (Nat.or_lt_two_pow (n := 8) ha (hl b (List.mem_cons_self ..))) (fun c hc => hl c (List.mem_cons_of_mem _ hc))

theorem top_bit {z : Nat} (hz : z < 256) : ((z + (2 ^ 64 - 1)) % 2 ^ 64) >>> 63 = if z = 0 then 1 else 0 := by
  split
  next h => rw [h]; decide
  next h =>
    rw [show z + (2 ^ 64 - 1) = (z - 1) + 2 ^ 64 by omega, Nat.add_mod_right, Nat.mod_eq_of_lt (by omega), Nat.shiftRight_eq_div_pow, Nat.div_eq_of_lt (by omega)]

theorem bytes_zero : ∀ l : List Nat, bytesValue l = 0 ↔ ∀ b ∈ l, b = 0
  | [] => by simp [bytesValue, radixValue]
  | a :: l => by
    have ih := bytes_zero l
    unfold bytesValue at ih ⊢
    rw [List.length_cons, List.replicate_succ, radixValue]
    simp only [List.mem_cons, forall_eq_or_imp, ← ih]
    constructor
    · intro h
      constructor <;> omega
    · rintro ⟨rfl, h⟩
      rw [h, Nat.mul_zero]

theorem bytes_inj : ∀ {l m : List Nat}, l.length = m.length → (∀ b ∈ l, b < 256) → (∀ b ∈ m, b < 256) → bytesValue l = bytesValue m → l = m
  | [], [], _, _, _, _ => rfl
  | [], _ :: _, h, _, _, _ => absurd h (by simp)
  | _ :: _, [], h, _, _, _ => absurd h (by simp)
  | a :: l, b :: m, h, hl, hm, e => by
    have ha := hl a (List.mem_cons_self ..)
    have hb := hm b (List.mem_cons_self ..)
    unfold bytesValue at e
    rw [List.length_cons, List.length_cons, List.replicate_succ, List.replicate_succ, radixValue, radixValue] at e
    have := bytes_inj (l := l) (m := m) (by simpa using h) (fun c hc => hl c (List.mem_cons_of_mem _ hc)) (fun c hc => hm c (List.mem_cons_of_mem _ hc))
      (by unfold bytesValue; omega)
    rw [this, show a = b by omega]

theorem xor_eq_nil {a b : Nat} : a ^^^ b = 0 ↔ a = b := by
  constructor
  · intro h
    have := congrArg (a ^^^ ·) h
    simp only [← Nat.xor_assoc, Nat.xor_self, Nat.zero_xor, Nat.xor_zero] at this
    exact this.symm
  · rintro rfl
    exact Nat.xor_self a

theorem xor_zero_iff : ∀ {l m : List Nat}, l.length = m.length → ((∀ b ∈ List.zipWith (fun a b => a ^^^ b) l m, b = 0) ↔ l = m)
  | [], [], _ => by simp
  | [], _ :: _, h => absurd h (by simp)
  | _ :: _, [], h => absurd h (by simp)
  | a :: l, b :: m, h => by
    have ih := xor_zero_iff (l := l) (m := m) (by simpa using h)
    rw [List.zipWith_cons_cons]
    simp only [List.mem_cons, forall_eq_or_imp, ih, List.cons.injEq, xor_eq_nil]

theorem xor_lt : ∀ {l m : List Nat}, (∀ b ∈ l, b < 256) → (∀ b ∈ m, b < 256) → ∀ c ∈ List.zipWith (fun a b => a ^^^ b) l m, c < 256
  | [], _, _, _, c, hc => by simp at hc
  | _ :: _, [], _, _, c, hc => by simp at hc
  | a :: l, b :: m, hl, hm, c, hc => by
    rw [List.zipWith_cons_cons] at hc
    rcases List.mem_cons.mp hc with rfl | hc
    · exact Nat.xor_lt_two_pow (n := 8) (hl a (List.mem_cons_self ..)) (hm b (List.mem_cons_self ..))
    · exact xor_lt (fun c hc => hl c (List.mem_cons_of_mem _ hc)) (fun c hc => hm c (List.mem_cons_of_mem _ hc)) c hc

end Torsion.Fiat
