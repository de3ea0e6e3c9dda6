import Verif.Ecc.RistrettoLemmas
import Verif.Ecc.EddsaLemmas
import Verif.Ecc.EdwardsProps
import Verif.Ecc.BipschnorrLemmas

/-! Lemmas on the three Ristretto groups and the functions on keys. -/
set_option linter.unusedSectionVars false

namespace Torsion.Ecc

open Torsion.Spec

/-! ### The constants -/

/-- The number `fe_import_be` reads. -/
def constVal (fe : FieldCode) (b : List Byte) : Nat := leVal ((b.take (feSize fe)).reverse) % 2 ^ fe.p.size

theorem import_be_le_ok (fe : FieldCode) [Fact fe.p.Prime] {b : List Byte} (hl : feSize fe ≤ b.length) :
    ∃ o, fe_import_be_le fe b = .ok (((constVal fe b : Nat) : ZMod fe.p), o) := by
  have hl' : (b.take (feSize fe)).reverse.length = feSize fe := by rw [List.length_reverse, List.length_take]; omega
  rw [fe_import_be_le, slice_take hl, C.ok_bind, fe_import_le_ok fe hl'.ge, List.take_of_length_le hl'.le]
  exact ⟨_, rfl⟩

/-- All constants. -/
def constsOf (fe : FieldCode) (d : RistrettoDef) : Ristretto (ZMod fe.p) :=
  ⟨(constVal fe d.qnr : Nat), (constVal fe d.qnrds : Nat), (constVal fe d.adm1s : Nat), (constVal fe d.adm1si : Nat),
    (constVal fe d.dmaddpa : Nat), (constVal fe d.amdsi : Nat), (constVal fe d.dmasi : Nat)⟩

theorem rist_init_ok (fe : FieldCode) [Fact fe.p.Prime] {d : RistrettoDef}
    (h : ∀ b ∈ [d.qnr, d.qnrds, d.adm1s, d.adm1si, d.dmaddpa, d.amdsi, d.dmasi], feSize fe ≤ b.length) :
    ristretto_init fe d = .ok (constsOf fe d) := by
  obtain ⟨o1, e1⟩ := import_be_le_ok fe (h d.qnr (by simp))
  obtain ⟨o2, e2⟩ := import_be_le_ok fe (h d.qnrds (by simp))
  obtain ⟨o3, e3⟩ := import_be_le_ok fe (h d.adm1s (by simp))
  obtain ⟨o4, e4⟩ := import_be_le_ok fe (h d.adm1si (by simp))
  obtain ⟨o5, e5⟩ := import_be_le_ok fe (h d.dmaddpa (by simp))
  obtain ⟨o6, e6⟩ := import_be_le_ok fe (h d.amdsi (by simp))
  obtain ⟨o7, e7⟩ := import_be_le_ok fe (h d.dmasi (by simp))
  rw [ristretto_init, e1, C.ok_bind, e2, C.ok_bind, e3, C.ok_bind, e4, C.ok_bind, e5, C.ok_bind, e6, C.ok_bind, e7, C.ok_bind]
  rfl

theorem rist_lens : ∀ q ∈ ristrettoDefs, ∀ b ∈ [q.2.qnr, q.2.qnrds, q.2.adm1s, q.2.adm1si, q.2.dmaddpa, q.2.amdsi, q.2.dmasi],
    feSize q.1.fe ≤ b.length := by decide +kernel

theorem rist_defs {d : EdwardsDef} {rd : RistrettoDef} (hd : (d, rd) ∈ ristrettoDefs) : d ∈ edDefs := by
  simp only [ristrettoDefs, List.mem_cons, List.not_mem_nil, or_false, Prod.mk.injEq] at hd
  rcases hd with ⟨rfl, -⟩ | ⟨rfl, -⟩ | ⟨rfl, -⟩ <;> simp [edDefs]

theorem rist_init_def {d : EdwardsDef} {rd : RistrettoDef} (hd : (d, rd) ∈ ristrettoDefs) [Fact d.fe.p.Prime] :
    ristretto_init d.fe rd = .ok (constsOf d.fe rd) := rist_init_ok d.fe (rist_lens _ hd)

/-- Roots of `a d - 1`. -/
def adRoot (d : EdwardsDef) : Nat :=
  if d.h = 8 then constVal d.fe ristretto_ed25519.adm1s
  else if d.fe.p = 2 ^ 251 - 9 then constVal d.fe ristretto_ed1174.adm1s
  else 53931230830471128485834955405575080614406917727690396148695844614693367092499110851330350603979079659962871539650022903565748232560454

set_option maxRecDepth 100000 in
/-- The facts on numbers: the constant `a`, the root of `a d - 1`, and for cofactor 8 the two constants writing uses. -/
theorem rist_facts : ∀ q ∈ ristrettoDefs, (adRoot q.1 ^ 2 + 1) % q.1.fe.p = beVal q.1.a * beVal q.1.d % q.1.fe.p ∧
    ((q.1.h = 4 ∧ beVal q.1.a % q.1.fe.p = 1 ∧ q.1.fe.p % 4 = 3) ∨ (q.1.h = 8 ∧ (beVal q.1.a + 1) % q.1.fe.p = 0)) ∧
    (q.1.h = 8 → (constVal q.1.fe q.2.qnr ^ 2 + 1) % q.1.fe.p = 0 ∧
      (constVal q.1.fe q.2.amdsi ^ 2 * beVal q.1.a) % q.1.fe.p = (constVal q.1.fe q.2.amdsi ^ 2 * beVal q.1.d + 1) % q.1.fe.p) := by
  decide +kernel

theorem cast_mod_eq {p a b : Nat} (h : a % p = b % p) : (a : ZMod p) = (b : ZMod p) := (ZMod.natCast_eq_natCast_iff' a b p).2 h

section
variable {d : EdwardsDef} {rd : RistrettoDef} (hd : (d, rd) ∈ ristrettoDefs) [Fact d.fe.p.Prime] {ec : Edwards (ZMod d.fe.p)}
  [g : EdGood ec.a ec.d] {G : EPt ec.a ec.d} (ok : EdCurve d ec G) {rs : Ristretto (ZMod d.fe.p)}

include hd ok in
theorem rist_h : RistH ec.h ec.a ec.d := by
  obtain ⟨h1, h2, -⟩ := rist_facts _ hd
  dsimp only at h1 h2
  refine ⟨⟨((adRoot d : Nat) : ZMod d.fe.p), ?_⟩, ?_⟩
  · have := cast_mod_eq h1
    rw [Nat.cast_add, Nat.cast_pow, Nat.cast_one, Nat.cast_mul, ← ok.aval, ← ok.dval] at this
    linear_combination this
  · rcases h2 with ⟨e1, e2, e3⟩ | ⟨e1, e2⟩
    · left
      refine ⟨ok.hval.trans e1, ?_, ?_⟩
      · have hp : 1 < d.fe.p := Nat.Prime.one_lt Fact.out
        have := cast_mod_eq (p := d.fe.p) (b := 1) (e2.trans (Nat.mod_eq_of_lt hp).symm)
        rw [ok.aval, this, Nat.cast_one]
      · rw [ZMod.exists_sq_eq_neg_one_iff]; omega
    · right
      refine ⟨ok.hval.trans e1, ?_⟩
      have := cast_mod_eq (p := d.fe.p) (b := 0) (e2.trans (Nat.zero_mod _).symm)
      rw [Nat.cast_add, Nat.cast_one, Nat.cast_zero] at this
      rw [ok.aval]
      linear_combination this

include hd ok in
theorem rist_am (hrs : ristretto_init d.fe rd = .ok rs) : RistAm ec rs := by
  rw [rist_init_def hd] at hrs
  have hq : rs.qnr = (constVal d.fe rd.qnr : Nat) ∧ rs.amdsi = (constVal d.fe rd.amdsi : Nat) := by
    have := C.ok.inj hrs
    rw [← this]; exact ⟨rfl, rfl⟩
  obtain ⟨-, -, h3⟩ := rist_facts _ hd
  dsimp only at h3
  intro h8
  obtain ⟨e1, e2⟩ := h3 (ok.hval.symm.trans h8)
  have f1 := cast_mod_eq (p := d.fe.p) (b := 0) (e1.trans (Nat.zero_mod _).symm)
  have f2 := cast_mod_eq e2
  rw [Nat.cast_add, Nat.cast_one, Nat.cast_zero, Nat.cast_pow, ← hq.1] at f1
  rw [Nat.cast_add, Nat.cast_one, Nat.cast_mul, Nat.cast_mul, Nat.cast_pow, ← hq.2, ← ok.aval, ← ok.dval] at f2
  exact ⟨by linear_combination f1, by linear_combination f2⟩

/-! ### The group -/

include hd ok in
theorem rist_coprime : Nat.Coprime ec.h ec.n := by
  obtain ⟨i, hi, hh⟩ := edDefs_h d (rist_defs hd)
  rw [ok.hval, hh]
  exact Nat.Coprime.pow_left _ ((Nat.coprime_two_left).2 (Nat.odd_iff.2 (by rw [ok.nval]; exact (edFacts (rist_defs hd)).nodd)))

include hd ok in
theorem rist_gen_even (k : Nat) : ∃ Q : EPt ec.a ec.d, k • G = Q + Q := by
  have ho : ec.n % 2 = 1 := by rw [ok.nval]; exact (edFacts (rist_defs hd)).nodd
  refine ⟨((ec.n + 1) / 2 * k) • G, ?_⟩
  rw [← add_nsmul, ← ed_smul_mod ok k, ← ed_smul_mod ok (_ + _)]
  congr 1
  have : (ec.n + 1) / 2 * k + (ec.n + 1) / 2 * k = k + ec.n * k := by
    rw [← add_mul, show (ec.n + 1) / 2 + (ec.n + 1) / 2 = 1 + ec.n by omega]; ring
  rw [this, Nat.add_mul_mod_self_left]

include hd ok in
/-- Every class of a doubled point holds a multiple of the generator. -/
theorem rist_class {P Q : EPt ec.a ec.d} (hP : P = Q + Q) : ∃ k < ec.n, RistEq ec.h P (k • G) := by
  have hco := rist_coprime hd ok
  have hpr := ed_prime (rist_defs hd) ok
  obtain ⟨m, -, hm⟩ := Nat.exists_mul_mod_eq_one_of_coprime hco hpr.one_lt
  have hn : ec.n • ((ec.h * m) • P) = 0 := by
    rw [mul_nsmul, smul_comm, ed_kill (rist_defs hd) ok, smul_zero]
  obtain ⟨k, hk⟩ := ed_sub_gen ok.card ok.exact hpr hco hn
  refine ⟨k % ec.n, Nat.mod_lt _ ok.pos, ?_⟩
  rw [ed_smul_mod ok, ← hk, RistEq]
  have hdm := Nat.div_add_mod (ec.h * m) ec.n
  rw [hm] at hdm
  have hh : ec.h / 2 * 2 = ec.h := by
    rcases (rist_h hd ok).hh with h | h <;> rw [h]
  have e : P - (ec.h * m) • P = -((ec.n * (ec.h * m / ec.n)) • P) := by
    have := congrArg (fun c : Nat => c • P) hdm
    rw [add_nsmul, one_nsmul] at this
    rw [← this]; abel
  rw [e, smul_neg, hP, ← two_nsmul, ← mul_nsmul', ← mul_nsmul', neg_eq_zero,
    show ec.h / 2 * (ec.n * (ec.h * m / ec.n)) * 2 = (ec.h * m / ec.n) * (ec.n * (ec.h / 2 * 2)) by ring, hh, mul_nsmul', mul_nsmul',
    ed_kill (rist_defs hd) ok, smul_zero]

include hd ok in
/-- Different multiples are in different classes. -/
theorem rist_mul_iff (k j : Nat) : RistEq ec.h (k • G) (j • G) ↔ k % ec.n = j % ec.n := by
  constructor
  · intro h
    have h2 : ec.h • (k • G - j • G) = 0 := by
      have hh : 2 * (ec.h / 2) = ec.h := by
        rcases (rist_h hd ok).hh with h | h <;> rw [h]
      rw [RistEq] at h
      rw [← hh, mul_nsmul', h, smul_zero]
    rw [smul_sub, sub_eq_zero, ← mul_nsmul', ← mul_nsmul', nsmul_eq_nsmul_iff_modEq, ok.exact] at h2
    exact Nat.ModEq.cancel_left_of_coprime (by rw [Nat.coprime_comm.1 (rist_coprime hd ok)]) h2
  · intro h
    rw [← ed_smul_mod ok k, h, ed_smul_mod ok]
    exact rist_refl _

end

end Torsion.Ecc
