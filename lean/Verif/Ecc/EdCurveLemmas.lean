import Verif.Ecc.EdCert
import Verif.Ecc.PrimeProps
import Mathlib.GroupTheory.OrderOfElement

/-!
The constants of the Edwards curves: the certificates are checked by the kernel.
-/
namespace Torsion.Ecc

open Torsion.Spec (EPt EdGood Ext xaff beVal)

/-- Is the point on the curve? -/
def edOnN (p a d x y : Nat) : Bool := (a * (x * x) + y * y) % p == (1 + d * (x * x) % p * (y * y)) % p

/-- The checks for a curve; `r` is a root of `a`. -/
def edCheck (e : EdwardsDef) (r : Nat) : Bool :=
  force e.fe.p fun p => force (beVal e.sc.n) fun n => force (beVal e.a) fun a => force (beVal e.d) fun d =>
  force (beVal e.x) fun x => force (beVal e.y) fun y => force (beVal e.c) fun c =>
  decide (4 < p) && decide (0 < a ∧ a < p) && (r * r % p == a) && decide (d < p) && eulerCheck p d && decide (0 < x ∧ x < p) &&
  decide (y < p) && edOnN p a d x y && edKills p a d x y n &&
  (match e.scmul with | none => true | some k => (k - (d : Int)) % (p : Int) == 0) && decide (0 < c ∧ c < p) &&
  (c * c * (if e.invert then nsub p d a else nsub p a d) % p == 4) &&
  (e.torsion.all fun t => force (beVal t.x) fun x => force (beVal t.y) fun y => decide (x < p) && decide (y < p) &&
    edOnN p a d x y && edKills p a d x y e.h) &&
  decide (e.torsion.map fun t => (beVal t.x, beVal t.y)).Nodup && (e.torsion.length == e.h) &&
  decide (2 * p < 3 * (e.h * n)) && (decide (p < e.h * n) || (e.h == 4 && a == 1 && eulerCheck p (p + 1 - d))) &&
  decide ((feBits e.fe + 63) / 64 ≤ (n.size + 63) / 64) && decide (n < 16 ^ ((feBits e.fe + 3) / 4)) && (n % 2 == 1)

set_option maxRecDepth 100000 in
theorem check_ed25519 : edCheck curve_ed25519 19681161376707505956807079304988542015446066515923890162744021073123829784752 = true := by
  decide +kernel
set_option maxRecDepth 100000 in
theorem check_ed448 : edCheck curve_ed448 1 = true := by decide +kernel
set_option maxRecDepth 100000 in
theorem check_ed1174 : edCheck curve_ed1174 1 = true := by decide +kernel

/-- What the checks establish. -/
structure EdFacts (e : EdwardsDef) [Fact e.fe.p.Prime] (a d : ZMod e.fe.p) : Prop where
  four : 4 < e.fe.p
  good : EdGood a d
  alt : beVal e.a < e.fe.p
  dlt : beVal e.d < e.fe.p
  xlt : beVal e.x < e.fe.p
  ylt : beVal e.y < e.fe.p
  base : ∃ G : EPt a d, G.x = (beVal e.x : ZMod e.fe.p) ∧
    G.y = (beVal e.y : ZMod e.fe.p) ∧ addOrderOf G = beVal e.sc.n
  scm : ∀ k, e.scmul = some k → (k : ZMod e.fe.p) = d
  c0 : (beVal e.c : ZMod e.fe.p) ≠ 0
  c4 : (beVal e.c : ZMod e.fe.p) ^ 2 * (if e.invert then d - a else
    a - d) = 4
  card : Nat.card (EPt a d) = e.h * beVal e.sc.n
  tlen : e.torsion.length = e.h
  tdist : (e.torsion.map fun t => ((beVal t.x : ZMod e.fe.p), (beVal t.y : ZMod e.fe.p))).Nodup
  tor : ∀ t ∈ e.torsion, ∃ T : EPt a d,
    T.x = (beVal t.x : ZMod e.fe.p) ∧ T.y = (beVal t.y : ZMod e.fe.p) ∧ e.h • T = 0
  torall : ∀ T : EPt a d, e.h • T = 0 →
    ∃ t ∈ e.torsion, T.x = (beVal t.x : ZMod e.fe.p) ∧ T.y = (beVal t.y : ZMod e.fe.p)
  limbs : (feBits e.fe + 63) / 64 ≤ ((beVal e.sc.n).size + 63) / 64
  nlt : beVal e.sc.n < 16 ^ ((feBits e.fe + 3) / 4)
  nodd : beVal e.sc.n % 2 = 1

section
variable {e : EdwardsDef} [Fact e.fe.p.Prime]

theorem edCheck_spec {r i : Nat} (h : edCheck e r = true) (hn : (beVal e.sc.n).Prime) (hh : e.h = 2 ^ i) :
    EdFacts e (beVal e.a : ZMod e.fe.p) (beVal e.d : ZMod e.fe.p) := by
  unfold edCheck at h
  simp only [force_eq, Bool.and_eq_true, decide_eq_true_eq, beq_iff_eq, Bool.or_eq_true] at h
  obtain ⟨⟨⟨⟨⟨⟨⟨⟨⟨⟨⟨⟨⟨⟨⟨⟨⟨⟨⟨h1, h2⟩, h3⟩, h4⟩, h5⟩, h6⟩, h7⟩, h8⟩, h9⟩, h10⟩, h11⟩, h12⟩, h13⟩, h14⟩, h15⟩, h16⟩, h17⟩, h18⟩, h19⟩, h20⟩ := h
  have hp0 : 0 < e.fe.p := by omega
  have cne : ∀ z : Nat, 0 < z → z < e.fe.p → (z : ZMod e.fe.p) ≠ 0 := by
    intro z h0 hz h
    rw [ZMod.natCast_eq_zero_iff] at h
    exact absurd (Nat.le_of_dvd h0 h) (by omega)
  have cin : ∀ x y : Nat, x < e.fe.p → y < e.fe.p → (x : ZMod e.fe.p) = (y : ZMod e.fe.p) → x = y := by
    intro x y hx hy h
    rwa [ZMod.natCast_eq_natCast_iff', Nat.mod_eq_of_lt hx, Nat.mod_eq_of_lt hy] at h
  have good : EdGood (beVal e.a : ZMod e.fe.p) (beVal e.d : ZMod e.fe.p) :=
    { two := by exact_mod_cast cne 2 (by omega) (by omega)
      a0 := cne _ h2.1 h2.2
      sq := ⟨(r : ZMod e.fe.p), by rw [← h3, cast_mod_dvd (dvd_refl e.fe.p), Nat.cast_mul]⟩
      nsq := eulerCheck_spec (by omega) h5 }
  have eqn : ∀ x y : Nat, edOnN e.fe.p (beVal e.a) (beVal e.d) x y = true →
      ∃ P : EPt (beVal e.a : ZMod e.fe.p) (beVal e.d : ZMod e.fe.p), P.x = (x : ZMod e.fe.p) ∧ P.y = (y : ZMod e.fe.p) := by
    intro x y h
    rw [edOnN, beq_iff_eq] at h
    have := congrArg (Nat.cast (R := ZMod e.fe.p)) h
    simp only [cast_mod_dvd (dvd_refl e.fe.p), Nat.cast_mul, Nat.cast_add, Nat.cast_one] at this
    exact ⟨⟨x, y, by linear_combination this⟩, rfl, rfl⟩
  obtain ⟨G, hx, hy⟩ := eqn _ _ h8
  have hnG := (edKills_spec hx hy _).1 h9
  have hG0 : G ≠ 0 := by
    intro h
    rw [h, ed_zero_x] at hx
    exact cne _ h6.1 h6.2 hx.symm
  have := Fact.mk hn
  have hord : addOrderOf G = beVal e.sc.n := addOrderOf_eq_prime hnG hG0
  have tor : ∀ t ∈ e.torsion, (beVal t.x < e.fe.p ∧ beVal t.y < e.fe.p) ∧
      ∃ T : EPt (beVal e.a : ZMod e.fe.p) (beVal e.d : ZMod e.fe.p),
        T.x = (beVal t.x : ZMod e.fe.p) ∧ T.y = (beVal t.y : ZMod e.fe.p) ∧ e.h • T = 0 := by
    intro t ht
    have := (List.all_eq_true.1 h13) t ht
    simp only [force_eq, Bool.and_eq_true, decide_eq_true_eq] at this
    obtain ⟨⟨⟨t1, t2⟩, t3⟩, t4⟩ := this
    obtain ⟨T, hx, hy⟩ := eqn _ _ t3
    exact ⟨⟨t1, t2⟩, T, hx, hy, (edKills_spec hx hy _).1 t4⟩
  have tdist : (e.torsion.map fun t => ((beVal t.x : ZMod e.fe.p), (beVal t.y : ZMod e.fe.p))).Nodup := by
    have e1 : (e.torsion.map fun t => ((beVal t.x : ZMod e.fe.p), (beVal t.y : ZMod e.fe.p)))
        = (e.torsion.map fun t => (beVal t.x, beVal t.y)).map fun z => ((z.1 : ZMod e.fe.p), (z.2 : ZMod e.fe.p)) := by
      rw [List.map_map]; rfl
    rw [e1]
    refine h14.map_on ?_
    intro a ha b hb h
    rw [List.mem_map] at ha hb
    obtain ⟨s, hs, rfl⟩ := ha
    obtain ⟨t, ht, rfl⟩ := hb
    injection h with ha hb
    exact Prod.ext (cin _ _ (tor s hs).1.1 (tor t ht).1.1 ha) (cin _ _ (tor s hs).1.2 (tor t ht).1.2 hb)
  have fin := ed_finite (a := (beVal e.a : ZMod e.fe.p)) (d := (beVal e.d : ZMod e.fe.p))
  -- the list of torsion points
  have hT : ∃ f : Fin e.h → {P : EPt (beVal e.a : ZMod e.fe.p) (beVal e.d : ZMod e.fe.p) // e.h • P = 0},
      Function.Injective f ∧ ∀ i, ∃ t ∈ e.torsion, (f i).1.x = (beVal t.x : ZMod e.fe.p) ∧ (f i).1.y = (beVal t.y : ZMod e.fe.p) := by
    choose T hT using fun (i : Fin e.h) => (tor (e.torsion[i.1]'(by rw [h15]; exact i.2)) (List.getElem_mem _)).2
    refine ⟨fun i => ⟨T i, (hT i).2.2⟩, ?_, fun i => ⟨_, List.getElem_mem _, (hT i).1, (hT i).2.1⟩⟩
    intro i j hij
    have hij := congrArg Subtype.val hij
    simp only at hij
    have hi := hT i
    rw [hij] at hi
    have := (List.Nodup.getElem_inj_iff tdist (i := i.1) (hi := by rw [List.length_map, h15]; exact i.2) (j := j.1)
      (hj := by rw [List.length_map, h15]; exact j.2)).1 (by
        rw [List.getElem_map, List.getElem_map]
        exact Prod.ext (hi.1.symm.trans (hT j).1) (hi.2.1.symm.trans (hT j).2.1))
    exact Fin.ext this
  obtain ⟨f, hf, hft⟩ := hT
  have hle : e.h ≤ Nat.card {P : EPt (beVal e.a : ZMod e.fe.p) (beVal e.d : ZMod e.fe.p) // e.h • P = 0} := by
    have := Nat.card_le_card_of_injective f hf
    rwa [Nat.card_eq_fintype_card, Fintype.card_fin] at this
  -- the number of points
  have hcard : Nat.card (EPt (beVal e.a : ZMod e.fe.p) (beVal e.d : ZMod e.fe.p)) = e.h * beVal e.sc.n := by
    have hcle := ed_card_le (a := (beVal e.a : ZMod e.fe.p)) (d := (beVal e.d : ZMod e.fe.p))
    have hpos : 0 < Nat.card (EPt (beVal e.a : ZMod e.fe.p) (beVal e.d : ZMod e.fe.p)) := Nat.card_pos
    have hdn : beVal e.sc.n ∣ Nat.card (EPt (beVal e.a : ZMod e.fe.p) (beVal e.d : ZMod e.fe.p)) := by
      rw [← hord]; exact addOrderOf_dvd_natCard G
    have hdh : e.h ∣ Nat.card (EPt (beVal e.a : ZMod e.fe.p) (beVal e.d : ZMod e.fe.p)) := by
      let K : AddSubgroup (EPt (beVal e.a : ZMod e.fe.p) (beVal e.d : ZMod e.fe.p)) := (nsmulAddMonoidHom (α := EPt _ _) e.h).ker
      have e1 : Nat.card {P : EPt (beVal e.a : ZMod e.fe.p) (beVal e.d : ZMod e.fe.p) // e.h • P = 0} = Nat.card K := rfl
      have : Fact (Nat.Prime 2) := ⟨Nat.prime_two⟩
      have hp : IsPGroup 2 (Multiplicative K) := by
        intro k
        refine ⟨i, ?_⟩
        have : 2 ^ i • (Multiplicative.toAdd k).1 = 0 := hh ▸ (Multiplicative.toAdd k).2
        exact Multiplicative.toAdd.injective (Subtype.ext this)
      obtain ⟨k, hk⟩ := (IsPGroup.iff_card).1 hp
      have hk : Nat.card K = 2 ^ k := by rw [← hk]; exact (Nat.card_congr Multiplicative.toAdd).symm
      rw [e1, hk, hh] at hle
      have hik : i ≤ k := (Nat.pow_le_pow_iff_right (by omega)).1 hle
      rw [hh]
      exact (Nat.pow_dvd_pow 2 hik).trans (hk ▸ K.card_addSubgroup_dvd_card)
    have hcop : Nat.Coprime e.h (beVal e.sc.n) := by
      rw [hh]; exact Nat.Coprime.pow_left _ ((Nat.coprime_two_left).2 (Nat.odd_iff.2 h20))
    obtain ⟨m, hm⟩ := hcop.mul_dvd_of_dvd_of_dvd hdh hdn
    have hm3 : m < 3 := by
      by_contra hc
      have : e.h * beVal e.sc.n * 3 ≤ e.h * beVal e.sc.n * m := Nat.mul_le_mul_left _ (by omega)
      omega
    have hm0 : m ≠ 0 := by rintro rfl; omega
    have hm2 : m ≠ 2 := by
      rintro rfl
      rcases h17 with h17 | ⟨⟨a1, a2⟩, a3⟩
      · omega
      · have := eulerCheck_spec (by omega) a3
        rw [Nat.cast_sub (by omega), Nat.cast_add, ZMod.natCast_self, Nat.cast_one, zero_add] at this
        refine ed_no_eight (a := (beVal e.a : ZMod e.fe.p)) (by rw [a2, Nat.cast_one]) this ?_
        rw [hm, a1]
        exact ⟨beVal e.sc.n, by ring⟩
    have : m = 1 := by omega
    rw [hm, this, mul_one]
  have hcd := ed_tor_card (a := (beVal e.a : ZMod e.fe.p)) (d := (beVal e.d : ZMod e.fe.p)) h20 (by rw [hcard, hh])
  refine ⟨h1, good, h2.2, h4, h6.2, h7, ⟨G, hx, hy, hord⟩, ?_, cne _ h11.1 h11.2, ?_, hcard, h15, tdist, fun t ht => (tor t ht).2, ?_, h18,
    h19, h20⟩
  · intro k hk
    rw [hk] at h10
    simp only [beq_iff_eq] at h10
    have := (ZMod.intCast_zmod_eq_zero_iff_dvd (k - (beVal e.d : Int)) e.fe.p).2 (Int.dvd_of_emod_eq_zero h10)
    push_cast at this
    exact sub_eq_zero.1 this
  · have := congrArg (Nat.cast (R := ZMod e.fe.p)) h12
    rw [cast_mod_dvd (dvd_refl e.fe.p)] at this
    push_cast at this
    rw [← this]
    split <;> simp only [cast_nsub_dvd (dvd_refl e.fe.p) hp0, *] <;> ring
  · intro P hP
    have fint : Finite {P : EPt (beVal e.a : ZMod e.fe.p) (beVal e.d : ZMod e.fe.p) // e.h • P = 0} := Subtype.finite
    have hb := (Nat.bijective_iff_injective_and_card f).2 ⟨hf, by
      rw [Nat.card_eq_fintype_card, Fintype.card_fin]; rw [← hh] at hcd; omega⟩
    obtain ⟨j, hj⟩ := hb.2 ⟨P, hP⟩
    obtain ⟨t, ht, h1, h2⟩ := hft j
    rw [hj] at h1 h2
    exact ⟨t, ht, h1, h2⟩

end

theorem edDefs_fe : ∀ d ∈ edDefs, d.fe ∈ fieldCodes := by
  intro d h
  simp only [edDefs, List.mem_cons, List.not_mem_nil, or_false] at h
  rcases h with rfl | rfl | rfl <;> simp [fieldCodes, curve_ed25519, curve_ed448, curve_ed1174]

theorem edDefs_prime {d : EdwardsDef} (h : d ∈ edDefs) : Fact d.fe.p.Prime := ⟨fieldCodes_prime _ (edDefs_fe d h)⟩

theorem edDefs_sc : ∀ d ∈ edDefs, (beVal d.sc.n).Prime := by
  intro d h
  apply scDefs_prime
  simp only [edDefs, List.mem_cons, List.not_mem_nil, or_false] at h
  rcases h with rfl | rfl | rfl <;> simp [Sc.scDefs, curve_ed25519, curve_ed448, curve_ed1174]

theorem edDefs_h : ∀ d ∈ edDefs, ∃ i, i ≤ 31 ∧ d.h = 2 ^ i := by
  intro d h
  simp only [edDefs, List.mem_cons, List.not_mem_nil, or_false] at h
  rcases h with rfl | rfl | rfl
  · exact ⟨3, by omega, rfl⟩
  · exact ⟨2, by omega, rfl⟩
  · exact ⟨2, by omega, rfl⟩

theorem edFacts {d : EdwardsDef} (hd : d ∈ edDefs) [Fact d.fe.p.Prime] :
    EdFacts d (beVal d.a : ZMod d.fe.p) (beVal d.d : ZMod d.fe.p) := by
  have hs := edDefs_sc d hd
  obtain ⟨i, _, hi⟩ := edDefs_h d hd
  simp only [edDefs, List.mem_cons, List.not_mem_nil, or_false] at hd
  rcases hd with rfl | rfl | rfl
  · exact edCheck_spec check_ed25519 hs hi
  · exact edCheck_spec check_ed448 hs hi
  · exact edCheck_spec check_ed1174 hs hi

end Torsion.Ecc
