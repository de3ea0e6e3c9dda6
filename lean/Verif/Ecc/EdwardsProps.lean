import Verif.Ecc.EdMulLemmas
import Verif.Ecc.EdCurveLemmas

/-! # Properties: Edwards curves, their constants, point arithmetic and scalar multiplication (C77) -/
namespace Torsion

open Torsion.Spec (EPt EdGood Ext xaff EdConst EdOk EdCurve beVal)

variable {F : Type} [Field F] [DecidableEq F]

/-! ### Points -/

/-- The structs with `z ≠ 0` and `t z = x y` which satisfy the equation are those which stand for a point, and one struct
stands for one point. -/
theorem xge_validate_exact {ec : Edwards F} (c : EdConst ec) (p : Xge F) :
    (xge_validate ec p = true ↔ ∃ P : EPt ec.a ec.d, Ext p P) ∧ (∀ P Q : EPt ec.a ec.d, Ext p P → Ext p Q → P = Q) ∧
    (∀ x y, edwards_validate_xy ec x y = true ↔ ∃ P : EPt ec.a ec.d, P.x = x ∧ P.y = y) :=
  ⟨Ecc.validate_iff c p, fun _ _ => Ecc.ext_inj, fun x y => by
    rw [Ecc.validate_xy_iff c]
    exact ⟨fun h => ⟨⟨x, y, h⟩, rfl, rfl⟩, by rintro ⟨P, rfl, rfl⟩; exact P.on⟩⟩

/-- Addition, subtraction, doubling and negation have no exceptions, whatever `a` is. -/
theorem xge_arith_exact {ec : Edwards F} [EdGood ec.a ec.d] (c : EdConst ec) {p q : Xge F} {P Q : EPt ec.a ec.d} (hp : Ext p P)
    (hq : Ext q Q) :
    Ext (xge_add ec p q) (P + Q) ∧ Ext (xge_sub ec p q) (P - Q) ∧ Ext (xge_dbl ec p) (2 • P) ∧ Ext (xge_neg p) (-P) ∧
    Ext xge_zero (0 : EPt ec.a ec.d) ∧ (q.z = 1 → Ext (xge_mixed_add ec p q) (P + Q) ∧ Ext (xge_mixed_sub ec p q) (P - Q)) ∧
    (xge_is_zero p = true ↔ P = 0) ∧ (xge_equal p q = true ↔ P = Q) ∧
    ∀ s, Ext (xge_neg_cond p s) (if s then -P else P) ∧ Ext (xge_select p q s) (if s then Q else P) := by
  refine ⟨Ecc.xadd c hp hq, Ecc.xsub c hp hq, by rw [two_nsmul]; exact Ecc.xdbl hp, Ecc.xneg hp, Ecc.ext_zero, fun hz => ?_,
    Ecc.is_zero_iff hp, Ecc.equal_iff hp hq, fun s => ⟨Ecc.xneg_cond hp s, ?_⟩⟩
  · rw [Ecc.ext_eq hq hz]; exact ⟨Ecc.xmadd c hp Q, Ecc.xmsub c hp Q⟩
  · cases s
    · simpa [xge_select, fe_select] using hp
    · simpa [xge_select, fe_select] using hq

/-- Any list of structs, with one inversion. -/
theorem xge_normalize_exact {a d : F} {ps : List (Xge F)} {Ps : List (EPt a d)} (h : List.Forall₂ Ext ps Ps) :
    xge_normalize_all_var ps = .ok (Ps.map xaff) := Ecc.xnorm_eq h

/-! ### The curves -/

/-- `edwards_init` succeeds for the three curves: no assertion fails, the generator is on the curve and has the order of the
tables, the number of points is the order times the cofactor, the table of points of small order is complete, and the constants
for the isomorphic Montgomery curve are right. -/
theorem edwards_init_exact {d : EdwardsDef} (hd : d ∈ edDefs) [Fact d.fe.p.Prime] :
    ∃ ec, edwards_init d = .ok ec ∧ ∃ (_ : EdGood ec.a ec.d) (G : EPt ec.a ec.d), EdCurve d ec G := by
  have f := Ecc.edFacts hd
  have good := f.good
  have hv : (if d.invert then (beVal d.d : ZMod d.fe.p) - (beVal d.a : ZMod d.fe.p) else
      (beVal d.a : ZMod d.fe.p) - (beVal d.d : ZMod d.fe.p)) ≠ 0 := by
    intro h
    have := f.c4
    rw [h, mul_zero] at this
    exact Ecc.ed_four (a := (beVal d.a : ZMod d.fe.p)) (d := (beVal d.d : ZMod d.fe.p)) this.symm
  have hca : (beVal d.c : ZMod d.fe.p) * (beVal d.c : ZMod d.fe.p) * (beVal d.a : ZMod d.fe.p) ≠ 0 :=
    mul_ne_zero (mul_ne_zero f.c0 f.c0) good.a0
  have hiso : edwards_init_isomorphism (beVal d.a : ZMod d.fe.p) (beVal d.d : ZMod d.fe.p) (beVal d.c : ZMod d.fe.p) d.invert
      = .ok (2 * ((beVal d.a : ZMod d.fe.p) + (beVal d.d : ZMod d.fe.p)) / (if d.invert then
        (beVal d.d : ZMod d.fe.p) - (beVal d.a : ZMod d.fe.p) else (beVal d.a : ZMod d.fe.p) - (beVal d.d : ZMod d.fe.p)), 1, 1,
        2 * ((beVal d.a : ZMod d.fe.p) + (beVal d.d : ZMod d.fe.p)) / (if d.invert then
        (beVal d.d : ZMod d.fe.p) - (beVal d.a : ZMod d.fe.p) else (beVal d.a : ZMod d.fe.p) - (beVal d.d : ZMod d.fe.p)), 1) := by
    have c4 := f.c4
    have c0 := f.c0
    have a0 := good.a0
    generalize (beVal d.a : ZMod d.fe.p) = a at *
    generalize (beVal d.d : ZMod d.fe.p) = e at *
    generalize (beVal d.c : ZMod d.fe.p) = c at *
    unfold edwards_init_isomorphism
    cases hi : d.invert <;> rw [hi] at hv c4 <;>
      simp only [Bool.not_false, Bool.not_true, if_true, if_false, fe_invert_var, hca, Bool.false_eq_true] at hv c4 ⊢
    · rw [if_neg hv, C.ok_bind, C.ok_bind]
      have hB : ((a + e + (a + e)) * (a - e)⁻¹ + 2) * (c * c * a)⁻¹ = 1 := by
        rw [← div_eq_mul_inv, ← div_eq_mul_inv, div_eq_one_iff_eq hca]
        field_simp
        linear_combination -a * c4
      rw [hB, if_neg one_ne_zero, C.ok_bind]
      simp only [inv_one, mul_one, C.pure_eq]
      rw [div_eq_mul_inv, two_mul]
    · rw [if_neg hv, C.ok_bind, C.ok_bind]
      have hB : ((e + a + (e + a)) * (e - a)⁻¹ - 2) * (c * c * a)⁻¹ = 1 := by
        rw [← div_eq_mul_inv, ← div_eq_mul_inv, div_eq_one_iff_eq hca]
        field_simp
        linear_combination -a * c4
      rw [hB, if_neg one_ne_zero, C.ok_bind]
      simp only [inv_one, mul_one, C.pure_eq]
      rw [div_eq_mul_inv, two_mul, add_comm a e]
  unfold edwards_init
  dsimp only
  rw [Ecc.check_true f.limbs, C.ok_bind]
  have hc0 : fe_is_zero (beVal d.c : ZMod d.fe.p) = false := by rw [fe_is_zero]; exact decide_eq_false f.c0
  simp only [hc0, Bool.false_eq_true, if_false]
  rw [hiso, C.ok_bind]
  generalize hec : edwards_fields d _ _ = ec
  have hg : ec.g = ⟨(beVal d.x : ZMod d.fe.p), (beVal d.y : ZMod d.fe.p), 1, (beVal d.x : ZMod d.fe.p) * (beVal d.y : ZMod d.fe.p)⟩ := by
    rw [← hec]; rfl
  have hcon : EdConst ec := by
    subst hec
    refine ⟨(two_mul _).symm, ?_⟩
    intro k hk
    obtain ⟨k', h1, rfl⟩ := Option.map_eq_some_iff.1 hk
    exact f.scm k' h1
  have hn : ec.n = beVal d.sc.n := by rw [← hec]; rfl
  have hh : ec.h = d.h := by rw [← hec]; rfl
  have hrest : ec.hash = d.hash ∧ ec.context = d.context ∧ ec.pfx = d.pfx ∧ ec.z = (d.z : ZMod d.fe.p) ∧ ec.invert = d.invert ∧
      ec.c = (beVal d.c : ZMod d.fe.p) ∧ (ec.B = 1 ∧ ec.Bi = 1 ∧ ec.A0 = ec.A ∧ ec.B0 = 1) ∧ ec.unblind = xge_zero ∧ ec.blind = 0 ∧
      ec.a = (beVal d.a : ZMod d.fe.p) ∧ ec.d = (beVal d.d : ZMod d.fe.p) ∧ ec.bits = feBits d.fe := by
    rw [← hec]; exact ⟨rfl, rfl, rfl, rfl, rfl, rfl, ⟨rfl, rfl, rfl, rfl⟩, rfl, rfl, rfl, rfl, rfl⟩
  have hA : ec.A = 2 * (ec.a + ec.d) / (if d.invert then ec.d - ec.a else ec.a - ec.d) := by rw [← hec]; rfl
  have htor : ec.torsion = d.torsion.map fun t => (⟨(beVal t.x : ZMod d.fe.p), (beVal t.y : ZMod d.fe.p), 1,
      (beVal t.x : ZMod d.fe.p) * (beVal t.y : ZMod d.fe.p)⟩ : Xge (ZMod d.fe.p)) := by rw [← hec]; rfl
  clear hec hiso hca hc0
  obtain ⟨r1, r2, r3, r4, r5, r6, r7, r8, r9, ha, hdd, hbits⟩ := hrest
  rw [← ha, ← hdd] at hv
  clear good
  rw [← ha, ← hdd] at f
  have good := f.good
  obtain ⟨G, gx, gy, hord⟩ := f.base
  have hg : ec.g = xaff G := by rw [hg, xaff, gx, gy]
  have e1 : xge_fixed_points ec ec.g = .ok (((List.range ((ec.n.size + 3) / 4)).flatMap fun w =>
      (List.range 16).map fun i => (i * 16 ^ w) • G).map xaff) := by
    rw [hg]; exact Ecc.xnorm_eq (Ecc.xwindows hcon _ (Ecc.ext_aff G))
  have e2 : xge_fixed_naf_points ec ec.g 12 = .ok (((List.range (2 ^ (12 - 2))).map fun i => (2 * i + 1) • G).map xaff) := by
    rw [hg]; exact Ecc.xnorm_eq (Ecc.xnaf_points hcon (Ecc.ext_aff G) 12)
  rw [e1, C.ok_bind, e2, C.ok_bind]
  have hpos : 0 < ec.n := by rw [hn]; exact (Ecc.edDefs_sc d hd).pos
  have hord' : addOrderOf G = ec.n := by rw [hord, hn]
  refine ⟨_, rfl, good, G, ⟨⟨hcon.k, hcon.scmul⟩, hg, hpos, ?_, ⟨0, ?_, ?_⟩, ?_, ?_⟩, r1, r2, r3, hbits, hn, hh, ha, hdd, r4, r5, gx, gy,
    hord', ?_, ?_, r6, ?_, ?_, r7⟩
  · dsimp only; rw [← hord']; exact addOrderOf_nsmul_eq_zero G
  · dsimp only; rw [r8, zero_nsmul]; exact Ecc.ext_zero
  · dsimp only; rw [r9, Nat.zero_add, Nat.zero_mod]
  · intro w i hw hi
    dsimp only at hw ⊢
    rw [List.getElem?_map, Ecc.getElem?_flatMap _ 16 (by simp) _ _ _ hi]
    simp [hw, hi]
  · intro i hi
    have hi' : i < 2 ^ (12 - 2) := hi
    dsimp only
    rw [List.getElem?_map, List.getElem?_map, List.getElem?_range hi']
    rfl
  · dsimp only; rw [f.card, hh, hn]
  · dsimp only
    rw [hh]
    choose T hT using f.tor
    refine ⟨d.torsion.attach.map fun t => T t.1 t.2, ?_, ?_, ?_, ?_⟩
    · rw [htor, List.map_map]
      conv_lhs => rw [← List.attach_map_subtype_val d.torsion, List.map_map]
      refine List.map_congr_left fun t _ => ?_
      simp only [Function.comp_apply, xaff, (hT t.1 t.2).1, (hT t.1 t.2).2.1]
    · have := f.tdist
      refine List.Nodup.of_map (fun P : EPt ec.a ec.d => (P.x, P.y)) ?_
      rw [List.map_map]
      conv at this => rw [← List.attach_map_subtype_val d.torsion, List.map_map]
      convert this using 1
      refine List.map_congr_left fun t _ => ?_
      simp only [Function.comp_apply, (hT t.1 t.2).1, (hT t.1 t.2).2.1]
    · rw [List.length_map, List.length_attach, f.tlen]
    · intro P
      rw [List.mem_map]
      constructor
      · rintro ⟨t, _, rfl⟩
        exact (hT t.1 t.2).2.2
      · intro hP
        obtain ⟨t, ht, h1, h2⟩ := f.torall P hP
        exact ⟨⟨t, ht⟩, List.mem_attach _ _, EPt.ext ((hT t ht).1.trans h1.symm) ((hT t ht).2.1.trans h2.symm)⟩
  · dsimp only
    rw [hA, r5, div_mul_cancel₀ _ hv]
  · dsimp only
    rw [r5, r6]
    exact f.c4

/-- Drawing new blinding scalars, any number of times, keeps all of that. -/
theorem edwards_randomize_exact {d : EdwardsDef} [Fact d.fe.p.Prime] {ec : Edwards (ZMod d.fe.p)} [EdGood ec.a ec.d]
    {G : EPt ec.a ec.d} (ok : EdCurve d ec G) {blind : Nat} (hb : blind < ec.n) :
    ∃ ec', edwards_randomize ec blind = .ok ec' ∧ ∃ (_ : EdGood ec'.a ec'.d) (G' : EPt ec'.a ec'.d), EdCurve d ec' G' := by
  obtain ⟨j, h1, h2⟩ := Ecc.xmul_g ok.toEdOk blind
  unfold edwards_randomize
  rw [h1, C.ok_bind]
  refine ⟨_, rfl, ‹_›, G, ⟨⟨ok.const.k, ok.const.scmul⟩, ok.gen, ok.pos, ok.order, ⟨blind, h2, ?_⟩, ok.fixed, ok.naf⟩, ok.hash,
    ok.context, ok.pfx, ok.bits, ok.nval, ok.hval, ok.aval, ok.dval, ok.zval, ok.inv, ok.gx, ok.gy, ok.exact, ok.card, ok.torsion,
    ok.cval, ok.mont, ok.iso, ok.montB⟩
  dsimp only
  split
  · rename_i h; rw [h]; simp
  · rw [Nat.sub_add_cancel hb.le, Nat.mod_self]

/-! ### Scalar multiplication -/

/-- Multiples of the generator in constant time, whatever the blinding; the scalar may have any size. -/
theorem edwards_mul_g_exact {ec : Edwards F} [EdGood ec.a ec.d] {G : EPt ec.a ec.d} (ok : EdOk ec G) (k : Nat) :
    ∃ j, edwards_mul_g ec k = .ok j ∧ Ext j (k • G) := Ecc.xmul_g ok k

/-- Multiples of any point in constant time. The windows cover the bits of the field: what the scalar has above is dropped. -/
theorem edwards_mul_exact {ec : Edwards F} [EdGood ec.a ec.d] (c : EdConst ec) {p : Xge F} {P : EPt ec.a ec.d} (hp : Ext p P)
    (k : Nat) : ∃ j, edwards_mul ec p k = .ok j ∧ Ext j ((k % 16 ^ ((ec.bits + 3) / 4)) • P) := Ecc.xmul_mod c hp k

/-- So for scalars below the order the result is the multiple. -/
theorem edwards_mul_scalar_exact {d : EdwardsDef} (hd : d ∈ edDefs) [Fact d.fe.p.Prime] {ec : Edwards (ZMod d.fe.p)}
    [EdGood ec.a ec.d] {G : EPt ec.a ec.d} (ok : EdCurve d ec G) {p : Xge (ZMod d.fe.p)} {P : EPt ec.a ec.d} (hp : Ext p P)
    {k : Nat} (hk : k ≤ ec.n) : ∃ j, edwards_mul ec p k = .ok j ∧ Ext j (k • P) := by
  refine Ecc.xmul ok.const hp (lt_of_le_of_lt hk ?_)
  rw [ok.nval, ok.bits]
  exact (Ecc.edFacts hd).nlt

/-- `k1 G + k2 P`, as the verification of signatures uses it. -/
theorem edwards_mul_double_exact {ec : Edwards F} [EdGood ec.a ec.d] {G : EPt ec.a ec.d} (ok : EdOk ec G) {p : Xge F}
    {P : EPt ec.a ec.d} (hp : Ext p P) {k1 k2 : Nat} (h1 : k1 < ec.n) (h2 : k2 < ec.n) :
    ∃ j, edwards_mul_double_var ec k1 p k2 = .ok j ∧ Ext j (k1 • G + k2 • P) := Ecc.xdouble ok hp h1 h2

/-- `k0 G` plus any number of multiples of points, as the batch verification uses it. -/
theorem edwards_mul_multi_exact {ec : Edwards F} [EdGood ec.a ec.d] {G : EPt ec.a ec.d} (ok : EdOk ec G) {k0 : Nat} (h0 : k0 < ec.n)
    {ss : List (Xge F × Nat)} {ts : List (EPt ec.a ec.d × Nat)} (hss : List.Forall₂ (fun s t => Ext s.1 t.1 ∧ s.2 = t.2) ss ts)
    (hk : ∀ t ∈ ts, t.2 < ec.n) (size : Nat) :
    if ss.length ≤ size then
      ∃ j, edwards_mul_multi_var ec k0 ss size = .ok j ∧ Ext j (k0 • G + (ts.map fun t => t.2 • t.1).sum)
    else edwards_mul_multi_var ec k0 ss size = .abort := by
  split
  · rename_i hs; exact Ecc.xmulti ok h0 (hss.imp fun _ _ h => h) hk hs
  · rename_i hs
    rw [edwards_mul_multi_var, Ecc.check_false (by simpa using hs)]
    rfl

/-! ### The cofactor -/

/-- The multiplication by the cofactor, and the two tests which concern it: `xge_is_small` recognizes the points other than the
neutral element whose order divides the cofactor, `xge_has_torsion` those which are not multiples of the generator. -/
theorem xge_torsion_exact {d : EdwardsDef} (hd : d ∈ edDefs) [Fact d.fe.p.Prime] {ec : Edwards (ZMod d.fe.p)} [EdGood ec.a ec.d]
    {G : EPt ec.a ec.d} (ok : EdCurve d ec G) {p : Xge (ZMod d.fe.p)} {P : EPt ec.a ec.d} (hp : Ext p P) :
    (∃ r, xge_mulh ec p = .ok r ∧ Ext r (ec.h • P)) ∧
    (∃ s, xge_is_small ec p = .ok s ∧ (s = true ↔ P ≠ 0 ∧ ec.h • P = 0)) ∧
    (∃ t, xge_has_torsion ec p = .ok t ∧ (t = true ↔ ¬ ∃ k : Nat, P = k • G)) := by
  obtain ⟨i, hi, hh⟩ := Ecc.edDefs_h d hd
  rw [← ok.hval] at hh
  obtain ⟨r, h1, h2⟩ := Ecc.xmulh hi hh hp
  obtain ⟨j, h3, h4⟩ := edwards_mul_scalar_exact hd ok hp (le_refl ec.n)
  refine ⟨⟨r, h1, h2⟩, ⟨_, by rw [xge_is_small, h1, C.ok_bind]; rfl, ?_⟩, ⟨_, by rw [xge_has_torsion, h3, C.ok_bind]; rfl, ?_⟩⟩
  · rw [Bool.and_eq_true, Ecc.is_zero_iff h2, Bool.not_eq_true', Bool.eq_false_iff, ne_eq, Ecc.is_zero_iff hp]
    exact and_comm
  · rw [Bool.not_eq_true', Bool.eq_false_iff, ne_eq, Ecc.is_zero_iff h4, not_iff_not]
    constructor
    · intro h
      exact Ecc.ed_sub_gen ok.card ok.exact (by rw [ok.nval]; exact Ecc.edDefs_sc d hd) (by
        rw [hh]; exact Nat.Coprime.pow_left _ ((Nat.coprime_two_left).2 (Nat.odd_iff.2 (by rw [ok.nval]; exact (Ecc.edFacts hd).nodd)))) h
    · rintro ⟨k, rfl⟩
      rw [smul_comm, ok.order, smul_zero]

/-! ### The hypotheses hold in concrete cases -/

/-- All that is said of the curve holds of ed25519 after initialization and a randomization, for the generator and its double. -/
example [Fact curve_ed25519.fe.p.Prime] :
    ∃ ec, (edwards_init curve_ed25519 >>= fun ec => edwards_randomize ec 5) = .ok ec := by
  obtain ⟨ec, h1, g, G, ok⟩ := edwards_init_exact (d := curve_ed25519) (by simp [edDefs])
  obtain ⟨ec', h2, _⟩ := edwards_randomize_exact ok (blind := 5) (by rw [ok.nval]; decide +kernel)
  exact ⟨ec', by rw [h1, C.ok_bind, h2]⟩

section
local instance fact13 : Fact (Nat.Prime 13) := ⟨by decide⟩

/-- `x^2 + y^2 = 1 + 2 x^2 y^2` over 13 elements, and a point of it. -/
local instance edGood13 : EdGood (1 : ZMod 13) (2 : ZMod 13) := ⟨by decide, by decide, ⟨1, by decide⟩, by decide⟩

example : ∃ P : EPt (1 : ZMod 13) (2 : ZMod 13), P.x = 4 ∧ P.y = 4 ∧ 2 • P ≠ 0 :=
  ⟨⟨4, 4, by decide⟩, rfl, rfl, by rw [ne_eq, Ecc.ed_two]; decide⟩

end

/-- For ed1174 the windows have 252 bits, and scalars of 256 bits have more: then the result is that of the lower bits only. -/
example : ((feBits curve_ed1174.fe + 3) / 4) * 4 = 252 ∧ (2 ^ 252) % 16 ^ ((feBits curve_ed1174.fe + 3) / 4) = 0 := by decide +kernel

end Torsion
