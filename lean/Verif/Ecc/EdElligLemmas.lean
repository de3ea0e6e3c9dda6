import Verif.Ecc.EdElligSpec
import Verif.Ecc.MontHashLemmas
import Verif.Ecc.EddsaLemmas

/-! Lemmas on Elligator 2 on Edwards curves. -/
set_option linter.unusedSectionVars false

namespace Torsion.Ecc

open Torsion.Spec

/-! ### The Montgomery curve -/

/-- The constants of the Montgomery curve belong to the Edwards curve. -/
structure EdIso {F : Type} [Field F] (a d A c : F) (invert : Bool) : Prop where
  mont : A * (if invert then d - a else a - d) = 2 * (a + d)
  iso : c ^ 2 * (if invert then d - a else a - d) = 4

section
variable {F : Type} [Field F] [DecidableEq F] {a d A c : F} {inv : Bool} [g : EdGood a d]

/-- The sign. -/
def esgn (F : Type) [Field F] (inv : Bool) : F := if inv then -1 else 1

theorem esgn_sq : esgn F inv ^ 2 = 1 := by cases inv <;> simp [esgn]

theorem esgn_ne : esgn F inv ≠ 0 := fun h => by simpa [h] using esgn_sq (F := F) (inv := inv)

theorem EdIso.mont' (h : EdIso a d A c inv) : A * (esgn F inv * (a - d)) = 2 * (a + d) := by
  rw [← h.mont]; cases inv <;> simp [esgn]

theorem EdIso.iso' (h : EdIso a d A c inv) : c ^ 2 * (esgn F inv * (a - d)) = 4 := by
  rw [← h.iso]; cases inv <;> simp [esgn]

theorem EdIso.c0 (h : EdIso a d A c inv) : c ≠ 0 := by
  rintro rfl
  exact ed_four (a := a) (d := d) (by rw [← h.iso']; ring)

theorem iso_quad (h : EdIso a d A c inv) (u : F) : u ^ 2 + A * u + 1 ≠ 0 := by
  intro e
  have hm := h.mont'
  have he := esgn_sq (F := F) (inv := inv)
  obtain ⟨r, hr⟩ := g.sq
  have hr0 : r ≠ 0 := by rintro rfl; exact g.a0 (by rw [hr]; ring)
  have h4 := ed_four (a := a) (d := d)
  generalize esgn F inv = s at *
  apply g.nsq
  refine ⟨(2 * u + A) * (a - d) / (4 * r), ?_⟩
  rw [div_mul_div_comm, eq_div_iff (by simp [hr0, h4])]
  linear_combination (-16 * d) * hr - 4 * (a - d) ^ 2 * e - (A * (s * (a - d)) + 2 * (a + d)) * hm + A ^ 2 * (a - d) ^ 2 * he

theorem iso_ne (h : EdIso a d A c inv) {u v : F} (hv : v ^ 2 = u ^ 3 + A * u ^ 2 + u) : u + esgn F inv ≠ 0 := by
  intro e
  have hm := h.mont'
  have hi := h.iso'
  have he := esgn_sq (F := F) (inv := inv)
  have hc := h.c0
  have had := ed_ad (a := a) (d := d)
  generalize esgn F inv = s at *
  apply g.nsq
  refine ⟨v / c, ?_⟩
  rw [div_mul_div_comm, eq_div_iff (mul_ne_zero hc hc), ← pow_two v, hv]
  have hu : u = -s := by linear_combination e
  subst hu
  apply mul_right_cancel₀ had
  have k : A * (a - d) = s * (2 * (a + d)) := by linear_combination s * hm - A * (a - d) * he
  have k2 : c ^ 2 * (a - d) = s * 4 := by linear_combination s * hi - c ^ 2 * (a - d) * he
  linear_combination d * k2 - k * s ^ 2 + (s * (a - d) - 2 * s * (a + d)) * he

theorem iso_v0 (h : EdIso a d A c inv) {u v : F} (hv : v ^ 2 = u ^ 3 + A * u ^ 2 + u) : v = 0 ↔ u = 0 := by
  constructor
  · rintro rfl
    have : u * (u ^ 2 + A * u + 1) = 0 := by linear_combination -hv
    exact (mul_eq_zero.1 this).resolve_right (iso_quad h u)
  · rintro rfl
    exact pow_eq_zero_iff two_ne_zero |>.1 (by rw [hv]; ring)

theorem montOf_ne {P : EPt a d} {u v : F} (h : MontOf A c inv P u v) : P ≠ 0 := by
  rintro rfl
  have := h.eu
  rw [ed_zero_y] at this
  have k : esgn F inv * 2 = 0 := by rw [esgn]; linear_combination -this
  exact mul_ne_zero esgn_ne g.two k

theorem montOf_y {P : EPt a d} {u v : F} (h : MontOf A c inv P u v) : P.y * (u + esgn F inv) = u - esgn F inv := by
  have := h.eu
  rw [← esgn] at this
  linear_combination -this

theorem montOf_x0 {P : EPt a d} {u v : F} (h : MontOf A c inv P u v) (hu : u = 0) : P.x = 0 ∧ P.y = -1 := by
  subst hu
  have k := montOf_y h
  have : P.y = -1 := by
    apply mul_right_cancel₀ (esgn_ne (F := F) (inv := inv))
    linear_combination k
  exact ⟨(ed_x0 P.on).2 (Or.inr this), this⟩

/-- Every point of the Montgomery curve corresponds to a point. -/
theorem montOf_exists (h : EdIso a d A c inv) {u v : F} (hv : v ^ 2 = u ^ 3 + A * u ^ 2 + u) : ∃ P : EPt a d, MontOf A c inv P u v := by
  by_cases hu : u = 0
  · refine ⟨⟨0, -1, by ring⟩, hv, ?_, ?_⟩
    · rw [hu]; ring
    · rw [hu]; ring
  · have hv0 : v ≠ 0 := fun e => hu ((iso_v0 h hv).1 e)
    have hn := iso_ne h hv
    refine ⟨⟨c * u / v, (u - esgn F inv) / (u + esgn F inv), ?_⟩, hv, ?_, ?_⟩
    · have hm := h.mont'
      have hi := h.iso'
      have he := esgn_sq (F := F) (inv := inv)
      generalize esgn F inv = s at *
      have e1 : a * (u + s) ^ 2 - d * (u - s) ^ 2 = (a - d) * (u ^ 2 + A * u + 1) := by
        linear_combination (a - d) * (1 + A * u) * he - u * s * hm
      have k2 : c ^ 2 * (a - d) = s * 4 := by linear_combination s * hi - c ^ 2 * (a - d) * he
      field_simp
      linear_combination c ^ 2 * u ^ 2 * e1 + u ^ 2 * (u ^ 2 + A * u + 1) * k2 - 4 * u * s * hv
    · change u * (1 - (u - esgn F inv) / (u + esgn F inv)) = esgn F inv * (1 + (u - esgn F inv) / (u + esgn F inv))
      field_simp
      ring
    · change v * (c * u / v) = c * u
      field_simp

theorem montOf_inj_pt (h : EdIso a d A c inv) {P Q : EPt a d} {u v : F} (hp : MontOf A c inv P u v) (hq : MontOf A c inv Q u v) : P = Q := by
  have hn := iso_ne h hp.on
  have hy : P.y = Q.y := mul_right_cancel₀ hn ((montOf_y hp).trans (montOf_y hq).symm)
  by_cases hu : u = 0
  · obtain ⟨x1, y1⟩ := montOf_x0 hp hu
    obtain ⟨x2, y2⟩ := montOf_x0 hq hu
    ext
    · rw [x1, x2]
    · rw [y1, y2]
  · have hv0 : v ≠ 0 := fun e => hu ((iso_v0 h hp.on).1 e)
    ext
    · exact mul_left_cancel₀ hv0 (hp.ev.trans hq.ev.symm)
    · exact hy

theorem pt_y1 {P : EPt a d} (h : P ≠ 0) : 1 - P.y ≠ 0 := by
  intro e
  have hy : P.y = 1 := by linear_combination -e
  exact h (EPt.ext ((ed_x0 P.on).2 (Or.inl hy)) hy)

/-- Every point except the neutral element corresponds to a point of the Montgomery curve. -/
theorem montOf_of (h : EdIso a d A c inv) {P : EPt a d} (hP : P ≠ 0) : ∃ u v, MontOf A c inv P u v := by
  have hy := pt_y1 hP
  by_cases hx : P.x = 0
  · have hy1 : P.y = -1 := ((ed_x0 P.on).1 hx).resolve_left fun e => hP (EPt.ext hx e)
    exact ⟨0, 0, by ring, by rw [hy1]; ring, by ring⟩
  · refine ⟨esgn F inv * (1 + P.y) / (1 - P.y), c * (esgn F inv * (1 + P.y) / (1 - P.y)) / P.x, ?_, ?_, ?_⟩
    · have hm := h.mont'
      have hi := h.iso'
      have he := esgn_sq (F := F) (inv := inv)
      have had := ed_ad (a := a) (d := d)
      have hon := P.on
      generalize esgn F inv = s at *
      generalize P.x = x at *
      generalize P.y = y at *
      have k : A * (a - d) = s * (2 * (a + d)) := by linear_combination s * hm - A * (a - d) * he
      have k2 : c ^ 2 * (a - d) = s * 4 := by linear_combination s * hi - c ^ 2 * (a - d) * he
      have q : ((1 + y) ^ 2 + A * s * (1 + y) * (1 - y) + (1 - y) ^ 2) * (a - d) = 4 * (a - d * y ^ 2) := by
        linear_combination (1 + y) * (1 - y) * hm
      field_simp
      apply mul_right_cancel₀ had
      linear_combination s ^ 2 * (1 + y) ^ 2 * (1 - y) * k2 + 4 * s * (1 + y) ^ 2 * (1 - y) * he - s * (1 + y) * x ^ 2 * q
        - s * (1 + y) * x ^ 2 * (1 + y) ^ 2 * (a - d) * he - 4 * s * (1 + y) * hon
    · change _ = esgn F inv * _
      field_simp
    · field_simp

theorem montOf_inj (h : EdIso a d A c inv) {P : EPt a d} {u v u' v' : F} (hp : MontOf A c inv P u v) (hq : MontOf A c inv P u' v') :
    u = u' ∧ v = v' := by
  have hy := pt_y1 (montOf_ne hp)
  have hu : u = u' := mul_right_cancel₀ hy (hp.eu.trans hq.eu.symm)
  subst hu
  refine ⟨rfl, ?_⟩
  by_cases hu : u = 0
  · rw [(iso_v0 h hp.on).2 hu, (iso_v0 h hq.on).2 hu]
  · have hx : P.x ≠ 0 := by
      intro e
      have := hp.ev
      rw [e, mul_zero] at this
      exact mul_ne_zero h.c0 hu this.symm
    exact mul_right_cancel₀ hx (hp.ev.trans hq.ev.symm)

theorem to_ed_ext (h : EdIso a d A c inv) {P : EPt a d} {u v : F} (hp : MontOf A c inv P u v) (bits : Nat) :
    Ext (mont_to_edwards bits ⟨u, v, false⟩ c inv false) P := by
  have hn := iso_ne h hp.on
  have hy := montOf_y hp
  have key : ∀ xz yy yz : F, xz ≠ 0 → yz ≠ 0 → c * u = P.x * xz → yy = P.y * yz → Ext ⟨c * u * yz, yy * xz, xz * yz, c * u * yy⟩ P := by
    intro xz yy yz h1 h2 h3 h4
    refine ⟨mul_ne_zero h1 h2, ?_, ?_, ?_⟩ <;> simp only [h3, h4] <;> ring
  have hxz : fe_select v 1 (fe_is_zero u) ≠ 0 ∧ c * u = P.x * fe_select v 1 (fe_is_zero u) := by
    unfold fe_select fe_is_zero
    by_cases hu : u = 0
    · rw [decide_eq_true hu, if_pos rfl, (montOf_x0 hp hu).1, hu]
      exact ⟨one_ne_zero, by ring⟩
    · rw [decide_eq_false hu, if_neg (by simp)]
      exact ⟨fun e => hu ((iso_v0 h hp.on).1 e), by rw [← hp.ev]; ring⟩
  have hfin : Ext ⟨c * u * (u + esgn F inv), (u - esgn F inv) * fe_select v 1 (fe_is_zero u), fe_select v 1 (fe_is_zero u) * (u + esgn F inv), c * u * (u - esgn F inv)⟩ P :=
    key _ _ _ hxz.1 hn hxz.2 hy.symm
  cases inv with
  | false =>
    rw [show esgn F false = 1 from rfl] at hfin
    simpa [mont_to_edwards, fe_select] using hfin
  | true =>
    rw [show esgn F true = -1 from rfl, ← sub_eq_add_neg, sub_neg_eq_add] at hfin
    simpa [mont_to_edwards, fe_select] using hfin

theorem ed_to_zero {p : Xge F} (hp : Ext p (0 : EPt a d)) (bits : Nat) : (edwards_to_mont bits p c inv false).inf = true := by
  have hx : p.x = 0 := by rw [hp.x, ed_zero_x, zero_mul]
  have hy : p.y = p.z := by rw [hp.y, ed_zero_y, one_mul]
  simp [edwards_to_mont, fe_is_zero, fe_equal, hx, hy]

theorem ed_to_mont (h : EdIso a d A c inv) {p : Xge F} {P : EPt a d} (hp : Ext p P) {u v : F} (hm : MontOf A c inv P u v) (bits : Nat) :
    edwards_to_mont bits p c inv false = ⟨u, v, false⟩ := by
  have hne := montOf_ne hm
  have hy := pt_y1 hne
  have hz := hp.z
  have hy' : p.y ≠ p.z := by
    intro e
    rw [hp.y] at e
    exact hy (mul_right_cancel₀ hz (by linear_combination -e))
  by_cases hu : u = 0
  · have hv := (iso_v0 h hm.on).2 hu
    have hx : p.x = 0 := by rw [hp.x, (montOf_x0 hm hu).1, zero_mul]
    simp [edwards_to_mont, fe_is_zero, fe_equal, hx, hy', fe_select, hu, hv]
  · have hPx : P.x ≠ 0 := by
      intro e
      have := hm.ev
      rw [e, mul_zero] at this
      exact mul_ne_zero h.c0 hu this.symm
    have hx : p.x ≠ 0 := by rw [hp.x]; exact mul_ne_zero hPx hz
    have ku := hm.eu
    have kv : v = c * u / P.x := by rw [eq_div_iff hPx, hm.ev]
    have d1 : p.y - p.z ≠ 0 := sub_ne_zero.2 hy'
    have d2 : p.z - p.y ≠ 0 := sub_ne_zero.2 (Ne.symm hy')
    have f1 : ∀ uu uz vz : F, uz ≠ 0 → vz ≠ 0 → uu = u * uz → uu * vz * (uz * vz)⁻¹ = u := by
      intro uu uz vz h1 h2 h3
      rw [h3]; field_simp
    have f2 : ∀ vv uz vz : F, uz ≠ 0 → vz ≠ 0 → vv = v * vz → vv * uz * (uz * vz)⁻¹ = v := by
      intro vv uz vz h1 h2 h3
      rw [h3]; field_simp
    have hv := hm.ev
    have hpx := hp.x
    have hpy := hp.y
    cases inv with
    | false =>
      rw [if_neg (by simp), one_mul] at ku
      simp only [edwards_to_mont, fe_is_zero, hx, decide_false, Bool.false_and, fe_select, fe_invert, Bool.false_eq_true, if_false]
      have k : p.z + p.y = u * (p.z - p.y) := by linear_combination (1 + u) * hpy - p.z * ku
      congr 1
      · exact f1 _ _ _ d2 (mul_ne_zero hx d2) k
      · refine f2 _ _ _ d2 (mul_ne_zero hx d2) ?_
        linear_combination c * p.z * k - v * (p.z - p.y) * hpx - p.z * (p.z - p.y) * hv
    | true =>
      rw [if_pos rfl] at ku
      simp only [edwards_to_mont, fe_is_zero, hx, decide_false, Bool.false_and, fe_select, fe_invert, Bool.false_eq_true, if_false, if_true]
      have k : p.y + p.z = u * (p.y - p.z) := by linear_combination (1 - u) * hpy + p.z * ku
      congr 1
      · exact f1 _ _ _ d1 (mul_ne_zero hx d1) k
      · refine f2 _ _ _ d1 (mul_ne_zero hx d1) ?_
        linear_combination c * p.z * k - v * (p.y - p.z) * hpx - p.z * (p.y - p.z) * hv

end

/-! ### The map -/

section
variable {fe : FieldCode} [Fact fe.p.Prime] {A z : ZMod fe.p}

/-- What Elligator 2 needs. -/
structure EllOk (A z : ZMod fe.p) : Prop where
  two : (2 : ZMod fe.p) ≠ 0
  z : ¬ IsSquare z
  a : A ≠ 0
  quad : ∀ u : ZMod fe.p, u ^ 2 + A * u + 1 ≠ 0

theorem EllOk.z0 (c : EllOk A z) : z ≠ 0 := fun h => c.z (by rw [h]; exact IsSquare.zero)

theorem ell_x1_ne (c : EllOk A z) (u : ZMod fe.p) : elligX1 A z u ≠ 0 := by
  unfold elligX1
  split
  · exact neg_ne_zero.2 c.a
  · rename_i h; exact div_ne_zero (neg_ne_zero.2 c.a) h

theorem ell_second (c : EllOk A z) (u : ZMod fe.p)
    (hn : ¬ IsSquare (elligX1 A z u ^ 3 + A * elligX1 A z u ^ 2 + elligX1 A z u)) :
    IsSquare ((-elligX1 A z u - A) ^ 3 + A * (-elligX1 A z u - A) ^ 2 + (-elligX1 A z u - A)) := by
  by_cases h : 1 + z * u ^ 2 = 0
  · have : elligX1 A z u = -A := if_pos h
    rw [this]
    exact ⟨0, by ring⟩
  · have e : elligX1 A z u = -A / (1 + z * u ^ 2) := if_neg h
    set x1 := elligX1 A z u
    have e1 : x1 * (1 + z * u ^ 2) = -A := by rw [e]; field_simp
    have : (-x1 - A) ^ 3 + A * (-x1 - A) ^ 2 + (-x1 - A) = u ^ 2 * (z * (x1 ^ 3 + A * x1 ^ 2 + x1)) := by
      have e2 : -x1 - A = z * u ^ 2 * x1 := by linear_combination -e1
      have e3 : (-x1 - A) ^ 3 + A * (-x1 - A) ^ 2 + (-x1 - A) = (-x1 - A) * (x1 ^ 2 + A * x1 + 1) := by ring
      rw [e3, e2]; ring
    rw [this]
    exact (IsSquare.sq u).mul (non_mul c.two c.z hn)

theorem odd_par {x y : ZMod fe.p} : fe_is_odd fe x = fe_is_odd fe y ↔ x.val % 2 = y.val % 2 := by
  unfold fe_is_odd
  rcases Nat.mod_two_eq_zero_or_one x.val with h1 | h1 <;> rcases Nat.mod_two_eq_zero_or_one y.val with h2 | h2 <;> simp [h1, h2]

theorem exy_unique (c : EllOk A z) {u x y x' y' : ZMod fe.p} (h : ElligXY A z u x y) (h' : ElligXY A z u x' y') : x = x' ∧ y = y' := by
  have hx : x = x' := by
    by_cases hs : IsSquare (elligX1 A z u ^ 3 + A * elligX1 A z u ^ 2 + elligX1 A z u)
    · rw [h.first hs, h'.first hs]
    · rw [h.second hs, h'.second hs]
  subst hx
  refine ⟨rfl, ?_⟩
  have hsq : y ^ 2 = y' ^ 2 := by rw [h.eqn, h'.eqn]
  rcases h.par with rfl | hp
  · have : y' ^ 2 = 0 := by rw [← hsq]; ring
    exact (pow_eq_zero_iff (n := 2) (by norm_num) |>.1 this).symm
  · rcases h'.par with rfl | hp'
    · have : y ^ 2 = 0 := by rw [hsq]; ring
      exact pow_eq_zero_iff (n := 2) (by norm_num) |>.1 this
    · exact root_unique c.two hsq (odd_par.2 (hp.trans hp'.symm))

theorem ell_y0 (c : EllOk A z) {x : ZMod fe.p} (h : x ^ 3 + A * x ^ 2 + x = 0) : x = 0 := by
  have : x * (x ^ 2 + A * x + 1) = 0 := by linear_combination h
  exact (mul_eq_zero.1 this).resolve_right (c.quad x)

/-- The element which `edwards_invert2` computes from `(x, y)`. -/
def invU2 (A z x : ZMod fe.p) (odd : Bool) : ZMod fe.p := if odd then -x / ((x + A) * z) else -(x + A) / (x * z)

/-- An element with the computed square and the parity of `y` is a preimage, unless `-A` is a square and `x` is `0` or `-A`. -/
theorem inv_exy (c : EllOk A z) {u x y : ZMod fe.p} {odd : Bool} (he : y ^ 2 = x ^ 3 + A * x ^ 2 + x)
    (hden : (if odd then (x + A) * z else x * z) ≠ 0) (hu2 : u ^ 2 = invU2 A z x odd) (hpar : u = 0 ∨ fe_is_odd fe u = fe_is_odd fe y)
    (hex : ¬ IsSquare (-A) ∨ x ≠ 0 ∧ x ≠ -A) : ElligXY A z u x y := by
  have hz0 := c.z0
  have ha := c.a
  cases odd with
  | true =>
    rw [invU2, if_pos rfl] at hu2
    rw [if_pos rfl] at hden
    have hxa : x + A ≠ 0 := fun h => hden (by rw [h, zero_mul])
    have hd1 : 1 + z * u ^ 2 = A / (x + A) := by rw [hu2]; field_simp; ring
    have hx1 : elligX1 A z u = -(x + A) := by
      rw [elligX1, if_neg (by rw [hd1]; exact div_ne_zero ha hxa), hd1]; field_simp
    have hu0 : x ≠ 0 → u ≠ 0 := by
      intro hx h0
      rw [h0] at hu2
      have : -x / ((x + A) * z) = 0 := by rw [← hu2]; ring
      rcases div_eq_zero_iff.1 this with h | h
      · exact hx (neg_eq_zero.1 h)
      · exact absurd h hden
    have hns : ¬ IsSquare (elligX1 A z u ^ 3 + A * elligX1 A z u ^ 2 + elligX1 A z u) := by
      by_cases hx : x = 0
      · rw [hx1, hx]
        have : (-(0 + A)) ^ 3 + A * (-(0 + A)) ^ 2 + -(0 + A) = -A := by ring
        rw [this]; exact hex.resolve_right fun h => h.1 hx
      · rw [hx1]
        rintro ⟨s, hs⟩
        have hrel : y ^ 2 = z * u ^ 2 * (s * s) := by
          rw [he, ← hs, hu2]; field_simp; ring
        have hu0 := hu0 hx
        have hs0 : s ≠ 0 := by
          rintro rfl
          have : x ^ 3 + A * x ^ 2 + x = 0 := by rw [← he, hrel]; ring
          exact hx (ell_y0 c this)
        apply c.z
        refine ⟨y / (u * s), ?_⟩
        field_simp
        linear_combination -hrel
    refine ⟨fun h => absurd h hns, fun _ => by rw [hx1]; ring, he, ?_⟩
    by_cases hx : x = 0
    · left
      have : y ^ 2 = 0 := by rw [he, hx]; ring
      exact pow_eq_zero_iff (n := 2) (by norm_num) |>.1 this
    · exact Or.inr (odd_par.1 (hpar.resolve_left (hu0 hx))).symm
  | false =>
    rw [invU2, if_neg (by simp)] at hu2
    rw [if_neg (by simp)] at hden
    have hx : x ≠ 0 := fun h => hden (by rw [h, zero_mul])
    have hd1 : 1 + z * u ^ 2 = -A / x := by rw [hu2]; field_simp; ring
    have hx1 : elligX1 A z u = x := by
      rw [elligX1, if_neg (by rw [hd1]; exact div_ne_zero (neg_ne_zero.2 ha) hx), hd1]; field_simp
    have hsq : IsSquare (elligX1 A z u ^ 3 + A * elligX1 A z u ^ 2 + elligX1 A z u) := by
      rw [hx1, ← he]; exact IsSquare.sq y
    refine ⟨fun _ => hx1.symm, fun h => absurd hsq h, he, Or.inr ?_⟩
    rcases hpar with h | h
    · exfalso
      rw [h] at hu2
      have : -(x + A) / (x * z) = 0 := by rw [← hu2]; ring
      rcases div_eq_zero_iff.1 this with h | h
      · have hxa : x = -A := by linear_combination -h
        refine (hex.resolve_right fun h => h.2 hxa) ⟨y, ?_⟩
        rw [← pow_two, he, hxa]; ring
      · exact absurd h hden
    · exact (odd_par.1 h).symm

/-- All `u` are found, except the two with `1 + z u^2 = 0`. -/
theorem inv_complete (c : EllOk A z) {u x y : ZMod fe.p} (h : ElligXY A z u x y) (hu : 1 + z * u ^ 2 ≠ 0) :
    ∃ odd : Bool, (if odd then (x + A) * z else x * z) ≠ 0 ∧ invU2 A z x odd = u ^ 2 ∧
      ∀ v, v ^ 2 = u ^ 2 → (v = 0 ∨ fe_is_odd fe v = fe_is_odd fe y) → v = u := by
  have hz0 := c.z0
  have ha := c.a
  have hX : elligX1 A z u = -A / (1 + z * u ^ 2) := if_neg hu
  have fin : (u = 0 ∨ y ≠ 0) → ∀ v : ZMod fe.p, v ^ 2 = u ^ 2 → (v = 0 ∨ fe_is_odd fe v = fe_is_odd fe y) → v = u := by
    intro hy v hv hp
    rcases hy with rfl | hy
    · exact pow_eq_zero_iff (n := 2) (by norm_num) |>.1 (by rw [hv]; ring)
    · rcases hp with rfl | hp
      · exact (pow_eq_zero_iff (n := 2) (by norm_num) |>.1 (show u ^ 2 = 0 by rw [← hv]; ring)).symm
      · exact root_unique c.two hv (by rw [hp]; exact odd_par.2 (h.par.resolve_left hy))
  by_cases hs : IsSquare (elligX1 A z u ^ 3 + A * elligX1 A z u ^ 2 + elligX1 A z u)
  · have hx := h.first hs
    have hx0 : x ≠ 0 := by rw [hx]; exact ell_x1_ne c u
    refine ⟨false, by rw [if_neg (by simp)]; exact mul_ne_zero hx0 hz0, ?_, fin (Or.inr fun hy => hx0 (ell_y0 c (by rw [← h.eqn, hy]; ring)))⟩
    rw [invU2, if_neg (by simp), hx, hX]; field_simp; ring
  · have hx := h.second hs
    have hxa : x + A = A / (1 + z * u ^ 2) := by rw [hx, hX]; ring
    have hxa0 : x + A ≠ 0 := by rw [hxa]; exact div_ne_zero ha hu
    have e : -x / ((x + A) * z) = u ^ 2 := by
      rw [hxa, show x = A / (1 + z * u ^ 2) - A by rw [← hxa]; ring]; field_simp; ring
    refine ⟨true, by rw [if_pos rfl]; exact mul_ne_zero hxa0 hz0, by rw [invU2, if_pos rfl, e], fin ?_⟩
    by_cases hu0 : u = 0
    · exact Or.inl hu0
    · right
      intro hy
      have hx0 : x = 0 := ell_y0 c (by rw [← h.eqn, hy]; ring)
      rw [hx0] at e
      apply hu0
      exact pow_eq_zero_iff (n := 2) (by norm_num) |>.1 (by rw [← e]; simp)

end

/-! ### The functions -/

/-- The checks for Elligator 2: `z` has no root, `A` is not zero; and whether `-A` has a root. -/
def edElligCheck (e : EdwardsDef) (na : Bool) : Bool :=
  force e.fe.p fun p => force (beVal e.a) fun a => force (beVal e.d) fun d =>
    eulerCheck p (e.z % (p : Int)).toNat && ((a + d) % p != 0) &&
      (na == eulerCheck p (2 * (a + d) * (if e.invert then a + p - d else d + p - a) % p))

set_option maxRecDepth 100000 in
theorem edEllig_check : ∀ d ∈ edDefs, edElligCheck d (d.h == 8 || d.fe.p == field_p448.p) = true := by
  intro d hd
  simp only [edDefs, List.mem_cons, List.not_mem_nil, or_false] at hd
  rcases hd with rfl | rfl | rfl <;> decide +kernel

section
variable {d : EdwardsDef} (hd : d ∈ edDefs) [Fact d.fe.p.Prime] {ec : Edwards (ZMod d.fe.p)} [g : EdGood ec.a ec.d] {G : EPt ec.a ec.d}
  (ok : EdCurve d ec G)

include ok in
theorem ed_iso : EdIso ec.a ec.d ec.A ec.c ec.invert := ⟨ok.mont, ok.iso⟩

/-- `-A (a - d)^2` as a number. -/
def edNegA (e : EdwardsDef) : Nat := 2 * (beVal e.a + beVal e.d) * (if e.invert then beVal e.a + e.fe.p - beVal e.d else beVal e.d + e.fe.p - beVal e.a)

include hd ok in
theorem edNegA_eq : (edNegA d : ZMod d.fe.p) = -ec.A * (ec.a - ec.d) ^ 2 := by
  have f := edFacts hd
  have hm := ok.mont
  have h1 := f.alt
  have h2 := f.dlt
  rw [edNegA]
  push_cast
  rw [← ok.aval, ← ok.dval]
  rw [ok.inv] at hm
  cases hi : d.invert with
  | false =>
    rw [hi, if_neg (by simp)] at hm
    rw [if_neg (by simp), Nat.cast_sub (by omega), Nat.cast_add, ZMod.natCast_self, ← ok.aval, ← ok.dval]
    linear_combination (ec.a - ec.d) * hm
  | true =>
    rw [hi, if_pos rfl] at hm
    rw [if_pos rfl, Nat.cast_sub (by omega), Nat.cast_add, ZMod.natCast_self, ← ok.aval, ← ok.dval]
    linear_combination (ec.d - ec.a) * hm

include hd ok in
theorem ed_ell : EllOk ec.A ec.z ∧ ((d.h == 8 || d.fe.p == field_p448.p) = true → ¬ IsSquare (-ec.A)) := by
  have h := edEllig_check d hd
  have f := edFacts hd
  unfold edElligCheck at h
  simp only [force_eq, Bool.and_eq_true, bne_iff_ne, beq_iff_eq] at h
  obtain ⟨⟨h1, h2⟩, h3⟩ := h
  have hp := f.four
  have h1 := eulerCheck_spec (by omega) h1
  have e1 : (((d.z % (d.fe.p : Int)).toNat : Nat) : ZMod d.fe.p) = ec.z := by
    have : (((d.z % (d.fe.p : Int)).toNat : Int) : ZMod d.fe.p) = ((d.z % (d.fe.p : Int) : Int) : ZMod d.fe.p) := by
      rw [Int.toNat_of_nonneg (Int.emod_nonneg _ (by omega))]
    rw [Int.cast_natCast] at this
    rw [this, ok.zval]
    exact (ZMod.intCast_eq_intCast_iff' _ _ _).2 (Int.emod_emod_of_dvd _ (dvd_refl _))
  rw [e1] at h1
  have hm := (ed_iso ok).mont'
  refine ⟨⟨g.two, h1, ?_, iso_quad (ed_iso ok)⟩, fun hna => ?_⟩
  · intro hA
    rw [hA, zero_mul] at hm
    apply h2
    have : ((beVal d.a + beVal d.d : Nat) : ZMod d.fe.p) = 0 := by
      push_cast
      rw [← ok.aval, ← ok.dval]
      exact (mul_eq_zero.1 hm.symm).resolve_left g.two
    exact Nat.mod_eq_zero_of_dvd ((ZMod.natCast_eq_zero_iff _ _).1 this)
  · rw [hna] at h3
    have h3 := eulerCheck_spec (by omega) h3.symm
    rw [cast_mod_dvd (dvd_refl _)] at h3
    intro ⟨w, hw⟩
    apply h3
    have := edNegA_eq hd ok
    rw [edNegA] at this
    rw [this, hw]
    exact ⟨w * (ec.a - ec.d), by ring⟩

include hd ok in
theorem ed_elligator_ok (u : ZMod d.fe.p) : ∃ (p : Xge (ZMod d.fe.p)) (P : EPt ec.a ec.d), edwards_elligator2 ec u = .ok p ∧ Ext p P ∧
    EdElligator ec.A ec.z ec.c ec.invert u P := by
  obtain ⟨c, -⟩ := ed_ell hd ok
  have hi := ed_iso ok
  obtain ⟨hB, hBi, hA0, hB0⟩ := ok.montB
  have hfe := edDefs_fe d hd
  have hsol : ∀ x, edwards_solve_y0 ec x = x ^ 3 + ec.A * x ^ 2 + x := by
    intro x; unfold edwards_solve_y0; rw [hA0, hB0]; ring
  have hx1 : -ec.A * (fe_invert (fe_select (u * u * ec.z + 1) 1 (fe_is_zero (u * u * ec.z + 1)))).1 = elligX1 ec.A ec.z u := by
    have e : u * u * ec.z + 1 = 1 + ec.z * u ^ 2 := by ring
    rw [e]
    unfold elligX1 fe_select fe_is_zero fe_invert
    by_cases h : 1 + ec.z * u ^ 2 = 0
    · rw [if_pos h, decide_eq_true h, if_pos rfl, inv_one, mul_one]
    · rw [if_neg h, decide_eq_false h, if_neg (by simp), div_eq_mul_inv]
  obtain ⟨s, s1, s2⟩ := fe_is_square_exact d.fe hfe (ZMod.card d.fe.p)
    (elligX1 ec.A ec.z u ^ 3 + ec.A * elligX1 ec.A ec.z u ^ 2 + elligX1 ec.A ec.z u)
  have fin : ∀ x : ZMod d.fe.p, IsSquare (x ^ 3 + ec.A * x ^ 2 + x) → ∃ y r, fe_sqrt d.fe 0 0 (x ^ 3 + ec.A * x ^ 2 + x) = .ok (y, true) ∧
      r = fe_set_odd d.fe y (fe_is_odd d.fe u) ∧ r ^ 2 = x ^ 3 + ec.A * x ^ 2 + x ∧ (r = 0 ∨ r.val % 2 = u.val % 2) := by
    intro x hx
    obtain ⟨y, b, h1, h2, h3⟩ := fe_sqrt_exact d.fe hfe (ZMod.card d.fe.p) 0 0 (by decide) (by decide) (x ^ 3 + ec.A * x ^ 2 + x)
    have hb : b = true := h2.2 hx
    subst hb
    refine ⟨y, _, h1, rfl, by rw [set_odd_sq, pow_two, h3 hx], ?_⟩
    by_cases hy : y = 0
    · left; rw [hy, set_odd_zero]
    · right; exact odd_par.1 (set_odd_parity g.two hy _)
  unfold edwards_elligator2
  dsimp only
  rw [hA0, hx1, hsol, hsol, s1, C.ok_bind, hB]
  cases s with
  | true =>
    obtain ⟨y, r, f1, f2, f3, f4⟩ := fin _ (s2.1 rfl)
    simp only [Bool.not_true, fe_select, Bool.false_eq_true, if_false]
    rw [f1, C.ok_bind]
    dsimp only
    rw [C.check, if_pos rfl, C.ok_bind, mul_one, mul_one, ← f2]
    obtain ⟨P, hP⟩ := montOf_exists hi f3
    exact ⟨_, P, rfl, to_ed_ext hi hP _, _, _, ⟨fun _ => rfl, fun h => absurd (s2.1 rfl) h, f3, f4⟩, hP⟩
  | false =>
    have hn : ¬ IsSquare (elligX1 ec.A ec.z u ^ 3 + ec.A * elligX1 ec.A ec.z u ^ 2 + elligX1 ec.A ec.z u) := fun h => by simpa using s2.2 h
    obtain ⟨y, r, f1, f2, f3, f4⟩ := fin _ (ell_second c u hn)
    simp only [Bool.not_false, fe_select, if_true]
    rw [f1, C.ok_bind]
    dsimp only
    rw [C.check, if_pos rfl, C.ok_bind, mul_one, mul_one, ← f2]
    obtain ⟨P, hP⟩ := montOf_exists hi f3
    exact ⟨_, P, rfl, to_ed_ext hi hP _, _, _, ⟨fun h => absurd h hn, fun _ => rfl, f3, f4⟩, hP⟩

include hd ok in
theorem ed_elligator_unique {u : ZMod d.fe.p} {P Q : EPt ec.a ec.d} (hp : EdElligator ec.A ec.z ec.c ec.invert u P)
    (hq : EdElligator ec.A ec.z ec.c ec.invert u Q) : P = Q := by
  obtain ⟨x, y, h1, h2⟩ := hp
  obtain ⟨x', y', h3, h4⟩ := hq
  obtain ⟨rfl, rfl⟩ := exy_unique (ed_ell hd ok).1 h1 h3
  exact montOf_inj_pt (ed_iso ok) h2 h4

include hd ok in
theorem ed_inv2_ok {p : Xge (ZMod d.fe.p)} {P : EPt ec.a ec.d} (hp : Ext p P) (hint : Nat) : ∃ u r, edwards_invert2 ec p hint = .ok (u, r) ∧
    (P = 0 → r = false) ∧ ∀ x y, MontOf ec.A ec.c ec.invert P x y →
      (r = true ↔ (if decide (hint % 2 = 1) then (x + ec.A) * ec.z else x * ec.z) ≠ 0 ∧ IsSquare (invU2 ec.A ec.z x (decide (hint % 2 = 1)))) ∧
      (r = true → u ^ 2 = invU2 ec.A ec.z x (decide (hint % 2 = 1))) ∧ (u = 0 ∨ fe_is_odd d.fe u = fe_is_odd d.fe y) := by
  obtain ⟨hB, hBi, hA0, hB0⟩ := ok.montB
  have hfe := edDefs_fe d hd
  have par : ∀ w y : ZMod d.fe.p, fe_set_odd d.fe w (fe_is_odd d.fe y) = 0 ∨
      fe_is_odd d.fe (fe_set_odd d.fe w (fe_is_odd d.fe y)) = fe_is_odd d.fe y := by
    intro w y
    by_cases hw : w = 0
    · left; rw [hw, set_odd_zero]
    · right; exact set_odd_parity g.two hw _
  have key : ∀ m : Mge (ZMod d.fe.p), edwards_to_mont ec.bits p ec.c ec.invert false = m → ∃ u r, edwards_invert2 ec p hint = .ok (u, r) ∧
      (m.inf = true → r = false) ∧ (m.inf = false →
      (r = true ↔ (if decide (hint % 2 = 1) then (m.x + ec.A) * ec.z else m.x * ec.z) ≠ 0 ∧ IsSquare (invU2 ec.A ec.z m.x (decide (hint % 2 = 1)))) ∧
      (r = true → u ^ 2 = invU2 ec.A ec.z m.x (decide (hint % 2 = 1))) ∧ (u = 0 ∨ fe_is_odd d.fe u = fe_is_odd d.fe m.y)) := by
    intro m hm
    unfold edwards_invert2
    dsimp only
    rw [hm, hBi, hA0, mul_one, mul_one]
    by_cases hh : hint % 2 = 1
    · simp only [if_pos hh, decide_eq_true hh, if_true, invU2]
      obtain ⟨w, r, h1, h2, h3⟩ := fe_isqrt_exact d.fe hfe (ZMod.card d.fe.p) 0 (by omega) (-m.x) ((m.x + ec.A) * ec.z)
      rw [h1, C.ok_bind]
      dsimp only
      refine ⟨_, _, rfl, fun h => by rw [h]; simp, fun h => ?_⟩
      rw [h, Bool.not_false, Bool.and_true]
      exact ⟨h2, fun hr => by rw [set_odd_sq, pow_two, h3 hr], par w _⟩
    · simp only [if_neg hh, decide_eq_false hh, Bool.false_eq_true, if_false, invU2]
      obtain ⟨w, r, h1, h2, h3⟩ := fe_isqrt_exact d.fe hfe (ZMod.card d.fe.p) 0 (by omega) (-(m.x + ec.A)) (m.x * ec.z)
      rw [h1, C.ok_bind]
      dsimp only
      refine ⟨_, _, rfl, fun h => by rw [h]; simp, fun h => ?_⟩
      rw [h, Bool.not_false, Bool.and_true]
      exact ⟨h2, fun hr => by rw [set_odd_sq, pow_two, h3 hr], par w _⟩
  obtain ⟨u, r, h1, h2, h3⟩ := key _ rfl
  refine ⟨u, r, h1, ?_, fun x y hm => ?_⟩
  · rintro rfl
    exact h2 (ed_to_zero hp _)
  · have := ed_to_mont (ed_iso ok) hp hm ec.bits
    rw [this] at h3
    exact h3 rfl

/-! ### Bytes -/

include hd ok in
theorem ed_from_uniform {bytes : List Byte} (hl : feSize d.fe ≤ bytes.length) :
    edwards_point_from_uniform ec bytes = edwards_elligator2 ec (leElem d.fe bytes) := by
  unfold edwards_point_from_uniform
  rw [fe_import_le_ok d.fe hl, C.ok_bind]
  rfl

theorem leElem_append {fe : FieldCode} {u v : List Byte} (h : u.length = feSize fe) : leElem fe (u ++ v) = leElem fe u := by
  unfold leElem
  rw [List.take_append_of_le_length h.ge]

theorem ed_or_bytes {fe : FieldCode} [hf : Fact fe.p.Prime] (u : ZMod fe.p) (hint : BitVec 32) : ∃ t ys, C.rd (fe_export_le fe u) (feSize fe - 1) = .ok t ∧
    C.wr (fe_export_le fe u) (feSize fe - 1) (t ||| ((hint >>> 8) &&& (~~~(feMask fe).setWidth 32) &&& 0xff).setWidth 8) = .ok ys ∧
    ys.length = feSize fe ∧ leElem fe ys = u :=
  haveI : Fact ({ curve_x25519 with fe := fe } : MontDef).fe.p.Prime := hf
  or_bytes (d := { curve_x25519 with fe := fe }) u hint

include ok in
theorem ed_tor_get (hh : 0 < ec.h) (k : Nat) : ∃ T : EPt ec.a ec.d, ec.torsion[k % ec.h]? = some (xaff T) ∧
    C.rd ec.torsion (k % ec.h) = .ok (xaff T) ∧ ec.h • T = 0 := by
  obtain ⟨ts, h1, h2, h3, h4⟩ := ok.torsion
  have hlt : k % ec.h < ts.length := by rw [h3]; exact Nat.mod_lt _ hh
  refine ⟨ts[k % ec.h], ?_, ?_, (h4 _).1 (List.getElem_mem _)⟩
  · rw [h1, List.getElem?_map, List.getElem?_eq_getElem hlt]; rfl
  · rw [h1]; simp [C.rd, hlt]

include hd ok in
theorem ed_to_uniform_ok {p : Xge (ZMod d.fe.p)} {P : EPt ec.a ec.d} (hp : Ext p P) (hint : BitVec 32) :
    ∃ (T : EPt ec.a ec.d) (q : Xge (ZMod d.fe.p)) (out : List Byte) (r : Bool), ec.torsion[((hint >>> 4) &&& 15).toNat % ec.h]? = some (xaff T) ∧
      ec.h • T = 0 ∧ edwards_point_to_uniform ec p hint = .ok (out, r) ∧ out.length = feSize d.fe ∧ Ext q (P + T) ∧
      edwards_invert2 ec q hint.toNat = .ok (leElem d.fe out, r) := by
  obtain ⟨i, hi, hh⟩ := edDefs_h d hd
  obtain ⟨T, t1, t2, t3⟩ := ed_tor_get ok (by rw [ok.hval, hh]; positivity) ((hint >>> 4) &&& 15).toNat
  have hq := xmadd ok.const hp T
  obtain ⟨u, r, h1, -⟩ := ed_inv2_ok hd ok hq hint.toNat
  obtain ⟨t, ys, b1, b2, b3, b4⟩ := ed_or_bytes u hint
  refine ⟨T, _, ys, r, t1, t3, ?_, b3, hq, by rw [b4, h1]⟩
  unfold edwards_point_to_uniform
  dsimp only
  rw [t2, C.ok_bind, h1, C.ok_bind]
  dsimp only
  rw [b1, C.ok_bind, b2, C.ok_bind, C.pure_eq]

include hd ok in
/-- Success gives a preimage, with the exception on ed1174. -/
theorem ed_to_uniform_sound {q : Xge (ZMod d.fe.p)} {Q : EPt ec.a ec.d} (hq : Ext q Q) {hint : Nat} {u : ZMod d.fe.p}
    (h : edwards_invert2 ec q hint = .ok (u, true))
    (hex : ¬ IsSquare (-ec.A) ∨ ∀ x y, MontOf ec.A ec.c ec.invert Q x y → x ≠ 0 ∧ x ≠ -ec.A) :
    EdElligator ec.A ec.z ec.c ec.invert u Q := by
  obtain ⟨u', r', h1, h2, h3⟩ := ed_inv2_ok hd ok hq hint
  rw [h] at h1
  obtain ⟨rfl, rfl⟩ := Prod.mk.inj (C.ok.inj h1)
  obtain ⟨x, y, hm⟩ := montOf_of (ed_iso ok) (P := Q) fun h0 => by simpa using h2 h0
  obtain ⟨k1, k2, k3⟩ := h3 x y hm
  exact ⟨x, y, inv_exy (ed_ell hd ok).1 hm.on (k1.1 rfl).1 (k2 rfl) k3 (hex.imp_right fun h => h x y hm), hm⟩

end

end Torsion.Ecc
