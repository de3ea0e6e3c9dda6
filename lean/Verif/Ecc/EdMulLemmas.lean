import Verif.Ecc.EdLemmas
import Verif.Ecc.MulLemmas

/-! Lemmas on tables and scalar multiplication on Edwards curves. -/
set_option linter.unusedSectionVars false

namespace Torsion.Ecc

open Torsion.Spec (EdGood EPt Ext xaff EdConst EdOk digits joint)

variable {F : Type} [Field F] [DecidableEq F]

/-! ### Tables -/

theorem xnorm_aux {a d : F} (ps : List (Xge F)) (Ps : List (EPt a d)) (h : List.Forall₂ Ext ps Ps) (acc : F) (ha : acc ≠ 0) :
    (xnorm_prefix acc ps).2 ≠ 0 ∧ ∃ r,
      xnorm_invert (xnorm_prefix acc ps).2⁻¹ (ps.zip (xnorm_prefix acc ps).1) = (r, acc⁻¹) ∧
      List.zipWith (fun p o => (⟨p.x * o, p.y * o, 1, p.t * o⟩ : Xge F)) ps r = Ps.map xaff := by
  induction h generalizing acc with
  | nil => exact ⟨ha, [], rfl, rfl⟩
  | @cons j P ps Ps hj _ ih =>
    obtain ⟨hz, ex, ey, et⟩ := hj
    obtain ⟨h1, r, h2, h3⟩ := ih (acc * j.z) (mul_ne_zero ha hz)
    have hpre : xnorm_prefix acc (j :: ps) = (acc :: (xnorm_prefix (acc * j.z) ps).1, (xnorm_prefix (acc * j.z) ps).2) := by
      simp [xnorm_prefix]
    rw [hpre]
    refine ⟨h1, j.z⁻¹ :: r, ?_, ?_⟩
    · simp only [List.zip_cons_cons, xnorm_invert, h2]
      have e1 : acc * (acc * j.z)⁻¹ = j.z⁻¹ := by field_simp
      have e2 : (acc * j.z)⁻¹ * j.z = acc⁻¹ := by field_simp
      rw [e1, e2]
    · rw [List.zipWith_cons_cons, h3, List.map_cons]
      congr 1
      simp only [xaff, ex, ey, et, Xge.mk.injEq, true_and]
      refine ⟨?_, ?_, ?_⟩ <;> field_simp

theorem xnorm_eq {a d : F} {ps : List (Xge F)} {Ps : List (EPt a d)} (h : List.Forall₂ Ext ps Ps) :
    xge_normalize_all_var ps = .ok (Ps.map xaff) := by
  obtain ⟨h1, r, h2, h3⟩ := xnorm_aux ps Ps h 1 one_ne_zero
  unfold xge_normalize_all_var
  simp only [fe_invert_var, h1, if_false]
  change C.ok _ = _
  rw [h2, h3]

section
variable {ec : Edwards F} [g : EdGood ec.a ec.d]

theorem xsteps (c : EdConst ec) {G : EPt ec.a ec.d} {jg : Xge F} (hg : Ext jg G) (n : Nat) {P : EPt ec.a ec.d} {j : Xge F}
    (hj : Ext j P) : List.Forall₂ Ext (xge_steps ec jg n j) ((List.range n).map fun i => P + i • G) := by
  induction n generalizing P j with
  | zero => exact .nil
  | succ n ih =>
    rw [List.range_succ_eq_map, List.map_cons, List.map_map, xge_steps]
    refine .cons (by simpa using hj) ?_
    have := ih (xadd c hj hg)
    convert this using 2
    funext i
    simp only [Function.comp, Nat.succ_eq_add_one, succ_nsmul]
    abel

theorem xwindows (c : EdConst ec) (n : Nat) {G : EPt ec.a ec.d} {jg : Xge F} (hg : Ext jg G) :
    List.Forall₂ Ext (xge_windows ec n jg)
      ((List.range n).flatMap fun w => (List.range 16).map fun i => (i * 16 ^ w) • G) := by
  induction n generalizing G jg with
  | zero => exact .nil
  | succ n ih =>
    rw [List.range_succ_eq_map (n := n), List.flatMap_cons, List.flatMap_map, xge_windows]
    refine List.rel_append ?_ ?_
    · have := xsteps c hg 16 (ext_zero (a := ec.a) (d := ec.d))
      simpa using this
    · have := ih (xdbl_iter 4 hg)
      convert this using 3
      congr 1
      funext i
      rw [← mul_nsmul']
      congr 1
      rw [Nat.succ_eq_add_one, pow_succ]
      ring

theorem xnaf_points (c : EdConst ec) {p : Xge F} {P : EPt ec.a ec.d} (hp : Ext p P) (w : Nat) :
    List.Forall₂ Ext (xge_naf_points ec p w) ((List.range (2 ^ (w - 2))).map fun i => (2 * i + 1) • P) := by
  have := xsteps c (xdbl hp) (2 ^ (w - 2)) hp
  unfold xge_naf_points
  convert this using 2
  funext i
  rw [← two_nsmul, ← mul_nsmul, add_nsmul, one_nsmul]
  abel

theorem xjsf_points (c : EdConst ec) {p q : Xge F} {P Q : EPt ec.a ec.d} (hp : Ext p P) (hq : Ext q Q) :
    List.Forall₂ Ext (xge_jsf_points ec p q) [P, P + Q, P - Q, Q] :=
  .cons hp (.cons (xadd c hp hq) (.cons (xsub c hp hq) (.cons hq .nil)))

theorem xmulh_loop {p : Xge F} {P : EPt ec.a ec.d} (hp : Ext p P) : ∀ fuel m, m < fuel →
    Ext (xge_mulh_loop ec fuel (2 ^ (m + 1) / 2) p) (2 ^ (m + 1) • P) := by
  intro fuel
  induction fuel generalizing p P with
  | zero => intro m h; omega
  | succ fuel ih =>
    intro m hm
    have h2 : (2 ^ (m + 1) / 2 : Nat) = 2 ^ m := by rw [pow_succ]; omega
    rw [xge_mulh_loop, h2, if_neg (by positivity)]
    cases m with
    | zero =>
      have : xge_mulh_loop ec fuel (2 ^ 0 / 2) (xge_dbl ec p) = xge_dbl ec p := by
        cases fuel <;> simp [xge_mulh_loop]
      rw [this, zero_add, pow_one, two_nsmul]
      exact xdbl hp
    | succ m =>
      have := ih (xdbl hp) m (by omega)
      rw [pow_succ 2 (m + 1), mul_nsmul', two_nsmul]
      exact this

theorem xmulh {m : Nat} (hm : m ≤ 31) (hh : ec.h = 2 ^ m) {p : Xge F} {P : EPt ec.a ec.d} (hp : Ext p P) :
    ∃ r, xge_mulh ec p = .ok r ∧ Ext r (ec.h • P) := by
  have hc : (ec.h != 0 && ec.h &&& (ec.h - 1) == 0) = true := by
    rw [hh]
    have : (2 ^ m &&& (2 ^ m - 1) : Nat) = 0 := by
      rw [Nat.and_two_pow_sub_one_eq_mod, Nat.mod_self]
    simp [this]
  have hc' : C.check (ec.h != 0 && ec.h &&& (ec.h - 1) == 0) = .ok () := by rw [hc]; rfl
  refine ⟨_, by rw [xge_mulh, hc', C.ok_bind]; rfl, ?_⟩
  rw [hh]
  cases m with
  | zero => simpa [xge_mulh_loop] using hp
  | succ m => exact xmulh_loop hp 32 m (by omega)

/-! ### Fixed base -/

theorem xselect16 {wnds : List (Xge F)} {off b : Nat} {f : Nat → Xge F} (hb : b < 16)
    (h : ∀ j < 16, wnds[off + j]? = some (f j)) (t : Xge F) : xge_select16 wnds off b t = .ok (f b) := by
  have := foldlM_select (xge_select (F := F)) (by intro t w; simp [xge_select, fe_select])
    (by intro t w; simp [xge_select, fe_select]) wnds f off b t 16 h
  rw [if_pos hb] at this
  exact this

theorem xfixed_loop {G : EPt ec.a ec.d} (ok : EdOk ec G) (k0 : Nat) :
    ∀ steps i r t (Q : EPt ec.a ec.d), Ext r Q → i + steps ≤ (ec.n.size + 3) / 4 →
      ∃ j, xge_fixed_loop ec k0 steps i r t = .ok j ∧ Ext j (Q + (k0 / 16 ^ i % 16 ^ steps * 16 ^ i) • G) := by
  intro steps
  induction steps with
  | zero =>
    intro i r t Q hr _
    exact ⟨r, rfl, by simpa [Nat.mod_one] using hr⟩
  | succ steps ih =>
    intro i r t Q hr hle
    rw [xge_fixed_loop, bits4, xselect16 (Nat.mod_lt _ (by decide)) (fun j hj => ok.fixed i j (by omega) hj), C.ok_bind]
    obtain ⟨j, h1, h2⟩ := ih (i + 1) _ (xaff ((k0 / 16 ^ i % 16 * 16 ^ i) • G)) _ (xmadd ok.const hr _) (by omega)
    refine ⟨j, h1, ?_⟩
    rw [add_assoc, ← add_nsmul] at h2
    convert h2 using 3
    rw [pow_succ 16 steps, mul_comm (16 ^ steps) 16, Nat.mod_mul, Nat.div_div_eq_div_mul, ← pow_succ, pow_succ 16 i]
    ring

theorem xmul_g {G : EPt ec.a ec.d} (ok : EdOk ec G) (k : Nat) : ∃ j, edwards_mul_g ec k = .ok j ∧ Ext j (k • G) := by
  obtain ⟨b, hb, hbl⟩ := ok.blind
  obtain ⟨j, h1, h2⟩ := xfixed_loop ok ((k + ec.blind) % ec.n) ((ec.n.size + 3) / 4) 0 _ xge_zero _ hb (by omega)
  refine ⟨j, h1, ?_⟩
  have hlt := Nat.mod_lt (k + ec.blind) ok.pos
  rw [pow_zero, Nat.div_one, mul_one, Nat.mod_eq_of_lt (size16 hlt), smul_mod ok.order, ← add_nsmul] at h2
  convert h2 using 1
  refine smul_congr ok.order ?_
  rw [show b + (k + ec.blind) = k + (ec.blind + b) by ring, Nat.add_mod, hbl, add_zero, Nat.mod_mod]

/-! ### Variable base -/

theorem xwnd_table (c : EdConst ec) {p : Xge F} {P : EPt ec.a ec.d} (hp : Ext p P) :
    ∀ fuel m wnd, 0 < m → List.Forall₂ Ext wnd ((List.range (2 * m)).map fun i => i • P) →
      ∃ wnd', xge_wnd_table ec p fuel wnd = .ok wnd' ∧
        List.Forall₂ Ext wnd' ((List.range (2 * (m + fuel))).map fun i => i • P) := by
  intro fuel
  induction fuel with
  | zero => intro m wnd _ h; exact ⟨wnd, rfl, h⟩
  | succ fuel ih =>
    intro m wnd hm h
    have hl : wnd.length = 2 * m := by simpa using h.length_eq
    obtain ⟨w, hw, hjw⟩ := forall₂_get h (i := m) (by omega)
    rw [xge_wnd_table]
    have e : C.rd wnd (wnd.length / 2) = .ok w := by
      rw [hl, Nat.mul_div_cancel_left _ (by decide)]
      simp only [C.rd, hw]
    rw [e, C.ok_bind]
    have hd := xdbl hjw
    have ha := xadd c hd hp
    obtain ⟨wnd', h1, h2⟩ := ih (m + 1) (wnd ++ [xge_dbl ec w, xge_add ec (xge_dbl ec w) p]) (by omega) (by
        rw [show 2 * (m + 1) = 2 * m + 1 + 1 by ring, List.range_succ, List.range_succ, List.map_append,
          List.map_append, List.append_assoc]
        refine List.rel_append h (.cons ?_ (.cons ?_ .nil))
        · convert hd using 1
          rw [← two_nsmul, ← mul_nsmul']
        · convert ha using 1
          beta_reduce
          rw [← two_nsmul, ← mul_nsmul', succ_nsmul])
    exact ⟨wnd', h1, by rw [show m + (fuel + 1) = m + 1 + fuel by ring]; exact h2⟩

theorem xwnd_loop (c : EdConst ec) {P : EPt ec.a ec.d} {wnd : List (Xge F)}
    (hT : List.Forall₂ Ext wnd ((List.range 16).map fun i => i • P)) {k steps : Nat} (hk : k < 16 ^ steps) :
    ∀ i r t, i ≤ steps → Ext r ((k / 16 ^ i) • P) → ∃ j, xge_wnd_loop ec k wnd steps i r t = .ok j ∧ Ext j (k • P) := by
  have hl : wnd.length = 16 := by simpa using hT.length_eq
  have hf : ∀ j < 16, wnd[0 + j]? = some (wnd.getD j xge_zero) := by
    intro j hj; simp [List.getD, hl, hj]
  have hj : ∀ j < 16, Ext (wnd.getD j xge_zero) (j • P) := by
    intro j hj
    obtain ⟨w, hw, hjw⟩ := forall₂_get hT hj
    simpa [List.getD, hw] using hjw
  intro i
  induction i with
  | zero => intro r t _ hr; exact ⟨r, rfl, by simpa using hr⟩
  | succ i ih =>
    intro r t hi hr
    have hm : k / 16 ^ i % 16 < 16 := Nat.mod_lt _ (by decide)
    rw [xge_wnd_loop, bits4, xselect16 hm hf, C.ok_bind]
    refine ih _ _ (by omega) ?_
    split
    · rename_i hs
      have : k / 16 ^ i < 16 := Nat.div_lt_of_lt_mul (by
        rw [← pow_succ, show i + 1 = steps by omega]; exact hk)
      have h := hj _ hm
      rwa [Nat.mod_eq_of_lt this] at h ⊢
    · have h := xadd c (xdbl_iter 4 hr) (hj _ hm)
      rw [← mul_nsmul', ← add_nsmul, show 2 ^ 4 = 16 by rfl, div_step] at h
      exact h

/-- The scalars `edwards_mul` is correct for. -/
theorem xmul (c : EdConst ec) {p : Xge F} {P : EPt ec.a ec.d} (hp : Ext p P) {k : Nat} (hk : k < 16 ^ ((ec.bits + 3) / 4)) :
    ∃ j, edwards_mul ec p k = .ok j ∧ Ext j (k • P) := by
  obtain ⟨wnd, h1, h2⟩ := xwnd_table c hp 7 1 [xge_zero, p] (by omega)
    (.cons (by simpa using ext_zero) (.cons (by simpa using hp) .nil))
  unfold edwards_mul
  dsimp only
  rw [h1, C.ok_bind]
  refine xwnd_loop c h2 hk _ _ _ le_rfl ?_
  rw [Nat.div_eq_of_lt hk, zero_nsmul]
  exact ext_zero

/-- What it returns in general: only the low bits count. -/
theorem xwnd_loop_mod (k : Nat) (wnd : List (Xge F)) (steps : Nat) : ∀ i ≤ steps, ∀ r t,
    xge_wnd_loop ec k wnd steps i r t = xge_wnd_loop ec (k % 16 ^ steps) wnd steps i r t := by
  intro i
  induction i with
  | zero => intro _ r t; rfl
  | succ i ih =>
    intro hi r t
    have e : k % 16 ^ steps / 16 ^ i % 16 = k / 16 ^ i % 16 := by
      rw [show steps = i + 1 + (steps - i - 1) by omega, pow_add, Nat.mod_mul, pow_succ, Nat.mod_mul]
      have h1 : k % 16 ^ i < 16 ^ i := Nat.mod_lt _ (by positivity)
      rw [show k % 16 ^ i + 16 ^ i * (k / 16 ^ i % 16) + 16 ^ i * 16 * (k / (16 ^ i * 16) % 16 ^ (steps - i - 1))
        = k % 16 ^ i + 16 ^ i * (k / 16 ^ i % 16 + 16 * (k / (16 ^ i * 16) % 16 ^ (steps - i - 1))) by ring,
        Nat.add_mul_div_left _ _ (by positivity), Nat.div_eq_of_lt h1, zero_add, Nat.add_mul_mod_self_left, Nat.mod_mod]
    rw [xge_wnd_loop, xge_wnd_loop, bits4, bits4, e]
    congr 1
    funext t
    exact ih (by omega) _ _

theorem xmul_mod (c : EdConst ec) {p : Xge F} {P : EPt ec.a ec.d} (hp : Ext p P) (k : Nat) :
    ∃ j, edwards_mul ec p k = .ok j ∧ Ext j ((k % 16 ^ ((ec.bits + 3) / 4)) • P) := by
  obtain ⟨j, h1, h2⟩ := xmul c hp (k := k % 16 ^ ((ec.bits + 3) / 4)) (Nat.mod_lt _ (by positivity))
  refine ⟨j, ?_, h2⟩
  rw [← h1, edwards_mul, edwards_mul]
  congr 1
  funext wnd
  exact xwnd_loop_mod k wnd _ _ le_rfl _ _

/-! ### Loops over digits -/

/-- One digit position after another: `S i` is the sum of the digits from position `i` on. -/
def XRun {a d : F} [EdGood a d] (step : Nat → Xge F → C (Xge F)) (m : Nat) (S : Nat → EPt a d) : Prop :=
  S m = 0 ∧ ∀ i < m, ∃ D, S i = D + 2 • S (i + 1) ∧ ∀ r Q, Ext r Q → ∃ j, step i r = .ok j ∧ Ext j (Q + D)

theorem xrun_add {a d : F} [EdGood a d] {f g : Nat → Xge F → C (Xge F)} {m : Nat} {S T : Nat → EPt a d} (hf : XRun f m S)
    (hg : XRun g m T) : XRun (fun i r => f i r >>= g i) m (fun i => S i + T i) := by
  refine ⟨by beta_reduce; rw [hf.1, hg.1, add_zero], fun i hi => ?_⟩
  obtain ⟨D, h1, h2⟩ := hf.2 i hi
  obtain ⟨E, h3, h4⟩ := hg.2 i hi
  refine ⟨D + E, ?_, ?_⟩
  · beta_reduce; rw [h1, h3, nsmul_add]; abel
  · intro r Q hr
    obtain ⟨j, e1, hj⟩ := h2 r Q hr
    obtain ⟨j', e2, hj'⟩ := h4 j _ hj
    exact ⟨j', by beta_reduce; rw [e1, C.ok_bind, e2], by rw [← add_assoc]; exact hj'⟩

theorem xrun_zero {a d : F} [EdGood a d] (m : Nat) : XRun (a := a) (d := d) (fun _ r => .ok r) m (fun _ => 0) :=
  ⟨rfl, fun i _ => ⟨0, by simp, fun r Q hr => ⟨r, rfl, by simpa using hr⟩⟩⟩

theorem xrun_loop {step : Nat → Xge F → C (Xge F)} {m : Nat} {S : Nat → EPt ec.a ec.d}
    (h : XRun step m S) (L : Nat → Xge F → C (Xge F)) (h0 : ∀ r, L 0 r = .ok r)
    (hL : ∀ i < m, ∀ r, L (i + 1) r = (step i (if i ≠ m - 1 then xge_dbl ec r else r) >>= L i)) :
    ∃ j, L m xge_zero = .ok j ∧ Ext j (S 0) := by
  have key : ∀ i ≤ m, ∀ r, Ext r (S i) → ∃ j, L i r = .ok j ∧ Ext j (S 0) := by
    intro i
    induction i with
    | zero => intro _ r hr; exact ⟨r, h0 r, hr⟩
    | succ i ih =>
      intro hi r hr
      obtain ⟨D, e1, e2⟩ := h.2 i (by omega)
      have hd : Ext (if i ≠ m - 1 then xge_dbl ec r else r) (2 • S (i + 1)) := by
        split
        · rw [two_nsmul]; exact xdbl hr
        · rename_i hne
          have : i + 1 = m := by omega
          rw [this, h.1] at hr ⊢
          simpa using hr
      obtain ⟨j, e3, e4⟩ := e2 _ _ hd
      rw [hL i (by omega), e3, C.ok_bind]
      exact ih (by omega) j (by rw [e1, add_comm]; exact e4)
  exact key m le_rfl _ (by rw [h.1]; exact ext_zero)

/-- The multiple a digit stands for, in any group. -/
def xdval {A : Type} [AddCommGroup A] (T : Nat → A) (z : Int) : A :=
  if z > 0 then T ((z - 1) / 2).toNat else if z < 0 then -T ((-z - 1) / 2).toNat else 0

def xsval {A : Type} [AddCommGroup A] (T : Nat → A) : List Int → A
  | [] => 0
  | d :: ds => xdval T d + 2 • xsval T ds

theorem xsval_zero {A : Type} [AddCommGroup A] (T : Nat → A) {l : List Int} (h : ∀ d ∈ l, d = 0) : xsval T l = 0 := by
  induction l with
  | nil => rfl
  | cons d ds ih =>
    rw [xsval, ih (fun x hx => h x (List.mem_cons_of_mem _ hx)), h d List.mem_cons_self]
    simp [xdval]

theorem xsval_drop {A : Type} [AddCommGroup A] (T : Nat → A) {l : List Int} {i : Nat} {z : Int} (h : l[i]? = some z) :
    xsval T (l.drop i) = xdval T z + 2 • xsval T (l.drop (i + 1)) := by
  obtain ⟨hi, e⟩ := List.getElem?_eq_some_iff.1 h
  rw [List.drop_eq_getElem_cons hi, xsval, e]

theorem xsval_odd {A : Type} [AddCommGroup A] (P : A) {l : List Int} (h : ∀ z ∈ l, z = 0 ∨ z % 2 = 1) :
    xsval (fun i => (2 * i + 1) • P) l = digits l • P := by
  induction l with
  | nil => simp [xsval, digits]
  | cons d ds ih =>
    rw [xsval, digits, ih (fun x hx => h x (List.mem_cons_of_mem _ hx)), add_zsmul, mul_zsmul]
    congr 1
    · have hd := h d List.mem_cons_self
      unfold xdval
      beta_reduce
      split
      · rw [← natCast_zsmul]; congr 1; omega
      · split
        · rw [← natCast_zsmul, ← neg_zsmul]; congr 1; omega
        · rw [show d = 0 by omega, zero_zsmul]
    · rw [two_nsmul, two_zsmul]

def xjtab {A : Type} [AddCommGroup A] (P Q : A) : Nat → A
  | 0 => P
  | 1 => P + Q
  | 2 => P - Q
  | _ => Q

theorem xdval_joint {A : Type} [AddCommGroup A] (P Q : A) {z : Int} (h : z = 0 ∨ (z.natAbs % 2 = 1 ∧ z.natAbs ≤ 7)) :
    xdval (xjtab P Q) z = (joint z).1 • P + (joint z).2 • Q := by
  have hz : z = 0 ∨ z = 1 ∨ z = 3 ∨ z = 5 ∨ z = 7 ∨ z = -1 ∨ z = -3 ∨ z = -5 ∨ z = -7 := by omega
  rcases hz with rfl | rfl | rfl | rfl | rfl | rfl | rfl | rfl | rfl <;>
    simp [xdval, joint, xjtab] <;> abel

theorem xsval_joint {A : Type} [AddCommGroup A] (P Q : A) {l : List Int}
    (h : ∀ z ∈ l, z = 0 ∨ (z.natAbs % 2 = 1 ∧ z.natAbs ≤ 7)) :
    xsval (xjtab P Q) l = digits (l.map fun z => (joint z).1) • P + digits (l.map fun z => (joint z).2) • Q := by
  induction l with
  | nil => simp [xsval, digits]
  | cons d ds ih =>
    rw [xsval, List.map_cons, List.map_cons, digits, digits, ih (fun x hx => h x (List.mem_cons_of_mem _ hx)),
      xdval_joint P Q (h d List.mem_cons_self), add_zsmul, add_zsmul, mul_zsmul, mul_zsmul, nsmul_add,
      two_zsmul, two_zsmul, two_nsmul, two_nsmul]
    abel

theorem xdigit (c : EdConst ec) {wnd : List (Xge F)} {T : Nat → EPt ec.a ec.d} {N : Nat}
    (hT : ∀ i < N, ∃ w, wnd[i]? = some w ∧ Ext w (T i)) {z : Int} (hz : z.natAbs ≤ 2 * N) {r : Xge F} {Q : EPt ec.a ec.d}
    (hr : Ext r Q) : ∃ j, xge_digit ec wnd z r = .ok j ∧ Ext j (Q + xdval T z) := by
  unfold xge_digit xdval
  split
  · obtain ⟨w, h1, h2⟩ := hT ((z - 1) / 2).toNat (by omega)
    have e : C.rd wnd ((z - 1) / 2).toNat = .ok w := by simp only [C.rd, h1]
    rw [e]
    exact ⟨_, rfl, xadd c hr h2⟩
  · split
    · obtain ⟨w, h1, h2⟩ := hT ((-z - 1) / 2).toNat (by omega)
      have e : C.rd wnd ((-z - 1) / 2).toNat = .ok w := by simp only [C.rd, h1]
      rw [e]
      exact ⟨_, rfl, by rw [← sub_eq_add_neg]; exact xsub c hr h2⟩
    · exact ⟨_, rfl, by simpa using hr⟩

theorem xdigit_mixed (c : EdConst ec) {wnd : List (Xge F)} {T : Nat → EPt ec.a ec.d} {N : Nat}
    (hT : ∀ i < N, wnd[i]? = some (xaff (T i))) {z : Int} (hz : z.natAbs ≤ 2 * N) {r : Xge F} {Q : EPt ec.a ec.d}
    (hr : Ext r Q) : ∃ j, xge_digit_mixed ec wnd z r = .ok j ∧ Ext j (Q + xdval T z) := by
  unfold xge_digit_mixed xdval
  split
  · have h1 := hT ((z - 1) / 2).toNat (by omega)
    have e : C.rd wnd ((z - 1) / 2).toNat = .ok (xaff (T ((z - 1) / 2).toNat)) := by simp only [C.rd, h1]
    rw [e]
    exact ⟨_, rfl, xmadd c hr _⟩
  · split
    · have h1 := hT ((-z - 1) / 2).toNat (by omega)
      have e : C.rd wnd ((-z - 1) / 2).toNat = .ok (xaff (T ((-z - 1) / 2).toNat)) := by simp only [C.rd, h1]
      rw [e]
      exact ⟨_, rfl, by rw [← sub_eq_add_neg]; exact xmsub c hr _⟩
    · exact ⟨_, rfl, by simpa using hr⟩

theorem xrun_digit (c : EdConst ec) {wnd : List (Xge F)} {T : Nat → EPt ec.a ec.d} {N len m : Nat} {naf : List Int}
    (hT : ∀ i < N, ∃ w, wnd[i]? = some w ∧ Ext w (T i)) (h : Fits naf N len) (hm : len ≤ m) (hl : m ≤ naf.length) :
    XRun (fun i r => C.rd naf i >>= fun z => xge_digit ec wnd z r) m (fun i => xsval T (naf.drop i)) := by
  refine ⟨xsval_zero T (tail_mono h.tail hm), fun i hi => ?_⟩
  have e : naf[i]? = some naf[i] := List.getElem?_eq_getElem (by omega)
  refine ⟨xdval T naf[i], xsval_drop T e, fun r Q hr => ?_⟩
  simp only [C.rd, e, C.ok_bind]
  exact xdigit c hT (h.small _ (List.getElem_mem _)) hr

theorem xrun_mixed (c : EdConst ec) {wnd : List (Xge F)} {T : Nat → EPt ec.a ec.d} {N len m : Nat} {naf : List Int}
    (hT : ∀ i < N, wnd[i]? = some (xaff (T i))) (h : Fits naf N len) (hm : len ≤ m) (hl : m ≤ naf.length) :
    XRun (fun i r => C.rd naf i >>= fun z => xge_digit_mixed ec wnd z r) m (fun i => xsval T (naf.drop i)) := by
  refine ⟨xsval_zero T (tail_mono h.tail hm), fun i hi => ?_⟩
  have e : naf[i]? = some naf[i] := List.getElem?_eq_getElem (by omega)
  refine ⟨xdval T naf[i], xsval_drop T e, fun r Q hr => ?_⟩
  simp only [C.rd, e, C.ok_bind]
  exact xdigit_mixed c hT (h.small _ (List.getElem_mem _)) hr

theorem xjsf_tab {P Q : EPt ec.a ec.d} {t : List (Xge F)} (h : List.Forall₂ Ext t [P, P + Q, P - Q, Q]) :
    ∀ i < 4, ∃ w, t[i]? = some w ∧ Ext w (xjtab P Q i) := by
  intro i hi
  have hl : t.length = 4 := by simpa using h.length_eq
  refine ⟨t[i]'(by omega), by simp [hl, hi], ?_⟩
  have := (List.forall₂_iff_get.1 h).2 i (by omega) (by simpa using hi)
  have hc : i = 0 ∨ i = 1 ∨ i = 2 ∨ i = 3 := by omega
  rcases hc with rfl | rfl | rfl | rfl <;> simpa [xjtab] using this

theorem xnaf_tab (c : EdConst ec) {p : Xge F} {P : EPt ec.a ec.d} (hp : Ext p P) (w : Nat) :
    ∀ i < 2 ^ (w - 2), ∃ x, (xge_naf_points ec p w)[i]? = some x ∧ Ext x ((2 * i + 1) • P) :=
  fun _ hi => forall₂_get (xnaf_points c hp w) hi

/-! ### Two terms -/

theorem xdouble {G : EPt ec.a ec.d} (ok : EdOk ec G) {p : Xge F} {P : EPt ec.a ec.d} (hp : Ext p P) {k1 k2 : Nat}
    (h1 : k1 < ec.n) (h2 : k2 < ec.n) :
    ∃ j, edwards_mul_double_var ec k1 p k2 = .ok j ∧ Ext j (k1 • G + k2 • P) := by
  have b1 := size_mono h1
  have b2 := size_mono h2
  obtain ⟨n1, l1, a1, a2, a3, a4, a5, a6⟩ := naf_fits (sign := 1) (w := 12) (Or.inl rfl) (by omega) b1
  obtain ⟨n2, l2, c1, c2, c3, c4, c5, c6⟩ := naf_fits (sign := 1) (w := 5) (Or.inl rfl) (by omega) b2
  have R1 := xrun_mixed ok.const ok.naf a4 (le_max_left l1 l2) (by omega)
  have R2 := xrun_digit ok.const (xnaf_tab ok.const hp 5) c4 (le_max_right l1 l2) (by omega)
  unfold edwards_mul_double_var
  simp only [sc_naf_var, a1, c1, C.ok_bind]
  obtain ⟨j, g1, g2⟩ := xrun_loop (xrun_add R1 R2)
    (xge_double_loop ec n1 n2 (xge_naf_points ec p 5) (max l1 l2)) (fun r => by rw [xge_double_loop])
    (fun i hi r => by
      have e1 : n1[i]? = some n1[i] := List.getElem?_eq_getElem (by omega)
      have e2 : n2[i]? = some n2[i] := List.getElem?_eq_getElem (by omega)
      rw [xge_double_loop]
      simp only [C.rd, e1, e2, C.ok_bind, C.bind_assoc])
  refine ⟨j, g1, ?_⟩
  rw [List.drop_zero, List.drop_zero, xsval_odd G a6, xsval_odd P c6, a5, c5, one_mul, one_mul, natCast_zsmul,
    natCast_zsmul] at g2
  exact g2

/-! ### Many terms -/

def xpairSum {A : Type} [AddCommGroup A] : List (A × Nat) → A
  | (P, a) :: (Q, b) :: rest => a • P + b • Q + xpairSum rest
  | _ => 0

def xlastSum {A : Type} [AddCommGroup A] : List (A × Nat) → A
  | [(P, a)] => a • P
  | _ :: _ :: rest => xlastSum rest
  | [] => 0

theorem xpair_last {A : Type} [AddCommGroup A] : ∀ ts : List (A × Nat),
    xpairSum ts + xlastSum ts = (ts.map fun t => t.2 • t.1).sum
  | [] => by simp [xpairSum, xlastSum]
  | [(P, a)] => by simp [xpairSum, xlastSum]
  | (P, a) :: (Q, b) :: rest => by
    rw [xpairSum, xlastSum, List.map_cons, List.map_cons, List.sum_cons, List.sum_cons, ← xpair_last rest]
    abel

/-- A term as the code gets it. -/
def XTerm {a d : F} (s : Xge F × Nat) (t : EPt a d × Nat) : Prop := Ext s.1 t.1 ∧ s.2 = t.2

theorem xrun_cons {t : List Int × List (Xge F)} {us : List (List Int × List (Xge F))} {m : Nat}
    {S T : Nat → EPt ec.a ec.d} (h1 : XRun (fun i r => C.rd t.1 i >>= fun z => xge_digit ec t.2 z r) m S)
    (h2 : XRun (fun i r => xge_multi_digits ec i us r) m T) :
    XRun (fun i r => xge_multi_digits ec i (t :: us) r) m (fun i => S i + T i) := by
  have e : (fun i r => xge_multi_digits ec i (t :: us) r)
      = fun i r => (C.rd t.1 i >>= fun z => xge_digit ec t.2 z r) >>= fun r => xge_multi_digits ec i us r := by
    funext i r
    rw [xge_multi_digits, C.bind_assoc]
  rw [e]
  exact xrun_add h1 h2

theorem xmulti_pairs (c : EdConst ec) :
    ∀ (ss : List (Xge F × Nat)) (ts : List (EPt ec.a ec.d × Nat)) (m : Nat), List.Forall₂ XTerm ss ts → (∀ t ∈ ts, t.2 < ec.n) →
      m ≤ ec.n.size + 1 →
      ∃ us m', xge_multi_pairs ec ss m = .ok (us, m') ∧ m ≤ m' ∧ m' ≤ ec.n.size + 1 ∧
        ∀ M, m' ≤ M → M ≤ ec.n.size + 1 → ∃ S : Nat → EPt ec.a ec.d, S 0 = xpairSum ts ∧
          XRun (fun i r => xge_multi_digits ec i us r) M S
  | [], [], m, _, _, hm => ⟨[], m, rfl, le_rfl, hm, fun M _ _ => ⟨fun _ => 0, rfl, xrun_zero M⟩⟩
  | [(p, _)], [(P, a)], m, _, _, hm => ⟨[], m, rfl, le_rfl, hm, fun M _ _ => ⟨fun _ => 0, rfl, xrun_zero M⟩⟩
  | (p, a') :: (q, b') :: srest, (P, a) :: (Q, b) :: rest, m, hs, hk, hm => by
    obtain ⟨⟨hp, ea⟩, hs1⟩ := List.forall₂_cons.1 hs
    obtain ⟨⟨hq, eb⟩, hs2⟩ := List.forall₂_cons.1 hs1
    dsimp only at hp hq ea eb
    subst ea eb
    have ha : a' < ec.n := hk (P, a') (by simp)
    have hb' : b' < ec.n := hk (Q, b') (by simp)
    have k1 := size_mono ha
    have k2 := size_mono hb'
    obtain ⟨n, l, c1, c2, c3, c4, c5, c6, c7⟩ := jsf_fits (s1 := 1) (s2 := 1) (Or.inl rfl) (Or.inl rfl) k1 k2
    obtain ⟨us, m', e1, e2, e3, e4⟩ := xmulti_pairs c srest rest (max m l) hs2
      (fun t ht => hk t (by simp [ht])) (by omega)
    refine ⟨(n, xge_jsf_points ec p q) :: us, m', ?_, by omega, e3, ?_⟩
    · rw [xge_multi_pairs, sc_jsf_var, c1, C.ok_bind]
      dsimp only
      rw [e1]
      rfl
    · intro M hM hM'
      obtain ⟨S, h0, hS⟩ := e4 M hM hM'
      have R := xrun_digit c (xjsf_tab (xjsf_points c hp hq)) c4 (m := M) (by omega) (by omega)
      refine ⟨_, ?_, xrun_cons (t := (n, _)) R hS⟩
      · rw [List.drop_zero, xsval_joint P Q c7, c5, c6, h0, xpairSum, one_mul, one_mul, natCast_zsmul, natCast_zsmul]
  | [], _ :: _, _, h, _, _ => by cases h
  | _ :: _, [], _, h, _, _ => by cases h
  | [_], _ :: _ :: _, _, h, _, _ => by have := h.length_eq; simp at this
  | _ :: _ :: _, [_], _, h, _, _ => by have := h.length_eq; simp at this

theorem xmulti_last (c : EdConst ec) :
    ∀ (ss : List (Xge F × Nat)) (ts : List (EPt ec.a ec.d × Nat)) (m : Nat), List.Forall₂ XTerm ss ts → (∀ t ∈ ts, t.2 < ec.n) →
      m ≤ ec.n.size + 1 →
      ∃ n w m', xge_multi_last ec ss m = .ok (n, w, m') ∧ m ≤ m' ∧ m' ≤ ec.n.size + 1 ∧ m' ≤ n.length ∧
        ∃ S : Nat → EPt ec.a ec.d, S 0 = xlastSum ts ∧
          XRun (fun i r => C.rd n i >>= fun z => xge_digit ec w z r) m' S
  | [], [], m, _, _, hm => by
    refine ⟨List.replicate m 0, [], m, rfl, le_rfl, hm, by simp, _, ?_, xrun_digit (T := fun _ => 0) (N := 0) (len := 0) c (by omega)
        ⟨fun z hz => by rw [List.eq_of_mem_replicate hz]; simp,
          fun z hz => List.eq_of_mem_replicate (List.mem_of_mem_drop hz)⟩ (by omega) (by simp)⟩
    · exact xsval_zero _ fun z hz => List.eq_of_mem_replicate (List.mem_of_mem_drop hz)
  | [(p, a')], [(P, a)], m, hs, hk, hm => by
    obtain ⟨⟨hp, ea⟩, _⟩ := List.forall₂_cons.1 hs
    dsimp only at hp ea
    subst ea
    have k1 := size_mono (hk (P, a') (by simp))
    obtain ⟨n, l, c1, c2, c3, c4, c5, c6⟩ := naf_fits (sign := 1) (w := 5) (Or.inl rfl) (by omega) k1
    dsimp only at c1 c5
    refine ⟨n, xge_naf_points ec p 5, max m l, ?_, by omega, by omega, by omega, _, ?_,
      xrun_digit c (xnaf_tab c hp 5) c4 (m := max m l) (by omega) (by omega)⟩
    · rw [xge_multi_last, sc_naf_var, c1, C.ok_bind]
      rfl
    · rw [List.drop_zero, xsval_odd P c6, c5, one_mul, natCast_zsmul, xlastSum]
  | _ :: _ :: srest, _ :: _ :: rest, m, hs, hk, hm => by
    obtain ⟨_, hs⟩ := List.forall₂_cons.1 hs
    obtain ⟨_, hs⟩ := List.forall₂_cons.1 hs
    rw [xlastSum]
    exact xmulti_last c srest rest m hs (fun t ht => hk t (by simp [ht])) hm
  | [], _ :: _, _, h, _, _ => by cases h
  | _ :: _, [], _, h, _, _ => by cases h
  | [_], _ :: _ :: _, _, h, _, _ => by have := h.length_eq; simp at this
  | _ :: _ :: _, [_], _, h, _, _ => by have := h.length_eq; simp at this

theorem xmulti {G : EPt ec.a ec.d} (ok : EdOk ec G) {k0 : Nat} (h0 : k0 < ec.n) {ss : List (Xge F × Nat)}
    {ts : List (EPt ec.a ec.d × Nat)} (hss : List.Forall₂ XTerm ss ts) (hk : ∀ t ∈ ts, t.2 < ec.n) {size : Nat} (hs : ss.length ≤ size) :
    ∃ j, edwards_mul_multi_var ec k0 ss size = .ok j ∧ Ext j (k0 • G + (ts.map fun t => t.2 • t.1).sum) := by
  have b0 := size_mono h0
  obtain ⟨n0, l0, a1, a2, a3, a4, a5, a6⟩ := naf_fits (sign := 1) (w := 12) (Or.inl rfl) (by omega) b0
  obtain ⟨us, m1, e1, e2, e3, e4⟩ := xmulti_pairs ok.const ss ts l0 hss hk a3
  obtain ⟨n1, w, m2, f1, f2, f3, f4, T, f5, f6⟩ := xmulti_last ok.const ss ts m1 hss hk e3
  obtain ⟨S, g1, g2⟩ := e4 m2 f2 f3
  have R0 := xrun_mixed ok.const ok.naf a4 (m := m2) (by omega) (by omega)
  unfold edwards_mul_multi_var
  rw [check_true (by simpa using hs), C.ok_bind, sc_naf_var, a1, C.ok_bind]
  dsimp only
  rw [e1, C.ok_bind]
  dsimp only
  rw [f1, C.ok_bind]
  dsimp only
  obtain ⟨j, j1, j2⟩ := xrun_loop (xrun_add (xrun_add R0 g2) f6)
    (xge_multi_loop ec n0 n1 us w m2) (fun r => by rw [xge_multi_loop])
    (fun i hi r => by
      have e1 : n0[i]? = some n0[i] := List.getElem?_eq_getElem (by omega)
      have e2 : n1[i]? = some n1[i] := List.getElem?_eq_getElem (by omega)
      rw [xge_multi_loop]
      simp only [C.rd, e1, e2, C.ok_bind, C.bind_assoc])
  refine ⟨j, j1, ?_⟩
  rw [List.drop_zero, xsval_odd G a6, a5, one_mul, natCast_zsmul, g1, f5, add_assoc, xpair_last] at j2
  exact j2

end

end Torsion.Ecc
