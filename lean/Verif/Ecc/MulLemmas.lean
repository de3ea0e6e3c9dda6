import Verif.Ecc.MulSpec
import Verif.Ecc.RecodeProps

/-! Lemmas on scalar multiplication. -/
namespace Torsion.Ecc

open Torsion.Spec (affine Jac Good weier Pt digits joint WeiOk EndoOk)
open WeierstrassCurve.Affine (Point)

variable {F : Type} [Field F] [DecidableEq F]

/-! ### Selection loops -/

theorem foldlM_app {A B : Type} (f : A → B → C A) (a : A) (l l' : List B) :
    (l ++ l').foldlM f a = (l.foldlM f a >>= fun a => l'.foldlM f a) := by
  induction l generalizing a with
  | nil => rfl
  | cons x xs ih =>
    simp only [List.cons_append, List.foldlM_cons]
    cases f a x with
    | ok b => exact ih b
    | abort => rfl
    | ub => rfl

theorem foldlM_select {T : Type} (sel : T → T → Bool → T) (h0 : ∀ t w, sel t w false = t)
    (h1 : ∀ t w, sel t w true = w) (wnds : List T) (f : Nat → T) (off b : Nat) (t : T) :
    ∀ n, (∀ j < n, wnds[off + j]? = some (f j)) →
      (List.range n).foldlM (fun t j => (do
        let w ← C.rd wnds (off + j)
        return sel t w (j == b) : C T)) t = .ok (if b < n then f b else t) := by
  intro n
  induction n with
  | zero => intro _; rfl
  | succ n ih =>
    intro h
    rw [List.range_succ, foldlM_app, ih (fun j hj => h j (by omega)), C.ok_bind]
    have e : C.rd wnds (off + n) = .ok (f n) := by simp only [C.rd, h n (by omega)]
    simp only [List.foldlM_cons, List.foldlM_nil, e, C.ok_bind]
    change C.ok _ = _
    congr 1
    by_cases hb : n = b
    · subst hb; simp [h1]
    · have e1 : (n == b) = false := by simpa using hb
      rw [e1, h0]
      by_cases hlt : b < n
      · rw [if_pos hlt, if_pos (by omega)]
      · rw [if_neg hlt, if_neg (by omega)]

theorem fixed_select_eq {wnds : List (Wge F)} {off b : Nat} {f : Nat → Wge F} (hb : b < 16)
    (h : ∀ j < 16, wnds[off + j]? = some (f j)) (t : Wge F) : fixed_select wnds off b t = .ok (f b) := by
  have := foldlM_select (wge_select (F := F)) (by intro t w; simp [wge_select, fe_select])
    (by intro t w; simp [wge_select, fe_select]) wnds f off b t 16 h
  rw [if_pos hb] at this
  exact this

theorem wnd_select_eq {wnd : List (Jge F)} {b : Nat} {f : Nat → Jge F} (hb : b < 16)
    (h : ∀ j < 16, wnd[j]? = some (f j)) (t : Jge F) : wnd_select wnd b t = .ok (f b) := by
  have := foldlM_select (jge_select (F := F)) (by intro t w; simp [jge_select, fe_select])
    (by intro t w; simp [jge_select, fe_select]) wnd f 0 b t 16 (by simpa using h)
  rw [if_pos hb] at this
  simpa [wnd_select] using this

theorem bits4 (k i : Nat) : sc_get_bits k (i * 4) 4 = k / 16 ^ i % 16 := by
  rw [sc_get_bits, mul_comm i 4, pow_mul]
  rfl

theorem size16 {k n : Nat} (hk : k < n) : k < 16 ^ ((n.size + 3) / 4) := by
  have h1 : k < 2 ^ n.size := hk.trans (Nat.lt_size_self n)
  rw [show (16 : Nat) = 2 ^ 4 by rfl, ← pow_mul]
  exact lt_of_lt_of_le h1 (Nat.pow_le_pow_right (by decide) (by omega))

/-- Numbers congruent modulo the order. -/
theorem smul_mod {G : Type} [AddCommGroup G] {P : G} {n : Nat} (h : n • P = 0) (k : Nat) :
    (k % n) • P = k • P := by
  conv => rhs; rw [← Nat.div_add_mod k n, add_nsmul, mul_comm, mul_nsmul', h, nsmul_zero, zero_add]

theorem smul_congr {G : Type} [AddCommGroup G] {P : G} {n : Nat} (h : n • P = 0) {a b : Nat}
    (hab : a % n = b % n) : a • P = b • P := by
  rw [← smul_mod h a, hab, smul_mod h]

/-! ### Fixed base -/

theorem fixed_loop_spec {ec : Wei F} {G : Pt ec.toCurve} (ok : WeiOk ec G) (k0 : Nat) :
    ∀ steps i r t (R : Pt ec.toCurve), Jac r R → i + steps ≤ (ec.bits + 3) / 4 →
      ∃ j, fixed_loop ec k0 steps i r t = .ok j ∧ Jac j (R + (k0 / 16 ^ i % 16 ^ steps * 16 ^ i) • G) := by
  intro steps
  induction steps with
  | zero =>
    intro i r t R hr _
    exact ⟨r, rfl, by simpa [Nat.mod_one] using hr⟩
  | succ steps ih =>
    intro i r t R hr hle
    rw [fixed_loop, bits4, fixed_select_eq (Nat.mod_lt _ (by decide)) (fun j hj => ok.fixed i j (by omega) hj),
      C.ok_bind]
    obtain ⟨j, h1, h2⟩ := ih (i + 1) _ (affine ((k0 / 16 ^ i % 16 * 16 ^ i) • G)) _
      (mixed_add_jac ok.good _ hr) (by omega)
    refine ⟨j, h1, ?_⟩
    rw [add_assoc, ← add_nsmul] at h2
    convert h2 using 3
    rw [pow_succ 16 steps, mul_comm (16 ^ steps) 16, Nat.mod_mul, Nat.div_div_eq_div_mul, ← pow_succ,
      pow_succ 16 i]
    ring

theorem jmul_g_spec {ec : Wei F} {G : Pt ec.toCurve} (ok : WeiOk ec G) (k : Nat) :
    ∃ j, wei_jmul_g ec k = .ok j ∧ Jac j (k • G) := by
  obtain ⟨b, hb, hbl⟩ := ok.blind
  obtain ⟨j, h1, h2⟩ := fixed_loop_spec ok ((k + ec.blind) % ec.n) ((ec.bits + 3) / 4) 0 _ wge_zero _ hb
    (by omega)
  refine ⟨j, h1, ?_⟩
  have hlt := Nat.mod_lt (k + ec.blind) ok.pos
  rw [pow_zero, Nat.div_one, mul_one, ok.bits, Nat.mod_eq_of_lt (size16 hlt), smul_mod ok.order,
    ← add_nsmul] at h2
  convert h2 using 1
  refine smul_congr ok.order ?_
  rw [show b + (k + ec.blind) = k + (ec.blind + b) by ring, Nat.add_mod, hbl, add_zero, Nat.mod_mod]

/-! ### Tables -/

theorem getElem?_flatMap {A B : Type} (f : A → List B) (m : Nat) (hf : ∀ a, (f a).length = m) (l : List A)
    (i j : Nat) (hj : j < m) : (l.flatMap f)[i * m + j]? = (l[i]?).bind fun a => (f a)[j]? := by
  induction l generalizing i with
  | nil => simp
  | cons a l ih =>
    rw [List.flatMap_cons]
    cases i with
    | zero => simp [List.getElem?_append_left, hf, hj]
    | succ i =>
      rw [List.getElem?_append_right (by rw [hf]; nlinarith), hf, List.getElem?_cons_succ, ← ih]
      congr 1
      rw [Nat.succ_mul]; omega

theorem forall₂_get {A B : Type} {R : A → B → Prop} {l : List A} {f : Nat → B} {n : Nat}
    (h : List.Forall₂ R l ((List.range n).map f)) {i : Nat} (hi : i < n) : ∃ w, l[i]? = some w ∧ R w (f i) := by
  have hl : l.length = n := by simpa using h.length_eq
  refine ⟨l[i]'(by omega), by simp [hl, hi], ?_⟩
  have := (List.forall₂_iff_get.1 h).2 i (by omega) (by simpa using hi)
  simpa using this

theorem wnd_table_spec {c : Curve F} (g : Good c) (P : Pt c) :
    ∀ fuel m wnd, 0 < m → List.Forall₂ Jac wnd ((List.range (2 * m)).map fun i => i • P) →
      ∃ wnd', wnd_table c (affine P) fuel wnd = .ok wnd' ∧
        List.Forall₂ Jac wnd' ((List.range (2 * (m + fuel))).map fun i => i • P) := by
  intro fuel
  induction fuel with
  | zero => intro m wnd _ h; exact ⟨wnd, rfl, h⟩
  | succ fuel ih =>
    intro m wnd hm h
    have hl : wnd.length = 2 * m := by simpa using h.length_eq
    obtain ⟨w, hw, hjw⟩ := forall₂_get h (i := m) (by omega)
    rw [wnd_table]
    have e : C.rd wnd (wnd.length / 2) = .ok w := by
      rw [hl, Nat.mul_div_cancel_left _ (by decide)]
      simp only [C.rd, hw]
    rw [e, C.ok_bind]
    have hd := dbl_jac g hjw
    have ha := mixed_add_jac g P hd
    obtain ⟨wnd', h1, h2⟩ := ih (m + 1) (wnd ++ [jge_dbl c w, jge_mixed_add c (jge_dbl c w) (affine P)])
      (by omega) (by
        rw [show 2 * (m + 1) = 2 * m + 1 + 1 by ring, List.range_succ, List.range_succ, List.map_append,
          List.map_append, List.append_assoc]
        refine List.rel_append h (.cons ?_ (.cons ?_ .nil))
        · convert hd using 1
          rw [← two_nsmul, ← mul_nsmul']
        · convert ha using 1
          beta_reduce
          rw [← two_nsmul, ← mul_nsmul', succ_nsmul])
    exact ⟨wnd', h1, by rw [show m + (fuel + 1) = m + 1 + fuel by ring]; exact h2⟩

theorem jmul_table_spec {c : Curve F} (g : Good c) (P : Pt c) :
    ∃ wnd, jmul_table c (affine P) = .ok wnd ∧ List.Forall₂ Jac wnd ((List.range 16).map fun i => i • P) := by
  obtain ⟨wnd, h1, h2⟩ := wnd_table_spec g P 7 1 [jge_zero, jge_set_wge (affine P)] (by omega)
    (.cons (by simpa using jac_zero') (.cons (by simpa using set_wge_jac P) .nil))
  exact ⟨wnd, h1, h2⟩

/-- A table of the first 16 multiples. -/
def Tab {c : Curve F} (wnd : List (Jge F)) (P : Pt c) : Prop :=
  ∃ f : Nat → Jge F, (∀ j < 16, wnd[j]? = some (f j)) ∧ ∀ j < 16, Jac (f j) (j • P)

theorem tab_of {c : Curve F} {wnd : List (Jge F)} {P : Pt c}
    (h : List.Forall₂ Jac wnd ((List.range 16).map fun i => i • P)) : Tab wnd P := by
  have hl : wnd.length = 16 := by simpa using h.length_eq
  refine ⟨fun j => wnd.getD j jge_zero, ?_, ?_⟩
  · intro j hj
    simp [List.getD, hl, hj]
  · intro j hj
    obtain ⟨w, hw, hjw⟩ := forall₂_get h hj
    simpa [List.getD, hw] using hjw

theorem dbl_iter_ct {c : Curve F} (g : Good c) (n : Nat) {P : Pt c} {j : Jge F} (hj : Jac j P) :
    Jac ((jge_dbl c)^[n] j) (2 ^ n • P) := by
  induction n with
  | zero => simpa using hj
  | succ n ih =>
    rw [Function.iterate_succ_apply', pow_succ, mul_nsmul, two_nsmul]
    exact dbl_jac g ih

theorem div_step (k i : Nat) : 16 * (k / 16 ^ (i + 1)) + k / 16 ^ i % 16 = k / 16 ^ i := by
  rw [pow_succ, ← Nat.div_div_eq_div_mul]
  exact Nat.div_add_mod _ _

theorem wnd_loop_spec {ec : Wei F} (g : Good ec.toCurve) {P : Pt ec.toCurve} {wnd : List (Jge F)} (hT : Tab wnd P)
    {k steps : Nat} (hk : k < 16 ^ steps) :
    ∀ i r t, i ≤ steps → Jac r ((k / 16 ^ i) • P) → ∃ j, wnd_loop ec k wnd steps i r t = .ok j ∧ Jac j (k • P) := by
  obtain ⟨f, hf, hj⟩ := hT
  intro i
  induction i with
  | zero =>
    intro r t _ hr
    exact ⟨r, rfl, by simpa using hr⟩
  | succ i ih =>
    intro r t hi hr
    have hm : k / 16 ^ i % 16 < 16 := Nat.mod_lt _ (by decide)
    rw [wnd_loop, bits4, wnd_select_eq hm hf, C.ok_bind]
    refine ih _ _ (by omega) ?_
    split
    · rename_i hs
      have : k / 16 ^ i < 16 := Nat.div_lt_of_lt_mul (by
        rw [← pow_succ, show i + 1 = steps by omega]; exact hk)
      have h := hj _ hm
      rwa [Nat.mod_eq_of_lt this] at h ⊢
    · have h := add_jac g (dbl_iter_ct g 4 hr) (hj _ hm)
      rw [← mul_nsmul', ← add_nsmul, show 2 ^ 4 = 16 by rfl, div_step] at h
      exact h

theorem jmul_normal_spec {ec : Wei F} (g : Good ec.toCurve) (P : Pt ec.toCurve) {k : Nat} (hk : k < 2 ^ ec.bits) :
    ∃ j, wei_jmul_normal ec (affine P) k = .ok j ∧ Jac j (k • P) := by
  obtain ⟨wnd, h1, h2⟩ := jmul_table_spec g P
  have hk' : k < 16 ^ ((ec.bits + 3) / 4) := by
    rw [show (16 : Nat) = 2 ^ 4 by rfl, ← pow_mul]
    exact lt_of_lt_of_le hk (Nat.pow_le_pow_right (by decide) (by omega))
  unfold wei_jmul_normal
  dsimp only
  rw [h1, C.ok_bind]
  refine wnd_loop_spec g (tab_of h2) hk' _ _ _ le_rfl ?_
  rw [Nat.div_eq_of_lt hk', zero_nsmul]
  exact jac_zero'

theorem endo_loop_spec {ec : Wei F} (g : Good ec.toCurve) {P Q : Pt ec.toCurve} {w1 w2 : List (Jge F)}
    (hT1 : Tab w1 P) (hT2 : Tab w2 Q) {k1 k2 steps : Nat} (hk1 : k1 < 16 ^ steps) (hk2 : k2 < 16 ^ steps) :
    ∀ i r t1 t2, i ≤ steps → Jac r ((k1 / 16 ^ i) • P + (k2 / 16 ^ i) • Q) →
      ∃ j, endo_loop ec k1 k2 w1 w2 steps i r t1 t2 = .ok j ∧ Jac j (k1 • P + k2 • Q) := by
  obtain ⟨f, hf, hj⟩ := hT1
  obtain ⟨f', hf', hj'⟩ := hT2
  intro i
  induction i with
  | zero =>
    intro r t1 t2 _ hr
    exact ⟨r, rfl, by simpa using hr⟩
  | succ i ih =>
    intro r t1 t2 hi hr
    have hm : k1 / 16 ^ i % 16 < 16 := Nat.mod_lt _ (by decide)
    have hm' : k2 / 16 ^ i % 16 < 16 := Nat.mod_lt _ (by decide)
    rw [endo_loop, bits4, bits4, wnd_select_eq hm hf, C.ok_bind, wnd_select_eq hm' hf', C.ok_bind]
    refine ih _ _ _ (by omega) ?_
    split
    · rename_i hs
      have e1 : k1 / 16 ^ i < 16 := Nat.div_lt_of_lt_mul (by
        rw [← pow_succ, show i + 1 = steps by omega]; exact hk1)
      have e2 : k2 / 16 ^ i < 16 := Nat.div_lt_of_lt_mul (by
        rw [← pow_succ, show i + 1 = steps by omega]; exact hk2)
      have h := add_jac g (hj _ hm) (hj' _ hm')
      rwa [Nat.mod_eq_of_lt e1, Nat.mod_eq_of_lt e2] at h ⊢
    · have h := add_jac g (add_jac g (dbl_iter_ct g 4 hr) (hj _ hm)) (hj' _ hm')
      have e : 2 ^ 4 • ((k1 / 16 ^ (i + 1)) • P + (k2 / 16 ^ (i + 1)) • Q) + (k1 / 16 ^ i % 16) • P
          + (k2 / 16 ^ i % 16) • Q = (k1 / 16 ^ i) • P + (k2 / 16 ^ i) • Q := by
        rw [← div_step k1 i, ← div_step k2 i, nsmul_add, ← mul_nsmul', ← mul_nsmul', add_nsmul, add_nsmul,
          show 2 ^ 4 = 16 by rfl]
        simp only [div_step]
        abel
      rw [e] at h
      exact h

/-! ### The endomorphism -/

theorem split_eq (n : Nat) (e : Endo F) {l : Nat} (hl : (l + e.lambda) % n = 0) {k : Nat} (hk : k < n) :
    (wei_endo_split n e k).1 < n ∧ (wei_endo_split n e k).2 < n ∧
    ((wei_endo_split n e k).1 + l * (wei_endo_split n e k).2) % n = k := by
  have hn : 0 < n := by omega
  obtain ⟨k2, hk2⟩ : ∃ k2, k2 = (wei_endo_split n e k).2 := ⟨_, rfl⟩
  have h1 : (wei_endo_split n e k).1 = (k2 * e.lambda % n + k) % n := by rw [hk2]; rfl
  have h2 : k2 < n := by rw [hk2]; exact Nat.mod_lt _ hn
  rw [h1, ← hk2]
  refine ⟨Nat.mod_lt _ hn, h2, ?_⟩
  have h3 : ((k2 * e.lambda % n + k) % n + l * k2) ≡ k [MOD n] := by
    have a1 : ((k2 * e.lambda % n + k) % n + l * k2) ≡ (k2 * e.lambda + k) + l * k2 [MOD n] :=
      Nat.ModEq.add_right _ ((Nat.mod_modEq _ _).trans (Nat.ModEq.add_right _ (Nat.mod_modEq _ _)))
    have a2 : (k2 * e.lambda + k) + l * k2 = (l + e.lambda) * k2 + k := by ring
    rw [a2] at a1
    refine a1.trans ?_
    have a3 : (l + e.lambda) * k2 ≡ 0 [MOD n] := (Nat.modEq_zero_iff_dvd.2
      (Dvd.dvd.mul_right (Nat.dvd_of_mod_eq_zero hl) k2))
    simpa using a3.add_right k
  have h4 : _ % n = k % n := h3
  rw [h4, Nat.mod_eq_of_lt hk]

/-- The sign of a reduced scalar. -/
def sgn (b : Bool) : Int := if b then -1 else 1

theorem sgn_cases (b : Bool) : sgn b = 1 ∨ sgn b = -1 := by cases b <;> simp [sgn]

theorem min_smul {c : Curve F} {P : Pt c} {n k : Nat} (hn : n • P = 0) (hk : k < n) :
    (sgn (sc_minimize_var n k).2 * ((sc_minimize_var n k).1 : Int)) • P = k • P := by
  have h := (sc_minimize_exact n k hk).2.1
  have e : (k : Int) • P = k • P := natCast_zsmul _ _
  rw [← e, h, add_zsmul]
  have : (((if (sc_minimize_var n k).2 then n else 0 : Nat)) : Int) • P = 0 := by
    rw [natCast_zsmul]
    split
    · exact hn
    · rw [zero_nsmul]
  rw [this, add_zero]
  rfl

/-- The two halves recombine. -/
theorem split_smul {ec : Wei F} {e : Endo F} {P Q : Pt ec.toCurve} (hP : ec.n • P = 0) {l : Nat}
    (hl : (l + e.lambda) % ec.n = 0) (hQ : Q = l • P) {k : Nat} (hk : k < ec.n) :
    (sgn (sc_minimize_var ec.n (wei_endo_split ec.n e k).1).2
        * ((sc_minimize_var ec.n (wei_endo_split ec.n e k).1).1 : Int)) • P
      + (sgn (sc_minimize_var ec.n (wei_endo_split ec.n e k).2).2
        * ((sc_minimize_var ec.n (wei_endo_split ec.n e k).2).1 : Int)) • Q = k • P := by
  obtain ⟨h1, h2, h3⟩ := split_eq ec.n e hl hk
  have hQn : ec.n • Q = 0 := by rw [hQ, ← mul_nsmul, mul_nsmul', hP, nsmul_zero]
  rw [min_smul hP h1, min_smul hQn h2, hQ, ← mul_nsmul', ← add_nsmul, mul_comm _ l]
  exact smul_congr hP (by rw [h3, Nat.mod_eq_of_lt hk])

theorem endo_point {ec : Wei F} {G : Pt ec.toCurve} (ok : WeiOk ec G) {e : Endo F} (he : ec.endo = some e) :
    ∃ (ha : ec.toCurve.a = 0) (hb : e.beta ^ 3 = 1) (l : Nat), (l + e.lambda) % ec.n = 0 ∧
      ∀ m : Nat, endoPt e.beta ha hb (m • G) = l • (m • G) := by
  obtain ⟨eo, _⟩ := ok.endo e he
  obtain ⟨l, hl, H, h1, h2⟩ := eo.lam
  refine ⟨eo.za, eo.cube, l, hl, fun m => endo_smul ok.good eo.za eo.cube ?_ m⟩
  rw [← h2]
  apply aff_inj
  rw [h1, endo_aff]

theorem mult_order {ec : Wei F} {G : Pt ec.toCurve} (ok : WeiOk ec G) (m : Nat) : ec.n • (m • G) = 0 := by
  rw [← mul_nsmul, mul_comm, mul_nsmul, ok.order, nsmul_zero]

theorem tab_neg {c : Curve F} {wnd : List (Jge F)} {P : Pt c}
    (h : List.Forall₂ Jac wnd ((List.range 16).map fun i => i • P)) (s : Bool) :
    Tab (wnd.take 1 ++ (wnd.drop 1).map (jge_neg_cond · s)) (sgn s • P) := by
  have hl : wnd.length = 16 := by simpa using h.length_eq
  apply tab_of
  rw [List.range_succ_eq_map (n := 15), List.map_cons, List.map_map] at h ⊢
  rcases wnd with _ | ⟨w, ws⟩
  · cases h
  · obtain ⟨h1, h2⟩ := List.forall₂_cons.1 h
    simp only [List.take_succ_cons, List.take_zero, List.drop_succ_cons, List.drop_zero, List.cons_append,
      List.nil_append]
    refine .cons ?_ ?_
    · simpa using h1
    · rw [List.forall₂_map_left_iff, List.forall₂_map_right_iff] at *
      refine h2.imp ?_
      intro j i hj
      have := neg_cond_jac hj s
      cases s
      · simpa [sgn] using this
      · simpa [sgn] using this

theorem tab_endo {c : Curve F} {wnd : List (Jge F)} {P : Pt c} (g : Good c) {b : F} (ha : c.a = 0)
    (hb : b ^ 3 = 1) (h : List.Forall₂ Jac wnd ((List.range 16).map fun i => i • P)) :
    List.Forall₂ Jac (jge_zero :: (wnd.drop 1).map (jge_endo_beta b))
      ((List.range 16).map fun i => i • endoPt b ha hb P) := by
  have hs : ∀ i : Nat, endoPt b ha hb (i • P) = i • endoPt b ha hb P := by
    intro i
    induction i with
    | zero => simp [endoPt]
    | succ i ih => rw [succ_nsmul, endo_add g, ih, succ_nsmul]
  rw [List.range_succ_eq_map (n := 15), List.map_cons, List.map_map] at h ⊢
  rcases wnd with _ | ⟨w, ws⟩
  · cases h
  · obtain ⟨h1, h2⟩ := List.forall₂_cons.1 h
    simp only [List.drop_succ_cons, List.drop_zero]
    refine .cons ?_ ?_
    · simpa using jac_zero'
    · rw [List.forall₂_map_left_iff, List.forall₂_map_right_iff] at *
      refine h2.imp ?_
      intro j i hj
      have := endo_jac ha hb hj
      simp only [Function.comp, hs] at this ⊢
      exact this

theorem jmul_endo_spec {ec : Wei F} {G : Pt ec.toCurve} (ok : WeiOk ec G) {e : Endo F} (he : ec.endo = some e)
    (m : Nat) {k : Nat} (hk : k < ec.n) :
    ∃ j, wei_jmul_endo ec e (affine (m • G)) k = .ok j ∧ Jac j (k • (m • G)) := by
  obtain ⟨ha, hb, l, hl, hφ⟩ := endo_point ok he
  obtain ⟨wnd, h1, h2⟩ := jmul_table_spec ok.good (m • G)
  obtain ⟨s1, s2⟩ := (ok.endo e he).1.short k hk
  have up : ∀ {x : Nat}, x < 2 ^ ec.ebits → x < 16 ^ ((ec.ebits + 3) / 4) := by
    intro x hx
    rw [show (16 : Nat) = 2 ^ 4 by rfl, ← pow_mul]
    exact lt_of_lt_of_le hx (Nat.pow_le_pow_right (by decide) (by omega))
  unfold wei_jmul_endo
  dsimp only
  rw [h1, C.ok_bind]
  obtain ⟨j, g1, g2⟩ := endo_loop_spec ok.good
    (tab_neg h2 (sc_minimize_var ec.n (wei_endo_split ec.n e k).1).2)
    (tab_neg (tab_endo ok.good ha hb h2) (sc_minimize_var ec.n (wei_endo_split ec.n e k).2).2)
    (up s1) (up s2) _ jge_zero jge_zero jge_zero le_rfl
    (by rw [Nat.div_eq_of_lt (up s1), Nat.div_eq_of_lt (up s2), zero_nsmul, zero_nsmul, add_zero]; exact jac_zero')
  refine ⟨j, g1, ?_⟩
  convert g2 using 1
  rw [← split_smul (mult_order ok m) hl (hφ m) hk, mul_comm, mul_comm (sgn _), mul_zsmul, mul_zsmul,
    natCast_zsmul, natCast_zsmul]

/-! ### Loops over digits -/

/-- One digit position after another: `S i` is the sum of the digits from position `i` on. -/
def Run {c : Curve F} (step : Nat → Jge F → C (Jge F)) (m : Nat) (S : Nat → Pt c) : Prop :=
  S m = 0 ∧ ∀ i < m, ∃ D, S i = D + 2 • S (i + 1) ∧
    ∀ r R, Jac r R → ∃ j, step i r = .ok j ∧ Jac j (R + D)

theorem run_add {c : Curve F} {f g : Nat → Jge F → C (Jge F)} {m : Nat} {S T : Nat → Pt c} (hf : Run f m S)
    (hg : Run g m T) : Run (fun i r => f i r >>= g i) m (fun i => S i + T i) := by
  refine ⟨by beta_reduce; rw [hf.1, hg.1, add_zero], fun i hi => ?_⟩
  obtain ⟨D, h1, h2⟩ := hf.2 i hi
  obtain ⟨E, h3, h4⟩ := hg.2 i hi
  refine ⟨D + E, ?_, ?_⟩
  · beta_reduce; rw [h1, h3, nsmul_add]; abel
  · intro r R hr
    obtain ⟨j, e1, hj⟩ := h2 r R hr
    obtain ⟨j', e2, hj'⟩ := h4 j _ hj
    exact ⟨j', by beta_reduce; rw [e1, C.ok_bind, e2], by rw [← add_assoc]; exact hj'⟩

theorem run_zero {c : Curve F} (m : Nat) : Run (c := c) (fun _ r => .ok r) m (fun _ => 0) :=
  ⟨rfl, fun i _ => ⟨0, by simp, fun r R hr => ⟨r, rfl, by simpa using hr⟩⟩⟩

theorem run_loop {c : Curve F} (g : Good c) {step : Nat → Jge F → C (Jge F)} {m : Nat} {S : Nat → Pt c}
    (h : Run step m S) (L : Nat → Jge F → C (Jge F)) (h0 : ∀ r, L 0 r = .ok r)
    (hL : ∀ i < m, ∀ r, L (i + 1) r = (step i (if i ≠ m - 1 then jge_dbl_var c r else r) >>= L i)) :
    ∃ j, L m jge_zero = .ok j ∧ Jac j (S 0) := by
  have key : ∀ i ≤ m, ∀ r, Jac r (S i) → ∃ j, L i r = .ok j ∧ Jac j (S 0) := by
    intro i
    induction i with
    | zero => intro _ r hr; exact ⟨r, h0 r, hr⟩
    | succ i ih =>
      intro hi r hr
      obtain ⟨D, e1, e2⟩ := h.2 i (by omega)
      have hd : Jac (if i ≠ m - 1 then jge_dbl_var c r else r) (2 • S (i + 1)) := by
        split
        · rw [two_nsmul]; exact dbl_var_jac g hr
        · rename_i hne
          have : i + 1 = m := by omega
          rw [this, h.1] at hr ⊢
          simpa using hr
      obtain ⟨j, e3, e4⟩ := e2 _ _ hd
      rw [hL i (by omega), e3, C.ok_bind]
      exact ih (by omega) j (by rw [e1, add_comm]; exact e4)
  exact key m le_rfl _ (by rw [h.1]; exact jac_zero')

/-- The multiple a digit stands for. -/
def dval {c : Curve F} (T : Nat → Pt c) (z : Int) : Pt c :=
  if z > 0 then T ((z - 1) / 2).toNat else if z < 0 then -T ((-z - 1) / 2).toNat else 0

def sval {c : Curve F} (T : Nat → Pt c) : List Int → Pt c
  | [] => 0
  | d :: ds => dval T d + 2 • sval T ds

theorem sval_zero {c : Curve F} (T : Nat → Pt c) {l : List Int} (h : ∀ d ∈ l, d = 0) : sval T l = 0 := by
  induction l with
  | nil => rfl
  | cons d ds ih =>
    rw [sval, ih (fun x hx => h x (List.mem_cons_of_mem _ hx)), h d List.mem_cons_self]
    simp [dval]

theorem sval_drop {c : Curve F} (T : Nat → Pt c) {l : List Int} {i : Nat} {z : Int} (h : l[i]? = some z) :
    sval T (l.drop i) = dval T z + 2 • sval T (l.drop (i + 1)) := by
  obtain ⟨hi, e⟩ := List.getElem?_eq_some_iff.1 h
  rw [List.drop_eq_getElem_cons hi, sval, e]

theorem digit_jac_spec {c : Curve F} (g : Good c) {wnd : List (Jge F)} {T : Nat → Pt c} {N : Nat}
    (hT : ∀ i < N, ∃ w, wnd[i]? = some w ∧ Jac w (T i)) {z : Int} (hz : z.natAbs ≤ 2 * N) {r : Jge F} {R : Pt c}
    (hr : Jac r R) : ∃ j, digit_jac c wnd z r = .ok j ∧ Jac j (R + dval T z) := by
  unfold digit_jac dval
  split
  · obtain ⟨w, h1, h2⟩ := hT ((z - 1) / 2).toNat (by omega)
    have e : C.rd wnd ((z - 1) / 2).toNat = .ok w := by simp only [C.rd, h1]
    rw [e]
    exact ⟨_, rfl, add_var_jac g hr h2⟩
  · split
    · obtain ⟨w, h1, h2⟩ := hT ((-z - 1) / 2).toNat (by omega)
      have e : C.rd wnd ((-z - 1) / 2).toNat = .ok w := by simp only [C.rd, h1]
      rw [e]
      exact ⟨_, rfl, by rw [← sub_eq_add_neg]; exact sub_var_jac g hr h2⟩
    · exact ⟨_, rfl, by simpa using hr⟩

theorem digit_mixed_spec {c : Curve F} (g : Good c) {wnd : List (Wge F)} {T : Nat → Pt c} {N : Nat}
    (hT : ∀ i < N, wnd[i]? = some (affine (T i))) {z : Int} (hz : z.natAbs ≤ 2 * N) {r : Jge F} {R : Pt c}
    (hr : Jac r R) : ∃ j, digit_mixed c wnd z r = .ok j ∧ Jac j (R + dval T z) := by
  unfold digit_mixed dval
  split
  · have h1 := hT ((z - 1) / 2).toNat (by omega)
    have e : C.rd wnd ((z - 1) / 2).toNat = .ok (affine (T ((z - 1) / 2).toNat)) := by simp only [C.rd, h1]
    rw [e]
    exact ⟨_, rfl, mixed_add_var_jac g _ hr⟩
  · split
    · have h1 := hT ((-z - 1) / 2).toNat (by omega)
      have e : C.rd wnd ((-z - 1) / 2).toNat = .ok (affine (T ((-z - 1) / 2).toNat)) := by simp only [C.rd, h1]
      rw [e]
      exact ⟨_, rfl, by rw [← sub_eq_add_neg]; exact mixed_sub_var_jac g _ hr⟩
    · exact ⟨_, rfl, by simpa using hr⟩

/-- Digits which fit a table of `N` entries, and vanish from `len` on. -/
structure Fits (naf : List Int) (N len : Nat) : Prop where
  small : ∀ z ∈ naf, z.natAbs ≤ 2 * N
  tail : ∀ z ∈ naf.drop len, z = 0

theorem tail_mono {naf : List Int} {a b : Nat} (h : ∀ z ∈ naf.drop a, z = 0) (hab : a ≤ b) :
    ∀ z ∈ naf.drop b, z = 0 := by
  intro z hz
  refine h z ?_
  rw [show b = a + (b - a) by omega, ← List.drop_drop] at hz
  exact List.mem_of_mem_drop hz

theorem run_jac {c : Curve F} (g : Good c) {wnd : List (Jge F)} {T : Nat → Pt c} {N len m : Nat} {naf : List Int}
    (hT : ∀ i < N, ∃ w, wnd[i]? = some w ∧ Jac w (T i)) (h : Fits naf N len) (hm : len ≤ m)
    (hl : m ≤ naf.length) :
    Run (fun i r => C.rd naf i >>= fun z => digit_jac c wnd z r) m (fun i => sval T (naf.drop i)) := by
  refine ⟨sval_zero T (tail_mono h.tail hm), fun i hi => ?_⟩
  have e : naf[i]? = some naf[i] := List.getElem?_eq_getElem (by omega)
  refine ⟨dval T naf[i], sval_drop T e, fun r R hr => ?_⟩
  simp only [C.rd, e, C.ok_bind]
  exact digit_jac_spec g hT (h.small _ (List.getElem_mem _)) hr

theorem run_mixed {c : Curve F} (g : Good c) {wnd : List (Wge F)} {T : Nat → Pt c} {N len m : Nat} {naf : List Int}
    (hT : ∀ i < N, wnd[i]? = some (affine (T i))) (h : Fits naf N len) (hm : len ≤ m) (hl : m ≤ naf.length) :
    Run (fun i r => C.rd naf i >>= fun z => digit_mixed c wnd z r) m (fun i => sval T (naf.drop i)) := by
  refine ⟨sval_zero T (tail_mono h.tail hm), fun i hi => ?_⟩
  have e : naf[i]? = some naf[i] := List.getElem?_eq_getElem (by omega)
  refine ⟨dval T naf[i], sval_drop T e, fun r R hr => ?_⟩
  simp only [C.rd, e, C.ok_bind]
  exact digit_mixed_spec g hT (h.small _ (List.getElem_mem _)) hr

/-! ### What the digits stand for -/

theorem sval_odd {c : Curve F} (P : Pt c) {l : List Int} (h : ∀ z ∈ l, z = 0 ∨ z % 2 = 1) :
    sval (fun i => (2 * i + 1) • P) l = digits l • P := by
  induction l with
  | nil => simp [sval, digits]
  | cons d ds ih =>
    rw [sval, digits, ih (fun x hx => h x (List.mem_cons_of_mem _ hx)), add_zsmul, mul_zsmul]
    congr 1
    · have hd := h d List.mem_cons_self
      unfold dval
      beta_reduce
      split
      · rw [← natCast_zsmul]; congr 1; omega
      · split
        · rw [← natCast_zsmul, ← neg_zsmul]; congr 1; omega
        · rw [show d = 0 by omega, zero_zsmul]

/-- The table of a joint form. -/
def jtab {c : Curve F} (P Q : Pt c) : Nat → Pt c
  | 0 => P
  | 1 => P + Q
  | 2 => P - Q
  | _ => Q

theorem dval_joint {c : Curve F} (P Q : Pt c) {z : Int} (h : z = 0 ∨ (z.natAbs % 2 = 1 ∧ z.natAbs ≤ 7)) :
    dval (jtab P Q) z = (joint z).1 • P + (joint z).2 • Q := by
  have hz : z = 0 ∨ z = 1 ∨ z = 3 ∨ z = 5 ∨ z = 7 ∨ z = -1 ∨ z = -3 ∨ z = -5 ∨ z = -7 := by omega
  rcases hz with rfl | rfl | rfl | rfl | rfl | rfl | rfl | rfl | rfl <;>
    simp [dval, joint, jtab] <;> abel

theorem sval_joint {c : Curve F} (P Q : Pt c) {l : List Int}
    (h : ∀ z ∈ l, z = 0 ∨ (z.natAbs % 2 = 1 ∧ z.natAbs ≤ 7)) :
    sval (jtab P Q) l = digits (l.map fun z => (joint z).1) • P + digits (l.map fun z => (joint z).2) • Q := by
  induction l with
  | nil => simp [sval, digits]
  | cons d ds ih =>
    rw [sval, List.map_cons, List.map_cons, digits, digits, ih (fun x hx => h x (List.mem_cons_of_mem _ hx)),
      dval_joint P Q (h d List.mem_cons_self), add_zsmul, add_zsmul, mul_zsmul, mul_zsmul, nsmul_add,
      two_zsmul, two_zsmul, two_nsmul, two_nsmul]
    abel

theorem naf_fits {k : Nat} {sign : Int} {w m : Nat} (hs : sign = 1 ∨ sign = -1) (hw : 2 ≤ w)
    (hm : k.size + 1 ≤ m) :
    ∃ naf len, sc_naf_var0 k sign w m = .ok (naf, len) ∧ naf.length = m ∧ len ≤ m ∧ Fits naf (2 ^ (w - 2)) len ∧
      digits naf = sign * k ∧ ∀ z ∈ naf, z = 0 ∨ z % 2 = 1 := by
  obtain ⟨naf, len, h1, h2, h3, h4, _, h6, h7⟩ := sc_naf_exact k sign w m hw hm
  have hp : (2 : Int) ^ (w - 1) = 2 * 2 ^ (w - 2) := by
    rw [show w - 1 = w - 2 + 1 by omega, pow_succ]; ring
  have hn : ((2 ^ (w - 2) : Nat) : Int) = 2 ^ (w - 2) := by push_cast; rfl
  refine ⟨naf, len, h1, h2, by omega, ⟨?_, h7⟩, h3, ?_⟩
  · intro z hz
    rcases h4 z hz with rfl | ⟨e, rfl, _, h8, h9⟩
    · simp
    · rw [hp, ← hn] at h8 h9
      rcases hs with rfl | rfl <;> omega
  · intro z hz
    rcases h4 z hz with rfl | ⟨e, rfl, h8, _, _⟩
    · simp
    · rcases hs with rfl | rfl <;> omega

theorem jsf_fits {k1 k2 : Nat} {s1 s2 : Int} {m : Nat} (h1 : s1 = 1 ∨ s1 = -1) (h2 : s2 = 1 ∨ s2 = -1)
    (m1 : k1.size + 1 ≤ m) (m2 : k2.size + 1 ≤ m) :
    ∃ naf len, sc_jsf_var0 k1 s1 k2 s2 m = .ok (naf, len) ∧ naf.length = m ∧ len ≤ m ∧ Fits naf 4 len ∧
      digits (naf.map fun z => (joint z).1) = s1 * k1 ∧ digits (naf.map fun z => (joint z).2) = s2 * k2 ∧
      ∀ z ∈ naf, z = 0 ∨ (z.natAbs % 2 = 1 ∧ z.natAbs ≤ 7) := by
  obtain ⟨naf, len, a1, a2, a3, a4, a5, a6, a7⟩ := sc_jsf_exact k1 k2 s1 s2 m h1 h2 m1 m2
  exact ⟨naf, len, a1, a2, by omega, ⟨fun z hz => by have := a5 z hz; omega, a7⟩, a3, a4, a5⟩

theorem jsf_tab {c : Curve F} {P Q : Pt c} {t : List (Jge F)} (h : List.Forall₂ Jac t [P, P + Q, P - Q, Q]) :
    ∀ i < 4, ∃ w, t[i]? = some w ∧ Jac w (jtab P Q i) := by
  intro i hi
  have hl : t.length = 4 := by simpa using h.length_eq
  refine ⟨t[i]'(by omega), by simp [hl, hi], ?_⟩
  have := (List.forall₂_iff_get.1 h).2 i (by omega) (by simpa using hi)
  have hc : i = 0 ∨ i = 1 ∨ i = 2 ∨ i = 3 := by omega
  rcases hc with rfl | rfl | rfl | rfl <;> simpa [jtab] using this

theorem naf_tab {c : Curve F} (g : Good c) (P : Pt c) (w : Nat) :
    ∀ i < 2 ^ (w - 2), ∃ x, (jge_naf_points_var c (affine P) w)[i]? = some x ∧ Jac x ((2 * i + 1) • P) :=
  fun _ hi => forall₂_get (naf_points_jac g P w) hi

theorem size_mono {k n : Nat} (hk : k < n) : k.size + 1 ≤ n.size + 1 := by
  have := Nat.size_le_size hk.le
  omega

theorem size_short {k b : Nat} (hk : k < 2 ^ b) : k.size + 1 ≤ b + 1 := by
  have := Nat.size_le.2 hk
  omega

/-! ### Two terms -/

theorem double_normal_spec {ec : Wei F} {G : Pt ec.toCurve} (ok : WeiOk ec G) (P : Pt ec.toCurve) {k1 k2 : Nat}
    (h1 : k1 < ec.n) (h2 : k2 < ec.n) :
    ∃ j, wei_jmul_double_normal_var ec k1 (affine P) k2 = .ok j ∧ Jac j (k1 • G + k2 • P) := by
  have b1 := size_mono h1
  have b2 := size_mono h2
  rw [← ok.bits] at b1 b2
  obtain ⟨n1, l1, a1, a2, a3, a4, a5, a6⟩ := naf_fits (sign := 1) (w := 12) (Or.inl rfl) (by omega) b1
  obtain ⟨n2, l2, c1, c2, c3, c4, c5, c6⟩ := naf_fits (sign := 1) (w := 5) (Or.inl rfl) (by omega) b2
  have R1 := run_mixed ok.good ok.naf a4 (le_max_left l1 l2) (by omega)
  have R2 := run_jac ok.good (naf_tab ok.good P 5) c4 (le_max_right l1 l2) (by omega)
  unfold wei_jmul_double_normal_var
  simp only [sc_naf_var, a1, c1, C.ok_bind]
  obtain ⟨j, g1, g2⟩ := run_loop ok.good (run_add R1 R2)
    (double_loop ec n1 n2 (jge_naf_points_var ec.toCurve (affine P) 5) (max l1 l2)) (fun r => by rw [double_loop])
    (fun i hi r => by
      have e1 : n1[i]? = some n1[i] := List.getElem?_eq_getElem (by omega)
      have e2 : n2[i]? = some n2[i] := List.getElem?_eq_getElem (by omega)
      rw [double_loop]
      simp only [C.rd, e1, e2, C.ok_bind, C.bind_assoc])
  refine ⟨j, g1, ?_⟩
  rw [List.drop_zero, List.drop_zero, sval_odd G a6, sval_odd P c6, a5, c5, one_mul, one_mul, natCast_zsmul,
    natCast_zsmul] at g2
  exact g2

theorem endo_tab {ec : Wei F} {G : Pt ec.toCurve} (ok : WeiOk ec G) {e : Endo F} (he : ec.endo = some e)
    (ha : ec.toCurve.a = 0) (hb : e.beta ^ 3 = 1) :
    ∀ i < 1024, ec.wndEndo[i]? = some (affine ((2 * i + 1) • endoPt e.beta ha hb G)) := by
  have hs : ∀ i : Nat, endoPt e.beta ha hb (i • G) = i • endoPt e.beta ha hb G := by
    intro i
    induction i with
    | zero => simp [endoPt]
    | succ i ih => rw [succ_nsmul, endo_add ok.good, ih, succ_nsmul]
  intro i hi
  rw [(ok.endo e he).2 i hi, ← endo_aff e.beta ha hb, hs]

theorem double_endo_spec {ec : Wei F} {G : Pt ec.toCurve} (ok : WeiOk ec G) {e : Endo F} (he : ec.endo = some e)
    (m : Nat) {k1 k2 : Nat} (h1 : k1 < ec.n) (h2 : k2 < ec.n) :
    ∃ j, wei_jmul_double_endo_var ec e k1 (affine (m • G)) k2 = .ok j ∧ Jac j (k1 • G + k2 • (m • G)) := by
  obtain ⟨ha, hb, l, hl, hφ⟩ := endo_point ok he
  have hG : endoPt e.beta ha hb G = l • G := by simpa using hφ 1
  obtain ⟨s1, s2⟩ := (ok.endo e he).1.short k1 h1
  obtain ⟨s3, s4⟩ := (ok.endo e he).1.short k2 h2
  obtain ⟨n1, l1, a1, a2, a3, a4, a5, a6⟩ := naf_fits (w := 12)
    (sgn_cases (sc_minimize_var ec.n (wei_endo_split ec.n e k1).1).2) (by omega) (size_short s1)
  obtain ⟨n2, l2, b1, b2, b3, b4, b5, b6⟩ := naf_fits (w := 12)
    (sgn_cases (sc_minimize_var ec.n (wei_endo_split ec.n e k1).2).2) (by omega) (size_short s2)
  obtain ⟨n3, l3, c1, c2, c3, c4, c5, c6, c7⟩ := jsf_fits
    (sgn_cases (sc_minimize_var ec.n (wei_endo_split ec.n e k2).1).2)
    (sgn_cases (sc_minimize_var ec.n (wei_endo_split ec.n e k2).2).2) (size_short s3) (size_short s4)
  obtain ⟨t, t1, t2⟩ := jsf_endo_jac ok.good ha hb (m • G)
  have R1 := run_mixed ok.good ok.naf a4 (m := max (max l1 l2) l3) (by omega) (by omega)
  have R2 := run_mixed ok.good (endo_tab ok he ha hb) b4 (m := max (max l1 l2) l3) (by omega) (by omega)
  have R3 := run_jac ok.good (jsf_tab t2) c4 (m := max (max l1 l2) l3) (by omega) (by omega)
  unfold sgn at a1 b1 c1
  unfold wei_jmul_double_endo_var sc_naf_endo_var sc_jsf_endo_var
  simp only [a1, b1, c1, t1, C.ok_bind, C.pure_eq]
  obtain ⟨j, g1, g2⟩ := run_loop ok.good (run_add (run_add R1 R2) R3)
    (double_endo_loop ec n1 n2 n3 t (max (max l1 l2) l3)) (fun r => by rw [double_endo_loop])
    (fun i hi r => by
      have e1 : n1[i]? = some n1[i] := List.getElem?_eq_getElem (by omega)
      have e2 : n2[i]? = some n2[i] := List.getElem?_eq_getElem (by omega)
      have e3 : n3[i]? = some n3[i] := List.getElem?_eq_getElem (by omega)
      rw [double_endo_loop]
      simp only [C.rd, e1, e2, e3, C.ok_bind, C.bind_assoc])
  refine ⟨j, g1, ?_⟩
  rw [List.drop_zero, List.drop_zero, List.drop_zero, sval_odd G a6, sval_odd _ b6, sval_joint _ _ c7, a5, b5, c5,
    c6, split_smul ok.order hl hG h1, split_smul (mult_order ok m) hl (hφ m) h2] at g2
  exact g2

/-! ### Many terms -/

def pairSum {c : Curve F} : List (Pt c × Nat) → Pt c
  | (P, a) :: (Q, b) :: rest => a • P + b • Q + pairSum rest
  | _ => 0

def lastSum {c : Curve F} : List (Pt c × Nat) → Pt c
  | [(P, a)] => a • P
  | _ :: _ :: rest => lastSum rest
  | [] => 0

theorem pair_last {c : Curve F} : ∀ ts : List (Pt c × Nat),
    pairSum ts + lastSum ts = (ts.map fun t => t.2 • t.1).sum
  | [] => by simp [pairSum, lastSum]
  | [(P, a)] => by simp [pairSum, lastSum]
  | (P, a) :: (Q, b) :: rest => by
    rw [pairSum, lastSum, List.map_cons, List.map_cons, List.sum_cons, List.sum_cons, ← pair_last rest]
    abel

/-- The terms as the code gets them. -/
def enc {c : Curve F} (ts : List (Pt c × Nat)) : List (Wge F × Nat) := ts.map fun t => (affine t.1, t.2)

theorem run_cons {c : Curve F} {t : List Int × List (Jge F)} {us : List (List Int × List (Jge F))} {m : Nat}
    {S T : Nat → Pt c} (h1 : Run (fun i r => C.rd t.1 i >>= fun z => digit_jac c t.2 z r) m S)
    (h2 : Run (fun i r => multi_digits c i us r) m T) :
    Run (fun i r => multi_digits c i (t :: us) r) m (fun i => S i + T i) := by
  have e : (fun i r => multi_digits c i (t :: us) r)
      = fun i r => (C.rd t.1 i >>= fun z => digit_jac c t.2 z r) >>= fun r => multi_digits c i us r := by
    funext i r
    rw [multi_digits, C.bind_assoc]
  rw [e]
  exact run_add h1 h2

theorem multi_pairs_spec {ec : Wei F} (g : Good ec.toCurve) (hb : ec.bits = ec.n.size) :
    ∀ (ts : List (Pt ec.toCurve × Nat)) (m : Nat), (∀ t ∈ ts, t.2 < ec.n) → m ≤ ec.bits + 1 →
      ∃ us m', multi_pairs ec (enc ts) m = .ok (us, m') ∧ m ≤ m' ∧ m' ≤ ec.bits + 1 ∧
        ∀ M, m' ≤ M → M ≤ ec.bits + 1 → ∃ S : Nat → Pt ec.toCurve, S 0 = pairSum ts ∧
          Run (fun i r => multi_digits ec.toCurve i us r) M S
  | [], m, _, hm => ⟨[], m, rfl, le_rfl, hm, fun M _ _ => ⟨fun _ => 0, rfl, run_zero M⟩⟩
  | [(P, a)], m, _, hm => ⟨[], m, rfl, le_rfl, hm, fun M _ _ => ⟨fun _ => 0, rfl, run_zero M⟩⟩
  | (P, a) :: (Q, b) :: rest, m, hk, hm => by
    have ha : a < ec.n := hk (P, a) (by simp)
    have hb' : b < ec.n := hk (Q, b) (by simp)
    have k1 := size_mono ha
    have k2 := size_mono hb'
    rw [← hb] at k1 k2
    obtain ⟨n, l, c1, c2, c3, c4, c5, c6, c7⟩ := jsf_fits (s1 := 1) (s2 := 1) (Or.inl rfl) (Or.inl rfl) k1 k2
    obtain ⟨us, m', e1, e2, e3, e4⟩ := multi_pairs_spec g hb rest (max m l)
      (fun t ht => hk t (by simp [ht])) (by omega)
    refine ⟨(n, jge_jsf_points_var ec.toCurve (affine P) (affine Q)) :: us, m', ?_, by omega, e3, ?_⟩
    · change multi_pairs ec ((affine P, a) :: (affine Q, b) :: enc rest) m = _
      rw [multi_pairs, sc_jsf_var, c1, C.ok_bind]
      dsimp only
      rw [e1]
      rfl
    · intro M hM hM'
      obtain ⟨S, h0, hS⟩ := e4 M hM hM'
      have R := run_jac g (jsf_tab (jsf_points_jac g P Q)) c4 (m := M) (by omega) (by omega)
      refine ⟨_, ?_, run_cons (t := (n, _)) R hS⟩
      · rw [List.drop_zero, sval_joint P Q c7, c5, c6, h0, pairSum, one_mul, one_mul, natCast_zsmul, natCast_zsmul]

theorem multi_last_spec {ec : Wei F} (g : Good ec.toCurve) (hb : ec.bits = ec.n.size) :
    ∀ (ts : List (Pt ec.toCurve × Nat)) (m : Nat), (∀ t ∈ ts, t.2 < ec.n) → m ≤ ec.bits + 1 →
      ∃ n w m', multi_last ec (enc ts) m = .ok (n, w, m') ∧ m ≤ m' ∧ m' ≤ ec.bits + 1 ∧ m' ≤ n.length ∧
        ∃ S : Nat → Pt ec.toCurve, S 0 = lastSum ts ∧
          Run (fun i r => C.rd n i >>= fun z => digit_jac ec.toCurve w z r) m' S
  | [], m, _, hm => by
    refine ⟨List.replicate m 0, [], m, rfl, le_rfl, hm, by simp, _, ?_, run_jac (T := fun _ => 0) (N := 0) (len := 0) g (by omega)
        ⟨fun z hz => by rw [List.eq_of_mem_replicate hz]; simp,
          fun z hz => List.eq_of_mem_replicate (List.mem_of_mem_drop hz)⟩ (by omega) (by simp)⟩
    · exact sval_zero _ fun z hz => List.eq_of_mem_replicate (List.mem_of_mem_drop hz)
  | [(P, a)], m, hk, hm => by
    have k1 := size_mono (hk (P, a) (by simp))
    rw [← hb] at k1
    obtain ⟨n, l, c1, c2, c3, c4, c5, c6⟩ := naf_fits (sign := 1) (w := 5) (Or.inl rfl) (by omega) k1
    dsimp only at c1 c5
    refine ⟨n, jge_naf_points_var ec.toCurve (affine P) 5, max m l, ?_, by omega, by omega, by omega, _, ?_,
      run_jac g (naf_tab g P 5) c4 (m := max m l) (by omega) (by omega)⟩
    · change multi_last ec [(affine P, a)] m = _
      rw [multi_last, sc_naf_var, c1, C.ok_bind]
      rfl
    · rw [List.drop_zero, sval_odd P c6, c5, one_mul, natCast_zsmul, lastSum]
  | _ :: _ :: rest, m, hk, hm => by
    rw [lastSum]
    exact multi_last_spec g hb rest m (fun t ht => hk t (by simp [ht])) hm

theorem multi_normal_spec {ec : Wei F} {G : Pt ec.toCurve} (ok : WeiOk ec G) {k0 : Nat} (h0 : k0 < ec.n)
    (ts : List (Pt ec.toCurve × Nat)) (hk : ∀ t ∈ ts, t.2 < ec.n) {size : Nat} (hs : ts.length ≤ size) :
    ∃ j, wei_jmul_multi_normal_var ec k0 (enc ts) size = .ok j ∧
      Jac j (k0 • G + (ts.map fun t => t.2 • t.1).sum) := by
  have b0 := size_mono h0
  rw [← ok.bits] at b0
  obtain ⟨n0, l0, a1, a2, a3, a4, a5, a6⟩ := naf_fits (sign := 1) (w := 12) (Or.inl rfl) (by omega) b0
  obtain ⟨us, m1, e1, e2, e3, e4⟩ := multi_pairs_spec ok.good ok.bits ts l0 hk a3
  obtain ⟨n1, w, m2, f1, f2, f3, f4, T, f5, f6⟩ := multi_last_spec ok.good ok.bits ts m1 hk e3
  obtain ⟨S, g1, g2⟩ := e4 m2 f2 f3
  have R0 := run_mixed ok.good ok.naf a4 (m := m2) (by omega) (by omega)
  unfold wei_jmul_multi_normal_var
  rw [check_true (by simpa [enc] using hs), C.ok_bind, sc_naf_var, a1, C.ok_bind]
  dsimp only
  rw [e1, C.ok_bind]
  dsimp only
  rw [f1, C.ok_bind]
  dsimp only
  obtain ⟨j, j1, j2⟩ := run_loop ok.good (run_add (run_add R0 g2) f6)
    (multi_loop ec n0 n1 us w m2) (fun r => by rw [multi_loop])
    (fun i hi r => by
      have e1 : n0[i]? = some n0[i] := List.getElem?_eq_getElem (by omega)
      have e2 : n1[i]? = some n1[i] := List.getElem?_eq_getElem (by omega)
      rw [multi_loop]
      simp only [C.rd, e1, e2, C.ok_bind, C.bind_assoc])
  refine ⟨j, j1, ?_⟩
  rw [List.drop_zero, sval_odd G a6, a5, one_mul, natCast_zsmul, g1, f5, add_assoc, pair_last] at j2
  exact j2

theorem multi_endo_terms_spec {ec : Wei F} {G : Pt ec.toCurve} (ok : WeiOk ec G) {e : Endo F}
    (he : ec.endo = some e) :
    ∀ (ts : List (Pt ec.toCurve × Nat)) (m : Nat), (∀ t ∈ ts, t.2 < ec.n ∧ ∃ x : Nat, t.1 = x • G) →
      m ≤ ec.ebits + 1 →
      ∃ us m', multi_endo_terms ec e (enc ts) m = .ok (us, m') ∧ m ≤ m' ∧ m' ≤ ec.ebits + 1 ∧
        ∀ M, m' ≤ M → M ≤ ec.ebits + 1 → ∃ S : Nat → Pt ec.toCurve, S 0 = (ts.map fun t => t.2 • t.1).sum ∧
          Run (fun i r => multi_digits ec.toCurve i us r) M S
  | [], m, _, hm => ⟨[], m, rfl, le_rfl, hm, fun M _ _ => ⟨fun _ => 0, rfl, run_zero M⟩⟩
  | (P, a) :: rest, m, hk, hm => by
    obtain ⟨ha, hb, l, hl, hφ⟩ := endo_point ok he
    obtain ⟨hka, x, hx⟩ := hk (P, a) (by simp)
    dsimp only at hka hx
    subst hx
    obtain ⟨s1, s2⟩ := (ok.endo e he).1.short a hka
    obtain ⟨n, len, c1, c2, c3, c4, c5, c6, c7⟩ := jsf_fits
      (sgn_cases (sc_minimize_var ec.n (wei_endo_split ec.n e a).1).2)
      (sgn_cases (sc_minimize_var ec.n (wei_endo_split ec.n e a).2).2) (size_short s1) (size_short s2)
    obtain ⟨t, t1, t2⟩ := jsf_endo_jac ok.good ha hb (x • G)
    obtain ⟨us, m', e1, e2, e3, e4⟩ := multi_endo_terms_spec ok he rest (max m len)
      (fun t ht => hk t (by simp [ht])) (by omega)
    refine ⟨(n, t) :: us, m', ?_, by omega, e3, ?_⟩
    · change multi_endo_terms ec e ((affine (x • G), a) :: enc rest) m = _
      unfold sgn at c1
      rw [multi_endo_terms]
      simp only [sc_jsf_endo_var, c1, t1, e1, C.ok_bind]
      rfl
    · intro M hM hM'
      obtain ⟨S, h0, hS⟩ := e4 M hM hM'
      have R := run_jac ok.good (jsf_tab t2) c4 (m := M) (by omega) (by omega)
      refine ⟨_, ?_, run_cons (t := (n, _)) R hS⟩
      · rw [List.drop_zero, sval_joint _ _ c7, c5, c6, h0, split_smul (mult_order ok x) hl (hφ x) hka,
          List.map_cons, List.sum_cons]

theorem multi_endo_spec {ec : Wei F} {G : Pt ec.toCurve} (ok : WeiOk ec G) {e : Endo F} (he : ec.endo = some e)
    {k0 : Nat} (h0 : k0 < ec.n) (ts : List (Pt ec.toCurve × Nat))
    (hk : ∀ t ∈ ts, t.2 < ec.n ∧ ∃ x : Nat, t.1 = x • G) {size : Nat} (hs : ts.length ≤ size) :
    ∃ j, wei_jmul_multi_endo_var ec e k0 (enc ts) size = .ok j ∧
      Jac j (k0 • G + (ts.map fun t => t.2 • t.1).sum) := by
  obtain ⟨ha, hb, l, hl, hφ⟩ := endo_point ok he
  have hG : endoPt e.beta ha hb G = l • G := by simpa using hφ 1
  obtain ⟨s1, s2⟩ := (ok.endo e he).1.short k0 h0
  obtain ⟨n1, l1, a1, a2, a3, a4, a5, a6⟩ := naf_fits (w := 12)
    (sgn_cases (sc_minimize_var ec.n (wei_endo_split ec.n e k0).1).2) (by omega) (size_short s1)
  obtain ⟨n2, l2, b1, b2, b3, b4, b5, b6⟩ := naf_fits (w := 12)
    (sgn_cases (sc_minimize_var ec.n (wei_endo_split ec.n e k0).2).2) (by omega) (size_short s2)
  obtain ⟨us, m1, e1, e2, e3, e4⟩ := multi_endo_terms_spec ok he ts (max l1 l2) hk (by omega)
  obtain ⟨S, g1, g2⟩ := e4 m1 le_rfl e3
  have R1 := run_mixed ok.good ok.naf a4 (m := m1) (by omega) (by omega)
  have R2 := run_mixed ok.good (endo_tab ok he ha hb) b4 (m := m1) (by omega) (by omega)
  unfold sgn at a1 b1
  unfold wei_jmul_multi_endo_var sc_naf_endo_var
  rw [check_true (by simpa [enc] using hs), C.ok_bind]
  simp only [a1, b1, C.ok_bind, C.pure_eq, e1]
  obtain ⟨j, j1, j2⟩ := run_loop ok.good (run_add (run_add R1 R2) g2)
    (multi_endo_loop ec n1 n2 us m1) (fun r => by rw [multi_endo_loop])
    (fun i hi r => by
      have e1 : n1[i]? = some n1[i] := List.getElem?_eq_getElem (by omega)
      have e2 : n2[i]? = some n2[i] := List.getElem?_eq_getElem (by omega)
      rw [multi_endo_loop]
      simp only [C.rd, e1, e2, C.ok_bind, C.bind_assoc])
  refine ⟨j, j1, ?_⟩
  rw [List.drop_zero, List.drop_zero, sval_odd G a6, sval_odd _ b6, a5, b5, split_smul ok.order hl hG h0,
    g1] at j2
  exact j2

end Torsion.Ecc
