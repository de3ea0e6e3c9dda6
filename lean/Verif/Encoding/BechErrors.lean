import Verif.Encoding.BechCheck
import Verif.Encoding.PolyLemmas

/-!
# The Bech32 code has minimum distance 5 up to 88 symbols, and detects bursts of 6

Lemmas about the independent specification `polyStep 25 bech32Gen`.
-/
namespace Torsion
open Spec

/-! ## Linear maps on bit vectors -/

/-- Additive maps that agree on powers of two agree. -/
theorem additive_ext (f g : Nat → Nat) (hf : ∀ a b, f (a ^^^ b) = f a ^^^ f b)
    (hg : ∀ a b, g (a ^^^ b) = g a ^^^ g b) : ∀ (n : Nat), (∀ i < n, f (2 ^ i) = g (2 ^ i)) →
    ∀ x < 2 ^ n, f x = g x
  | 0, _, x, hx => by
    have hx0 : x = 0 := by simpa using hx
    have h1 := hf 0 0
    have h2 := hg 0 0
    rw [Nat.xor_self, Nat.xor_self] at h1 h2
    rw [hx0, h1, h2]
  | n + 1, h, x, hx => by
    have ih := additive_ext f g hf hg n (fun i hi => h i (by omega))
    by_cases hlt : x < 2 ^ n
    · exact ih x hlt
    · have hd : x = x % 2 ^ n ^^^ 2 ^ n := by
        apply Nat.eq_of_testBit_eq
        intro i
        rw [Nat.testBit_xor, Nat.testBit_mod_two_pow, Nat.testBit_two_pow]
        by_cases hi : i < n
        · have : n ≠ i := by omega
          simp [hi, this]
        · by_cases hi' : n = i
          · subst hi'
            have : x.testBit n = true := by
              rw [Nat.testBit_eq_decide_div_mod_eq]
              have : x / 2 ^ n = 1 := by
                apply Nat.div_eq_of_lt_le <;> rw [pow_succ] at * <;> omega
              simp [this]
            simp [this]
          · have hlt' : x < 2 ^ i := lt_of_lt_of_le hx (Nat.pow_le_pow_right (by omega) (by omega))
            have : x.testBit i = false := Nat.testBit_lt_two_pow hlt'
            simp [this, hi, hi']
      rw [hd, hf, hg, ih _ (Nat.mod_lt _ (by positivity)), h n (by omega)]

/-- Multiplication of the residue by `x`. -/
abbrev L (c : Nat) : Nat := polyMap 25 bech32Gen c

theorem gens30 : ∀ g ∈ bech32Gen, g < 2 ^ (25 + 5) := by decide

theorem L_lt (c : Nat) : L c < 2 ^ 30 := polyMap_lt gens30 c

theorem L_xor (a b : Nat) : L (a ^^^ b) = L a ^^^ L b := polyMap_xor 25 bech32Gen a b

theorem genLow : ∀ b : Fin 32, genSum bech32Gen b.val % 32 = 0 → b = 0 := by decide +kernel

theorem L_eq_zero {c : Nat} (hc : c < 2 ^ 30) (h : L c = 0) : c = 0 := by
  have hdiv : c / 2 ^ 25 < 32 := by omega
  simp only [L, polyMap, polyStep, Nat.xor_zero] at h
  have h5 := congrArg (· % 2 ^ 5) h
  simp only [Nat.xor_mod_two_pow] at h5
  have : c % 2 ^ 25 * 32 % 2 ^ 5 = 0 := by omega
  rw [this, Nat.zero_xor] at h5
  have hb := genLow ⟨_, hdiv⟩ h5
  have hb0 : c / 2 ^ 25 = 0 := by simpa using congrArg Fin.val hb
  rw [hb0, genSum_zero, Nat.xor_zero] at h
  omega

theorem Liter_lt : ∀ (n : Nat) {c : Nat}, c < 2 ^ 30 → L^[n] c < 2 ^ 30
  | 0, _, h => h
  | n + 1, _, _ => Liter_lt n (L_lt _)

theorem Liter_eq_zero : ∀ (n : Nat) {c : Nat}, c < 2 ^ 30 → L^[n] c = 0 → c = 0
  | 0, _, _, h => h
  | n + 1, c, hc, h => L_eq_zero hc (Liter_eq_zero n (L_lt c) h)

theorem Liter_xor : ∀ (n : Nat) (a b : Nat), L^[n] (a ^^^ b) = L^[n] a ^^^ L^[n] b
  | 0, _, _ => rfl
  | n + 1, a, b => by
    rw [Function.iterate_succ_apply, L_xor, Liter_xor n]; rfl

theorem Liter_zero (n : Nat) : L^[n] 0 = 0 := by
  have := Liter_xor n 0 0
  rwa [Nat.xor_self, Nat.xor_self] at this

/-! ## Multiplication by a generator of GF(32) -/

/-- Symbol-wise multiplication by the primitive element of GF(32) = GF(2)[a]/(a^5+a^3+1). -/
def M (x : Nat) : Nat :=
  ((x &&& 0x1ef7bdef) * 2) ^^^ ((x >>> 4) &&& 0x02108421) ^^^ ((x >>> 4) &&& 0x02108421) * 8

theorem mul2_xor (a b : Nat) : (a ^^^ b) * 2 = a * 2 ^^^ b * 2 := by
  have := @Nat.shiftLeft_xor_distrib 1 a b
  simpa [Nat.shiftLeft_eq] using this

theorem mul8_xor (a b : Nat) : (a ^^^ b) * 8 = a * 8 ^^^ b * 8 := by
  have := @Nat.shiftLeft_xor_distrib 3 a b
  simpa [Nat.shiftLeft_eq] using this

theorem M_xor (a b : Nat) : M (a ^^^ b) = M a ^^^ M b := by
  simp only [M, Nat.and_xor_distrib_right, Nat.shiftRight_xor_distrib, mul2_xor, mul8_xor]
  ac_rfl

theorem M_L {x : Nat} (hx : x < 2 ^ 30) : M (L x) = L (M x) :=
  additive_ext (fun x => M (L x)) (fun x => L (M x))
    (fun a b => by simp only [L_xor, M_xor]) (fun a b => by simp only [L_xor, M_xor]) 30
    (by decide +kernel) x hx

theorem M_lt {x : Nat} (_hx : x < 2 ^ 30) : M x < 2 ^ 30 := by
  have e : (30 : Nat) = 25 + 5 := rfl
  have h1 : x &&& 0x1ef7bdef ≤ 0x1ef7bdef := Nat.and_le_right
  have h2 : (x >>> 4) &&& 0x02108421 ≤ 0x02108421 := Nat.and_le_right
  unfold M
  apply Nat.xor_lt_two_pow
  · apply Nat.xor_lt_two_pow <;> omega
  · omega

theorem Miter_lt : ∀ (n : Nat) {x : Nat}, x < 2 ^ 30 → M^[n] x < 2 ^ 30
  | 0, _, h => h
  | n + 1, _, h => Miter_lt n (M_lt h)

theorem Miter_xor : ∀ (n : Nat) (a b : Nat), M^[n] (a ^^^ b) = M^[n] a ^^^ M^[n] b
  | 0, _, _ => rfl
  | n + 1, a, b => by rw [Function.iterate_succ_apply, M_xor, Miter_xor n]; rfl

theorem M_Liter {x : Nat} (hx : x < 2 ^ 30) : ∀ n, M (L^[n] x) = L^[n] (M x)
  | 0 => rfl
  | n + 1 => by
    rw [Function.iterate_succ_apply', M_L (Liter_lt n hx), M_Liter hx n]
    exact (Function.iterate_succ_apply' L n (M x)).symm

theorem Miter_Liter : ∀ (k : Nat) {x : Nat}, x < 2 ^ 30 → ∀ n, M^[k] (L^[n] x) = L^[n] (M^[k] x)
  | 0, _, _, _ => rfl
  | k + 1, x, hx, n => by
    rw [Function.iterate_succ_apply, M_Liter hx, Miter_Liter k (M_lt hx)]; rfl

/-- `M` permutes the non-zero symbols, cyclically. -/
theorem M_cycle : ∀ x : Fin 31, ∃ k : Fin 31, M^[k.val] (x.val + 1) = 1 := by decide +kernel

theorem M_sym : ∀ x : Fin 31, 1 ≤ M (x.val + 1) ∧ M (x.val + 1) < 32 := by decide +kernel

theorem Miter_sym : ∀ (k : Nat) {x : Nat}, 1 ≤ x → x < 32 → 1 ≤ M^[k] x ∧ M^[k] x < 32
  | 0, _, h1, h2 => ⟨h1, h2⟩
  | k + 1, x, h1, h2 => by
    have := M_sym ⟨x - 1, by omega⟩
    simp only [Nat.sub_add_cancel h1] at this
    exact Miter_sym k this.1 this.2

/-! ## Using the finite check -/

/-- The columns are what they should be: each is `L` of the previous one. -/
def colsOk : List Nat → List (List Nat) → Bool
  | _, [] => true
  | prev, c :: cols => (prev.map L == c) && colsOk c cols

theorem bech_cols : colsOk (List.range' 1 31) bechCols = true := by decide +kernel

theorem colsOk_spec : ∀ {cols : List (List Nat)} {prev : List Nat}, colsOk prev cols = true →
    ∀ (j : Nat) (hj : j < cols.length), cols[j] = prev.map L^[j + 1]
  | [], _, _, j, hj => by simp at hj
  | c :: cols, prev, h, j, hj => by
    simp only [colsOk, Bool.and_eq_true, beq_iff_eq] at h
    rcases j with _ | j
    · rw [List.getElem_cons_zero, ← h.1]; rfl
    · rw [List.getElem_cons_succ, colsOk_spec h.2 j (by simpa using hj), ← h.1, List.map_map]
      rfl

theorem cols_len : bechCols.length = 87 := by decide +kernel

theorem col_get {a e : Nat} (ha : 1 ≤ a) (ha' : a ≤ 87) (he : 1 ≤ e) (he' : e < 32) :
    ∃ (hj : a - 1 < bechCols.length) (hi : e - 1 < (bechCols[a - 1]).length),
      (bechCols[a - 1])[e - 1] = L^[a] e := by
  have hj : a - 1 < bechCols.length := by rw [cols_len]; omega
  have hc := colsOk_spec bech_cols (a - 1) hj
  rw [Nat.sub_add_cancel ha] at hc
  have hl : (bechCols[a - 1]).length = 31 := by rw [hc]; simp
  refine ⟨hj, by omega, ?_⟩
  simp only [hc, List.getElem_map, List.getElem_range']
  congr 1; omega

/-- Key look-up. -/
theorem find_key {a e : Nat} (ha : 1 ≤ a) (ha' : a ≤ 87) (he : 1 ≤ e) (he' : e < 32) :
    bechTree.find (L^[a] e / 32) = 32 * a + e := by
  obtain ⟨hj, hi, hv⟩ := col_get ha ha' he he'
  have := checkAll_spec bech_keys (a - 1) hj (e - 1) hi
  rw [hv] at this
  rw [this]; omega

theorem find_pair {b c e : Nat} (hb : 1 ≤ b) (hbc : b < c) (hc : c ≤ 87) (he : 1 ≤ e)
    (he' : e < 32) : bechTree.find ((L^[c] 1 ^^^ L^[b] e) / 32) = 0 := by
  obtain ⟨hj, hi, hv⟩ := col_get (by omega : 1 ≤ c) hc (by omega : 1 ≤ 1) (by omega : 1 < 32)
  obtain ⟨hj', hi', hv'⟩ := col_get hb (by omega : b ≤ 87) he he'
  have := check4_spec bech_check (c - 1) hj (b - 1) (by omega) (L^[b] e)
    (by rw [← hv']; exact List.getElem_mem _)
  have hh : (bechCols[c - 1]).headD 0 = L^[c] 1 := by
    rw [← hv, List.headD_eq_head?_getD, List.head?_eq_getElem?, List.getElem?_eq_getElem hi]
    rfl
  rwa [hh] at this

theorem find_zero : bechTree.find 0 = 0 := by decide +kernel

/-! ## Weight -/

/-- Xor of the contributions of error positions. -/
def errSum (ps : List (Nat × Nat)) : Nat := ps.foldr (fun p acc => L^[p.1] p.2 ^^^ acc) 0

theorem errSum_lt : ∀ (ps : List (Nat × Nat)), (∀ p ∈ ps, p.2 < 32) → errSum ps < 2 ^ 30
  | [], _ => by decide
  | p :: ps, h => by
    apply Nat.xor_lt_two_pow
    · have := h p (by simp)
      exact Liter_lt _ (by omega)
    · exact errSum_lt ps (fun q hq => h q (by simp [hq]))

/-- The residue of an error word, by positions. -/
theorem errors_of : ∀ (vs : List Nat), (∀ v ∈ vs, v < 32) →
    ∃ ps : List (Nat × Nat), ps.length = vs.countP (· ≠ 0) ∧
      ps.Pairwise (fun p q => q.1 < p.1) ∧
      (∀ p ∈ ps, p.1 < vs.length ∧ 1 ≤ p.2 ∧ p.2 < 32) ∧
      vs.foldl (polyStep 25 bech32Gen) 0 = errSum ps
  | [], _ => ⟨[], by simp, by simp, by simp, rfl⟩
  | v :: vs, h => by
    obtain ⟨ps, h1, h2, h3, h4⟩ := errors_of vs (fun x hx => h x (by simp [hx]))
    have hf : (v :: vs).foldl (polyStep 25 bech32Gen) 0 =
        L^[vs.length] v ^^^ vs.foldl (polyStep 25 bech32Gen) 0 := by
      rw [List.foldl_cons, polyStep_eq, polyMap_zero, Nat.zero_xor, polyFold_from]
    by_cases hv : v = 0
    · refine ⟨ps, by simp [h1, hv], h2, fun p hp => ?_, ?_⟩
      · have := h3 p hp
        exact ⟨by rw [List.length_cons]; omega, this.2⟩
      · rw [hf, hv, Liter_zero, Nat.zero_xor, h4]
    · refine ⟨(vs.length, v) :: ps, by simp [h1, hv], ?_, ?_, ?_⟩
      · rw [List.pairwise_cons]
        exact ⟨fun p hp => (h3 p hp).1, h2⟩
      · intro p hp
        rcases List.mem_cons.1 hp with rfl | hp
        · exact ⟨by simp, by dsimp only; omega, h v (by simp)⟩
        · have := h3 p hp
          exact ⟨by rw [List.length_cons]; omega, this.2⟩
      · rw [hf, h4]; rfl

/-- Shift all positions down. -/
theorem errSum_shift (m : Nat) : ∀ (ps : List (Nat × Nat)), (∀ p ∈ ps, m ≤ p.1) →
    errSum ps = L^[m] (errSum (ps.map (fun p => (p.1 - m, p.2))))
  | [], _ => (Liter_zero m).symm
  | p :: ps, h => by
    have hp := h p (by simp)
    show L^[p.1] p.2 ^^^ errSum ps = L^[m] (L^[p.1 - m] p.2 ^^^
      errSum (ps.map (fun p => (p.1 - m, p.2))))
    rw [Liter_xor, ← errSum_shift m ps (fun q hq => h q (by simp [hq])),
      ← Function.iterate_add_apply, Nat.add_sub_cancel' hp]

theorem xor_zero_eq {a b : Nat} (h : a ^^^ b = 0) : a = b := by
  have := congrArg (· ^^^ b) h
  simpa [Nat.xor_assoc] using this

theorem small_key {x : Nat} (h : x < 32) : x / 32 = 0 := Nat.div_eq_of_lt h

theorem key_of_xor {x y z : Nat} (h : x ^^^ y = z) (hz : z < 32) : x / 32 = y / 32 := by
  have h2 := congrArg (· / 2 ^ 5) h
  have e : (x ^^^ y) / 2 ^ 5 = x / 2 ^ 5 ^^^ y / 2 ^ 5 := by
    simp only [← Nat.shiftRight_eq_div_pow, Nat.shiftRight_xor_distrib]
  simp only [e] at h2
  have hz0 : z / 2 ^ 5 = 0 := Nat.div_eq_of_lt hz
  rw [hz0] at h2
  exact xor_zero_eq h2

/-- No one, two, three or four errors cancel. -/
theorem errSum_ne_zero {ps : List (Nat × Nat)} (h4 : ps.length ≤ 4) (hne : ps ≠ [])
    (hp : ps.Pairwise (fun p q => q.1 < p.1)) (hb : ∀ p ∈ ps, p.1 < 88 ∧ 1 ≤ p.2 ∧ p.2 < 32) :
    errSum ps ≠ 0 := by
  intro hz
  rcases ps with _ | ⟨⟨p1, x1⟩, _ | ⟨⟨p2, x2⟩, _ | ⟨⟨p3, x3⟩, _ | ⟨⟨p4, x4⟩, _ | ⟨p5, ps⟩⟩⟩⟩⟩
  · exact hne rfl
  · obtain ⟨b1, b2, b3⟩ := hb (p1, x1) (by simp)
    have := Liter_eq_zero p1 (c := x1) (by omega) (by simpa [errSum] using hz)
    omega
  · obtain ⟨b1, b2, b3⟩ := hb (p1, x1) (by simp)
    obtain ⟨c1, c2, c3⟩ := hb (p2, x2) (by simp)
    have d1 : p2 < p1 := by simp at hp; omega
    rw [errSum_shift p2 _ (by simp; omega)] at hz
    have hz' := Liter_eq_zero _ (errSum_lt _ (by simp; omega)) hz
    simp only [errSum, List.map_cons, List.map_nil, List.foldr_cons, List.foldr_nil, Nat.xor_zero,
      Nat.sub_self, Function.iterate_zero, id_eq] at hz'
    have hk := key_of_xor hz' (by omega)
    rw [small_key c3] at hk
    have := find_key (a := p1 - p2) (e := x1) (by omega) (by omega) b2 b3
    rw [hk, find_zero] at this
    omega
  · obtain ⟨b1, b2, b3⟩ := hb (p1, x1) (by simp)
    obtain ⟨c1, c2, c3⟩ := hb (p2, x2) (by simp)
    obtain ⟨d1, d2, d3⟩ := hb (p3, x3) (by simp)
    have o1 : p2 < p1 := by simp at hp; omega
    have o2 : p3 < p2 := by simp at hp; omega
    rw [errSum_shift p3 _ (by simp; omega)] at hz
    have hz' := Liter_eq_zero _ (errSum_lt _ (by simp; omega)) hz
    simp only [errSum, List.map_cons, List.map_nil, List.foldr_cons, List.foldr_nil, Nat.xor_zero,
      Nat.sub_self, Function.iterate_zero, id_eq] at hz'
    rw [← Nat.xor_assoc] at hz'
    have hk := key_of_xor (xor_zero_eq hz') d3
    have k1 := find_key (a := p1 - p3) (e := x1) (by omega) (by omega) b2 b3
    have k2 := find_key (a := p2 - p3) (e := x2) (by omega) (by omega) c2 c3
    rw [hk, k2] at k1
    omega
  · obtain ⟨b1, b2, b3⟩ := hb (p1, x1) (by simp)
    obtain ⟨c1, c2, c3⟩ := hb (p2, x2) (by simp)
    obtain ⟨d1, d2, d3⟩ := hb (p3, x3) (by simp)
    obtain ⟨e1, e2, e3⟩ := hb (p4, x4) (by simp)
    have o1 : p2 < p1 := by simp at hp; omega
    have o2 : p3 < p2 := by simp at hp; omega
    have o3 : p4 < p3 := by simp at hp; omega
    rw [errSum_shift p4 _ (by simp; omega)] at hz
    have hz' := Liter_eq_zero _ (errSum_lt _ (by simp; omega)) hz
    simp only [errSum, List.map_cons, List.map_nil, List.foldr_cons, List.foldr_nil, Nat.xor_zero,
      Nat.sub_self, Function.iterate_zero, id_eq] at hz'
    obtain ⟨k, hk⟩ := M_cycle ⟨x1 - 1, by omega⟩
    simp only [Nat.sub_add_cancel b2] at hk
    have hm := congrArg (M^[k.val]) hz'
    have hM0 : M^[k.val] 0 = 0 := by
      have := Miter_xor k.val 0 0
      rwa [Nat.xor_self, Nat.xor_self] at this
    rw [Miter_xor, Miter_xor, Miter_xor, Miter_Liter _ (by omega), Miter_Liter _ (by omega),
      Miter_Liter _ (by omega), hk, hM0] at hm
    obtain ⟨y1, y2⟩ := Miter_sym k.val c2 c3
    obtain ⟨z1, z2⟩ := Miter_sym k.val d2 d3
    obtain ⟨w1, w2⟩ := Miter_sym k.val e2 e3
    rw [← Nat.xor_assoc, ← Nat.xor_assoc] at hm
    have hkey := key_of_xor (xor_zero_eq hm) w2
    have f1 := find_pair (b := p2 - p4) (c := p1 - p4) (by omega) (by omega) (by omega) y1 y2
    have f2 := find_key (a := p3 - p4) (by omega) (by omega) z1 z2
    rw [hkey, f2] at f1
    omega
  · simp at h4

/-- Minimum distance: an error word of at most 88 symbols with zero residue and at most four
non-zero symbols is zero. -/
theorem bech_distance {vs : List Nat} (hl : vs.length ≤ 88) (hv : ∀ v ∈ vs, v < 32)
    (h4 : vs.countP (· ≠ 0) ≤ 4) (hz : vs.foldl (polyStep 25 bech32Gen) 0 = 0) :
    ∀ v ∈ vs, v = 0 := by
  obtain ⟨ps, h1, h2, h3, h5⟩ := errors_of vs hv
  by_cases hps : ps = []
  · rw [hps] at h1
    have h0 : vs.countP (· ≠ 0) = 0 := h1.symm
    rw [List.countP_eq_zero] at h0
    intro v hv'
    simpa using h0 v hv'
  · exfalso
    apply errSum_ne_zero (by omega) hps h2 (fun p hp => ⟨by have := (h3 p hp).1; omega, (h3 p hp).2⟩)
    rw [← h5, hz]

/-- Bursts: an error word that is zero outside six consecutive positions and has zero residue is
zero. -/
theorem bech_burst {a w b : Nat} {es : List Nat} (hw : es.length = w) (hw6 : w ≤ 6)
    (hv : ∀ v ∈ es, v < 32)
    (hz : (List.replicate a 0 ++ es ++ List.replicate b 0).foldl (polyStep 25 bech32Gen) 0 = 0) :
    ∀ v ∈ es, v = 0 := by
  have z0 : ∀ n, (List.replicate n 0).foldl (polyStep 25 bech32Gen) 0 = 0 := by
    intro n
    induction n with
    | zero => rfl
    | succ n ih => rw [List.replicate_succ, List.foldl_cons, polyStep_eq, polyMap_zero]; exact ih
  rw [List.foldl_append, List.foldl_append, z0, polyFold_from, z0, Nat.xor_zero,
    List.length_replicate] at hz
  have hp : es.foldl (polyStep 25 bech32Gen) 0 = pack 0 es := by
    apply polyFold_pack _ _ _ _ hv
    have : 32 ^ es.length ≤ 32 ^ 6 := Nat.pow_le_pow_right (by omega) (by omega)
    simpa using this
  have hlt := pack_lt es hv
  have hle : 32 ^ es.length ≤ 32 ^ 6 := Nat.pow_le_pow_right (by omega) (by omega)
  rw [hp] at hz
  have h0 := Liter_eq_zero b (c := pack 0 es) (by omega) hz
  have hrep : pack 0 (List.replicate es.length 0) = 0 := by
    have := hp
    clear this hz h0 hlt hle
    generalize es.length = n
    induction n with
    | zero => rfl
    | succ n ih => rw [List.replicate_succ]; exact ih
  have := pack_inj (vs := es) (ws := List.replicate es.length 0) (by simp) hv
    (by intro v hv; rw [List.eq_of_mem_replicate hv]; omega) (by rw [h0, hrep])
  intro v hv'
  rw [this] at hv'
  exact List.eq_of_mem_replicate hv'

end Torsion
