import Verif.Ecc.RistInvLemmas
import Verif.Ecc.RistrettoKeyProps
import Verif.Ecc.EdElligProps

/-!
# Lemmas: uniform bytes and hashes as elements of the Ristretto groups
-/
set_option linter.unusedSectionVars false

namespace Torsion.Ecc

open Spec

/-! ### The constants -/

set_option maxRecDepth 100000 in
/-- The facts on numbers, for ed25519 and ed1174. -/
theorem ell_facts : ∀ q ∈ [(curve_ed25519, ristretto_ed25519), (curve_ed1174, ristretto_ed1174)],
    (constVal q.1.fe q.2.adm1s ^ 2 + 1) % q.1.fe.p = beVal q.1.a * beVal q.1.d % q.1.fe.p ∧
    (constVal q.1.fe q.2.adm1s * constVal q.1.fe q.2.adm1si + beVal q.1.a) % q.1.fe.p = 0 % q.1.fe.p ∧
    (constVal q.1.fe q.2.dmaddpa * (beVal q.1.d + beVal q.1.a) + beVal q.1.a) % q.1.fe.p = beVal q.1.d % q.1.fe.p ∧
    constVal q.1.fe q.2.qnrds ^ 2 % q.1.fe.p = constVal q.1.fe q.2.qnr * beVal q.1.d % q.1.fe.p ∧
    constVal q.1.fe q.2.qnr ^ 2 % q.1.fe.p = beVal q.1.a % q.1.fe.p ∧
    ((q.1.h = 4 ∧ beVal q.1.a % q.1.fe.p = 1 % q.1.fe.p ∧ (constVal q.1.fe q.2.qnr + 1) % q.1.fe.p = 0 % q.1.fe.p) ∨
      (q.1.h = 8 ∧ (beVal q.1.a + 1) % q.1.fe.p = 0 % q.1.fe.p ∧
        constVal q.1.fe q.2.dmasi ^ 2 * beVal q.1.d % q.1.fe.p = (1 + constVal q.1.fe q.2.dmasi ^ 2 * beVal q.1.a) % q.1.fe.p)) := by
  decide +kernel

theorem qnr_25519 : constVal field_p25519 ristretto_ed25519.qnr % field_p25519.p = p25519_sqrtneg1 % field_p25519.p := by decide +kernel

/-- The root of minus one is not a square. -/
theorem sqrtneg1_nonsquare [Fact field_p25519.p.Prime] : ¬ IsSquare (p25519_sqrtneg1 : ZMod field_p25519.p) := by
  rintro ⟨b, hb⟩
  have h1 := sqrtneg1_sq (F := ZMod field_p25519.p) (ZMod.card _)
  rw [hb] at h1
  have h4 : b ^ 4 = -1 := by linear_combination h1
  have hb0 : b ≠ 0 := by
    rintro rfl
    rw [zero_pow (by norm_num)] at h4
    exact one_ne_zero (neg_eq_zero.1 h4.symm)
  have h5 := ZMod.pow_card_sub_one_eq_one hb0
  have e : field_p25519.p - 1 = 4 * ((field_p25519.p - 1) / 4) := by decide +kernel
  have eo : Odd ((field_p25519.p - 1) / 4) := Nat.odd_iff.2 (by decide +kernel)
  rw [e, pow_mul, h4, eo.neg_one_pow] at h5
  have h2 : (2 : ZMod field_p25519.p) ≠ 0 := by
    intro h
    have : ((2 : Nat) : ZMod field_p25519.p) = 0 := by exact_mod_cast h
    rw [ZMod.natCast_eq_zero_iff] at this
    revert this
    decide +kernel
  apply h2
  linear_combination -h5

theorem qnr_25519_ok [Fact field_p25519.p.Prime] : ¬ IsSquare ((constVal field_p25519 ristretto_ed25519.qnr : Nat) : ZMod field_p25519.p) ∧
    RootQ field_p25519 ((constVal field_p25519 ristretto_ed25519.qnr : Nat) : ZMod field_p25519.p) := by
  rw [cast_mod_eq qnr_25519]
  exact ⟨sqrtneg1_nonsquare, rootq_25519⟩

section
variable {d : EdwardsDef} {rd : RistrettoDef} (hd : (d, rd) ∈ ristrettoDefs) (h4 : d ≠ curve_ed448) [hp : Fact d.fe.p.Prime]
  {ec : Edwards (ZMod d.fe.p)} [g : EdGood ec.a ec.d] {G : EPt ec.a ec.d} (ok : EdCurve d ec G) {rs : Ristretto (ZMod d.fe.p)}
  (hrs : ristretto_init d.fe rd = .ok rs)

include hd h4 ok hrs in
theorem rist_c : RistC ec rs := by
  have hrs' := C.ok.inj ((rist_init_def hd).symm.trans hrs)
  have hd' : (d, rd) ∈ [(curve_ed25519, ristretto_ed25519), (curve_ed1174, ristretto_ed1174)] := by
    simp only [ristrettoDefs, List.mem_cons, List.not_mem_nil, or_false, Prod.mk.injEq] at hd ⊢
    rcases hd with h | h | h
    · exact Or.inl h
    · exact absurd h.1 h4
    · exact Or.inr h
  obtain ⟨f1, f2, f3, f4, f5, f6⟩ := ell_facts _ hd'
  dsimp only at f1 f2 f3 f4 f5 f6
  have k1 : rs.qnr = (constVal d.fe rd.qnr : Nat) := by rw [← hrs']; rfl
  have k2 : rs.qnrds = (constVal d.fe rd.qnrds : Nat) := by rw [← hrs']; rfl
  have k3 : rs.adm1s = (constVal d.fe rd.adm1s : Nat) := by rw [← hrs']; rfl
  have k4 : rs.adm1si = (constVal d.fe rd.adm1si : Nat) := by rw [← hrs']; rfl
  have k5 : rs.dmaddpa = (constVal d.fe rd.dmaddpa : Nat) := by rw [← hrs']; rfl
  have k6 : rs.dmasi = (constVal d.fe rd.dmasi : Nat) := by rw [← hrs']; rfl
  have g1 := cast_mod_eq f1
  have g2 := cast_mod_eq f2
  have g3 := cast_mod_eq f3
  have g4 := cast_mod_eq f4
  have g5 := cast_mod_eq f5
  simp only [Nat.cast_add, Nat.cast_mul, Nat.cast_pow, Nat.cast_one, Nat.cast_zero] at g1 g2 g3 g4 g5
  rw [← k3, ← ok.aval, ← ok.dval] at g1
  rw [← k3, ← k4, ← ok.aval] at g2
  rw [← k5, ← ok.aval, ← ok.dval] at g3
  rw [← k1, ← k2, ← ok.dval] at g4
  rw [← k1, ← ok.aval] at g5
  have g6 : (ec.h = 4 ∧ ec.a = 1 ∧ rs.qnr = -1) ∨ (ec.h = 8 ∧ ec.a = -1 ∧ rs.dmasi ^ 2 * (ec.d - ec.a) = 1) := by
    refine f6.imp (fun ⟨h1, h2, h3⟩ => ⟨ok.hval.trans h1, ?_, ?_⟩) fun ⟨h1, h2, h3⟩ => ⟨ok.hval.trans h1, ?_, ?_⟩
    · have := cast_mod_eq h2
      rw [Nat.cast_one] at this
      rw [ok.aval, this]
    · have := cast_mod_eq h3
      rw [Nat.cast_add, Nat.cast_one, Nat.cast_zero, ← k1] at this
      linear_combination this
    · have := cast_mod_eq h2
      rw [Nat.cast_add, Nat.cast_one, Nat.cast_zero, ← ok.aval] at this
      linear_combination this
    · have := cast_mod_eq h3
      simp only [Nat.cast_add, Nat.cast_mul, Nat.cast_pow, Nat.cast_one] at this
      rw [← k6, ← ok.aval, ← ok.dval] at this
      linear_combination this
  have hqr : ¬ IsSquare rs.qnr ∧ RootQ d.fe rs.qnr := by
    rw [k1]
    simp only [List.mem_cons, List.not_mem_nil, or_false, Prod.mk.injEq] at hd'
    rcases hd' with ⟨rfl, rfl⟩ | ⟨rfl, rfl⟩
    · haveI : Fact field_p25519.p.Prime := hp
      exact qnr_25519_ok
    · have h3 : curve_ed1174.fe.p % 4 = 3 := by decide +kernel
      have : ((constVal curve_ed1174.fe ristretto_ed1174.qnr : Nat) : ZMod curve_ed1174.fe.p) = -1 := by
        rw [← k1]
        exact g6.elim (fun h => h.2.2) fun h => by
          have := ok.hval.symm.trans h.1
          exact absurd this (by decide)
      rw [this]
      refine ⟨?_, ?_⟩
      · rw [ZMod.exists_sq_eq_neg_one_iff]; omega
      · haveI : Fact field_p251.p.Prime := hp
        exact rootq_34 (fe := field_p251) (by simp [fieldCodes]) (f := p251_fe_isqrt) (by decide +kernel) h3 rfl
  exact ⟨by linear_combination g1, by linear_combination g2, by linear_combination g3, g4, hqr.1, g5, hqr.2, g6⟩

/-! ### The map at zero -/

/-- A root of `q N D` on ed25519, with `N` and `D` for the number zero. -/
def rootZero25519 : Nat := 2919563552884272174396564819062520634108768747602505332910404313581993325362

/-- A root of `N D` on ed1174. -/
def rootZero1174 : Nat := 1157121728248142246680757764126456900371301990658378027010678743279045086189

set_option maxRecDepth 100000 in
theorem rootZero25519_sq : (rootZero25519 ^ 2 + constVal curve_ed25519.fe ristretto_ed25519.qnr * beVal curve_ed25519.a ^ 4 * beVal curve_ed25519.d) %
    curve_ed25519.fe.p = constVal curve_ed25519.fe ristretto_ed25519.qnr * beVal curve_ed25519.a ^ 2 * beVal curve_ed25519.d ^ 3 %
    curve_ed25519.fe.p := by
  decide +kernel

set_option maxRecDepth 100000 in
theorem rootZero1174_sq : (rootZero1174 ^ 2 + beVal curve_ed1174.a ^ 4 * beVal curve_ed1174.d) %
    curve_ed1174.fe.p = beVal curve_ed1174.a ^ 2 * beVal curve_ed1174.d ^ 3 % curve_ed1174.fe.p := by
  decide +kernel

include hd h4 ok hrs in
theorem inv_zero_25519 (hne : d ≠ curve_ed1174) : InvZero ec := by
  have c := rist_c hd h4 ok hrs
  have hrs' := C.ok.inj ((rist_init_def hd).symm.trans hrs)
  have k1 : rs.qnr = (constVal d.fe rd.qnr : Nat) := by rw [← hrs']; rfl
  simp only [ristrettoDefs, List.mem_cons, List.not_mem_nil, or_false, Prod.mk.injEq] at hd
  rcases hd with ⟨rfl, rfl⟩ | ⟨rfl, -⟩ | ⟨rfl, -⟩
  · have e := cast_mod_eq rootZero25519_sq
    simp only [Nat.cast_add, Nat.cast_mul, Nat.cast_pow] at e
    rw [← k1, ← ok.aval, ← ok.dval] at e
    rintro ⟨b, hb⟩
    have h0 : ec.a * ec.d ≠ 0 := mul_ne_zero g.a0 (ed_d0 (a := ec.a))
    have hb0 : b ≠ 0 := by
      rintro rfl
      refine div_ne_zero (mul_ne_zero (mul_ne_zero g.a0 c.e) c.f) h0 ?_
      rw [hb]; ring
    rw [div_eq_iff h0] at hb
    apply c.qn
    refine ⟨(rootZero25519 : ZMod curve_ed25519.fe.p) / (ec.a * ec.d * b), ?_⟩
    rw [div_mul_div_comm, eq_div_iff (mul_ne_zero (mul_ne_zero h0 hb0) (mul_ne_zero h0 hb0))]
    linear_combination -e - (rs.qnr * ec.a * ec.d) * hb
  · exact absurd rfl h4
  · exact absurd rfl hne

/-! ### Bytes -/

theorem rist_from_uniform (ec : Edwards (ZMod d.fe.p)) (rs : Ristretto (ZMod d.fe.p)) {bytes : List Byte} (hl : feSize d.fe ≤ bytes.length) :
    ristretto_point_from_uniform ec rs bytes = ristretto_elligator ec rs (leElem d.fe bytes) := by
  rw [ristretto_point_from_uniform, fe_import_le_ok d.fe hl, C.ok_bind]
  rfl

include hd h4 ok hrs in
theorem rist_from_uniform_pt {bytes : List Byte} (hl : feSize d.fe ≤ bytes.length) : ∃ (p : Xge (ZMod d.fe.p)) (P : EPt ec.a ec.d),
    ristretto_point_from_uniform ec rs bytes = .ok p ∧ Ext p P ∧ Even P ∧ RistElligator rs.qnr rs.adm1s (leElem d.fe bytes) P := by
  rw [rist_from_uniform ec rs hl]
  exact ell_ok ok.const (rist_c hd h4 ok hrs) _

theorem rist_to_uniform_eq {p : Xge (ZMod d.fe.p)} {hint : BitVec 32} {u : ZMod d.fe.p} {r : Bool}
    (h : ristretto_invert ec rs p hint = .ok (u, r)) : ∃ out, ristretto_point_to_uniform ec rs p hint = .ok (out, r) ∧
      out.length = feSize d.fe ∧ leElem d.fe out = u := by
  obtain ⟨t, ys, h1, h2, h3, h4⟩ := ed_or_bytes u hint
  refine ⟨ys, ?_, h3, h4⟩
  rw [ristretto_point_to_uniform, h, C.ok_bind]
  dsimp only
  rw [h1, C.ok_bind, h2]
  rfl

include hd h4 ok hrs in
/-- The bytes for a point: what they stand for, if there are any. -/
theorem rist_to_uniform_pt {p : Xge (ZMod d.fe.p)} {P : EPt ec.a ec.d} (hp : Ext p P) (hP : Even P) (hint : BitVec 32) :
    ∃ out r, ristretto_point_to_uniform ec rs p hint = .ok (out, r) ∧ out.length = feSize d.fe ∧
      (r = true → leElem d.fe out ≠ 0 ∨ d ≠ curve_ed1174 →
        ∃ Q : EPt ec.a ec.d, RistEq ec.h Q P ∧ RistElligator rs.qnr rs.adm1s (leElem d.fe out) Q) ∧
      (r = true → leElem d.fe out = 0 → RistEq ec.h P 0) := by
  have c := rist_c hd h4 ok hrs
  obtain ⟨u, r, h1, h2, h3⟩ := (rist_invert_ok c hp hP).1 hint
  obtain ⟨out, e1, e2, e3⟩ := rist_to_uniform_eq h1
  refine ⟨out, r, e1, e2, ?_, ?_⟩ <;> rw [e3]
  · exact fun hr hu => h2 hr (hu.imp_right fun h => inv_zero_25519 hd h4 ok hrs h)
  · exact h3

include hd h4 ok hrs in
theorem rist_from_hash_pt {bytes : List Byte} (hl : 2 * feSize d.fe ≤ bytes.length) : ∃ (p : Xge (ZMod d.fe.p)) (P1 P2 : EPt ec.a ec.d),
    RistElligator rs.qnr rs.adm1s (leElem d.fe bytes) P1 ∧ RistElligator rs.qnr rs.adm1s (leElem d.fe (bytes.drop (feSize d.fe))) P2 ∧
    ristretto_point_from_hash ec rs bytes = .ok p ∧ Ext p (P1 + P2) ∧ Even (P1 + P2) := by
  obtain ⟨p1, P1, e1, x1, v1, i1⟩ := rist_from_uniform_pt hd h4 ok hrs (bytes := bytes) (by omega)
  obtain ⟨p2, P2, e2, x2, v2, i2⟩ := rist_from_uniform_pt hd h4 ok hrs (bytes := bytes.drop (feSize d.fe)) (by rw [List.length_drop]; omega)
  refine ⟨_, P1, P2, i1, i2, ?_, xadd ok.const x1 x2, v1.add v2⟩
  unfold ristretto_point_from_hash
  rw [e1, C.ok_bind, e2, C.ok_bind, C.pure_eq]

include hd h4 ok hrs in
theorem rist_to_hash_loop {S : Type} (gen : ByteGen S) {p : Xge (ZMod d.fe.p)} {P : EPt ec.a ec.d} (hp : Ext p P) (hP : Even P) :
    ∀ fuel s, ristretto_point_to_hash_loop ec rs gen p fuel s = .spin ∨
      ∃ out, ristretto_point_to_hash_loop ec rs gen p fuel s = .ok out ∧ out.length = 2 * feSize d.fe ∧
        (leElem d.fe (out.drop (feSize d.fe)) ≠ 0 ∨ d ≠ curve_ed1174 →
          ∃ q Q, ristretto_point_from_hash ec rs out = .ok q ∧ Ext q Q ∧ Even Q ∧ RistEq ec.h Q P)
  | 0, _ => Or.inl (by rw [ristretto_point_to_hash_loop])
  | fuel + 1, s => by
    have c := rist_c hd h4 ok hrs
    rw [ristretto_point_to_hash_loop]
    have hlen := gen.len s (feSize d.fe)
    obtain ⟨p1, P1, e1, x1, v1, i1⟩ := rist_from_uniform_pt hd h4 ok hrs hlen.ge
    dsimp only
    rw [e1, R.lift_ok, R.ok_bind]
    obtain ⟨out, r, t1, t2, t3, -⟩ := rist_to_uniform_pt hd h4 ok hrs (xsub ok.const hp x1) (by rw [sub_eq_add_neg]; exact hP.add v1.neg)
      (BitVec.ofNat 32 (leVal (gen.gen (gen.gen s (feSize d.fe)).2 4).1))
    rw [t1, R.lift_ok, R.ok_bind]
    dsimp only
    cases r with
    | false =>
      rw [if_neg (by simp)]
      exact rist_to_hash_loop gen hp hP fuel _
    | true =>
      rw [if_pos rfl]
      have hl : ((gen.gen s (feSize d.fe)).1 ++ out).length = 2 * feSize d.fe := by rw [List.length_append, hlen, t2]; omega
      have hdr : ((gen.gen s (feSize d.fe)).1 ++ out).drop (feSize d.fe) = out := by
        rw [List.drop_append_of_le_length hlen.ge, List.drop_of_length_le hlen.le, List.nil_append]
      refine Or.inr ⟨_, rfl, hl, fun hz => ?_⟩
      rw [hdr] at hz
      obtain ⟨Q, hQ, i2⟩ := t3 rfl hz
      obtain ⟨q', Q1, Q2, j1, j2, j3, j4, j5⟩ := rist_from_hash_pt hd h4 ok hrs hl.ge
      rw [leElem_append hlen] at j1
      rw [hdr] at j2
      rw [rist_elligator_fun c j1 i1, rist_elligator_fun c j2 i2] at j4 j5
      refine ⟨q', P1 + Q, j3, j4, j5, ?_⟩
      have := rist_add (rist_refl (h := ec.h) P1) hQ
      rwa [show P1 + (P - P1) = P by abel] at this

end

end Torsion.Ecc
