import Verif.Ecc.MontCurveLemmas
import Verif.Ecc.MontByteLemmas

/-! Lemmas for ECDH over the concrete Montgomery curves. -/
namespace Torsion.Ecc

open Torsion.Spec (montCurve MPt montAffine montX MontXZ MontGood MontOk beVal leVal leBytes clamp privKey pubX uBytes)
open WeierstrassCurve.Affine (Point)

/-- The order of the twist divided by four. -/
def montTwist (d : MontDef) : Nat := if d.h = 8 then t25519 else t448

/-- A curve as `mont_init` makes it. -/
structure MontCtx (d : MontDef) [Fact d.fe.p.Prime] (ec : Mont (ZMod d.fe.p)) : Prop where
  facts : MontFacts d (montTwist d)
  ok : MontOk ec
  n : ec.n = beVal d.sc.n
  h : ec.h = d.h
  bits : ec.bits = feBits d.fe
  a : ec.a = (beVal d.a : ZMod d.fe.p)
  b : ec.b = 1
  z : ec.z = (d.z : ZMod d.fe.p)
  g : ec.g = ⟨(beVal d.x : ZMod d.fe.p), (beVal d.y : ZMod d.fe.p), false⟩
  tor : ec.torsion = d.torsion.map fun t => ⟨(beVal t.x : ZMod d.fe.p), (beVal t.y : ZMod d.fe.p), t.inf⟩
  nprime : (beVal d.sc.n).Prime
  tprime : (montTwist d).Prime
  size : scSize ec.n = feSize d.fe
  size2 : 2 ≤ scSize ec.n

theorem mont_ctx {d : MontDef} (hd : d ∈ montDefs) [Fact d.fe.p.Prime] :
    ∃ ec, mont_init d = .ok ec ∧ MontCtx d ec := by
  have facts : MontFacts d (montTwist d) := by
    simp only [montDefs, List.mem_cons, List.not_mem_nil, or_false] at hd
    rcases hd with rfl | rfl
    · exact facts_x25519
    · exact facts_x448
  have tp : (montTwist d).Prime := by
    simp only [montDefs, List.mem_cons, List.not_mem_nil, or_false] at hd
    rcases hd with rfl | rfl
    · exact prime_14474011154664524427946373126085988481603263447650325797860494125407373907997
    · exact prime_181709681073901722637330951972001133588410340171829515070372549795160160121825800627002436557645897001734148521830156375752993149532941
  have sz : (decide ((feBits d.fe + 63) / 64 ≤ ((beVal d.sc.n).size + 63) / 64) = true) ∧ scSize (beVal d.sc.n) = feSize d.fe ∧
      2 ≤ scSize (beVal d.sc.n) := by
    simp only [montDefs, List.mem_cons, List.not_mem_nil, or_false] at hd
    rcases hd with rfl | rfl <;> decide +kernel
  have four : (4 : ZMod d.fe.p) ≠ 0 := by
    rw [show (4 : ZMod d.fe.p) = 2 * 2 by norm_num]; exact mul_ne_zero facts.two facts.two
  have key : ∀ i16, ∃ ec, (C.ok
    { bits := feBits d.fe, n := beVal d.sc.n, h := d.h, a := (beVal d.a : ZMod d.fe.p),
      b := (beVal d.b : ZMod d.fe.p), z := (d.z : ZMod d.fe.p), invert := d.invert,
      c := if fe_is_zero (beVal d.c : ZMod d.fe.p) then 1 else (beVal d.c : ZMod d.fe.p), bi := (beVal d.b : ZMod d.fe.p)⁻¹,
      scmul := some (d.scmul : ZMod d.fe.p), a24 := ((beVal d.a : ZMod d.fe.p) + 2) * 4⁻¹, a0 := (beVal d.a : ZMod d.fe.p) * (beVal d.b : ZMod d.fe.p)⁻¹,
      b0 := (beVal d.b : ZMod d.fe.p)⁻¹ * (beVal d.b : ZMod d.fe.p)⁻¹, i16 := i16,
      g := ⟨(beVal d.x : ZMod d.fe.p), (beVal d.y : ZMod d.fe.p), false⟩,
      torsion := d.torsion.map fun t => ⟨(beVal t.x : ZMod d.fe.p), (beVal t.y : ZMod d.fe.p), t.inf⟩ } : C (Mont (ZMod d.fe.p))) = .ok ec ∧ MontCtx d ec := by
    intro i16
    refine ⟨_, rfl, facts, ?_, rfl, rfl, rfl, rfl, ?_, rfl, rfl, rfl, montDefs_sc d hd, tp, sz.2.1, sz.2.2⟩
    · have b1 : (beVal d.b : ZMod d.fe.p) = 1 := by rw [facts.b1, Nat.cast_one]
      refine ⟨⟨facts.two, ?_, facts.disc⟩, ?_, ?_, ?_, ?_, ?_⟩ <;> dsimp only
      · rw [b1]; exact one_ne_zero
      · rw [b1, inv_one, one_mul]
      · rw [mul_comm ((beVal d.a : ZMod d.fe.p) + 2), ← mul_assoc, mul_inv_cancel₀ four, one_mul]
      · intro k hk
        injection hk with hk
        subst hk
        rw [eq_mul_inv_iff_mul_eq₀ four, mul_comm, facts.scm]
      · rw [b1, inv_one, mul_one, mul_one]
      · rw [b1, inv_one]; ring
    · show (beVal d.b : ZMod d.fe.p) = 1
      rw [facts.b1, Nat.cast_one]
  unfold mont_init
  dsimp only
  rw [sz.1, C.check, if_pos rfl, C.ok_bind]
  by_cases h : feBits d.fe = 448
  · rw [if_pos h]
    have : (num_invert (beVal d.sc.n) 16).2 = true := rfl
    rw [this, C.check, if_pos rfl, C.ok_bind, C.ok_bind]
    exact key _
  · rw [if_neg h, C.ok_bind]
    exact key _

theorem mont_ctx_of {d : MontDef} (hd : d ∈ montDefs) [Fact d.fe.p.Prime] {ec : Mont (ZMod d.fe.p)} (he : mont_init d = .ok ec) :
    MontCtx d ec := by
  obtain ⟨ec', h1, h2⟩ := mont_ctx hd
  rw [C.ok.inj (he.symm.trans h1)]
  exact h2

section
variable {d : MontDef} [Fact d.fe.p.Prime] {ec : Mont (ZMod d.fe.p)}

theorem hpow {d : MontDef} (hd : d ∈ montDefs) : ∃ j, j < 8 ∧ d.h = 2 ^ j ∧ 0 < j := by
  simp only [montDefs, List.mem_cons, List.not_mem_nil, or_false] at hd
  rcases hd with rfl | rfl
  · exact ⟨3, by omega, rfl, by omega⟩
  · exact ⟨2, by omega, rfl, by omega⟩

theorem bits_big {d : MontDef} (hd : d ∈ montDefs) : 64 < feBits d.fe := by
  simp only [montDefs, List.mem_cons, List.not_mem_nil, or_false] at hd
  rcases hd with rfl | rfl <;> decide +kernel

theorem mont_clamp_ok (hd : d ∈ montDefs) (c : MontCtx d ec) {priv : List Byte} (hl : feSize d.fe ≤ priv.length) :
    ∃ out, mont_clamp ec priv = .ok out ∧ out.length = feSize d.fe ∧ leVal out = clamp ec.bits ec.h (leVal (priv.take (feSize d.fe))) := by
  obtain ⟨j, hj, hh, _⟩ := hpow hd
  obtain ⟨out, h1, h2, h3⟩ := clamp_size (n := ec.n) c.size c.size2 rfl c.bits hj (by rw [c.h, hh]) (xs := priv) (by rw [c.size]; exact hl)
  rw [c.size] at h2 h3
  exact ⟨out, h1, h2, h3⟩

theorem clamp_facts (hd : d ∈ montDefs) (c : MontCtx d ec) (v : Nat) :
    ∃ m, clamp ec.bits ec.h v = ec.h * m ∧ ec.h * m % 2 = 0 ∧ ec.h * m < 2 ^ ec.bits ∧ 2 ^ (ec.bits - 1) ≤ ec.h * m := by
  obtain ⟨j, hj, hh, hj0⟩ := hpow hd
  have hb := bits_big hd
  rw [← c.bits] at hb
  rw [← c.h] at hh
  have e : clamp ec.bits ec.h v = ec.h * (v % 2 ^ (ec.bits - 1) / ec.h + 2 ^ (ec.bits - 1 - j)) := by
    unfold clamp
    rw [Nat.mul_add, Nat.mul_comm ec.h, hh, ← Nat.pow_add, Nat.add_sub_cancel' (by omega)]
  refine ⟨_, e, ?_, ?_, ?_⟩
  · rw [hh, show j = (j - 1) + 1 by omega, Nat.pow_succ, Nat.mul_comm _ 2, Nat.mul_assoc, Nat.mul_mod_right]
  · rw [← e]
    unfold clamp
    have h1 : v % 2 ^ (ec.bits - 1) < 2 ^ (ec.bits - 1) := Nat.mod_lt _ (Nat.two_pow_pos _)
    have h2 := Nat.div_mul_le_self (v % 2 ^ (ec.bits - 1)) ec.h
    have h3 : 2 ^ ec.bits = 2 ^ (ec.bits - 1) * 2 := by rw [← Nat.pow_succ]; congr 1; omega
    omega
  · rw [← e]; unfold clamp; omega

theorem pge_export_xz {a b : ZMod d.fe.p} {p : Pge (ZMod d.fe.p)} {P : MPt a b} (h : MontXZ p P) :
    pge_export p = (match montX P with
      | none => (fe_export_le d.fe 0, false)
      | some x => (fe_export_le d.fe x, true)) := by
  unfold MontXZ at h
  unfold pge_export
  cases hm : montX P with
  | none =>
    rw [hm] at h
    dsimp only at h ⊢
    rw [h.1, inv_zero', mul_zero]
  | some x =>
    rw [hm] at h
    dsimp only at h ⊢
    rw [inv_ne h.1, h.2, mul_assoc, mul_inv_cancel₀ h.1, mul_one]

theorem leBytes_zero (n : Nat) : leBytes n 0 = List.replicate n 0 := by
  unfold leBytes
  simp [List.map_const']

theorem priv_eq (c : MontCtx d ec) (priv : List Byte) : clamp ec.bits ec.h (leVal (priv.take (feSize d.fe))) = privKey d priv := by
  rw [c.bits, c.h]; rfl

theorem export_uBytes {a b : ZMod d.fe.p} {p : Pge (ZMod d.fe.p)} {P : MPt a b} (h : MontXZ p P) : pge_export p = uBytes d P := by
  rw [pge_export_xz h, uBytes]
  cases montX P with
  | none => dsimp only; rw [fe_export_le, ZMod.val_zero, leBytes_zero]
  | some x => rfl

theorem derive_ok (hd : d ∈ montDefs) (c : MontCtx d ec) {pub priv : List Byte} (h1 : feSize d.fe ≤ pub.length) (h2 : feSize d.fe ≤ priv.length)
    {b : ZMod d.fe.p} (hb : b ≠ 0) {P : MPt ec.a b} (hP : montX P = some (pubX d pub)) :
    ecdh_derive ec pub priv = .ok (uBytes d (privKey d priv • P)) := by
  rw [← priv_eq c]
  obtain ⟨out, e1, e2, e3⟩ := mont_clamp_ok hd c h2
  obtain ⟨m, k1, k2, k3, k4⟩ := clamp_facts hd c (leVal (priv.take (feSize d.fe)))
  unfold ecdh_derive
  rw [e1, C.ok_bind]
  dsimp only
  rw [pge_import_unsafe, fe_import_le_ok d.fe h1, C.ok_bind, C.pure_eq, C.ok_bind, C.pure_eq, e3]
  congr 1
  apply export_uBytes
  have hbits := bits_big hd
  rw [← c.bits] at hbits
  exact mont_mul_exact c.ok hb (by omega) hP (by rw [k1]; exact k3) (Or.inr (by rw [k1]; exact k2)) true

theorem base_order (c : MontCtx d ec) : ∃ G : MPt ec.a ec.b, montAffine G = ec.g ∧ G ≠ 0 ∧ ∀ k : Nat, k • G = 0 ↔ ec.n ∣ k := by
  obtain ⟨G, h1, h2⟩ := c.facts.base
  rw [c.a, c.b]
  have h0 : G ≠ 0 := by rintro rfl; rw [m_aff_zero] at h1; simp at h1
  refine ⟨G, by rw [h1, c.g], h0, ?_⟩
  intro k
  haveI : Fact (beVal d.sc.n).Prime := ⟨c.nprime⟩
  rw [← addOrderOf_dvd_iff_nsmul_eq_zero, addOrderOf_eq_prime h2 h0, c.n]

theorem create_ok (hd : d ∈ montDefs) (c : MontCtx d ec) {priv : List Byte} (h2 : feSize d.fe ≤ priv.length)
    {G : MPt ec.a ec.b} (hG : montAffine G = ec.g) :
    ecdh_pubkey_create ec priv = (match montX (privKey d priv • G) with
      | none => .abort
      | some x => .ok (leBytes (feSize d.fe) x.val)) := by
  rw [← priv_eq c]
  obtain ⟨out, e1, e2, e3⟩ := mont_clamp_ok hd c h2
  obtain ⟨m, k1, k2, k3, k4⟩ := clamp_facts hd c (leVal (priv.take (feSize d.fe)))
  unfold ecdh_pubkey_create
  rw [e1, C.ok_bind]
  dsimp only
  have hbits := bits_big hd
  rw [← c.bits] at hbits
  have hm : MontXZ (mont_mul_g ec (leVal out)) (clamp ec.bits ec.h (leVal (priv.take (feSize d.fe))) • G) := by
    unfold mont_mul_g
    rw [c.g] at hG
    rw [c.g, e3]
    have : pge_set_mge (⟨(beVal d.x : ZMod d.fe.p), (beVal d.y : ZMod d.fe.p), false⟩ : Mge (ZMod d.fe.p)) = ⟨(beVal d.x : ZMod d.fe.p), 1⟩ := rfl
    rw [this]
    exact mont_mul_exact c.ok c.ok.good.b0 (by omega) (m_aff_x hG) (by rw [k1]; exact k3) (Or.inr (by rw [k1]; exact k2)) true
  rw [export_uBytes hm, uBytes]
  cases montX (clamp ec.bits ec.h (leVal (priv.take (feSize d.fe))) • G) <;> rfl

end

end Torsion.Ecc
