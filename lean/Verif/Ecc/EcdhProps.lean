import Verif.Ecc.MontHashLemmas

/-!
# X25519 and X448: properties

`d` ranges over the table of the two curves and `ec` is what `mont_init` makes of it. That the modulus is prime, which the
statements need in order to speak of a field, is `mont_field_prime`.
-/
namespace Torsion

open Torsion.Spec (MPt montAffine montX MontXZ beVal leVal leBytes clamp privKey pubX uBytes HasSign)
open Torsion.Ecc

/-! ### The curves -/

theorem mont_field_prime {d : MontDef} (hd : d ∈ montDefs) : d.fe.p.Prime := (montDefs_prime hd).out

/-- The numbers of RFC 7748, 4.1 and 4.2; the ordinate of the base point of Curve25519 is the one of erratum 4730, the opposite of the printed one. -/
theorem mont_constants :
    (curve_x25519.fe.p = 2 ^ 255 - 19 ∧ beVal curve_x25519.a = 486662 ∧ beVal curve_x25519.b = 1 ∧ curve_x25519.h = 8 ∧ beVal curve_x25519.x = 9 ∧
      beVal curve_x25519.sc.n = 2 ^ 252 + 27742317777372353535851937790883648493 ∧
      beVal curve_x25519.y = 43114425171068552920764898935933967039370386198203806730763910166200978582548) ∧
    (curve_x448.fe.p = 2 ^ 448 - 2 ^ 224 - 1 ∧ beVal curve_x448.a = 156326 ∧ beVal curve_x448.b = 1 ∧ curve_x448.h = 4 ∧ beVal curve_x448.x = 5 ∧
      beVal curve_x448.sc.n = 2 ^ 446 - 13818066809895115352007386748515426880336692474882178609894547503885 ∧
      beVal curve_x448.y = 355293926785568175264127502063783334808976399387714271831880898435169088786967410002932673765864550910142774147268105838985595290606362) := by
  decide +kernel

theorem mont_init_succeeds {d : MontDef} (hd : d ∈ montDefs) [Fact d.fe.p.Prime] : ∃ ec : Mont (ZMod d.fe.p), mont_init d = .ok ec := by
  obtain ⟨ec, h, -⟩ := mont_ctx hd
  exact ⟨ec, h⟩

section
variable {d : MontDef} (hd : d ∈ montDefs) [Fact d.fe.p.Prime] {ec : Mont (ZMod d.fe.p)} (he : mont_init d = .ok ec)
include hd he

/-- The curve has `h n` points, `n` is prime, and the base point has the order `n`. -/
theorem mont_curve_exact : ec.a = (beVal d.a : ZMod d.fe.p) ∧ ec.b = 1 ∧ ec.h = d.h ∧ ec.n = beVal d.sc.n ∧ ec.n.Prime ∧
    Nat.card (MPt ec.a ec.b) = ec.h * ec.n ∧
    ∃ G : MPt ec.a ec.b, montAffine G = ec.g ∧ ec.g = ⟨(beVal d.x : ZMod d.fe.p), (beVal d.y : ZMod d.fe.p), false⟩ ∧ ∀ k : Nat, k • G = 0 ↔ ec.n ∣ k := by
  have c := mont_ctx_of hd he
  obtain ⟨G, g1, g2, g3⟩ := base_order c
  refine ⟨c.a, c.b, c.h, c.n, c.n ▸ c.nprime, ?_, G, g1, c.g, g3⟩
  rw [c.a, c.b, c.h, c.n]
  exact c.facts.card

/-- The twist is secure: it has four times a prime number of points. -/
theorem mont_twist_exact : ∃ t : Nat, t.Prime ∧ 2 ^ (d.fe.p.size - 3) < t ∧ ∀ b : ZMod d.fe.p, ¬ IsSquare b → Nat.card (MPt ec.a b) = 4 * t := by
  have c := mont_ctx_of hd he
  refine ⟨montTwist d, c.tprime, ?_, ?_⟩
  · simp only [montDefs, List.mem_cons, List.not_mem_nil, or_false] at hd
    rcases hd with rfl | rfl
    · rw [show curve_x25519.fe.p.size = 255 from range_x25519.1]; exact range_x25519.2.2.1
    · rw [show curve_x448.fe.p.size = 448 from range_x448.1]
      exact lt_trans (Nat.pow_lt_pow_right (by omega) (by omega)) range_x448.2.2.2
  · rw [c.a]; exact c.facts.twist

/-- The table `torsion` has the points of small order: all of them, and only them. -/
theorem mont_torsion_exact (P : MPt ec.a ec.b) : ec.h • P = 0 ↔ montAffine P ∈ ec.torsion := tor_exact hd (mont_ctx_of hd he) P

/-! ### Keys and shared secrets -/

/-- Every string of bytes is the public key of a point, on the curve or on its twist. -/
theorem ecdh_pubkey_point (pub : List Byte) : ∃ b : ZMod d.fe.p, b ≠ 0 ∧ ∃ P : MPt ec.a b, montX P = some (pubX d pub) := by
  have c := mont_ctx_of hd he
  rcases m_exists c (pubX d pub) with h | ⟨t, ht, h⟩
  · exact ⟨ec.b, c.ok.good.b0, h⟩
  · exact ⟨t, by rintro rfl; exact ht ⟨0, by simp⟩, h⟩

/-- The shared secret is the abscissa of the product. -/
theorem ecdh_derive_exact {pub priv : List Byte} (h1 : feSize d.fe ≤ pub.length) (h2 : feSize d.fe ≤ priv.length)
    {b : ZMod d.fe.p} (hb : b ≠ 0) {P : MPt ec.a b} (hP : montX P = some (pubX d pub)) :
    ecdh_derive ec pub priv = .ok (uBytes d (privKey d priv • P)) := derive_ok hd (mont_ctx_of hd he) h1 h2 hb hP

/-- The public key is the abscissa of the multiple of the base point; the assertion fails if that is infinity. -/
theorem ecdh_pubkey_create_exact {priv : List Byte} (h2 : feSize d.fe ≤ priv.length) {G : MPt ec.a ec.b} (hG : montAffine G = ec.g) :
    ecdh_pubkey_create ec priv = if privKey d priv • G = 0 then .abort else .ok (uBytes d (privKey d priv • G)).1 := by
  rw [create_ok hd (mont_ctx_of hd he) h2 hG]
  cases hm : montX (privKey d priv • G) with
  | none =>
    rw [if_pos (mx_none.1 hm)]
  | some x =>
    have : privKey d priv • G ≠ 0 := fun h => by rw [mx_none.2 h] at hm; cases hm
    rw [if_neg this, uBytes, hm]

/-- Both sides of an exchange get the same secret, and it is a success. -/
theorem ecdh_agreement {priv1 priv2 pub1 pub2 : List Byte} (h1 : feSize d.fe ≤ priv1.length) (h2 : feSize d.fe ≤ priv2.length)
    (e1 : ecdh_pubkey_create ec priv1 = .ok pub1) (e2 : ecdh_pubkey_create ec priv2 = .ok pub2) :
    ∃ s, ecdh_derive ec pub2 priv1 = .ok (s, true) ∧ ecdh_derive ec pub1 priv2 = .ok (s, true) := by
  have c := mont_ctx_of hd he
  obtain ⟨G, g1, g2, g3⟩ := base_order c
  have key : ∀ {priv pub : List Byte}, feSize d.fe ≤ priv.length → ecdh_pubkey_create ec priv = .ok pub →
      ¬ ec.n ∣ privKey d priv ∧ feSize d.fe ≤ pub.length ∧ montX (privKey d priv • G) = some (pubX d pub) := by
    intro priv pub hl e
    rw [create_ok hd c hl g1] at e
    cases hm : montX (privKey d priv • G) with
    | none => rw [hm] at e; cases e
    | some x =>
      rw [hm] at e
      have e' := C.ok.inj e
      have hlen : pub.length = feSize d.fe := by rw [← e']; exact Strm.leBytes_len _ _
      refine ⟨fun hn => ?_, hlen.ge, ?_⟩
      · rw [← g3, ← mx_none, hm] at hn; cases hn
      · rw [pubX, List.take_of_length_le hlen.le, ← e', Strm.leVal_leBytes, Nat.mod_eq_of_lt (x.val_lt.trans (feSize_pow d.fe)),
          Nat.mod_eq_of_lt (x.val_lt.trans (Nat.lt_size_self _)), ZMod.natCast_zmod_val]
  obtain ⟨n1, l1, p1⟩ := key h1 e1
  obtain ⟨n2, l2, p2⟩ := key h2 e2
  rw [derive_ok hd c l2 h1 c.ok.good.b0 p2, derive_ok hd c l1 h2 c.ok.good.b0 p1, smul_comm (privKey d priv2)]
  have hn : ¬ ec.n ∣ privKey d priv1 * privKey d priv2 := fun h => ((c.n ▸ c.nprime : ec.n.Prime).dvd_mul.1 h).elim n1 n2
  rw [← mul_smul, uBytes]
  cases hm : montX ((privKey d priv1 * privKey d priv2) • G) with
  | none => exact absurd ((g3 _).1 (mx_none.1 hm)) hn
  | some x => exact ⟨_, rfl, rfl⟩

/-- Failure is the same as a secret that is all zeros. -/
theorem ecdh_derive_zero {pub priv : List Byte} (h1 : feSize d.fe ≤ pub.length) (h2 : feSize d.fe ≤ priv.length) :
    ∃ s r, ecdh_derive ec pub priv = .ok (s, r) ∧ s.length = feSize d.fe ∧ (r = false ↔ s = List.replicate (feSize d.fe) 0) := by
  have c := mont_ctx_of hd he
  have key : ∀ {t : ZMod d.fe.p} (P : MPt ec.a t), t ≠ 0 → montX P = some (pubX d pub) → (montX (privKey d priv • P) ≠ some 0) →
      ∃ s r, ecdh_derive ec pub priv = .ok (s, r) ∧ s.length = feSize d.fe ∧ (r = false ↔ s = List.replicate (feSize d.fe) 0) := by
    intro t P ht hP h0
    rw [derive_ok hd c h1 h2 ht hP, uBytes]
    cases hm : montX (privKey d priv • P) with
    | none => exact ⟨_, _, rfl, List.length_replicate, by simp⟩
    | some x =>
      refine ⟨_, _, rfl, Strm.leBytes_len _ _, ?_⟩
      simp only [Bool.true_eq_false, false_iff]
      intro he
      have : leBytes (feSize d.fe) x.val = leBytes (feSize d.fe) (0 : ZMod d.fe.p).val := by rw [he, ZMod.val_zero, leBytes_zero]
      rw [hm, le_inj d.fe this] at h0
      exact h0 rfl
  obtain ⟨m, k1, -⟩ := clamp_facts hd c (leVal (priv.take (feSize d.fe)))
  rw [priv_eq c] at k1
  rcases m_exists c (pubX d pub) with ⟨P, hP⟩ | ⟨t, ht, P, hP⟩
  · refine key P c.ok.good.b0 hP fun h0 => ?_
    have hz := mx_order_two c.ok.good h0
    rw [← two_nsmul, ← mul_smul, k1, show 2 * (ec.h * m) = ec.h * (2 * m) by ring, order_curve c] at hz
    have hne : privKey d priv • P ≠ 0 := fun h => by rw [mx_none.2 h] at h0; cases h0
    apply hne
    rw [k1, order_curve c]
    refine hz.imp_right fun h => ?_
    rcases (c.n ▸ c.nprime : ec.n.Prime).dvd_mul.1 h with h | h
    · exfalso
      have := Nat.le_of_dvd (by omega) h
      rw [c.n] at this
      simp only [montDefs, List.mem_cons, List.not_mem_nil, or_false] at hd
      rcases hd with rfl | rfl
      · have := range_x25519.2.1; omega
      · have := range_x448.2.1; omega
    · exact h
  · have ht0 : t ≠ 0 := by rintro rfl; exact ht ⟨0, by simp⟩
    refine key P ht0 hP fun h0 => ?_
    have hz := mx_order_two (⟨c.ok.good.two, ht0, c.ok.good.disc⟩ : Spec.MontGood ec.a t) h0
    have h4 : ∃ j, ec.h = 4 * j ∧ j < 3 ∧ 0 < j := by
      rw [c.h]
      simp only [montDefs, List.mem_cons, List.not_mem_nil, or_false] at hd
      rcases hd with rfl | rfl
      · exact ⟨2, rfl, by omega, by omega⟩
      · exact ⟨1, rfl, by omega, by omega⟩
    obtain ⟨j, hj, hj2, hj3⟩ := h4
    rw [← two_nsmul, ← mul_smul, k1, hj, show 2 * (4 * j * m) = 4 * (2 * (j * m)) by ring, order_twist c ht] at hz
    have hne : privKey d priv • P ≠ 0 := fun h => by rw [mx_none.2 h] at h0; cases h0
    apply hne
    rw [k1, hj, mul_assoc, order_twist c ht]
    refine hz.imp_right fun h => ?_
    rcases c.tprime.dvd_mul.1 h with h | h
    · exfalso
      have := Nat.le_of_dvd (by omega) h
      simp only [montDefs, List.mem_cons, List.not_mem_nil, or_false] at hd
      rcases hd with rfl | rfl
      · have := range_x25519.2.2.1; omega
      · have := range_x448.2.2.2; omega
    · exact h

end

/-! ### Which keys fail -/

/-- The numbers `r1_25519` and `r2_25519` are the abscissas of the points of order eight: those listed by D. J. Bernstein. -/
theorem x25519_small_numbers : r1_25519 = 325606250916557431795983626356110631294008115727848805560023387167927233504 ∧
    r2_25519 = 39382357235489614581723060781553021112529911719440698176882885853963445705823 := by decide +kernel

/-- X25519: public keys can be made of all private keys. -/
theorem x25519_create_succeeds [Fact curve_x25519.fe.p.Prime] {ec : Mont (ZMod curve_x25519.fe.p)} (he : mont_init curve_x25519 = .ok ec)
    {priv : List Byte} (h2 : 32 ≤ priv.length) : ∃ pub, ecdh_pubkey_create ec priv = .ok pub ∧ pub.length = 32 := by
  have hd : curve_x25519 ∈ montDefs := List.mem_cons_self
  have c := mont_ctx_of hd he
  have hs : feSize curve_x25519.fe = 32 := by decide +kernel
  rw [← hs] at h2 ⊢
  obtain ⟨G, g1, g2, g3⟩ := base_order c
  rw [create_ok hd c h2 g1]
  cases hm : montX (privKey curve_x25519 priv • G) with
  | none =>
    exfalso
    rw [mx_none, inf_x25519 c (Or.inl rfl), g3, c.h, c.n] at hm
    have := Nat.le_of_dvd (by decide) hm
    have h8 : curve_x25519.h = 8 := rfl
    have := range_x25519.2.1
    omega
  | some x => exact ⟨_, rfl, Strm.leBytes_len _ _⟩

/-- X25519: the secret is rejected exactly for the five abscissas of points of small order, on the curve or on the twist; whatever the
private key. -/
theorem x25519_derive_fails_iff [Fact curve_x25519.fe.p.Prime] {ec : Mont (ZMod curve_x25519.fe.p)} (he : mont_init curve_x25519 = .ok ec)
    {pub priv : List Byte} (h1 : 32 ≤ pub.length) (h2 : 32 ≤ priv.length) : ∃ s r, ecdh_derive ec pub priv = .ok (s, r) ∧
      (r = false ↔ pubX curve_x25519 pub ∈ [0, 1, -1, (r1_25519 : ZMod curve_x25519.fe.p), (r2_25519 : ZMod curve_x25519.fe.p)]) := by
  have hd : curve_x25519 ∈ montDefs := List.mem_cons_self
  have c := mont_ctx_of hd he
  have hs : feSize curve_x25519.fe = 32 := by decide +kernel
  rw [← hs] at h1 h2
  have key : ∀ {t : ZMod curve_x25519.fe.p} (P : MPt ec.a t), t = ec.b ∨ ¬ IsSquare t → montX P = some (pubX curve_x25519 pub) →
      ∃ s r, ecdh_derive ec pub priv = .ok (s, r) ∧
        (r = false ↔ pubX curve_x25519 pub ∈ [0, 1, -1, (r1_25519 : ZMod curve_x25519.fe.p), (r2_25519 : ZMod curve_x25519.fe.p)]) := by
    intro t P ht hP
    have t0 : t ≠ 0 := by
      rcases ht with rfl | h
      · exact c.ok.good.b0
      · rintro rfl; exact h ⟨0, by simp⟩
    rw [derive_ok hd c h1 h2 t0 hP, uBytes]
    have hx := (inf_x25519 c ht P priv).trans (small_x25519 c t0 hP)
    simp only [List.mem_cons, List.not_mem_nil, or_false]
    rw [← hx]
    cases hm : montX (privKey curve_x25519 priv • P) with
    | none => exact ⟨_, _, rfl, by simp [mx_none.1 hm]⟩
    | some x =>
      refine ⟨_, _, rfl, ?_⟩
      simp only [Bool.true_eq_false, false_iff]
      intro h
      rw [mx_none.2 h] at hm; cases hm
  rcases m_exists c (pubX curve_x25519 pub) with ⟨P, hP⟩ | ⟨t, ht, P, hP⟩
  · exact key P (Or.inl rfl) hP
  · exact key P (Or.inr ht) hP

/-- X448: the assertion in `ecdh_pubkey_create` fails for exactly one scalar: `4 n`. -/
theorem x448_create_aborts_iff [Fact curve_x448.fe.p.Prime] {ec : Mont (ZMod curve_x448.fe.p)} (he : mont_init curve_x448 = .ok ec)
    {priv : List Byte} (h2 : 56 ≤ priv.length) : (ecdh_pubkey_create ec priv = .abort ↔ privKey curve_x448 priv = 4 * ec.n) ∧
      (privKey curve_x448 priv ≠ 4 * ec.n → ∃ pub, ecdh_pubkey_create ec priv = .ok pub ∧ pub.length = 56) := by
  have hd : curve_x448 ∈ montDefs := List.mem_cons_of_mem _ List.mem_cons_self
  have c := mont_ctx_of hd he
  have hs : feSize curve_x448.fe = 56 := by decide +kernel
  rw [← hs] at h2 ⊢
  obtain ⟨G, g1, g2, g3⟩ := base_order c
  obtain ⟨m, k1, k2, -⟩ := key_x448 c priv
  have hG : privKey curve_x448 priv • G = 0 ↔ privKey curve_x448 priv = 4 * ec.n := by
    rw [← k2, g3, k1]
    constructor
    · intro h
      rcases (c.n ▸ c.nprime : ec.n.Prime).dvd_mul.1 h with h | h
      · exfalso
        have := Nat.le_of_dvd (by omega) h
        rw [c.n] at this
        have := range_x448.2.1; omega
      · exact h
    · exact fun h => dvd_mul_of_dvd_right h _
  rw [create_ok hd c h2 g1]
  cases hm : montX (privKey curve_x448 priv • G) with
  | none =>
    have := hG.1 (mx_none.1 hm)
    exact ⟨by simp [this], fun h => absurd this h⟩
  | some x =>
    have : privKey curve_x448 priv ≠ 4 * ec.n := fun h => by rw [mx_none.2 (hG.2 h)] at hm; cases hm
    exact ⟨by simp [this], fun _ => ⟨_, rfl, Strm.leBytes_len _ _⟩⟩

/-- There is such a private key, and `ecdh_privkey_verify` accepts it. -/
theorem x448_create_aborts [Fact curve_x448.fe.p.Prime] {ec : Mont (ZMod curve_x448.fe.p)} (he : mont_init curve_x448 = .ok ec) :
    ∃ priv : List Byte, priv.length = 56 ∧ ecdh_privkey_verify ec priv = true ∧ ecdh_pubkey_create ec priv = .abort := by
  have hd : curve_x448 ∈ montDefs := List.mem_cons_of_mem _ List.mem_cons_self
  have c := mont_ctx_of hd he
  refine ⟨leBytes 56 (4 * ec.n), Strm.leBytes_len _ _, rfl, (x448_create_aborts_iff he (Strm.leBytes_len _ _).ge).1.2 ?_⟩
  rw [privKey, c.n]
  decide +kernel

/-- X448: the secret is rejected for the abscissas of points of small order, and for the points of the curve if the scalar is `4 n`. -/
theorem x448_derive_fails_iff [Fact curve_x448.fe.p.Prime] {ec : Mont (ZMod curve_x448.fe.p)} (he : mont_init curve_x448 = .ok ec)
    {pub priv : List Byte} (h1 : 56 ≤ pub.length) (h2 : 56 ≤ priv.length) : ∃ s r, ecdh_derive ec pub priv = .ok (s, r) ∧
      (r = false ↔ pubX curve_x448 pub ∈ [(0 : ZMod curve_x448.fe.p), 1, -1] ∨
        (privKey curve_x448 priv = 4 * ec.n ∧ ∃ P : MPt ec.a ec.b, montX P = some (pubX curve_x448 pub))) := by
  have hd : curve_x448 ∈ montDefs := List.mem_cons_of_mem _ List.mem_cons_self
  have c := mont_ctx_of hd he
  have hs : feSize curve_x448.fe = 56 := by decide +kernel
  rw [← hs] at h1 h2
  obtain ⟨m, k1, k2, k3⟩ := key_x448 c priv
  have h4 : ec.h = 4 := c.h
  have key : ∀ {t : ZMod curve_x448.fe.p} (P : MPt ec.a t), t ≠ 0 → montX P = some (pubX curve_x448 pub) → ∀ (q : Prop),
      (privKey curve_x448 priv • P = 0 ↔ q) →
      ∃ s r, ecdh_derive ec pub priv = .ok (s, r) ∧ (r = false ↔ q) := by
    intro t P t0 hP q hq
    rw [derive_ok hd c h1 h2 t0 hP, uBytes, ← hq]
    cases hm : montX (privKey curve_x448 priv • P) with
    | none => exact ⟨_, _, rfl, by simp [mx_none.1 hm]⟩
    | some x =>
      refine ⟨_, _, rfl, ?_⟩
      simp only [Bool.true_eq_false, false_iff]
      intro h
      rw [mx_none.2 h] at hm; cases hm
  by_cases hex : ∃ P : MPt ec.a ec.b, montX P = some (pubX curve_x448 pub)
  · obtain ⟨P, hP⟩ := hex
    refine key P c.ok.good.b0 hP _ ?_
    have ho := order_curve c P m
    rw [h4] at ho
    have hsm := small_x448 c c.ok.good.b0 hP
    rw [h4] at hsm
    rw [k1] at k2 ⊢
    rw [ho, hsm, k2]
    simp only [List.mem_cons, List.not_mem_nil, or_false]
    exact or_congr Iff.rfl ⟨fun h => ⟨h, P, hP⟩, fun h => h.1⟩
  · rcases m_exists c (pubX curve_x448 pub) with h | ⟨t, ht, P, hP⟩
    · exact absurd h hex
    · have t0 : t ≠ 0 := by rintro rfl; exact ht ⟨0, by simp⟩
      refine key P t0 hP _ ?_
      have hsm := small_x448 c t0 hP
      rw [h4] at hsm
      rw [k1, order_twist c ht, hsm]
      simp only [List.mem_cons, List.not_mem_nil, or_false]
      exact or_congr Iff.rfl ⟨fun h => absurd h k3, fun h => absurd h.2 hex⟩

/-! ### Private keys -/

section
variable {d : MontDef} (hd : d ∈ montDefs) [Fact d.fe.p.Prime] {ec : Mont (ZMod d.fe.p)} (he : mont_init d = .ok ec)
include hd he

/-- A new key is clamped already: its number is its scalar. -/
theorem ecdh_privkey_generate_exact {S : Type} (rng : Source S) (entropy : List Byte) : ∃ out, ecdh_privkey_generate rng ec entropy = .ok out ∧
    out.length = feSize d.fe ∧ leVal out = clamp d.fe.p.size d.h (leVal (rng.gen (rng.init entropy) (feSize d.fe)).1) ∧ privKey d out = leVal out := by
  have c := mont_ctx_of hd he
  have hl := rng.len (rng.init entropy) (feSize d.fe)
  obtain ⟨out, e1, e2, e3⟩ := mont_clamp_ok hd c hl.ge
  rw [List.take_of_length_le hl.le] at e3
  have hb : ec.bits = d.fe.p.size := c.bits
  rw [hb, c.h] at e3
  refine ⟨out, ?_, e2, e3, ?_⟩
  · unfold ecdh_privkey_generate
    dsimp only
    rw [c.size]; exact e1
  · rw [privKey, List.take_of_length_le e2.le, e3, clamp, clamp]
    generalize leVal (rng.gen (rng.init entropy) (feSize d.fe)).1 = v
    generalize hk : 2 ^ (d.fe.p.size - 1) = k
    have hk0 : 0 < k := hk ▸ Nat.two_pow_pos _
    have h0 : 0 < d.h := by
      simp only [montDefs, List.mem_cons, List.not_mem_nil, or_false] at hd
      rcases hd with rfl | rfl <;> decide
    have hlt : v % k / d.h * d.h < k := lt_of_le_of_lt (Nat.div_mul_le_self _ _) (Nat.mod_lt _ hk0)
    rw [Nat.add_mod_right, Nat.mod_eq_of_lt hlt, Nat.mul_div_cancel _ h0]

/-- The bytes of a private key. -/
theorem ecdh_privkey_export_exact {priv : List Byte} (hl : feSize d.fe ≤ priv.length) :
    ecdh_privkey_export ec priv = .ok (priv.take (feSize d.fe), true) := by
  have c := mont_ctx_of hd he
  unfold ecdh_privkey_export
  rw [c.size, slice_take hl]
  rfl

/-- A number is imported if it fits. -/
theorem ecdh_privkey_import_exact (bytes : List Byte) : (ecdh_privkey_import ec bytes).1.length = feSize d.fe ∧
    ((ecdh_privkey_import ec bytes).2 = true ↔ leVal bytes < 256 ^ feSize d.fe) ∧
    ((ecdh_privkey_import ec bytes).2 = true → leVal (ecdh_privkey_import ec bytes).1 = leVal bytes) := by
  have c := mont_ctx_of hd he
  obtain ⟨h1, h2, h3, -⟩ := byte_pad_le_ok (scSize ec.n) bytes
  rw [ecdh_privkey_import]
  rw [c.size] at *
  exact ⟨h1, h2, fun h => h3 (h2.1 h)⟩

/-! ### Public keys -/

theorem ecdh_pubkey_verify_exact {pub : List Byte} (hl : feSize d.fe ≤ pub.length) : ∃ r, ecdh_pubkey_verify ec pub = .ok r ∧
    (r = true ↔ ∃ P : MPt ec.a ec.b, montX P = some (pubX d pub)) := by
  obtain ⟨p, r, e1, e2, -⟩ := pge_import_ok hd (mont_ctx_of hd he) hl
  refine ⟨r, ?_, e2⟩
  unfold ecdh_pubkey_verify
  rw [e1]; rfl

theorem ecdh_pubkey_is_small_exact {pub : List Byte} (hl : feSize d.fe ≤ pub.length) : ∃ r, ecdh_pubkey_is_small ec pub = .ok r ∧
    (r = true ↔ ∃ P : MPt ec.a ec.b, montX P = some (pubX d pub) ∧ ec.h • P = 0) := by
  have c := mont_ctx_of hd he
  obtain ⟨p, r, e1, e2, e3, e4⟩ := pge_import_ok hd c hl
  unfold ecdh_pubkey_is_small
  rw [e1, C.ok_bind]
  dsimp only
  cases r with
  | true =>
    obtain ⟨P, hP⟩ := e2.1 rfl
    obtain ⟨s, s1, s2⟩ := is_small_ok hd c hP
    rw [e3 rfl, s1, C.ok_bind]
    refine ⟨_, rfl, ?_⟩
    rw [Bool.true_and, s2]
    refine ⟨fun h => ⟨P, hP, h⟩, ?_⟩
    rintro ⟨Q, hQ, h⟩
    rcases mx_eq c.ok.good.b0 (hQ.trans hP.symm) with rfl | rfl
    · exact h
    · rw [smul_neg, neg_eq_zero] at h; exact h
  | false =>
    have hm : MontXZ p (0 : MPt ec.a ec.b) := by
      rw [e4 rfl]
      exact ⟨rfl, one_ne_zero⟩
    obtain ⟨q, q1, -⟩ : ∃ q, pge_is_small ec p = .ok q ∧ True := by
      obtain ⟨j, hj, hh, -⟩ := hpow hd
      rw [← c.h] at hh
      obtain ⟨q, q1, -⟩ := pge_mulh_xz c.ok c.ok.good.b0 (by omega) hh hm
      exact ⟨_, by rw [pge_is_small, q1]; rfl, trivial⟩
    rw [q1, C.ok_bind]
    refine ⟨_, rfl, ?_⟩
    simp only [Bool.false_and, Bool.false_eq_true, false_iff]
    rintro ⟨P, hP, -⟩
    exact absurd (e2.2 ⟨P, hP⟩) (by simp)

theorem ecdh_pubkey_has_torsion_exact {pub : List Byte} (hl : feSize d.fe ≤ pub.length) : ∃ r, ecdh_pubkey_has_torsion ec pub = .ok r ∧
    (r = true ↔ ∃ P : MPt ec.a ec.b, montX P = some (pubX d pub) ∧ ec.n • P ≠ 0) := by
  have c := mont_ctx_of hd he
  obtain ⟨p, r, e1, e2, e3, e4⟩ := pge_import_ok hd c hl
  unfold ecdh_pubkey_has_torsion
  rw [e1, C.ok_bind]
  dsimp only
  refine ⟨_, rfl, ?_⟩
  cases r with
  | true =>
    obtain ⟨P, hP⟩ := e2.1 rfl
    rw [e3 rfl, Bool.true_and, has_torsion_ok hd c hP]
    refine ⟨fun h => ⟨P, hP, h⟩, ?_⟩
    rintro ⟨Q, hQ, h⟩
    rcases mx_eq c.ok.good.b0 (hQ.trans hP.symm) with rfl | rfl
    · exact h
    · rw [smul_neg, neg_ne_zero] at h; exact h
  | false =>
    simp only [Bool.false_and, Bool.false_eq_true, false_iff]
    rintro ⟨P, hP, -⟩
    exact absurd (e2.2 ⟨P, hP⟩) (by simp)

/-- The coordinates of a public key, for the wanted sign. -/
theorem ecdh_pubkey_export_exact {pub : List Byte} (hl : feSize d.fe ≤ pub.length) (sign : Option Bool) :
    ∃ x y r, ecdh_pubkey_export ec pub sign = .ok (x, y, r) ∧ (r = true ↔ ∃ P : MPt ec.a ec.b, montX P = some (pubX d pub) ∧ HasSign d P sign) ∧
      (r = true → ∃ P : MPt ec.a ec.b, montX P = some (pubX d pub) ∧ HasSign d P sign ∧
        x = leBytes (feSize d.fe) (montAffine P).x.val ∧ y = leBytes (feSize d.fe) (montAffine P).y.val) := by
  have c := mont_ctx_of hd he
  obtain ⟨Q, r, e1, e2, e3, e4⟩ := mont_set_x_iff hd c (pubX d pub) sign
  unfold ecdh_pubkey_export
  rw [mont_import_ok hd c hl, e1, C.ok_bind]
  exact ⟨_, _, r, rfl, e4, fun h => ⟨Q, (e2 h).1, (e2 h).2, rfl, rfl⟩⟩

/-- Coordinates are imported if they are reduced and those of a point; without an ordinate the abscissa has to be that of a point. -/
theorem ecdh_pubkey_import_exact (x_raw y_raw : List Byte) : ∃ out r, ecdh_pubkey_import ec x_raw y_raw = .ok (out, r) ∧
    (r = true ↔ x_raw ≠ [] ∧ leVal x_raw < d.fe.p ∧ leVal y_raw < d.fe.p ∧ ∃ P : MPt ec.a ec.b, montX P = some (leVal x_raw : ZMod d.fe.p) ∧
      (y_raw ≠ [] → (montAffine P).y = (leVal y_raw : ZMod d.fe.p))) ∧
    (r = true → out = leBytes (feSize d.fe) (leVal x_raw)) := by
  have c := mont_ctx_of hd he
  obtain ⟨x, bx, x1, x2, x3⟩ := import_pad_le_ok (d := d) x_raw
  obtain ⟨y, yb, y1, y2, y3⟩ := import_pad_le_ok (d := d) y_raw
  unfold ecdh_pubkey_import
  dsimp only
  rw [x1, C.ok_bind, y1, C.ok_bind]
  dsimp only
  have nx : decide (x_raw.length > 0) = true ↔ x_raw ≠ [] := by rw [decide_eq_true_eq]; exact List.length_pos_iff
  have ny : decide (y_raw.length > 0) = true ↔ y_raw ≠ [] := by rw [decide_eq_true_eq]; exact List.length_pos_iff
  have hA : ∃ (Q : MPt ec.a ec.b) (r : Bool), (if (decide (x_raw.length > 0) && decide (y_raw.length > 0)) = true then C.ok (mge_set_xy ec x y)
      else mge_set_x ec x none) = .ok (montAffine Q, r) ∧ (r = true → montX Q = some x) ∧ (r = false → Q = 0) ∧
      (x_raw ≠ [] → (r = true ↔ ∃ P : MPt ec.a ec.b, montX P = some x ∧ (y_raw ≠ [] → (montAffine P).y = y))) := by
    by_cases h : (decide (x_raw.length > 0) && decide (y_raw.length > 0)) = true
    · rw [if_pos h]
      rw [Bool.and_eq_true, nx, ny] at h
      obtain ⟨Q, q1, q2, q3⟩ := m_set_xy c x y
      refine ⟨Q, _, by rw [← q1], ?_, ?_, fun _ => ?_⟩
      · exact fun hr => m_aff_x (q2 hr)
      · exact q3.1
      · constructor
        · exact fun hr => ⟨Q, m_aff_x (q2 hr), fun _ => by rw [q2 hr]⟩
        · rintro ⟨P, hP, hy⟩
          exact q3.2 ⟨P, hP, hy h.2⟩
    · rw [if_neg h]
      obtain ⟨Q, r, e1, e2, e3, e4⟩ := mont_set_x_iff hd c x none
      refine ⟨Q, r, e1, fun hr => (e2 hr).1, e3, fun hx => e4.trans ?_⟩
      have hy : ¬ y_raw ≠ [] := fun hy => h (by rw [Bool.and_eq_true, nx, ny]; exact ⟨hx, hy⟩)
      exact exists_congr fun P => and_congr_right fun _ => ⟨fun _ h => absurd h hy, fun _ => trivial⟩
  obtain ⟨Q, r, q1, q2, q3, q4⟩ := hA
  rw [show ∀ (e : Bool) (A B : C (Mge (ZMod d.fe.p) × Bool)) (k : Mge (ZMod d.fe.p) × Bool → C (List Byte × Bool)),
    (if e = true then A >>= k else B >>= k) = (if e = true then A else B) >>= k from fun e A B k => by cases e <;> rfl, q1, C.ok_bind]
  dsimp only [mge_export]
  have hinf : r = true → (!(montAffine Q).inf) = true := fun hr => by
    have := q2 hr
    rcases Q with _ | ⟨a, b, hp⟩
    · cases this
    · rfl
  have hall : (decide (x_raw.length > 0) && bx && yb && r && !(montAffine Q).inf) = true ↔ x_raw ≠ [] ∧ bx = true ∧ yb = true ∧ r = true := by
    simp only [Bool.and_eq_true, nx]
    exact ⟨fun h => ⟨h.1.1.1.1, h.1.1.1.2, h.1.1.2, h.1.2⟩, fun h => ⟨⟨⟨⟨h.1, h.2.1⟩, h.2.2.1⟩, h.2.2.2⟩, hinf h.2.2.2⟩⟩
  refine ⟨_, _, rfl, hall.trans ?_, fun h => ?_⟩
  · rw [x2, y2]
    constructor
    · rintro ⟨h1, h2, h3, h4⟩
      obtain ⟨P, p1, p2⟩ := (q4 h1).1 h4
      rw [x3 (x2.2 h2)] at p1
      rw [y3 (y2.2 h3)] at p2
      exact ⟨h1, h2, h3, P, p1, p2⟩
    · rintro ⟨h1, h2, h3, P, p1, p2⟩
      refine ⟨h1, h2, h3, (q4 h1).2 ⟨P, ?_, ?_⟩⟩
      · rw [x3 (x2.2 h2)]; exact p1
      · rw [y3 (y2.2 h3)]; exact p2
  · obtain ⟨h1, h2, h3, h4⟩ := hall.1 h
    have hx := q2 h4
    have : (montAffine Q).x = x := by
      rcases Q with _ | ⟨a, b, hp⟩
      · cases hx
      · exact Option.some.inj hx
    rw [fe_export_le, this, x3 h2, ZMod.val_natCast_of_lt (x2.1 h2)]

end

/-- The hypotheses are met: the private keys 1 and 2 make an exchange over X25519, and the public key 9 is not refused. -/
example : ∃ (_ : Fact curve_x25519.fe.p.Prime) (ec : Mont (ZMod curve_x25519.fe.p)) (pub1 pub2 s s' : List Byte),
    mont_init curve_x25519 = .ok ec ∧ ecdh_pubkey_create ec (leBytes 32 1) = .ok pub1 ∧ ecdh_pubkey_create ec (leBytes 32 2) = .ok pub2 ∧
    ecdh_derive ec pub2 (leBytes 32 1) = .ok (s, true) ∧ ecdh_derive ec pub1 (leBytes 32 2) = .ok (s, true) ∧
    ecdh_derive ec (leBytes 32 9) (leBytes 32 1) = .ok (s', true) ∧
    ∃ t, ecdh_derive ec (leBytes 32 1) (leBytes 32 1) = .ok (t, false) := by
  have hd : curve_x25519 ∈ montDefs := List.mem_cons_self
  haveI := montDefs_prime hd
  obtain ⟨ec, he⟩ := mont_init_succeeds hd
  have hl : ∀ v, 32 ≤ (leBytes 32 v).length := fun v => (Strm.leBytes_len _ _).ge
  obtain ⟨pub1, e1, -⟩ := x25519_create_succeeds he (hl 1)
  obtain ⟨pub2, e2, -⟩ := x25519_create_succeeds he (hl 2)
  have hs : feSize curve_x25519.fe = 32 := by decide +kernel
  obtain ⟨s, s1, s2⟩ := ecdh_agreement hd he (by rw [hs]; exact hl 1) (by rw [hs]; exact hl 2) e1 e2
  obtain ⟨s', r, d1, d2⟩ := x25519_derive_fails_iff he (hl 9) (hl 1)
  obtain ⟨t, q, q1, q2⟩ := x25519_derive_fails_iff he (hl 1) (hl 1)
  have hx : ∀ v, v < 256 → pubX curve_x25519 (leBytes 32 v) = (v : ZMod curve_x25519.fe.p) := by
    intro v hv
    rw [pubX, hs, List.take_of_length_le (Strm.leBytes_len _ _).le, Strm.leVal_leBytes, Nat.mod_eq_of_lt (lt_trans hv (by norm_num)),
      Nat.mod_eq_of_lt (lt_of_lt_of_le hv ?_)]
    rw [show curve_x25519.fe.p.size = 255 from range_x25519.1]
    norm_num
  rw [hx _ (by omega)] at d2 q2
  have hr : r = true := by
    cases r with
    | true => rfl
    | false =>
      exfalso
      have h := d2.1 rfl
      have hne : ∀ a b : Nat, a % curve_x25519.fe.p ≠ b % curve_x25519.fe.p → (a : ZMod curve_x25519.fe.p) ≠ (b : ZMod curve_x25519.fe.p) :=
        fun a b hab h => hab ((ZMod.natCast_eq_natCast_iff' _ _ _).1 h)
      simp only [List.mem_cons, List.not_mem_nil, or_false] at h
      rcases h with h | h | h | h | h
      · exact hne 9 0 (by decide +kernel) (by rw [h, Nat.cast_zero])
      · exact hne 9 1 (by decide +kernel) (by rw [h, Nat.cast_one])
      · refine hne (9 + 1) 0 (by decide +kernel) ?_
        rw [Nat.cast_add, h, Nat.cast_one, Nat.cast_zero, neg_add_cancel]
      · exact hne 9 r1_25519 (by decide +kernel) h
      · exact hne 9 r2_25519 (by decide +kernel) h
  have hq : q = false := q2.2 (by rw [Nat.cast_one]; simp)
  subst hr hq
  exact ⟨inferInstance, ec, pub1, pub2, s, s', he, e1, e2, s1, s2, d1, t, q1⟩

end Torsion
