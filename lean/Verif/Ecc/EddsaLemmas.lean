import Verif.Ecc.EdByteLemmas
import Verif.Ecc.SchnorrLemmas

/-! Lemmas on the keys and signatures of EdDSA. -/
namespace Torsion.Ecc

open Torsion.Spec

/-! ### The curves -/

theorem ed_sizes : ∀ d ∈ edDefs, scSize (beVal d.sc.n) = feSize d.fe ∧ 2 ≤ feSize d.fe ∧
    2 * edLen d.fe * 8 ≤ (((beVal d.sc.n).size + 63) / 64 * 2 + 2) * 64 ∧ d.pfx.length ≤ 32 ∧ edLen d.fe ≤ 57 ∧
    (∃ i < 8, d.h = 2 ^ i) ∧ (d.hash = .SHA512 ∧ edLen d.fe = 32 ∨ d.hash = .SHAKE256 ∧ edLen d.fe = 57) := by
  intro d hd
  simp only [edDefs, List.mem_cons, List.not_mem_nil, or_false] at hd
  rcases hd with rfl | rfl | rfl
  · refine ⟨by decide +kernel, by decide +kernel, by decide +kernel, by decide +kernel, by decide +kernel, ⟨3, by omega, rfl⟩,
      Or.inl ⟨rfl, by decide +kernel⟩⟩
  · refine ⟨by decide +kernel, by decide +kernel, by decide +kernel, by decide +kernel, by decide +kernel, ⟨2, by omega, rfl⟩,
      Or.inr ⟨rfl, by decide +kernel⟩⟩
  · refine ⟨by decide +kernel, by decide +kernel, by decide +kernel, by decide +kernel, by decide +kernel, ⟨2, by omega, rfl⟩,
      Or.inl ⟨rfl, by decide +kernel⟩⟩

section
variable {d : EdwardsDef} (hd : d ∈ edDefs)

theorem ed_known : d ∈ edDefs → ∀ k, d.hash ≠ .other k := by
  intro hd k h
  rcases (ed_sizes d hd).2.2.2.2.2.2 with ⟨h', _⟩ | ⟨h', _⟩ <;> rw [h'] at h <;> cases h

include hd in
theorem ed_hash_len (m : List Byte) : (hash d.hash (2 * edLen d.fe) m).length = 2 * edLen d.fe := by
  obtain ⟨-, -, -, -, h57, -, h⟩ := ed_sizes d hd
  rw [hash_length _ _ _ (fun _ => by omega)]
  rcases h with ⟨h1, h2⟩ | ⟨h1, h2⟩
  · rw [h1, h2]; rfl
  · rw [h1, h2]; rfl

include hd in
theorem ed_final {h : HashCtx} {m : List Byte} (r : Hsh.HashRep d.hash h m) (junk : Nat → Byte) {len : Nat} (hl : len ≤ 200) :
    hash_final junk h len = .ok (hash d.hash len m) := Hsh.rep_final r junk _ fun _ => hl

end

theorem ed_bits_pos : ∀ d ∈ edDefs, 8 < d.fe.p.size := by
  intro d hd
  simp only [edDefs, List.mem_cons, List.not_mem_nil, or_false] at hd
  rcases hd with rfl | rfl | rfl <;> decide +kernel

theorem ed_h_dvd : ∀ d ∈ edDefs, d.h ∣ 2 ^ (d.fe.p.size - 1) := by
  intro d hd
  obtain ⟨i, hi, h⟩ := (ed_sizes d hd).2.2.2.2.2.1
  have := ed_bits_pos d hd
  rw [h]
  exact Nat.pow_dvd_pow 2 (by omega)

/-! ### Clamped numbers -/

theorem clamp_lt {bits h v : Nat} (hb : 8 < bits) : clamp bits h v < 2 ^ bits := by
  have h1 : v % 2 ^ (bits - 1) < 2 ^ (bits - 1) := Nat.mod_lt _ (by positivity)
  have h2 : v % 2 ^ (bits - 1) / h * h ≤ v % 2 ^ (bits - 1) := Nat.div_mul_le_self _ _
  have h3 : 2 ^ bits = 2 ^ (bits - 1) + 2 ^ (bits - 1) := by
    conv_lhs => rw [show bits = bits - 1 + 1 by omega, Nat.pow_succ]
    omega
  rw [clamp]
  omega

theorem clamp_dvd {bits h v : Nat} (hd : h ∣ 2 ^ (bits - 1)) : h ∣ clamp bits h v :=
  Dvd.dvd.add (Nat.dvd_mul_left _ _) hd

theorem clamp_clamp {bits h v : Nat} (hh : ∃ i < 8, h = 2 ^ i) : clamp bits h (clamp bits h v) = clamp bits h v := by
  obtain ⟨i, -, rfl⟩ := hh
  have h1 : v % 2 ^ (bits - 1) < 2 ^ (bits - 1) := Nat.mod_lt _ (by positivity)
  have h2 : v % 2 ^ (bits - 1) / 2 ^ i * 2 ^ i ≤ v % 2 ^ (bits - 1) := Nat.div_mul_le_self _ _
  unfold clamp
  rw [Nat.add_mod_right, Nat.mod_eq_of_lt (by omega), Nat.mul_div_cancel _ (by positivity)]

/-! ### Numbers -/

theorem red_le {n : Nat} {xp : List Byte} (h : scSize n ≤ xp.length) : num_import_reduce_le n xp = .ok (leVal (xp.take (scSize n)) % n) := by
  rw [num_import_reduce_le, slice_take h]; rfl

theorem raw_le {n : Nat} {xp : List Byte} (h : scSize n ≤ xp.length) : num_import_raw_le n xp = .ok (leVal (xp.take (scSize n))) := by
  rw [num_import_raw_le, slice_take h]; rfl

theorem imp_le {n : Nat} {xp : List Byte} (h : scSize n ≤ xp.length) : num_import_le n xp =
    .ok (if leVal (xp.take (scSize n)) < n then leVal (xp.take (scSize n)) else 0, decide (leVal (xp.take (scSize n)) < n)) := by
  rw [num_import_le, slice_take h]; rfl

/-! ### The second half of a signature -/

theorem ed_len_cases (fe : FieldCode) : (feBits fe % 8 = 0 ∧ edLen fe = feSize fe + 1) ∨ (feBits fe % 8 ≠ 0 ∧ edLen fe = feSize fe) := by
  rw [← adj_eq, feAdj]
  by_cases h : feBits fe % 8 = 0
  · left; rw [if_pos h]; exact ⟨h, rfl⟩
  · right; rw [if_neg h]; exact ⟨h, rfl⟩

/-- Writing the scalar of a signature. -/
theorem sig_write {fe : FieldCode} {n s : Nat} {R rest : List Byte} (hn : scSize n = feSize fe) (hs : s < n) (hR : R.length = edLen fe)
    (hr : rest.length = edLen fe) : (do
      let sig ← C.blit (R ++ rest) (feAdj fe) (num_export_le n s)
      if feBits fe % 8 = 0 then C.wr sig (feAdj fe + feSize fe) 0 else return sig) = C.ok (R ++ leBytes (edLen fe) s) := by
  have hlt : s < 256 ^ feSize fe := hn ▸ hs.trans (scSize_pow n)
  rw [adj_eq, num_export_le, hn, Blk.blit_eq (by rw [Strm.leBytes_len, List.length_append, hR, hr]; rcases ed_len_cases fe with h | h <;> omega),
    C.ok_bind, Strm.leBytes_len, List.take_append_of_le_length hR.ge, List.take_of_length_le hR.le, List.drop_append,
    List.drop_of_length_le (by omega), List.nil_append, hR, Nat.add_sub_cancel_left]
  rcases ed_len_cases fe with ⟨h1, h2⟩ | ⟨h1, h2⟩
  · rw [if_pos h1, h2, Hsh.leBytes_append, Nat.div_eq_of_lt hlt]
    obtain ⟨x, hx⟩ : ∃ x, rest.drop (feSize fe) = [x] := List.length_eq_one_iff.1 (by rw [List.length_drop]; omega)
    rw [hx, ← h2, Rsa.wr_at (by rw [List.length_append, hR, Strm.leBytes_len]), List.append_assoc]
    rfl
  · rw [if_neg h1, List.drop_of_length_le (by omega), h2, List.append_nil]
    rfl

/-- Reading the scalar of a signature. -/
theorem sig_read {fe : FieldCode} {n : Nat} {sig : List Byte} (hn : scSize n = feSize fe) (hl : sig.length = 2 * edLen fe) :
    ∃ (s : Nat) (b : Bool) (bad : Bool), num_import_le n (sig.drop (feAdj fe)) = .ok (s, b) ∧
      eddsa_sig_tail fe sig = .ok bad ∧ ((b = true ∧ bad = false) ↔ leVal (sig.drop (edLen fe)) < n) ∧
      (b = true → bad = false → s = leVal (sig.drop (edLen fe))) := by
  have hle : feSize fe ≤ (sig.drop (edLen fe)).length := by rw [List.length_drop]; rcases ed_len_cases fe with h | h <;> omega
  rw [eddsa_sig_tail, adj_eq, imp_le (by rw [hn]; exact hle), hn]
  rcases ed_len_cases fe with ⟨h1, h2⟩ | ⟨h1, h2⟩
  · rw [if_pos h1]
    obtain ⟨x, hx⟩ : ∃ x, (sig.drop (edLen fe)).drop (feSize fe) = [x] :=
      List.length_eq_one_iff.1 (by rw [List.length_drop, List.length_drop]; omega)
    have hs : sig.drop (edLen fe) = (sig.drop (edLen fe)).take (feSize fe) ++ [x] := by rw [← hx, List.take_append_drop]
    have hsig : sig = (sig.take (edLen fe) ++ (sig.drop (edLen fe)).take (feSize fe)) ++ x :: [] := by
      rw [List.append_assoc, ← hs, List.take_append_drop]
    have hrd : C.rd sig (edLen fe + feSize fe) = .ok x := by
      conv_lhs => rw [hsig]
      exact Rsa.rd_at (by rw [List.length_append, List.length_take, List.length_take, List.length_drop]; omega)
    rw [hrd, C.ok_bind]
    refine ⟨_, _, _, rfl, rfl, ?_, ?_⟩
    · have hv : leVal (sig.drop (edLen fe)) = leVal ((sig.drop (edLen fe)).take (feSize fe)) + 256 ^ feSize fe * x.toNat := by
        conv_lhs => rw [hs, leVal_append, List.length_take, Nat.min_eq_left hle]
        simp [leVal_cons, leVal_nil]
      have hp := scSize_pow n
      rw [hn] at hp
      rw [hv, decide_eq_true_iff, bne_eq_false_iff_eq]
      constructor
      · rintro ⟨h, rfl⟩
        simpa using h
      · intro h
        have hx0 : x.toNat = 0 := by
          by_contra hne
          have : 256 ^ feSize fe * 1 ≤ 256 ^ feSize fe * x.toNat := Nat.mul_le_mul_left _ (by omega)
          omega
        refine ⟨by omega, BitVec.eq_of_toNat_eq hx0⟩
    · intro h h'
      rw [decide_eq_true_iff] at h
      rw [if_pos h]
      conv_rhs => rw [hs, leVal_append, bne_eq_false_iff_eq.1 h']
      simp [leVal_cons, leVal_nil]
  · rw [if_neg h1, List.take_of_length_le (by rw [List.length_drop]; omega)]
    refine ⟨_, _, _, rfl, rfl, by simp, ?_⟩
    intro h _
    rw [decide_eq_true_iff] at h
    rw [if_pos h]

section
variable {d : EdwardsDef} (hd : d ∈ edDefs) [Fact d.fe.p.Prime] {ec : Edwards (ZMod d.fe.p)} [g : EdGood ec.a ec.d] {G : EPt ec.a ec.d}
  (ok : EdCurve d ec G)

include ok in
theorem ed_sc_eq : scSize ec.n = edScLen d := by rw [ok.nval]; rfl

include ok in
theorem ed_smul_mod (k : Nat) : (k % ec.n) • G = k • G := by
  conv_rhs => rw [← Nat.mod_add_div k ec.n, add_nsmul, mul_comm, mul_nsmul', ok.order, smul_zero, add_zero]

include hd ok in
theorem ed_prime : ec.n.Prime := by rw [ok.nval]; exact edDefs_sc d hd

include hd ok in
/-- The multiple of the cofactor of a point has an order dividing `n`. -/
theorem ed_kill (P : EPt ec.a ec.d) : ec.n • (ec.h • P) = 0 := by
  rw [← mul_nsmul', mul_comm, ← ok.card]
  have : Finite (EPt ec.a ec.d) := ed_finite
  exact card_nsmul_eq_zero'

include hd ok in
theorem ed_mulh {p : Xge (ZMod d.fe.p)} {P : EPt ec.a ec.d} (hp : Ext p P) : ∃ r, xge_mulh ec p = .ok r ∧ Ext r (ec.h • P) := by
  obtain ⟨j, hj, hh⟩ := (ed_sizes d hd).2.2.2.2.2.1
  exact xmulh (m := j) (by omega) (by rw [← hh, ok.hval]) hp

/-! ### Clamping -/

include hd ok in
theorem ed_clamp {xs : List Byte} (hl : edScLen d ≤ xs.length) : ∃ out, edwards_clamp ec xs = .ok out ∧ out.length = edScLen d ∧
    leVal out = clamp d.fe.p.size d.h (leVal (xs.take (edScLen d))) := by
  obtain ⟨s1, s2, -, -, -, ⟨j, hj, hh⟩, -⟩ := ed_sizes d hd
  have hn : scSize ec.n = edScLen d := ed_sc_eq ok
  let m : Mont (ZMod d.fe.p) := ⟨ec.bits, ec.n, ec.h, 0, 0, 0, false, 0, 0, none, 0, 0, 0, 0, ⟨0, 0, true⟩, []⟩
  have e : edwards_clamp ec xs = mont_clamp m xs := rfl
  have s1' : scSize m.n = feSize d.fe := by rw [show m.n = ec.n from rfl, ok.nval]; exact s1
  obtain ⟨out, h1, h2, h3⟩ := clamp_size (ec := m) s1' (by rw [s1']; exact s2) rfl ok.bits hj (by rw [← hh, ← ok.hval]) (xs := xs)
    (by rw [show m.n = ec.n from rfl, hn]; exact hl)
  refine ⟨out, e.trans h1, by rw [h2, ← hn], ?_⟩
  rw [h3, show m.bits = d.fe.p.size from ok.bits, show m.h = d.h from ok.hval, show m.n = ec.n from rfl, hn]

/-! ### Private keys -/

include hd ok in
theorem privkey_hash_ok (junk : Nat → Byte) {priv : List Byte} (hp : edLen d.fe ≤ priv.length) : ∃ s,
    eddsa_privkey_hash junk ec priv = .ok (s ++ (edExpand d (priv.take (edLen d.fe))).drop (edScLen d)) ∧ s.length = edScLen d ∧
    leVal s = edSecret d (priv.take (edLen d.fe)) := by
  obtain ⟨s1, s2, s3, s4, s5, -, -⟩ := ed_sizes d hd
  obtain ⟨h0, e0, r0⟩ := Hsh.rep_init junk d.hash (ed_known hd)
  obtain ⟨h1, e1, r1⟩ := upd r0 (d := priv.take (edLen d.fe)) (by rw [List.length_take]; omega)
  have hlen := ed_hash_len hd (priv.take (edLen d.fe))
  have hsc : edScLen d = feSize d.fe := s1
  have hle : feSize d.fe ≤ edLen d.fe := by rw [← adj_eq, feAdj]; omega
  obtain ⟨s, c1, c2, c3⟩ := ed_clamp hd ok (xs := edExpand d (priv.take (edLen d.fe))) (by rw [edExpand, hlen, hsc]; omega)
  refine ⟨s, ?_, c2, c3⟩
  unfold eddsa_privkey_hash
  rw [ok.hash, e0, C.ok_bind, adj_eq, slice_take hp, C.ok_bind, e1, C.ok_bind, ed_final hd r1 junk (by omega), C.ok_bind, mul_comm,
    List.nil_append, ← edExpand, c1, C.ok_bind, ed_sc_eq ok]
  rfl

include hd ok in
theorem privkey_expand_ok (junk : Nat → Byte) {priv : List Byte} (hp : edLen d.fe ≤ priv.length) : ∃ s,
    eddsa_privkey_expand junk ec priv = .ok (s, edPrefix d (priv.take (edLen d.fe))) ∧
    eddsa_privkey_convert junk ec priv = .ok s ∧ s.length = edScLen d ∧ leVal s = edSecret d (priv.take (edLen d.fe)) := by
  obtain ⟨s1, s2, s3, s4, s5, -, -⟩ := ed_sizes d hd
  obtain ⟨s, e1, e2, e3⟩ := privkey_hash_ok hd ok junk hp
  have hsc : edScLen d = feSize d.fe := s1
  have hle : feSize d.fe ≤ edLen d.fe := by rw [← adj_eq, feAdj]; omega
  have hlen := ed_hash_len hd (priv.take (edLen d.fe))
  rw [← edExpand] at hlen
  have hsl : C.slice (s ++ (edExpand d (priv.take (edLen d.fe))).drop (edScLen d)) 0 (edScLen d) = .ok s := by
    rw [slice_take (by rw [List.length_append, e2]; omega), List.take_append_of_le_length e2.ge, List.take_of_length_le e2.le]
  refine ⟨s, ?_, ?_, e2, e3⟩
  · unfold eddsa_privkey_expand
    rw [ed_sc_eq ok, adj_eq, check_true (by rw [hsc]; exact hle), C.ok_bind, e1, C.ok_bind, hsl, C.ok_bind, C.slice, if_pos, C.ok_bind]
    · have hd1 : (s ++ (edExpand d (priv.take (edLen d.fe))).drop (edScLen d)).drop (edLen d.fe) = (edExpand d (priv.take (edLen d.fe))).drop (edLen d.fe) := by
        rw [List.drop_append, List.drop_of_length_le (by omega), List.nil_append, List.drop_drop, e2]
        congr 1
        omega
      rw [hd1, List.take_of_length_le (by rw [List.length_drop, hlen]; omega)]
      rfl
    · rw [List.length_append, List.length_drop, e2, hlen]
      omega
  · unfold eddsa_privkey_convert
    rw [e1, C.ok_bind, ed_sc_eq ok, hsl]

/-! ### Public keys -/

include ok in
theorem from_scalar_ok {s : List Byte} (hs : edScLen d ≤ s.length) :
    eddsa_pubkey_from_scalar ec s = .ok (edBytes (leVal (s.take (edScLen d)) • G)) := by
  have hn := ed_sc_eq ok
  obtain ⟨j, h1, h2⟩ := xmul_g ok.toEdOk (leVal (s.take (edScLen d)) % ec.n)
  rw [ed_smul_mod ok] at h2
  unfold eddsa_pubkey_from_scalar
  rw [red_le (by rw [hn]; exact hs), C.ok_bind, hn, h1, C.ok_bind, xexport h2]

include hd ok in
theorem pubkey_create_ok (junk : Nat → Byte) {priv : List Byte} (hp : edLen d.fe ≤ priv.length) :
    eddsa_pubkey_create junk ec priv = .ok (edBytes (edSecret d (priv.take (edLen d.fe)) • G)) := by
  obtain ⟨s, -, e1, e2, e3⟩ := privkey_expand_ok hd ok junk hp
  unfold eddsa_pubkey_create
  rw [e1, C.ok_bind, from_scalar_ok ok e2.ge, List.take_of_length_le e2.le, e3]

include hd ok in
theorem pub_import {raw : List Byte} (hl : edLen d.fe ≤ raw.length) : ∃ (Q : EPt ec.a ec.d) (b : Bool),
    xge_import ec raw = .ok (xaff Q, b) ∧ (b = true ↔ raw.take (edLen d.fe) = edBytes Q) ∧
    ∀ P : EPt ec.a ec.d, raw.take (edLen d.fe) = edBytes P → P = Q := ximport (edDefs_fe d hd) ok.const hl

/-! ### Hashes -/

include hd ok in
theorem ed_hash_init (junk : Nat → Byte) (ph : Int) (ctx : List Byte) : ∃ h, eddsa_hash_init junk ec ph ctx = .ok h ∧
    Hsh.HashRep d.hash h (edDom d ph ctx) := by
  obtain ⟨-, -, -, s4, -, -, -⟩ := ed_sizes d hd
  obtain ⟨h0, e0, r0⟩ := Hsh.rep_init junk d.hash (ed_known hd)
  have hc : (if ctx.length > 255 then ctx.take 255 else ctx) = ctx.take 255 := by
    split
    · rfl
    · rw [List.take_of_length_le (by omega)]
  have h0' : (ctx.take 255).length > 0 ↔ ctx ≠ [] := by
    rw [List.length_take]
    cases ctx <;> simp
  obtain ⟨h1, e1, r1⟩ := upd r0 (d := d.pfx) (by omega)
  obtain ⟨h2, e2, r2⟩ := upd r1 (d := [if ph > 0 then 1 else 0]) (by simp)
  obtain ⟨h3, e3, r3⟩ := upd r2 (d := [BitVec.ofNat 8 (ctx.take 255).length]) (by simp)
  obtain ⟨h4, e4, r4⟩ := upd r3 (d := ctx.take 255) (by rw [List.length_take]; omega)
  unfold eddsa_hash_init
  dsimp only
  rw [hc, ok.hash, e0, C.ok_bind, ok.context, ok.pfx]
  by_cases hcond : d.context = false ∧ ph = -1 ∧ ctx = []
  · rw [if_neg]
    · exact ⟨h0, rfl, by rw [edDom, if_pos hcond]; exact r0⟩
    · simp [hcond.1, hcond.2.1, hcond.2.2]
  · rw [if_pos]
    · rw [e1, C.ok_bind, e2, C.ok_bind, e3, C.ok_bind]
      exact ⟨h4, e4, by rw [edDom, if_neg hcond]; simpa using r4⟩
    · simp only [Bool.or_eq_true, bne_iff_ne, decide_eq_true_eq, h0']
      cases hct : d.context
      · simp [hct] at hcond
        by_cases hph : ph = -1
        · right; exact hcond hph
        · left; right; exact hph
      · simp

include hd ok in
theorem ed_hash_fin (junk : Nat → Byte) {h : HashCtx} {m : List Byte} (r : Hsh.HashRep d.hash h m) :
    eddsa_hash_final junk ec h = .ok (edHashNum d m) := by
  obtain ⟨-, -, s3, -, s5, -, -⟩ := ed_sizes d hd
  have hlen := ed_hash_len hd m
  unfold eddsa_hash_final
  rw [adj_eq, mul_comm (edLen d.fe) 2, ed_final hd r junk (by omega), C.ok_bind, slice_take hlen.ge, C.ok_bind, List.take_of_length_le hlen.le,
    num_import_wide_le, hlen, ok.nval, check_true s3]
  rfl

include hd ok in
theorem ed_hash_nonce (junk : Nat → Byte) {pre msg : List Byte} (hp : edLen d.fe ≤ pre.length) (hm : msg.length < 2 ^ 64) (ph : Int)
    (ctx : List Byte) : eddsa_hash_nonce junk ec pre msg ph ctx = .ok (edHashNum d (edDom d ph ctx ++ pre.take (edLen d.fe) ++ msg)) := by
  obtain ⟨-, -, -, -, s5, -, -⟩ := ed_sizes d hd
  obtain ⟨h0, e0, r0⟩ := ed_hash_init hd ok junk ph ctx
  obtain ⟨h1, e1, r1⟩ := upd r0 (d := pre.take (edLen d.fe)) (by rw [List.length_take]; omega)
  obtain ⟨h2, e2, r2⟩ := upd r1 hm
  unfold eddsa_hash_nonce eddsa_hash_update
  rw [e0, C.ok_bind, adj_eq, slice_take hp, C.ok_bind, e1, C.ok_bind, e2, C.ok_bind, ed_hash_fin hd ok junk r2]

include hd ok in
theorem ed_hash_challenge (junk : Nat → Byte) {r a msg : List Byte} (hr : edLen d.fe ≤ r.length) (ha : edLen d.fe ≤ a.length)
    (hm : msg.length < 2 ^ 64) (ph : Int) (ctx : List Byte) : eddsa_hash_challenge junk ec r a msg ph ctx =
      .ok (edHashNum d (edDom d ph ctx ++ r.take (edLen d.fe) ++ a.take (edLen d.fe) ++ msg)) := by
  obtain ⟨-, -, -, -, s5, -, -⟩ := ed_sizes d hd
  obtain ⟨h0, e0, r0⟩ := ed_hash_init hd ok junk ph ctx
  obtain ⟨h1, e1, r1⟩ := upd r0 (d := r.take (edLen d.fe)) (by rw [List.length_take]; omega)
  obtain ⟨h2, e2, r2⟩ := upd r1 (d := a.take (edLen d.fe)) (by rw [List.length_take]; omega)
  obtain ⟨h3, e3, r3⟩ := upd r2 hm
  unfold eddsa_hash_challenge eddsa_hash_update
  rw [e0, C.ok_bind, adj_eq, slice_take hr, C.ok_bind, slice_take ha, C.ok_bind, e1, C.ok_bind, e2, C.ok_bind, e3, C.ok_bind,
    ed_hash_fin hd ok junk r3]

/-! ### Signing -/

include ok in
theorem edSigned_mod (dom : List Byte) (k : Nat) (pre msg : List Byte) : edSigned d G dom (k % ec.n) pre msg = edSigned d G dom k pre msg := by
  unfold edSigned
  dsimp only
  rw [ed_smul_mod ok, ← ok.nval]
  congr 1
  rw [Nat.add_mod, Nat.mul_mod, Nat.mod_mod, ← Nat.mul_mod, ← Nat.add_mod]

omit g in
theorem edSig_len (P : EPt ec.a ec.d) (s : Nat) : (edSig d P s).length = 2 * edLen d.fe := by
  rw [edSig, List.length_append, edBytes_len, Strm.leBytes_len, two_mul]

include hd ok in
theorem eddsa_sign_ok (junk : Nat → Byte) {sig msg scalar pre : List Byte} (hsig : sig.length = 2 * edLen d.fe) (hm : msg.length < 2 ^ 64)
    (hs : edScLen d ≤ scalar.length) (hp : edLen d.fe ≤ pre.length) (ph : Int) (ctx : List Byte) :
    eddsa_sign_with_scalar junk ec sig msg scalar pre ph ctx =
      .ok (edSigned d G (edDom d ph ctx) (leVal (scalar.take (edScLen d))) (pre.take (edLen d.fe)) msg) := by
  obtain ⟨s1, s2, -, -, s5, -, -⟩ := ed_sizes d hd
  have hn := ed_sc_eq ok
  have hsc : edScLen d = feSize d.fe := s1
  have hn0 : 0 < ec.n := ok.pos
  rw [← edSigned_mod ok]
  generalize hk : edHashNum d (edDom d ph ctx ++ pre.take (edLen d.fe) ++ msg) = k
  generalize hr : leVal (scalar.take (edScLen d)) % ec.n = a
  obtain ⟨j1, f1, x1⟩ := xmul_g ok.toEdOk k
  obtain ⟨j2, f2, x2⟩ := xmul_g ok.toEdOk a
  have hch := ed_hash_challenge hd ok junk (r := edBytes (k • G)) (a := edBytes (a • G)) (edBytes_len _).ge (edBytes_len _).ge hm ph ctx
  rw [List.take_of_length_le (edBytes_len _).le, List.take_of_length_le (edBytes_len _).le] at hch
  have hfin : edSigned d G (edDom d ph ctx) a (pre.take (edLen d.fe)) msg = edSig d (k • G)
      ((edHashNum d (edDom d ph ctx ++ edBytes (k • G) ++ edBytes (a • G) ++ msg) * a % ec.n + k) % ec.n) := by
    unfold edSigned
    dsimp only
    rw [hk, ← ok.nval, Nat.mod_add_mod, Nat.add_comm]
  rw [hfin]
  unfold eddsa_sign_with_scalar
  rw [ed_hash_nonce hd ok junk hp hm, C.ok_bind, hk, red_le (by rw [hn]; exact hs), C.ok_bind, hn, hr, f1, C.ok_bind, f2, C.ok_bind,
    xexport x1, C.ok_bind, xexport x2, C.ok_bind, Blk.blit_eq (by rw [edBytes_len, hsig]; omega), C.ok_bind, hch, C.ok_bind]
  rw [List.take_zero, List.nil_append, edBytes_len, Nat.zero_add]
  exact sig_write (by rw [hn]; exact hsc) (Nat.mod_lt _ hn0) (edBytes_len _) (by rw [List.length_drop, hsig]; omega)

include hd ok in
theorem eddsa_sign_priv (junk : Nat → Byte) {sig msg priv : List Byte} (hsig : sig.length = 2 * edLen d.fe) (hm : msg.length < 2 ^ 64)
    (hp : edLen d.fe ≤ priv.length) (ph : Int) (ctx : List Byte) : eddsa_sign junk ec sig msg priv ph ctx =
      .ok (edSigned d G (edDom d ph ctx) (edSecret d (priv.take (edLen d.fe))) (edPrefix d (priv.take (edLen d.fe))) msg) := by
  obtain ⟨s, e1, -, e2, e3⟩ := privkey_expand_ok hd ok junk hp
  have hpre : (edPrefix d (priv.take (edLen d.fe))).length = edLen d.fe := by
    rw [edPrefix, List.length_drop, edExpand, ed_hash_len hd]; omega
  unfold eddsa_sign
  rw [e1, C.ok_bind]
  dsimp only
  rw [eddsa_sign_ok hd ok junk hsig hm e2.ge hpre.ge, List.take_of_length_le e2.le, e3, List.take_of_length_le hpre.le]

/-! ### Verification -/

include hd ok in
theorem edSig_eq {sig : List Byte} (hl : sig.length = 2 * edLen d.fe) {R : EPt ec.a ec.d} {s : Nat} (hs : s < ec.n) :
    sig = edSig d R s ↔ sig.take (edLen d.fe) = edBytes R ∧ leVal (sig.drop (edLen d.fe)) = s := by
  have hlt : s < 256 ^ edLen d.fe := by
    have h1 := (ed_sizes d hd).1
    have h2 := scSize_pow ec.n
    rw [ok.nval, h1] at h2
    rw [ok.nval] at hs
    refine (hs.trans h2).trans_le (Nat.pow_le_pow_right (by omega) ?_)
    rcases ed_len_cases d.fe with h | h <;> omega
  constructor
  · rintro rfl
    rw [edSig, List.take_append_of_le_length (edBytes_len _).ge, List.take_of_length_le (edBytes_len _).le, List.drop_append,
      List.drop_of_length_le (edBytes_len _).le, List.nil_append, edBytes_len, Nat.sub_self, List.drop_zero, Strm.leVal_leBytes,
      Nat.mod_eq_of_lt hlt]
    exact ⟨rfl, rfl⟩
  · rintro ⟨h1, h2⟩
    rw [← List.take_append_drop (edLen d.fe) sig, h1, edSig]
    congr 1
    refine leVal_inj (by rw [Strm.leBytes_len, List.length_drop, hl]; omega) ?_
    rw [h2, Strm.leVal_leBytes, Nat.mod_eq_of_lt hlt]

/-- What a well-formed signature stands for. -/
def EdParsed (d : EdwardsDef) [Fact d.fe.p.Prime] {a b : ZMod d.fe.p} (dom msg sig pub : List Byte) (s e : Nat) (R A : EPt a b) : Prop :=
  pub = edBytes A ∧ s < beVal d.sc.n ∧ sig = edSig d R s ∧ e = edHashNum d (dom ++ edBytes R ++ edBytes A ++ msg)

include hd ok in
theorem parsed_unique {dom msg sig pub : List Byte} {s e s' e' : Nat} {R A R' A' : EPt ec.a ec.d}
    (h : EdParsed d dom msg sig pub s e R A) (h' : EdParsed d dom msg sig pub s' e' R' A') : s = s' ∧ e = e' ∧ R = R' ∧ A = A' := by
  obtain ⟨a1, a2, a3, a4⟩ := h
  obtain ⟨b1, b2, b3, b4⟩ := h'
  have hl : sig.length = 2 * edLen d.fe := by rw [a3, edSig_len]
  obtain ⟨c1, c2⟩ := (edSig_eq hd ok hl (by rw [ok.nval]; exact a2)).1 a3
  obtain ⟨d1, d2⟩ := (edSig_eq hd ok hl (by rw [ok.nval]; exact b2)).1 b3
  obtain rfl := edBytes_inj (c1.symm.trans d1)
  obtain rfl := edBytes_inj (a1.symm.trans b1)
  exact ⟨c2.symm.trans d2, a4.trans b4.symm, rfl, rfl⟩

include hd ok in
theorem eddsa_item_ok (junk : Nat → Byte) {msg sig pub : List Byte} (hm : msg.length < 2 ^ 64) (hsig : sig.length = 2 * edLen d.fe)
    (hpub : pub.length = edLen d.fe) (ph : Int) (ctx : List Byte) :
    (eddsa_item junk ec msg sig pub ph ctx = .ok none ∧ ∀ s e, ∀ R A : EPt ec.a ec.d, ¬ EdParsed d (edDom d ph ctx) msg sig pub s e R A) ∨
    ∃ s e, ∃ R A : EPt ec.a ec.d, eddsa_item junk ec msg sig pub ph ctx = .ok (some ⟨s, xaff R, xaff A, e⟩) ∧ s < ec.n ∧ e < ec.n ∧
      EdParsed d (edDom d ph ctx) msg sig pub s e R A := by
  have hn0 : 0 < ec.n := ok.pos
  obtain ⟨R, b1, f1, g1, u1⟩ := pub_import hd ok (raw := sig) (by omega)
  obtain ⟨A, b2, f2, g2, u2⟩ := pub_import hd ok (raw := pub) hpub.ge
  rw [List.take_of_length_le hpub.le] at g2 u2
  obtain ⟨s, b3, bad, f3, f4, g3, g4⟩ := sig_read (fe := d.fe) (n := ec.n) (by rw [ok.nval]; exact (ed_sizes d hd).1) hsig
  have hch := ed_hash_challenge hd ok junk (r := sig) (a := pub) (by omega) hpub.ge hm ph ctx
  rw [List.take_of_length_le hpub.le] at hch
  unfold eddsa_item
  rw [f1, C.ok_bind]
  dsimp only
  have hbad : ∀ {s' e' R' A'}, EdParsed d (edDom d ph ctx) msg sig pub s' e' R' A' → sig.take (edLen d.fe) = edBytes R' ∧
      leVal (sig.drop (edLen d.fe)) = s' := fun h => (edSig_eq hd ok hsig (by rw [ok.nval]; exact h.2.1)).1 h.2.2.1
  cases b1 with
  | false =>
    left
    refine ⟨rfl, fun s' e' R' A' h => ?_⟩
    have h1 := (hbad h).1
    obtain rfl := u1 _ h1
    exact absurd (g1.2 h1) (by simp)
  | true =>
  rw [f2]
  simp only [Bool.not_true, Bool.false_eq_true, if_false, C.ok_bind]
  cases b2 with
  | false =>
    left
    refine ⟨rfl, fun s' e' R' A' h => ?_⟩
    obtain rfl := u2 _ h.1
    exact absurd (g2.2 h.1) (by simp)
  | true =>
  simp only [Bool.not_true, Bool.false_eq_true, if_false]
  rw [f3, C.ok_bind]
  dsimp only
  cases b3 with
  | false =>
    left
    refine ⟨rfl, fun s' e' R' A' h => ?_⟩
    have h1 := (hbad h).2
    have h2 : s' < ec.n := by rw [ok.nval]; exact h.2.1
    exact absurd (g3.2 (by omega)).1 (by simp)
  | true =>
  simp only [Bool.not_true, Bool.false_eq_true, if_false]
  rw [f4, C.ok_bind]
  cases bad with
  | true =>
    left
    refine ⟨rfl, fun s' e' R' A' h => ?_⟩
    have h1 := (hbad h).2
    have h2 : s' < ec.n := by rw [ok.nval]; exact h.2.1
    exact absurd (g3.2 (by omega)).2 (by simp)
  | false =>
  right
  have hs := g4 rfl rfl
  have hlt := g3.1 ⟨rfl, rfl⟩
  have hR := g1.1 rfl
  have hA := g2.1 rfl
  rw [hR] at hch
  simp only [Bool.false_eq_true, if_false]
  rw [hch]
  refine ⟨s, _, R, A, rfl, hs ▸ hlt, ?_, ?_, ?_, ?_, ?_⟩
  · rw [edHashNum, ← ok.nval]; exact Nat.mod_lt _ hn0
  · exact hA
  · rw [← ok.nval]; exact hs ▸ hlt
  · exact (edSig_eq hd ok hsig (hs ▸ hlt)).2 ⟨hR, hs.symm⟩
  · rw [← hA]

include hd ok in
theorem eddsa_verify_ok (junk : Nat → Byte) {msg sig pub : List Byte} (hm : msg.length < 2 ^ 64) (hsig : sig.length = 2 * edLen d.fe)
    (hpub : pub.length = edLen d.fe) (ph : Int) (ctx : List Byte) : ∃ b, eddsa_verify junk ec msg sig pub ph ctx = .ok b ∧
      (b = true ↔ EddsaValid d G (edDom d ph ctx) msg sig pub) := by
  unfold eddsa_verify
  rcases eddsa_item_ok hd ok junk hm hsig hpub ph ctx with ⟨h1, h2⟩ | ⟨s, e, R, A, h1, hs, he, h2⟩
  · rw [h1, C.ok_bind]
    refine ⟨false, rfl, ?_⟩
    simp only [Bool.false_eq_true, false_iff]
    rintro ⟨A, R, s, v1, v2, v3, v4⟩
    exact h2 _ _ _ _ ⟨v1, v2, v3, rfl⟩
  · rw [h1, C.ok_bind]
    dsimp only
    obtain ⟨j, f1, f2⟩ := xdouble ok.toEdOk (xneg (ext_aff A)) (k1 := s) (k2 := e) hs he
    rw [f1, C.ok_bind]
    refine ⟨_, rfl, ?_⟩
    rw [equal_iff (ext_aff R) f2]
    constructor
    · intro h
      obtain ⟨a1, a2, a3, a4⟩ := h2
      refine ⟨A, R, s, a1, a2, a3, ?_⟩
      rw [← a4, h, smul_neg]
      abel
    · rintro ⟨A', R', s', v1, v2, v3, v4⟩
      obtain ⟨rfl, h3, rfl, rfl⟩ := parsed_unique hd ok h2 ⟨v1, v2, v3, rfl⟩
      rw [← h3] at v4
      rw [smul_neg, v4]
      abel

include hd ok in
theorem eddsa_verify_single_ok (junk : Nat → Byte) {msg sig pub : List Byte} (hm : msg.length < 2 ^ 64) (hsig : sig.length = 2 * edLen d.fe)
    (hpub : pub.length = edLen d.fe) (ph : Int) (ctx : List Byte) : ∃ b, eddsa_verify_single junk ec msg sig pub ph ctx = .ok b ∧
      (b = true ↔ EddsaValidH d G (edDom d ph ctx) msg sig pub) := by
  have hn0 : 0 < ec.n := ok.pos
  unfold eddsa_verify_single
  rcases eddsa_item_ok hd ok junk hm hsig hpub ph ctx with ⟨h1, h2⟩ | ⟨s, e, R, A, h1, hs, he, h2⟩
  · rw [h1, C.ok_bind]
    refine ⟨false, rfl, ?_⟩
    simp only [Bool.false_eq_true, false_iff]
    rintro ⟨A, R, s, v1, v2, v3, v4⟩
    exact h2 _ _ _ _ ⟨v1, v2, v3, rfl⟩
  · rw [h1, C.ok_bind]
    dsimp only
    obtain ⟨j1, f1, f2⟩ := ed_mulh hd ok (ext_aff A)
    obtain ⟨j2, f3, f4⟩ := ed_mulh hd ok (ext_aff R)
    obtain ⟨j, f5, f6⟩ := xdouble ok.toEdOk (xneg f2) (k1 := s * ec.h % ec.n) (k2 := e) (Nat.mod_lt _ hn0) he
    rw [f1, C.ok_bind, f3, C.ok_bind, f5, C.ok_bind]
    refine ⟨_, rfl, ?_⟩
    rw [equal_iff f4 f6, ed_smul_mod ok, mul_comm s, mul_nsmul', ok.hval]
    constructor
    · intro h
      obtain ⟨a1, a2, a3, a4⟩ := h2
      refine ⟨A, R, s, a1, a2, a3, ?_⟩
      rw [← a4, h, smul_neg, mul_nsmul', smul_comm e]
      abel
    · rintro ⟨A', R', s', v1, v2, v3, v4⟩
      obtain ⟨rfl, h3, rfl, rfl⟩ := parsed_unique hd ok h2 ⟨v1, v2, v3, rfl⟩
      rw [← h3] at v4
      rw [smul_neg, v4, mul_nsmul', smul_comm e]
      abel

/-! ### Tweaks -/

include hd ok in
theorem sc_bytes_eq {a : Nat} (ha : a < ec.n) : num_export_le ec.n a = leBytes (edScLen d) a ∧ leVal (num_export_le ec.n a) = a ∧
    (num_export_le ec.n a).length = edScLen d := by
  have hp := scSize_pow ec.n
  rw [num_export_le, ed_sc_eq ok, Strm.leVal_leBytes, Strm.leBytes_len] 
  rw [ed_sc_eq ok] at hp
  exact ⟨rfl, Nat.mod_eq_of_lt (ha.trans hp), rfl⟩

include hd ok in
theorem tweak_prefix_ok (junk : Nat → Byte) {pre tweak : List Byte} (hp : pre.length = edLen d.fe) (ht : tweak.length = edScLen d) :
    ∃ out, eddsa_tweak_prefix junk ec pre tweak = .ok out ∧ edLen d.fe ≤ out.length ∧ out.take (edLen d.fe) = edTweakPrefix d pre tweak := by
  obtain ⟨s1, -, -, -, s5, -, s7⟩ := ed_sizes d hd
  have hsc : edScLen d = feSize d.fe := s1
  have hle : feSize d.fe ≤ edLen d.fe := by rw [← adj_eq, feAdj]; omega
  obtain ⟨h0, e0, r0⟩ := Hsh.rep_init junk d.hash (ed_known hd)
  obtain ⟨h1, e1, r1⟩ := upd r0 (d := pre) (by omega)
  obtain ⟨h2, e2, r2⟩ := upd r1 (d := tweak) (by omega)
  refine ⟨hash d.hash (edLen d.fe) (pre ++ tweak), ?_, ?_, rfl⟩
  · unfold eddsa_tweak_prefix
    rw [ok.hash, e0, C.ok_bind, adj_eq, slice_take hp.ge, C.ok_bind, ed_sc_eq ok, slice_take ht.ge, C.ok_bind,
      List.take_of_length_le hp.le, List.take_of_length_le ht.le, e1, C.ok_bind, e2, C.ok_bind, ed_final hd r2 junk (by omega)]
    rfl
  · rw [hash_length _ _ _ (fun _ => by omega)]
    rcases s7 with ⟨h1, h2⟩ | ⟨h1, h2⟩
    · rw [h1, h2]; decide
    · rw [h1, h2]; decide

/-! ### Private keys by trial -/

include hd ok in
theorem grind_loop {S : Type} (gen : ByteGen S) (junk : Nat → Byte) (check : List Byte → Bool) : ∀ (fuel : Nat) (s : S),
    (eddsa_privkey_grind_loop gen junk ec check fuel s = .spin ∧
      ∀ i < fuel, check (edBytes (edSecret d (gen.gen ((fun s => (gen.gen s (edLen d.fe)).2)^[i] s) (edLen d.fe)).1 • G)) = false) ∨
    ∃ i < fuel, eddsa_privkey_grind_loop gen junk ec check fuel s = .ok (gen.gen ((fun s => (gen.gen s (edLen d.fe)).2)^[i] s) (edLen d.fe)).1 ∧
      check (edBytes (edSecret d (gen.gen ((fun s => (gen.gen s (edLen d.fe)).2)^[i] s) (edLen d.fe)).1 • G)) = true ∧
      ∀ j < i, check (edBytes (edSecret d (gen.gen ((fun s => (gen.gen s (edLen d.fe)).2)^[j] s) (edLen d.fe)).1 • G)) = false
  | 0, s => Or.inl ⟨rfl, by simp⟩
  | fuel + 1, s => by
    have hlen : (gen.gen s (edLen d.fe)).1.length = edLen d.fe := gen.len _ _
    obtain ⟨x, e1, e2, e3⟩ := privkey_hash_ok hd ok junk (priv := (gen.gen s (edLen d.fe)).1) hlen.ge
    rw [List.take_of_length_le hlen.le] at e1 e3
    obtain ⟨j, f1, f2⟩ := xmul_g ok.toEdOk (edSecret d (gen.gen s (edLen d.fe)).1 % ec.n)
    rw [ed_smul_mod ok] at f2
    have himp : num_import_reduce_le ec.n (x ++ (edExpand d (gen.gen s (edLen d.fe)).1).drop (edScLen d)) =
        .ok (edSecret d (gen.gen s (edLen d.fe)).1 % ec.n) := by
      rw [red_le (by rw [ed_sc_eq ok, List.length_append]; omega), ed_sc_eq ok, List.take_append_of_le_length e2.ge,
        List.take_of_length_le e2.le, e3]
    rw [eddsa_privkey_grind_loop]
    rw [adj_eq, e1, R.lift_ok, R.ok_bind, himp, R.lift_ok, R.ok_bind, f1, R.lift_ok, R.ok_bind, xexport f2, R.lift_ok, R.ok_bind]
    cases hc : check (edBytes (edSecret d (gen.gen s (edLen d.fe)).1 • G)) with
    | true =>
      right
      refine ⟨0, by omega, by simp, hc, by simp⟩
    | false =>
      simp only [Bool.false_eq_true, if_false]
      rcases grind_loop gen junk check fuel (gen.gen s (edLen d.fe)).2 with ⟨h1, h2⟩ | ⟨i, hi, h1, h2, h3⟩
      · left
        refine ⟨h1, fun i hi => ?_⟩
        rcases i with _ | i
        · exact hc
        · rw [Function.iterate_succ_apply]; exact h2 i (by omega)
      · right
        refine ⟨i + 1, by omega, ?_, ?_, fun j hj => ?_⟩
        · rw [Function.iterate_succ_apply]; exact h1
        · rw [Function.iterate_succ_apply]; exact h2
        · rcases j with _ | j
          · exact hc
          · rw [Function.iterate_succ_apply]; exact h3 j (by omega)

/-! ### Public keys -/

include hd ok in
theorem combine_loop : ∀ (pubs : List (List Byte)), (∀ p ∈ pubs, p.length = edLen d.fe) → ∀ (x : Xge (ZMod d.fe.p)) (X : EPt ec.a ec.d)
    (ret : Bool), Ext x X → ∃ y Y b, eddsa_pubkey_combine_loop ec pubs x ret = .ok (y, b) ∧ Ext y Y ∧
      (b = true ↔ ret = true ∧ ∃ Ps : List (EPt ec.a ec.d), pubs = Ps.map edBytes) ∧
      ∀ Ps : List (EPt ec.a ec.d), pubs = Ps.map edBytes → Y = X + Ps.sum
  | [], _, x, X, ret, hx => ⟨x, X, ret, rfl, hx, by simp, by
      intro Ps h
      rw [show Ps = [] by simpa using h.symm]; simp⟩
  | p :: ps, hl, x, X, ret, hx => by
    have hp := hl p List.mem_cons_self
    obtain ⟨Q, b, f1, g1, u1⟩ := pub_import hd ok (raw := p) hp.ge
    rw [List.take_of_length_le hp.le] at g1 u1
    obtain ⟨y, Y, b', h1, h2, h3, h4⟩ := combine_loop ps (fun q hq => hl q (List.mem_cons_of_mem _ hq)) _ _ (ret && b) (xmadd ok.const hx Q)
    refine ⟨y, Y, b', ?_, h2, ?_, ?_⟩
    · rw [eddsa_pubkey_combine_loop, f1, C.ok_bind]; exact h1
    · rw [h3, Bool.and_eq_true, and_assoc, g1]
      refine and_congr_right fun _ => ?_
      constructor
      · rintro ⟨h, Ps, rfl⟩
        exact ⟨Q :: Ps, by rw [h]; rfl⟩
      · rintro ⟨Ps, hPs⟩
        rcases Ps with _ | ⟨P, Ps⟩
        · cases hPs
        · simp only [List.map_cons, List.cons.injEq] at hPs
          obtain rfl := u1 _ hPs.1
          exact ⟨hPs.1, Ps, hPs.2⟩
    · rintro Ps hPs
      rcases Ps with _ | ⟨P, Ps⟩
      · cases hPs
      · simp only [List.map_cons, List.cons.injEq] at hPs
        obtain rfl := u1 _ hPs.1
        rw [h4 _ hPs.2, List.sum_cons, add_assoc]

omit [Fact d.fe.p.Prime] in
theorem import_pad_fe (fe : FieldCode) [Fact fe.p.Prime] (xp : List Byte) : ∃ x b, fe_import_pad_le fe xp = .ok (x, b) ∧
    (b = true ↔ leVal xp < fe.p) ∧ (b = true → x = (leVal xp : ZMod fe.p)) := by
  obtain ⟨h1, h2, h3, h4⟩ := byte_pad_le_ok (feSize fe) xp
  unfold fe_import_pad_le
  dsimp only
  rw [fe_import_le_ok fe h1.ge, C.ok_bind, List.take_of_length_le h1.le]
  have hp := feSize_pow fe
  refine ⟨_, _, rfl, ?_, ?_⟩
  · rw [Bool.and_eq_true, h2, decide_eq_true_iff]
    constructor
    · rintro ⟨a, b⟩; rwa [h3 a] at b
    · intro a; have := a.trans hp; exact ⟨this, by rwa [h3 this]⟩
  · rw [Bool.and_eq_true, h2, decide_eq_true_iff]
    rintro ⟨a, b⟩
    rw [h3 a] at b ⊢
    dsimp only
    rw [Nat.mod_eq_of_lt (b.trans (Nat.lt_size_self _))]

end

end Torsion.Ecc
