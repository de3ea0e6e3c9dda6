import Verif.Ecc.GrindLemmas
import Verif.Ecc.GrindSpec
import Verif.Ecc.RistrettoKeyProps

/-!
# Generating private keys and searching for keys (C99)

`rng` is an arbitrary generator and `check` an arbitrary callback. The theorems say what the loops do within a number `fuel` of rounds;
`.spin` stands for a loop which has not ended by then.
-/
namespace Torsion

open Spec Ecc
open WeierstrassCurve.Affine (Point)

section
variable {fe : FieldCode} [Fact fe.p.Prime] {ec : WeiT fe} {G : Pt ec.toCurve}

/-- The `i`-th number which the generator offers for the order `n`: whole words, cut to the bits of `n`. -/
abbrev offer {S : Type} (rng : Source S) (n : Nat) (entropy : List Byte) (i : Nat) : Nat :=
  scCandidate rng.gen ((n.size + 63) / 64) n.size (rng.init entropy) i

/-- C99. The private key is the first number in range which the generator offers; it is always a valid key. -/
theorem ecdsa_privkey_generate_exact {S : Type} (rng : Source S) (fuel : Nat) (ok : EcOk ec G) (entropy : List Byte) :
    ((∀ i < fuel, ¬ KeyRange ec.n (offer rng ec.n entropy i)) → ecdsa_privkey_generate rng fuel ec entropy = .spin) ∧
    (∀ i < fuel, FirstAt (fun j => KeyRange ec.n (offer rng ec.n entropy j)) i →
      ∃ priv, ecdsa_privkey_generate rng fuel ec entropy = .ok priv ∧ priv.length = scSize ec.n ∧
        beVal priv = offer rng ec.n entropy i ∧ ecdsa_privkey_verify ec priv = .ok true) ∧
    bip340_privkey_generate rng fuel ec entropy = ecdsa_privkey_generate rng fuel ec entropy := by
  obtain ⟨h1, h2⟩ := num_random_exact rng.toByteGen ec.n fuel (rng.init entropy)
  refine ⟨fun h => ?_, fun i hi h => ?_, rfl⟩
  · rw [ecdsa_privkey_generate, h2 h]; rfl
  · have e := h1 i hi h.2 h.1
    have hl : (num_export ec.n (offer rng ec.n entropy i)).length = scSize ec.n := num_export_len _ _
    have hv : beVal (num_export ec.n (offer rng ec.n entropy i)) = offer rng ec.n entropy i := by
      rw [num_export, Drb.beVal_bigBytes, Nat.mod_eq_of_lt (h.1.2.trans (scSize_pow _))]
    refine ⟨num_export ec.n (offer rng ec.n entropy i), ?_, hl, hv, ?_⟩
    · rw [ecdsa_privkey_generate, e]; rfl
    · rw [(ecdsa_privkey_exact ok hl []).1, hv]
      exact congrArg C.ok (decide_eq_true h.1)

/-- The loop, in the words of the specification. -/
theorem grind_cases (ok : EcOk ec G) {enc : Wge (ZMod fe.p) → List Byte × Bool} {f : Pt ec.toCurve → List Byte}
    (henc : ∀ P : Pt ec.toCurve, enc (affine P) = (f P, decide (P ≠ 0))) (check : List Byte → Bool) (fuel : Nat) (Q : Pt ec.toCurve) :
    (pubkey_grind_loop ec enc check fuel (affine Q) 0 0 = .spin ∧ ∀ i < fuel, ¬ Passes f check (Q + (i + 1) • G)) ∨
    ∃ i < fuel, FirstAt (fun i => Passes f check (Q + (i + 1) • G)) i ∧
      ∃ r, pubkey_grind_loop ec enc check fuel (affine Q) 0 0 = .ok r ∧ (r.2 + r.1) % ec.n = (i + 1) % ec.n := by
  rcases pubkey_grind_ok ok henc check fuel Q 0 0 (by norm_num) with h | ⟨i, hi, h1, h2, c, t, h3, h4⟩
  · exact Or.inl h
  · exact Or.inr ⟨i, hi, ⟨h1, h2⟩, _, h3, by simpa using h4⟩

/-- C99. `ecdsa_pubkey_grind` refuses exactly the strings which are no keys; for a key `Q` it looks at `Q + G`, `Q + 2 G`, ... and gives
the number of the first point which is accepted, modulo the order. -/
theorem ecdsa_pubkey_grind_exact (ok : EcOk ec G) (fuel : Nat) (pub : List Byte) (check : List Byte → Bool) :
    ((∀ Q : Pt ec.toCurve, ¬ Sec1 Q pub) → ecdsa_pubkey_grind ec fuel pub check = .fail) ∧
    ∀ Q : Pt ec.toCurve, Sec1 Q pub →
      (ecdsa_pubkey_grind ec fuel pub check = .spin ∧
        ∀ i < fuel, ¬ Passes (fun P => sec1Out P (decide (pub.length = 1 + feSize fe))) check (Q + (i + 1) • G)) ∨
      ∃ i < fuel, FirstAt (fun i => Passes (fun P => sec1Out P (decide (pub.length = 1 + feSize fe))) check (Q + (i + 1) • G)) i ∧
        ecdsa_pubkey_grind ec fuel pub check = .ok (bigBytes (scSize ec.n) ((i + 1) % ec.n)) := by
  rcases import_cases ok pub with ⟨Q, h1, h2, h3⟩ | ⟨Q, h1, h2⟩
  · refine ⟨fun h => absurd h1 (h Q), fun P hP => ?_⟩
    obtain rfl := h3 P hP
    rw [ecdsa_pubkey_grind, h2, R.lift_ok, R.ok_bind]
    rw [if_neg (by simp)]
    rcases grind_cases ok (enc := fun A => wge_export ec A (decide (pub.length = 1 + feSize fe)))
      (f := fun P => sec1Out P (decide (pub.length = 1 + feSize fe))) (fun P => export_out P _) check fuel P with
      ⟨e1, e2⟩ | ⟨i, hi, e1, r, e2, e3⟩
    · exact Or.inl ⟨by rw [e1]; rfl, e2⟩
    · exact Or.inr ⟨i, hi, e1, by rw [e2, R.ok_bind, e3]; rfl⟩
  · refine ⟨fun _ => ?_, fun P hP => absurd hP (h2 P)⟩
    rw [ecdsa_pubkey_grind, h1, R.lift_ok, R.ok_bind]
    rw [if_pos (by simp)]

/-- C99. The search ends if and only if some point is accepted, and then within as many rounds as the group has elements. -/
theorem ecdsa_pubkey_grind_ends (ok : EcOk ec G) {pub : List Byte} {Q : Pt ec.toCurve} (hQ : Sec1 Q pub) (check : List Byte → Bool) :
    ((∃ fuel out, ecdsa_pubkey_grind ec fuel pub check = .ok out) ↔
      ∃ P : Pt ec.toCurve, Passes (fun P => sec1Out P (decide (pub.length = 1 + feSize fe))) check P) ∧
    ((∃ P : Pt ec.toCurve, Passes (fun P => sec1Out P (decide (pub.length = 1 + feSize fe))) check P) →
      ∃ out, ecdsa_pubkey_grind ec ec.n pub check = .ok out) := by
  have key : (∃ P : Pt ec.toCurve, Passes (fun P => sec1Out P (decide (pub.length = 1 + feSize fe))) check P) →
      ∃ out, ecdsa_pubkey_grind ec ec.n pub check = .ok out := by
    rintro ⟨P, hP⟩
    rcases (ecdsa_pubkey_grind_exact ok ec.n pub check).2 Q hQ with ⟨-, h⟩ | ⟨i, -, -, h⟩
    · obtain ⟨i, hi, rfl⟩ := grind_reaches ok Q P
      exact absurd hP (h i hi)
    · exact ⟨_, h⟩
  refine ⟨⟨?_, fun h => ⟨_, key h⟩⟩, key⟩
  rintro ⟨fuel, out, h⟩
  rcases (ecdsa_pubkey_grind_exact ok fuel pub check).2 Q hQ with ⟨h', -⟩ | ⟨i, -, h', -⟩
  · rw [h'] at h; cases h
  · exact ⟨_, h'.1⟩

theorem sec1Out_len (P : Pt ec.toCurve) (compact : Bool) : decide ((sec1Out P compact).length = 1 + feSize fe) = compact := by
  have h := feSize_pos (fe := fe)
  have hs : (fe.p.size + 7) / 8 = feSize fe := rfl
  rcases P with _ | ⟨x, y, hP⟩ <;> cases compact <;> simp [sec1Out, sec1Short, sec1Long, Hsh.bigBytes_len, hs] <;> omega

theorem create_key (ok : EcOk ec G) {v : Nat} (h0 : 0 < v) (hv : v < ec.n) (compact : Bool) :
    ecdsa_pubkey_create ec (bigBytes (scSize ec.n) v) compact = .ok (sec1Out (v • G) compact, true) := by
  have hv' : beVal (bigBytes (scSize ec.n) v) = v := by
    rw [Drb.beVal_bigBytes, Nat.mod_eq_of_lt (hv.trans (scSize_pow _))]
  obtain ⟨o, r, a1, a2, a3⟩ := ecdsa_pubkey_create_exact ok (priv := bigBytes (scSize ec.n) v) (Hsh.bigBytes_len _ _) compact
  rw [hv'] at a2 a3
  obtain rfl := a2.2 ⟨h0, hv⟩
  rw [a1, (a3 rfl).1]

theorem create_x (ok : EcOk ec G) {v : Nat} (h0 : 0 < v) (hv : v < ec.n) :
    bip340_pubkey_create ec (bigBytes (scSize ec.n) v) = .ok (xBytes (v • G), true) := by
  have hv' : beVal (bigBytes (scSize ec.n) v) = v := by
    rw [Drb.beVal_bigBytes, Nat.mod_eq_of_lt (hv.trans (scSize_pow _))]
  obtain ⟨o, r, a1, a2, a3⟩ := bip340_pubkey_create_exact ok (priv := bigBytes (scSize ec.n) v) (Hsh.bigBytes_len _ _)
  rw [hv'] at a2 a3
  obtain rfl := a2.2 ⟨h0, hv⟩
  rw [a1, (a3 rfl).1]

/-- C99. `ecdsa_privkey_grind`: from the generated key `a` on, the first of `a + 1`, `a + 2`, ... whose public key is accepted. The result
is a valid key whose public key the callback accepts, and nothing aborts. -/
theorem ecdsa_privkey_grind_exact {S : Type} (rng : Source S) (fuel1 fuel : Nat) (ok : EcOk ec G) (entropy : List Byte)
    (compact : Bool) (check : List Byte → Bool) :
    (ecdsa_privkey_generate rng fuel1 ec entropy = .spin ∧ ecdsa_privkey_grind rng fuel1 fuel ec entropy compact check = .spin) ∨
    ∃ a, KeyRange ec.n a ∧ ecdsa_privkey_generate rng fuel1 ec entropy = .ok (bigBytes (scSize ec.n) a) ∧
      ((ecdsa_privkey_grind rng fuel1 fuel ec entropy compact check = .spin ∧
        ∀ i < fuel, ¬ Passes (fun P => sec1Out P compact) check ((a + (i + 1)) • G)) ∨
      ∃ i < fuel, FirstAt (fun i => Passes (fun P => sec1Out P compact) check ((a + (i + 1)) • G)) i ∧
        ∃ priv pub, ecdsa_privkey_grind rng fuel1 fuel ec entropy compact check = .ok priv ∧ priv.length = scSize ec.n ∧
          beVal priv = (a + (i + 1)) % ec.n ∧ KeyRange ec.n (beVal priv) ∧
          ecdsa_pubkey_create ec priv compact = .ok (pub, true) ∧ check pub = true) := by
  have hn := ok.prime.pos
  rcases num_random_range rng.toByteGen ec.n fuel1 (rng.init entropy) with h | ⟨a, s, h, h0, h1⟩
  · have e : ecdsa_privkey_generate rng fuel1 ec entropy = .spin := by rw [ecdsa_privkey_generate, h]; rfl
    exact Or.inl ⟨e, by rw [ecdsa_privkey_grind, e]; rfl⟩
  right
  have e : ecdsa_privkey_generate rng fuel1 ec entropy = .ok (bigBytes (scSize ec.n) a) := by rw [ecdsa_privkey_generate, h]; rfl
  refine ⟨a, ⟨h0, h1⟩, e, ?_⟩
  have hv : ∀ v, v < ec.n → beVal (bigBytes (scSize ec.n) v) = v := fun v hv => by
    rw [Drb.beVal_bigBytes, Nat.mod_eq_of_lt (hv.trans (scSize_pow _))]
  have hQ : Sec1 (a • G) (sec1Out (a • G) compact) := out_sec1 (key_ne ok h0 h1) compact
  have hg := (ecdsa_pubkey_grind_exact ok fuel (sec1Out (a • G) compact) check).2 _ hQ
  simp only [← add_nsmul, sec1Out_len] at hg
  rw [ecdsa_privkey_grind, e, R.ok_bind, create_key ok h0 h1, R.lift_ok, R.ok_bind]
  rw [show C.check true = .ok () from rfl, R.lift_ok, R.ok_bind]
  rcases hg with ⟨g1, g2⟩ | ⟨i, hi, g1, g2⟩
  · left
    dsimp only
    rw [g1]
    exact ⟨rfl, g2⟩
  · right
    refine ⟨i, hi, g1, ?_⟩
    dsimp only
    rw [g2]
    dsimp only
    obtain ⟨⟨out, ret, f1, f2, f3⟩, -⟩ := ecdsa_privkey_ops_exact ok (priv := bigBytes (scSize ec.n) a)
      (tweak := bigBytes (scSize ec.n) ((i + 1) % ec.n)) (Hsh.bigBytes_len _ _) (Hsh.bigBytes_len _ _)
    rw [hv a h1, hv _ (Nat.mod_lt _ hn)] at f2 f3
    have hm : (a + (i + 1) % ec.n) % ec.n = (a + (i + 1)) % ec.n := by rw [Nat.add_mod, Nat.mod_mod, ← Nat.add_mod]
    rw [hm] at f2 f3
    have hne : (a + (i + 1)) % ec.n ≠ 0 := fun hc => g1.1.1 ((smul_zero_iff ok ok.nonzero).2 hc)
    obtain rfl := f2.2 ⟨h0, h1, Nat.mod_lt _ hn, hne⟩
    have ho := f3 h1 (Nat.mod_lt _ hn)
    have hlt := Nat.mod_lt (a + (i + 1)) hn
    have hsm : ((a + (i + 1)) % ec.n) • G = (a + (i + 1)) • G := smul_cast ok (ZMod.natCast_mod _ _) G
    refine ⟨out, sec1Out ((a + (i + 1)) • G) compact, ?_, ?_, ?_, ?_, ?_, g1.1.2⟩
    · rw [f1]; rfl
    · rw [ho, Hsh.bigBytes_len]
    · rw [ho, hv _ hlt]
    · rw [ho, hv _ hlt]; exact ⟨by omega, hlt⟩
    · rw [ho, create_key ok (by omega) hlt, hsm]

/-- C99. The same for the keys of BIP 340. -/
theorem bip340_pubkey_grind_exact (ok : EcOk ec G) (fuel : Nat) {pub : List Byte} (hl : pub.length = feSize fe) (check : List Byte → Bool) :
    ((∀ Q : Pt ec.toCurve, ¬ XOnly Q pub) → bip340_pubkey_grind ec fuel pub check = .fail) ∧
    ∀ Q : Pt ec.toCurve, XOnly Q pub →
      (bip340_pubkey_grind ec fuel pub check = .spin ∧ ∀ i < fuel, ¬ Passes xBytes check (Q + (i + 1) • G)) ∨
      ∃ i < fuel, FirstAt (fun i => Passes xBytes check (Q + (i + 1) • G)) i ∧
        bip340_pubkey_grind ec fuel pub check = .ok (bigBytes (scSize ec.n) ((i + 1) % ec.n)) := by
  rcases xonly_import_exact ok hl with ⟨Q, h1, h2, h3⟩ | ⟨Q, h1, h2⟩
  · refine ⟨fun h => absurd h1 (h Q), fun P hP => ?_⟩
    obtain rfl := h3 P hP
    rw [bip340_pubkey_grind, h2, R.lift_ok, R.ok_bind]
    rw [if_neg (by simp)]
    rcases grind_cases ok (fun P => export_x_out P) check fuel P with ⟨e1, e2⟩ | ⟨i, hi, e1, r, e2, e3⟩
    · exact Or.inl ⟨by rw [e1]; rfl, e2⟩
    · exact Or.inr ⟨i, hi, e1, by rw [e2, R.ok_bind, e3]; rfl⟩
  · refine ⟨fun _ => ?_, fun P hP => absurd hP (h2 P)⟩
    rw [bip340_pubkey_grind, h1, R.lift_ok, R.ok_bind]
    rw [if_pos (by simp)]

/-- C99. `bip340_privkey_grind`: the numbers are counted from that one of `a` and `n - a` whose point is even. -/
theorem bip340_privkey_grind_exact {S : Type} (rng : Source S) (fuel1 fuel : Nat) (ok : EcOk ec G) (entropy : List Byte)
    (check : List Byte → Bool) :
    (bip340_privkey_generate rng fuel1 ec entropy = .spin ∧ bip340_privkey_grind rng fuel1 fuel ec entropy check = .spin) ∨
    ∃ a, KeyRange ec.n a ∧ bip340_privkey_generate rng fuel1 ec entropy = .ok (bigBytes (scSize ec.n) a) ∧
      ((bip340_privkey_grind rng fuel1 fuel ec entropy check = .spin ∧
        ∀ i < fuel, ¬ Passes xBytes check ((evenKey G ec.n a + (i + 1)) • G)) ∨
      ∃ i < fuel, FirstAt (fun i => Passes xBytes check ((evenKey G ec.n a + (i + 1)) • G)) i ∧
        ∃ priv pub, bip340_privkey_grind rng fuel1 fuel ec entropy check = .ok priv ∧ priv.length = scSize ec.n ∧
          beVal priv = (evenKey G ec.n a + (i + 1)) % ec.n ∧ KeyRange ec.n (beVal priv) ∧
          bip340_pubkey_create ec priv = .ok (pub, true) ∧ check pub = true) := by
  have hn := ok.prime.pos
  rcases num_random_range rng.toByteGen ec.n fuel1 (rng.init entropy) with h | ⟨a, s, h, h0, h1⟩
  · have e : bip340_privkey_generate rng fuel1 ec entropy = .spin := by
      rw [bip340_privkey_generate, ecdsa_privkey_generate, h]; rfl
    exact Or.inl ⟨e, by rw [bip340_privkey_grind, e]; rfl⟩
  right
  have e : bip340_privkey_generate rng fuel1 ec entropy = .ok (bigBytes (scSize ec.n) a) := by
    rw [bip340_privkey_generate, ecdsa_privkey_generate, h]; rfl
  refine ⟨a, ⟨h0, h1⟩, e, ?_⟩
  have hv : ∀ v, v < ec.n → beVal (bigBytes (scSize ec.n) v) = v := fun v hv => by
    rw [Drb.beVal_bigBytes, Nat.mod_eq_of_lt (hv.trans (scSize_pow _))]
  have hg := (bip340_pubkey_grind_exact ok fuel (xBytes_len (a • G)) check).2 _ (even_smul ok h0 h1).1
  simp only [← add_nsmul] at hg
  rw [bip340_privkey_grind, e, R.ok_bind, create_x ok h0 h1, R.lift_ok, R.ok_bind]
  rw [show C.check true = .ok () from rfl, R.lift_ok, R.ok_bind]
  rcases hg with ⟨g1, g2⟩ | ⟨i, hi, g1, g2⟩
  · left
    dsimp only
    rw [g1]
    exact ⟨rfl, g2⟩
  · right
    refine ⟨i, hi, g1, ?_⟩
    dsimp only
    rw [g2]
    dsimp only
    obtain ⟨out, ret, f1, f2, f3⟩ := bip340_privkey_tweak_add_exact ok (priv := bigBytes (scSize ec.n) a)
      (tweak := bigBytes (scSize ec.n) ((i + 1) % ec.n)) (Hsh.bigBytes_len _ _) (Hsh.bigBytes_len _ _)
    rw [hv a h1, hv _ (Nat.mod_lt _ hn)] at f2 f3
    have hm : (evenKey G ec.n a + (i + 1) % ec.n) % ec.n = (evenKey G ec.n a + (i + 1)) % ec.n := by
      rw [Nat.add_mod, Nat.mod_mod, ← Nat.add_mod]
    rw [hm] at f2 f3
    have hne : (evenKey G ec.n a + (i + 1)) % ec.n ≠ 0 := fun hc => g1.1.1 ((smul_zero_iff ok ok.nonzero).2 hc)
    obtain rfl := f2.2 ⟨h0, h1, Nat.mod_lt _ hn, hne⟩
    have ho := f3 rfl
    have hlt := Nat.mod_lt (evenKey G ec.n a + (i + 1)) hn
    have hsm : ((evenKey G ec.n a + (i + 1)) % ec.n) • G = (evenKey G ec.n a + (i + 1)) • G :=
      smul_cast ok (ZMod.natCast_mod _ _) G
    refine ⟨out, xBytes ((evenKey G ec.n a + (i + 1)) • G), ?_, ?_, ?_, ?_, ?_, g1.1.2⟩
    · rw [f1]; rfl
    · rw [ho, Hsh.bigBytes_len]
    · rw [ho, hv _ hlt]
    · rw [ho, hv _ hlt]; exact ⟨by omega, hlt⟩
    · rw [ho, create_x ok (by omega) hlt, hsm]

end

/-! ### X25519 and X448 -/

section
variable {d : MontDef} (hd : d ∈ montDefs) [Fact d.fe.p.Prime] {ec : Mont (ZMod d.fe.p)} (he : mont_init d = .ok ec)

/-- The scalar of the `i`-th string which the generator offers. -/
abbrev ecdhOffer {S : Type} (d : MontDef) (gen : S → Nat → List Byte × S) (s : S) (i : Nat) : Nat :=
  clamp d.fe.p.size d.h (leVal (gen (stateAfter gen (feSize d.fe) s i) (feSize d.fe)).1)

include hd he in
theorem ecdh_grind_ok {S : Type} (gen : ByteGen S) (check : List Byte → Bool) {G : MPt ec.a ec.b} (hG : montAffine G = ec.g) :
    ∀ (fuel : Nat) (s : S),
    (ecdh_privkey_grind_loop gen ec check fuel s = .spin ∧
      ∀ i < fuel, ecdhOffer d gen.gen s i • G ≠ 0 ∧ check (uBytes d (ecdhOffer d gen.gen s i • G)).1 = false) ∨
    ∃ i < fuel, (∀ j < i, ecdhOffer d gen.gen s j • G ≠ 0 ∧ check (uBytes d (ecdhOffer d gen.gen s j • G)).1 = false) ∧
      ((ecdhOffer d gen.gen s i • G = 0 ∧ ecdh_privkey_grind_loop gen ec check fuel s = .abort) ∨
      (check (uBytes d (ecdhOffer d gen.gen s i • G)).1 = true ∧
        ∃ priv, ecdh_privkey_grind_loop gen ec check fuel s = .ok priv ∧ priv.length = feSize d.fe ∧
          leVal priv = ecdhOffer d gen.gen s i ∧ privKey d priv = leVal priv ∧
          ecdh_pubkey_create ec priv = .ok (uBytes d (ecdhOffer d gen.gen s i • G)).1))
  | 0, s => Or.inl ⟨rfl, by simp⟩
  | fuel + 1, s => by
    have c := mont_ctx_of hd he
    have hl := gen.len s (feSize d.fe)
    obtain ⟨out, e1, e2, e3⟩ := mont_clamp_ok hd c hl.ge
    rw [List.take_of_length_le hl.le] at e3
    obtain ⟨m, k1, k2, k3, k4⟩ := clamp_facts hd c (leVal (gen.gen s (feSize d.fe)).1)
    have hbits := bits_big hd
    rw [← c.bits] at hbits
    have hcl : clamp ec.bits ec.h (leVal (gen.gen s (feSize d.fe)).1) = ecdhOffer d gen.gen s 0 := by
      rw [show ec.bits = d.fe.p.size from c.bits, c.h]; rfl
    have hm : MontXZ (mont_mul_g ec (leVal out)) (ecdhOffer d gen.gen s 0 • G) := by
      rw [← hcl]
      unfold mont_mul_g
      have hG' := hG
      rw [c.g] at hG'
      rw [c.g, e3]
      have : pge_set_mge (⟨(beVal d.x : ZMod d.fe.p), (beVal d.y : ZMod d.fe.p), false⟩ : Mge (ZMod d.fe.p)) = ⟨(beVal d.x : ZMod d.fe.p), 1⟩ := rfl
      rw [this]
      exact mont_mul_exact c.ok c.ok.good.b0 (by omega) (m_aff_x hG') (by rw [k1]; exact k3) (Or.inr (by rw [k1]; exact k2)) true
    have hs : ∀ i, ecdhOffer d gen.gen (gen.gen s (feSize d.fe)).2 i = ecdhOffer d gen.gen s (i + 1) := by
      intro i; rw [ecdhOffer, ecdhOffer, Mpi.state_shift]
    have hpk : privKey d out = leVal out := by
      rw [privKey, List.take_of_length_le e2.le, e3, hcl, ecdhOffer, clamp, clamp]
      generalize leVal (gen.gen (stateAfter gen.gen (feSize d.fe) s 0) (feSize d.fe)).1 = v
      generalize hk : 2 ^ (d.fe.p.size - 1) = k
      have hk0 : 0 < k := hk ▸ Nat.two_pow_pos _
      have h0 : 0 < d.h := by
        simp only [montDefs, List.mem_cons, List.not_mem_nil, or_false] at hd
        rcases hd with rfl | rfl <;> decide
      have hlt : v % k / d.h * d.h < k := lt_of_le_of_lt (Nat.div_mul_le_self _ _) (Nat.mod_lt _ hk0)
      rw [Nat.add_mod_right, Nat.mod_eq_of_lt hlt, Nat.mul_div_cancel _ h0]
    rw [ecdh_privkey_grind_loop]
    rw [c.size, e1, R.lift_ok, R.ok_bind]
    dsimp only
    rw [export_uBytes hm]
    by_cases h0 : ecdhOffer d gen.gen s 0 • G = 0
    · right
      refine ⟨0, by omega, by simp, Or.inl ⟨h0, ?_⟩⟩
      rw [h0, uBytes, mx_none.2 rfl]; rfl
    · have hu : (uBytes d (ecdhOffer d gen.gen s 0 • G)).2 = true := by
        rw [uBytes]
        cases hx : montX (ecdhOffer d gen.gen s 0 • G) with
        | none => exact absurd (mx_none.1 hx) h0
        | some x => rfl
      rw [hu, show C.check true = .ok () from rfl, R.lift_ok, R.ok_bind]
      cases hc : check (uBytes d (ecdhOffer d gen.gen s 0 • G)).1 with
      | true =>
        right
        refine ⟨0, by omega, by simp, Or.inr ⟨hc, out, rfl, e2, by rw [e3, hcl], hpk, ?_⟩⟩
        rw [ecdh_pubkey_create_exact hd he e2.ge hG, hpk, e3, hcl, if_neg h0]
      | false =>
        rw [if_neg (by simp)]
        rcases ecdh_grind_ok gen check hG fuel (gen.gen s (feSize d.fe)).2 with ⟨r1, r2⟩ | ⟨i, hi, r1, r2⟩
        · left
          refine ⟨r1, fun i hi => ?_⟩
          rcases i with _ | i
          · exact ⟨h0, hc⟩
          · rw [← hs]; exact r2 i (by omega)
        · right
          simp only [hs] at r1 r2
          refine ⟨i + 1, by omega, fun j hj => ?_, r2⟩
          rcases j with _ | j
          · exact ⟨h0, hc⟩
          · exact r1 j (by omega)

include hd he in
/-- C99. `ecdh_privkey_grind` gives the first of the generator's strings, clamped, whose public key is accepted. It aborts if a multiple
before that is infinity. -/
theorem ecdh_privkey_grind_exact {S : Type} (rng : Source S) (fuel : Nat) (entropy : List Byte) (check : List Byte → Bool)
    {G : MPt ec.a ec.b} (hG : montAffine G = ec.g) :
    (ecdh_privkey_grind rng fuel ec entropy check = .spin ∧
      ∀ i < fuel, ecdhOffer d rng.gen (rng.init entropy) i • G ≠ 0 ∧
        check (uBytes d (ecdhOffer d rng.gen (rng.init entropy) i • G)).1 = false) ∨
    ∃ i < fuel, (∀ j < i, ecdhOffer d rng.gen (rng.init entropy) j • G ≠ 0 ∧
        check (uBytes d (ecdhOffer d rng.gen (rng.init entropy) j • G)).1 = false) ∧
      ((ecdhOffer d rng.gen (rng.init entropy) i • G = 0 ∧ ecdh_privkey_grind rng fuel ec entropy check = .abort) ∨
      ∃ priv pub, ecdh_privkey_grind rng fuel ec entropy check = .ok priv ∧ priv.length = feSize d.fe ∧
        leVal priv = ecdhOffer d rng.gen (rng.init entropy) i ∧ privKey d priv = leVal priv ∧
        ecdh_pubkey_create ec priv = .ok pub ∧ check pub = true) := by
  rcases ecdh_grind_ok hd he rng.toByteGen check hG fuel (rng.init entropy) with h | ⟨i, hi, h1, h2 | ⟨h2, priv, h3, h4, h5, h6, h7⟩⟩
  · exact Or.inl h
  · exact Or.inr ⟨i, hi, h1, Or.inl h2⟩
  · exact Or.inr ⟨i, hi, h1, Or.inr ⟨priv, _, h3, h4, h5, h6, h7, h2⟩⟩

end

/-- C99. On X25519 the search never aborts. -/
theorem x25519_privkey_grind_safe [Fact curve_x25519.fe.p.Prime] {ec : Mont (ZMod curve_x25519.fe.p)}
    (he : mont_init curve_x25519 = .ok ec) {S : Type} (rng : Source S) (fuel : Nat) (entropy : List Byte) (check : List Byte → Bool) :
    ecdh_privkey_grind rng fuel ec entropy check = .spin ∨
    ∃ priv pub, ecdh_privkey_grind rng fuel ec entropy check = .ok priv ∧ ecdh_pubkey_create ec priv = .ok pub ∧ check pub = true := by
  have hd : curve_x25519 ∈ montDefs := List.mem_cons_self
  have hs : feSize curve_x25519.fe = 32 := by decide +kernel
  obtain ⟨-, -, -, -, -, -, G, hG, -, -⟩ := mont_curve_exact hd he
  rcases ecdh_privkey_grind_exact hd he rng fuel entropy check hG with ⟨h, -⟩ | ⟨i, -, -, ⟨h, -⟩ | ⟨priv, pub, h1, -, -, -, h2, h3⟩⟩
  · exact Or.inl h
  · exfalso
    have hl := rng.len (stateAfter rng.gen (feSize curve_x25519.fe) (rng.init entropy) i) (feSize curve_x25519.fe)
    obtain ⟨pub, e, -⟩ := x25519_create_succeeds he (priv := (rng.gen (stateAfter rng.gen (feSize curve_x25519.fe) (rng.init entropy) i)
      (feSize curve_x25519.fe)).1) (by rw [hl, hs])
    rw [ecdh_pubkey_create_exact hd he hl.ge hG, if_pos] at e
    · cases e
    · rw [privKey, List.take_of_length_le hl.le]; exact h
  · exact Or.inr ⟨priv, pub, h1, h2, h3⟩

/-! ### Ristretto -/

section
variable {d : EdwardsDef} {rd : RistrettoDef} (hd : (d, rd) ∈ ristrettoDefs) [Fact d.fe.p.Prime] {ec : Edwards (ZMod d.fe.p)}
  [g : EdGood ec.a ec.d] {G : EPt ec.a ec.d} (ok : EdCurve d ec G) {rs : Ristretto (ZMod d.fe.p)}
  (hrs : ristretto_init d.fe rd = .ok rs)

include hd ok in
/-- C99. The private key is the first number in range which the generator offers; it is valid and not zero. -/
theorem ristretto_privkey_generate_exact {S : Type} (rng : Source S) (fuel : Nat) (entropy : List Byte) :
    ((∀ i < fuel, ¬ KeyRange ec.n (offer rng ec.n entropy i)) → ristretto_privkey_generate rng fuel ec entropy = .spin) ∧
    (∀ i < fuel, FirstAt (fun j => KeyRange ec.n (offer rng ec.n entropy j)) i →
      ∃ priv, ristretto_privkey_generate rng fuel ec entropy = .ok priv ∧ priv.length = edScLen d ∧
        leVal priv = offer rng ec.n entropy i ∧ ristretto_privkey_verify ec priv = .ok true ∧
        ristretto_privkey_is_zero ec priv = .ok false) := by
  obtain ⟨h1, h2⟩ := num_random_exact rng.toByteGen ec.n fuel (rng.init entropy)
  refine ⟨fun h => ?_, fun i hi h => ?_⟩
  · rw [ristretto_privkey_generate, h2 h]; rfl
  · have e := h1 i hi h.2 h.1
    have hsc := Ecc.ed_sc_eq ok
    have hl : (num_export_le ec.n (offer rng ec.n entropy i)).length = edScLen d := by rw [num_export_le, Strm.leBytes_len, hsc]
    have hv : leVal (num_export_le ec.n (offer rng ec.n entropy i)) = offer rng ec.n entropy i := by
      rw [num_export_le, Strm.leVal_leBytes, Nat.mod_eq_of_lt (h.1.2.trans (scSize_pow _))]
    obtain ⟨p1, ⟨z, p2, p3⟩, -⟩ := ristretto_privkey_exact hd ok hl hl
    refine ⟨num_export_le ec.n (offer rng ec.n entropy i), ?_, hl, hv, ?_, ?_⟩
    · rw [ristretto_privkey_generate, e]; rfl
    · rw [p1, hv]
      exact congrArg C.ok (decide_eq_true h.1.2)
    · rw [p2]
      cases z with
      | false => rfl
      | true =>
        have := p3.1 rfl
        rw [hv] at this
        exact absurd this h.1.1.ne'

include hd ok hrs in
/-- C99. `ristretto_privkey_grind` never gives a key, and its behaviour is undefined as soon as the first point is accepted: the sum of
the tweaks is not initialized. -/
theorem ristretto_privkey_grind_undefined {S : Type} (rng : Source S) (fuel1 fuel : Nat) (entropy : List Byte) (check : List Byte → Bool) :
    (∀ out, ristretto_privkey_grind rng fuel1 fuel ec rs entropy check ≠ .ok out) ∧
    (∀ priv b, ristretto_privkey_generate rng fuel1 ec entropy = .ok priv → RistOf ec.h ((leVal priv + 1) • G) b → check b = true →
      ristretto_privkey_grind rng fuel1 (fuel + 1) ec rs entropy check = .ub) := by
  have hsc := Ecc.ed_sc_eq ok
  rcases num_random_range rng.toByteGen ec.n fuel1 (rng.init entropy) with h | ⟨a, s, h, h0, h1⟩
  · have e : ristretto_privkey_generate rng fuel1 ec entropy = .spin := by rw [ristretto_privkey_generate, h]; rfl
    refine ⟨fun out => ?_, fun priv b hp => ?_⟩
    · rw [ristretto_privkey_grind, e]
      intro hc
      cases hc
    · rw [e] at hp; cases hp
  have e : ristretto_privkey_generate rng fuel1 ec entropy = .ok (num_export_le ec.n a) := by
    rw [ristretto_privkey_generate, h]; rfl
  have hl : (num_export_le ec.n a).length = edScLen d := by rw [num_export_le, Strm.leBytes_len, hsc]
  have hv : leVal (num_export_le ec.n a) = a := by
    rw [num_export_le, Strm.leVal_leBytes, Nat.mod_eq_of_lt (h1.trans (scSize_pow _))]
  obtain ⟨pub, r, q1, q2, q3⟩ := ristretto_pubkey_create_exact hd ok hrs hl
  rw [hv] at q2 q3
  obtain rfl := q2.2 h1
  have hR := q3 rfl
  have hpl : pub.length = ristLen d.fe := by
    obtain ⟨x, -, rfl⟩ := hR
    exact Strm.leBytes_len _ _
  refine ⟨fun out => ?_, fun priv b hp hb hc => ?_⟩
  · rw [ristretto_privkey_grind, e, R.ok_bind, q1, R.lift_ok, R.ok_bind]
    rw [show C.check true = .ok () from rfl, R.lift_ok, R.ok_bind]
    have hu := (ristretto_pubkey_grind_undefined hd ok hrs hpl check fuel).1
    dsimp only
    cases hg : ristretto_pubkey_grind ec rs fuel pub check with
    | ok x => exact absurd hg (hu x)
    | _ => intro hc; cases hc
  · rw [e] at hp
    injection hp with hp
    rw [← hp, hv] at hb
    rw [ristretto_privkey_grind, e, R.ok_bind, q1, R.lift_ok, R.ok_bind]
    rw [show C.check true = .ok () from rfl, R.lift_ok, R.ok_bind]
    dsimp only
    rw [(ristretto_pubkey_grind_undefined hd ok hrs hpl check fuel).2 a b hR hb hc]

end

/-! ### Concrete cases -/

/-- A generator which always returns the number 1, with the lowest byte first. -/
def littleOne : Source Unit where
  gen := fun _ n => (leBytes n 1, ())
  len := fun _ _ => Strm.leBytes_len _ _
  init := fun _ => ()

/-- On secp256k1 the generated key is 1. A search which accepts everything gives the keys 2 (ECDSA) and one whose public key is accepted
(BIP 340); one which accepts nothing does not end. -/
example : letI := Fact.mk (weiDefs_field_prime (d := curve_secp256k1) (by simp [weiDefs]))
    ∃ ec G, wei_curve curve_secp256k1 = .ok ec ∧ EcOk ec G ∧
      (∃ priv, ecdsa_privkey_generate littleOne 1 ec [] = .ok priv ∧ beVal priv = 1) ∧
      (∃ priv, ecdsa_privkey_grind littleOne 1 1 ec [] true (fun _ => true) = .ok priv ∧ beVal priv = 2) ∧
      (∀ fuel, ecdsa_privkey_grind littleOne 1 fuel ec [] true (fun _ => false) = .spin) := by
  let _ := Fact.mk (weiDefs_field_prime (d := curve_secp256k1) (by simp [weiDefs]))
  obtain ⟨ec, h1, h2, -, G, hG, ok⟩ := wei_curve_exact (d := curve_secp256k1) (by simp [weiDefs])
  have hn : 2 < beVal curve_secp256k1.sc.n ∧ leVal (leBytes (((beVal curve_secp256k1.sc.n).size + 63) / 64 * 8) 1) %
    2 ^ (beVal curve_secp256k1.sc.n).size = 1 := by decide +kernel
  rw [← h2] at hn
  have ho : offer littleOne ec.n [] 0 = 1 := hn.2
  have hk : KeyRange ec.n (offer littleOne ec.n [] 0) := by rw [ho]; exact ⟨Nat.one_pos, by omega⟩
  obtain ⟨priv, g1, g2, g3, g4⟩ := (ecdsa_privkey_generate_exact littleOne 1 ok []).2.1 0 Nat.one_pos
    ⟨hk, fun j hj => absurd hj (Nat.not_lt_zero j)⟩
  rw [ho] at g3
  have hgen : ∀ {a}, a < ec.n → ecdsa_privkey_generate littleOne 1 ec [] = .ok (bigBytes (scSize ec.n) a) → a = 1 := by
    intro a ha h
    rw [g1] at h
    have h := congrArg beVal (R.ok.inj h)
    rw [← g3, h, Drb.beVal_bigBytes, Nat.mod_eq_of_lt (ha.trans (scSize_pow _))]
  have two : (1 + (0 + 1)) • G ≠ 0 := by
    intro h
    rw [smul_zero_iff ok ok.nonzero, Nat.mod_eq_of_lt (by omega)] at h
    omega
  refine ⟨ec, G, h1, ok, ⟨priv, g1, g3⟩, ?_, fun fuel => ?_⟩
  · rcases ecdsa_privkey_grind_exact littleOne 1 1 ok [] true (fun _ => true) with ⟨h, -⟩ | ⟨a, ha, h, h' | ⟨i, hi, -, p, q, h3, -, h5, -⟩⟩
    · rw [g1] at h; cases h
    · rw [hgen ha.2 h] at h'
      exact absurd ⟨two, rfl⟩ (h'.2 0 (by omega))
    · refine ⟨p, h3, ?_⟩
      have : i = 0 := by omega
      rw [h5, hgen ha.2 h, this, Nat.mod_eq_of_lt (by omega)]
  · rcases ecdsa_privkey_grind_exact littleOne 1 fuel ok [] true (fun _ => false) with ⟨h, -⟩ | ⟨a, ha, h, h' | ⟨i, hi, h', -⟩⟩
    · rw [g1] at h; cases h
    · exact h'.1
    · exact absurd h'.1.2 (by simp)

end Torsion
