import Verif.Encoding.Base58Lemmas
import Verif.Encoding.Props

/-!
# Property C08: base58

`Spec.base58` is the text of a byte string: one `1` per leading zero byte followed by the base-58
digits of the big-endian number (`Nat.digits` of Mathlib).
-/
namespace Torsion
open Spec

theorem tab58 : ∀ c : Byte,
    (look base58_table c = 255 ∧ ∀ n < 58, base58Char n ≠ c) ∨
    ((look base58_table c).toNat < 58 ∧ base58Char (look base58_table c).toNat = c) := by
  decide +kernel

theorem cs58 : ∀ n < 58, C.rd base58_charset n = .ok (base58Char n) := by decide +kernel

theorem inj58 : ∀ a < 58, ∀ b < 58, base58Char a = base58Char b → a = b := by decide +kernel

theorem look58 : ∀ n < 58, (look base58_table (base58Char n)).toNat = n := by decide +kernel

theorem chars58 (l : List Nat) (h : ∀ d ∈ l, d < 58) :
    base58_chars (toB l) = .ok (l.map base58Char) := by
  induction l with
  | nil => rfl
  | cons d l ih =>
    have hd := h d (by simp)
    have e : (BitVec.ofNat 8 d).toNat = d := by
      rw [BitVec.toNat_ofNat]; exact Nat.mod_eq_of_lt (by omega)
    have ih' : base58_chars (List.map (BitVec.ofNat 8) l) = .ok (l.map base58Char) :=
      ih (fun x hx => h x (by simp [hx]))
    simp only [toB, List.map_cons, base58_chars, e, cs58 d hd, C.ok_bind, ih']

theorem beVal_cons (c : Byte) (b : List Byte) :
    beVal (c :: b) = c.toNat * 256 ^ b.length + beVal b := by
  unfold beVal
  rw [List.map_cons, List.reverse_cons, Nat.ofDigits_append, Nat.ofDigits_singleton]
  simp; ring

theorem beVal_lt (b : List Byte) : beVal b < 256 ^ b.length := by
  have := Nat.ofDigits_lt_base_pow_length (b := 256) (l := (b.map BitVec.toNat).reverse) (by decide)
    (fun x hx => by
      simp only [List.mem_reverse, List.mem_map] at hx
      obtain ⟨y, _, rfl⟩ := hx
      exact y.isLt)
  simpa [beVal] using this

theorem beVal_drop (b : List Byte) : beVal (b.dropWhile (· == 0)) = beVal b := by
  induction b with
  | nil => rfl
  | cons c b ih =>
    by_cases hc : c = 0
    · rw [List.dropWhile_cons_of_pos (by simpa using hc), ih, beVal_cons, hc]; simp
    · rw [List.dropWhile_cons_of_neg (by simpa using hc)]

/-- Digit lists with no leading zero are the digits of their value. -/
theorem digits_of_lead {base : Nat} (hb : 1 < base) (l : List Nat) (h : ∀ d ∈ l, d < base)
    (hl : ∀ d, l.head? = some d → d ≠ 0) :
    (Nat.digits base (Nat.ofDigits base l.reverse)).reverse = l := by
  rw [Nat.digits_ofDigits base hb, List.reverse_reverse]
  · intro x hx; exact h x (List.mem_reverse.1 hx)
  · intro hne
    rw [List.getLast_reverse]
    exact hl _ (List.head?_eq_some_head _)

theorem head_digits {base v d : Nat} (h : (Nat.digits base v).reverse.head? = some d) : d ≠ 0 := by
  rw [List.head?_reverse] at h
  have hne : Nat.digits base v ≠ [] := by
    intro e; rw [e] at h; cases h
  have hv : v ≠ 0 := by
    rintro rfl; simp at hne
  rw [List.getLast?_eq_some_getLast hne, Option.some.injEq] at h
  rw [← h]
  exact Nat.getLast_digit_ne_zero base hv

theorem drop_toB (ds : List Nat) (length size : Nat) (h : ds.length = size) (hl : length ≤ size) :
    (toB ds.reverse).drop (size - length) = toB (ds.take length).reverse := by
  unfold toB
  rw [← List.map_drop, List.drop_reverse]
  congr 3
  omega

/-- C08: `base58_encode` never trips its assertion, never leaves its workspace, and writes the
base58 text of every byte string up to the documented limit. -/
theorem base58_encode_spec (b : List Byte) (h : b.length ≤ 0x7fffffff) :
    base58_encode b = .ok (some (base58 b)) := by
  unfold base58_encode
  rw [if_neg (by omega)]
  simp only
  have hlen : b.length - (b.takeWhile (· == 0)).length = (b.dropWhile (· == 0)).length := by
    have := congrArg List.length (List.takeWhile_append_dropWhile (p := (· == (0 : Byte))) (l := b))
    rw [List.length_append] at this
    omega
  rw [hlen]
  set rest := b.dropWhile (· == 0) with hrest
  have hval : horner 256 0 (rest.map BitVec.toNat) = beVal b := by
    rw [horner_eq, Nat.mul_zero, Nat.zero_add, ← beVal_drop b]; rfl
  have hlt : beVal b < 58 ^ (rest.length * 138 / 100 + 1) := by
    rw [← beVal_drop b]
    exact Nat.lt_trans (beVal_lt _) (size_encode _)
  obtain ⟨ds, len, he, hI⟩ := encode_loop58 (rest.length * 138 / 100 + 1) rest _ 0 0
    (inv_init 58 _ (by decide)) (by rw [hval]; exact hlt)
  rw [List.reverse_replicate] at he
  have hrep : toB (List.replicate (rest.length * 138 / 100 + 1) 0) =
      List.replicate (rest.length * 138 / 100 + 1) 0 := by simp [toB]
  rw [hrep] at he
  rw [he, C.ok_bind]
  simp only
  rw [hval] at hI
  rw [drop_toB ds len _ hI.len hI.le, inv_digits (by decide) hI]
  have hdrop : (toB (Nat.digits 58 (beVal b)).reverse).dropWhile (· == 0) =
      toB (Nat.digits 58 (beVal b)).reverse := by
    cases hd : (Nat.digits 58 (beVal b)).reverse with
    | nil => rfl
    | cons d l =>
      have h0 : d ≠ 0 := head_digits (base := 58) (v := beVal b) (by rw [hd]; rfl)
      have h58 : d < 58 := Nat.digits_lt_base (m := beVal b) (by decide)
        (List.mem_reverse.1 (by rw [hd]; simp))
      apply List.dropWhile_cons_of_neg
      intro hh
      have := congrArg BitVec.toNat (eq_of_beq hh)
      rw [BitVec.toNat_ofNat, Nat.mod_eq_of_lt (by omega)] at this
      exact h0 this
  rw [hdrop, chars58 _ (fun d hd => Nat.digits_lt_base (by decide) (List.mem_reverse.1 hd)),
    C.ok_bind]
  rfl

/-- C08: longer inputs are refused. -/
theorem base58_encode_limit (b : List Byte) (h : 0x7fffffff < b.length) :
    base58_encode b = .ok none := by
  unfold base58_encode; rw [if_pos h]

theorem valid58 (c : Byte) : look base58_table c &&& 0x80 = 0 ↔ (look base58_table c).toNat < 58 := by
  revert c; decide +kernel

/-- Value of base58 characters. -/
def chVal (s : List Byte) : List Nat := s.map fun c => (look base58_table c).toNat

theorem chVal_map (l : List Nat) (h : ∀ d ∈ l, d < 58) : chVal (l.map base58Char) = l := by
  unfold chVal
  rw [List.map_map]
  conv_rhs => rw [← List.map_id l]
  apply List.map_congr_left
  intro d hd
  exact look58 d (h d hd)

theorem map_chVal (s : List Byte) (h : ∀ c ∈ s, look base58_table c &&& 0x80 = 0) :
    (chVal s).map base58Char = s := by
  unfold chVal
  rw [List.map_map]
  conv_rhs => rw [← List.map_id s]
  apply List.map_congr_left
  intro c hc
  have := (valid58 c).1 (h c hc)
  rcases tab58 c with ⟨h1, _⟩ | ⟨_, h2⟩
  · rw [h1] at this; exact absurd this (by decide)
  · exact h2

theorem takeWhile_one (s : List Byte) (c : Byte) :
    s.takeWhile (· == c) = List.replicate (s.takeWhile (· == c)).length c := by
  apply List.eq_replicate_iff.2
  refine ⟨rfl, fun x hx => ?_⟩
  have := takeWhile_all _ _ x hx
  simpa using this

/-- Result of `base58_decode` on strings without foreign characters. -/
theorem decode58_ok (s : List Byte) (h : s.length ≤ 0xffffffff)
    (hv : ∀ c ∈ s, look base58_table c &&& 0x80 = 0) :
    base58_decode s = .ok ⟨List.replicate (s.takeWhile (· == ch '1')).length 0 ++
      toB (Nat.digits 256 (Nat.ofDigits 58 (chVal (s.dropWhile (· == ch '1'))).reverse)).reverse,
      true⟩ := by
  unfold base58_decode
  rw [if_neg (by omega)]
  simp only
  set rest := s.dropWhile (· == ch '1') with hrest
  have hsub : rest.length ≤ s.length := by
    rw [hrest]; exact (List.dropWhile_suffix _).length_le
  have hvr : ∀ c ∈ rest, look base58_table c &&& 0x80 = 0 := fun c hc =>
    hv c ((List.dropWhile_suffix _).subset hc)
  have hlt : Nat.ofDigits 58 (chVal rest).reverse < 256 ^ (s.length * 733 / 1000 + 1) := by
    have h1 := Nat.ofDigits_lt_base_pow_length (b := 58) (l := (chVal rest).reverse) (by decide)
      (fun x hx => by
        simp only [chVal, List.mem_reverse, List.mem_map] at hx
        obtain ⟨y, hy, rfl⟩ := hx
        exact (valid58 y).1 (hvr y hy))
    have h2 : 58 ^ rest.length ≤ 58 ^ s.length := Nat.pow_le_pow_right (by decide) hsub
    have h3 := size_decode s.length
    have e : (chVal rest).reverse.length = rest.length := by simp [chVal]
    rw [e] at h1
    omega
  have hval : horner 58 0 (rest.map fun c => (look base58_table c).toNat) =
      Nat.ofDigits 58 (chVal rest).reverse := by
    rw [horner_eq, Nat.mul_zero, Nat.zero_add]; rfl
  obtain ⟨ds, len, he, hI⟩ := decode_loop58 (s.length * 733 / 1000 + 1) rest _ 0 0
    (inv_init 256 _ (by decide)) hvr (by rw [hval]; exact hlt)
  have hrep : toB (List.replicate (s.length * 733 / 1000 + 1) 0).reverse =
      List.replicate (s.length * 733 / 1000 + 1) 0 := by simp [toB]
  rw [hrep] at he
  rw [he, C.ok_bind]
  simp only
  rw [hval] at hI
  rw [drop_toB ds len _ hI.len hI.le, inv_digits (by decide) hI]

theorem decode58_bad (s : List Byte) (h : s.length ≤ 0xffffffff)
    (hb : ∃ c ∈ s, look base58_table c &&& 0x80 ≠ 0) :
    base58_decode s = .ok ⟨[], false⟩ := by
  unfold base58_decode
  rw [if_neg (by omega)]
  simp only
  set rest := s.dropWhile (· == ch '1') with hrest
  have hsub : rest.length ≤ s.length := by
    rw [hrest]; exact (List.dropWhile_suffix _).length_le
  have hbr : ∃ c ∈ rest, look base58_table c &&& 0x80 ≠ 0 := by
    obtain ⟨c, hc, hn⟩ := hb
    rw [← List.takeWhile_append_dropWhile (p := (· == ch '1')) (l := s), List.mem_append] at hc
    rcases hc with hc | hc
    · rw [takeWhile_one, List.mem_replicate] at hc
      rw [hc.2] at hn
      exact absurd (by decide) hn
    · exact ⟨c, hc, hn⟩
  have he := decode_loop58_bad (s.length * 733 / 1000 + 1) rest _ 0 0
    (inv_init 256 _ (by decide)) hbr ?_
  · have hrep : toB (List.replicate (s.length * 733 / 1000 + 1) 0).reverse =
        List.replicate (s.length * 733 / 1000 + 1) 0 := by simp [toB]
    rw [hrep] at he
    rw [he, C.ok_bind]
  · intro k
    rw [horner_eq, Nat.mul_zero, Nat.zero_add]
    set t := (rest.take k).takeWhile (fun c => look base58_table c &&& 0x80 == 0) with ht
    have htl : t.length ≤ s.length := by
      have h1 : t.length ≤ (rest.take k).length := (List.takeWhile_prefix _).length_le
      have h2 : (rest.take k).length ≤ rest.length := by simp
      omega
    have h1 := Nat.ofDigits_lt_base_pow_length (b := 58)
      (l := (t.map fun c => (look base58_table c).toNat).reverse) (by decide)
      (fun x hx => by
        simp only [List.mem_reverse, List.mem_map] at hx
        obtain ⟨y, hy, rfl⟩ := hx
        have := takeWhile_all _ _ y hy
        exact (valid58 y).1 (by simpa using this))
    have h2 : 58 ^ t.length ≤ 58 ^ s.length := Nat.pow_le_pow_right (by decide) htl
    have h3 := size_decode s.length
    rw [List.length_reverse, List.length_map] at h1
    omega

theorem takeWhile_rep {α : Type} [BEq α] [LawfulBEq α] (c : α) (n : Nat) (l : List α)
    (h : ∀ d, l.head? = some d → d ≠ c) :
    (List.replicate n c ++ l).takeWhile (· == c) = List.replicate n c ∧
    (List.replicate n c ++ l).dropWhile (· == c) = l := by
  induction n with
  | zero =>
    cases l with
    | nil => simp
    | cons d l =>
      have hd := h d rfl
      constructor
      · simp [hd]
      · simp [hd]
  | succ n ih => simp [List.replicate_succ, ih.1, ih.2]

theorem dropWhile_head {α : Type} (p : α → Bool) (l : List α) (d : α)
    (h : (l.dropWhile p).head? = some d) : p d = false := by
  induction l with
  | nil => simp at h
  | cons x l ih =>
    by_cases hx : p x = true
    · rw [List.dropWhile_cons_of_pos hx] at h; exact ih h
    · rw [List.dropWhile_cons_of_neg hx] at h
      simp at h
      rw [← h]; simpa using hx

theorem toB_toNat (b : List Byte) : toB (b.map BitVec.toNat) = b := by
  unfold toB
  rw [List.map_map]
  conv_rhs => rw [← List.map_id b]
  apply List.map_congr_left
  intro c _
  simp

theorem toNat_toB (l : List Nat) (h : ∀ d ∈ l, d < 256) : (toB l).map BitVec.toNat = l := by
  unfold toB
  rw [List.map_map]
  conv_rhs => rw [← List.map_id l]
  apply List.map_congr_left
  intro d hd
  simp only [Function.comp, BitVec.toNat_ofNat, id]
  exact Nat.mod_eq_of_lt (h d hd)

/-- C08: on every string within the limit `base58_decode` is memory safe, and it succeeds with
`b` exactly when the string is the base58 text of `b`. -/
theorem base58_decode_iff (s : List Byte) (h : s.length ≤ 0xffffffff) :
    ∃ r, base58_decode s = .ok r ∧ ∀ b, r = ⟨b, true⟩ ↔ base58 b = s := by
  have hone : ch '1' = base58Char 0 := by decide
  by_cases hv : ∀ c ∈ s, look base58_table c &&& 0x80 = 0
  · refine ⟨_, decode58_ok s h hv, fun b => ?_⟩
    simp only [DecOut.mk.injEq, and_true]
    constructor
    · rintro rfl
      set rest := s.dropWhile (· == ch '1') with hrest
      set v := Nat.ofDigits 58 (chVal rest).reverse with hvdef
      have hd256 : ∀ d ∈ (Nat.digits 256 v).reverse, d < 256 := fun d hd =>
        Nat.digits_lt_base (by decide) (List.mem_reverse.1 hd)
      have hhead : ∀ d, (toB (Nat.digits 256 v).reverse).head? = some d → d ≠ 0 := by
        intro d hd
        unfold toB at hd
        rw [List.head?_map, Option.map_eq_some_iff] at hd
        obtain ⟨n, hn, rfl⟩ := hd
        have h0 := head_digits hn
        intro hh
        have h1 := congrArg BitVec.toNat hh
        rw [BitVec.toNat_ofNat, Nat.mod_eq_of_lt
          (hd256 n (List.mem_of_mem_head? hn))] at h1
        exact h0 h1
      obtain ⟨t1, t2⟩ := takeWhile_rep (0 : Byte) (s.takeWhile (· == ch '1')).length _ hhead
      have hbv : beVal (List.replicate (s.takeWhile (· == ch '1')).length 0 ++
          toB (Nat.digits 256 v).reverse) = v := by
        rw [← beVal_drop, t2, beVal, toNat_toB _ hd256, List.reverse_reverse, Nat.ofDigits_digits]
      unfold base58
      rw [t1, hbv, List.length_replicate, hvdef]
      have hvr : ∀ c ∈ rest, look base58_table c &&& 0x80 = 0 := fun c hc =>
        hv c ((List.dropWhile_suffix _).subset hc)
      rw [digits_of_lead (by decide) (chVal rest), map_chVal rest hvr, ← hone, ← takeWhile_one,
        hrest, List.takeWhile_append_dropWhile]
      · intro d hd
        simp only [chVal, List.mem_map] at hd
        obtain ⟨y, hy, rfl⟩ := hd
        exact (valid58 y).1 (hvr y hy)
      · intro d hd
        unfold chVal at hd
        rw [List.head?_map, Option.map_eq_some_iff] at hd
        obtain ⟨c, hc, rfl⟩ := hd
        have hne := dropWhile_head _ _ _ hc
        intro h0
        have hcv := hvr c (List.mem_of_mem_head? hc)
        have : ∀ c : Byte, look base58_table c &&& 0x80 = 0 → (look base58_table c).toNat = 0 →
          c = ch '1' := by decide +kernel
        rw [this c hcv h0] at hne
        simp at hne
    · rintro hb
      have hdig : ∀ d ∈ (Nat.digits 58 (beVal b)).reverse, d < 58 := fun d hd =>
        Nat.digits_lt_base (by decide) (List.mem_reverse.1 hd)
      have hhead : ∀ d, ((Nat.digits 58 (beVal b)).reverse.map base58Char).head? = some d →
          d ≠ ch '1' := by
        intro d hd
        rw [List.head?_map, Option.map_eq_some_iff] at hd
        obtain ⟨n, hn, rfl⟩ := hd
        have h0 := head_digits hn
        rw [hone]
        exact fun hh => h0 (inj58 n (hdig n (List.mem_of_mem_head? hn)) 0 (by decide) hh)
      obtain ⟨t1, t2⟩ := takeWhile_rep (ch '1') (b.takeWhile (· == 0)).length _ hhead
      rw [← hb, base58, ← hone, t1, t2, List.length_replicate, chVal_map _ hdig,
        List.reverse_reverse, Nat.ofDigits_digits, ← beVal_drop]
      have : (Nat.digits 256 (beVal (b.dropWhile (· == 0)))).reverse =
          (b.dropWhile (· == 0)).map BitVec.toNat := by
        unfold beVal
        apply digits_of_lead (by decide)
        · intro d hd
          obtain ⟨y, _, rfl⟩ := List.mem_map.1 hd
          exact y.isLt
        · intro d hd
          rw [List.head?_map, Option.map_eq_some_iff] at hd
          obtain ⟨c, hc, rfl⟩ := hd
          have hne := dropWhile_head _ _ _ hc
          intro h0
          have : c = 0 := BitVec.eq_of_toNat_eq h0
          rw [this] at hne
          simp at hne
      rw [this, toB_toNat, ← takeWhile_one, List.takeWhile_append_dropWhile]
  · have hb : ∃ c ∈ s, look base58_table c &&& 0x80 ≠ 0 := by
      by_contra hh
      apply hv
      intro c hc
      by_contra hn
      exact hh ⟨c, hc, hn⟩
    refine ⟨_, decode58_bad s h hb, fun b => ?_⟩
    constructor
    · intro hh; cases hh
    · rintro rfl
      exfalso
      apply hv
      intro c hc
      have hall : ∀ n < 58, look base58_table (base58Char n) &&& 0x80 = 0 := by decide +kernel
      unfold base58 at hc
      rcases List.mem_append.1 hc with hc | hc
      · rw [(List.mem_replicate.1 hc).2]; exact hall 0 (by decide)
      · obtain ⟨d, hd, rfl⟩ := List.mem_map.1 hc
        exact hall d (Nat.digits_lt_base (m := beVal b) (by decide) (List.mem_reverse.1 hd))

/-- C08: longer strings are refused. -/
theorem base58_decode_limit (s : List Byte) (h : 0xffffffff < s.length) :
    base58_decode s = .ok ⟨[], false⟩ := by
  unfold base58_decode; rw [if_pos h]

theorem base58_len (b : List Byte) : (base58 b).length ≤ 2 * b.length := by
  have hlen : (b.takeWhile (· == 0)).length + (b.dropWhile (· == 0)).length = b.length := by
    rw [← List.length_append, List.takeWhile_append_dropWhile]
  have hd : (Nat.digits 58 (beVal b)).length ≤ (b.dropWhile (· == 0)).length * 2 := by
    rw [Nat.digits_length_le_iff (by decide)]
    rw [← beVal_drop, Nat.mul_comm, Nat.pow_mul]
    refine Nat.lt_of_lt_of_le (beVal_lt _) (Nat.pow_le_pow_left (by decide) _)
  unfold base58
  rw [List.length_append, List.length_replicate, List.length_map, List.length_reverse]
  omega

theorem len_base58 (b : List Byte) : b.length ≤ (base58 b).length := by
  have hlen : (b.takeWhile (· == 0)).length + (b.dropWhile (· == 0)).length = b.length := by
    rw [← List.length_append, List.takeWhile_append_dropWhile]
  have hd : (b.dropWhile (· == 0)).length ≤ (Nat.digits 58 (beVal b)).length := by
    rw [← beVal_drop]
    cases hr : b.dropWhile (· == 0) with
    | nil => simp
    | cons c l =>
      have hc : c ≠ 0 := by
        intro h0
        have := dropWhile_head (· == (0 : Byte)) b c (by rw [hr]; rfl)
        rw [h0] at this; simp at this
      have hge : 58 ^ l.length ≤ beVal (c :: l) := by
        rw [beVal_cons]
        have h1 : 1 ≤ c.toNat := by
          rcases Nat.eq_zero_or_pos c.toNat with h0 | h0
          · exact absurd (BitVec.eq_of_toNat_eq h0) hc
          · exact h0
        have h2 : 1 * 256 ^ l.length ≤ c.toNat * 256 ^ l.length := Nat.mul_le_mul_right _ h1
        have h3 : 58 ^ l.length ≤ 256 ^ l.length := Nat.pow_le_pow_left (by decide) _
        omega
      have := (Nat.lt_digits_length_iff (b := 58) (by decide) (beVal (c :: l))).2 hge
      rw [List.length_cons]; omega
  unfold base58
  rw [List.length_append, List.length_replicate, List.length_map, List.length_reverse]
  omega

/-- C08: round trip for every byte string the encoder accepts. -/
theorem base58_roundtrip (b : List Byte) (h : b.length ≤ 0x7fffffff) :
    ∃ s, base58_encode b = .ok (some s) ∧ base58_decode s = .ok ⟨b, true⟩ := by
  refine ⟨_, base58_encode_spec b h, ?_⟩
  have := base58_len b
  obtain ⟨r, hr, hi⟩ := base58_decode_iff (base58 b) (by omega)
  rw [hr, (hi b).2 rfl]

/-- C08: canonicity: a decoded string is the one the encoder produces. -/
theorem base58_canonical (s b : List Byte) (h : b.length ≤ 0x7fffffff)
    (hd : base58_decode s = .ok ⟨b, true⟩) : base58_encode b = .ok (some s) := by
  by_cases hs : s.length ≤ 0xffffffff
  · obtain ⟨r, hr, hi⟩ := base58_decode_iff s hs
    rw [hd, C.ok.injEq] at hr
    rw [base58_encode_spec b h, (hi b).1 hr.symm]
  · rw [base58_decode_limit s (by omega)] at hd
    cases hd

/-- C08: nothing is stored outside `BASE58_ENCODE_SIZE` / `BASE58_DECODE_SIZE`. -/
theorem base58_sizes (b s : List Byte) :
    (∃ t, base58_encode b = .ok t ∧ ∀ u, t = some u → u.length ≤ 2 * b.length) ∧
    (∃ r, base58_decode s = .ok r ∧ r.dst.length ≤ s.length) := by
  constructor
  · by_cases h : b.length ≤ 0x7fffffff
    · refine ⟨_, base58_encode_spec b h, ?_⟩
      rintro u hu
      rw [Option.some.injEq] at hu
      rw [← hu]; exact base58_len b
    · exact ⟨_, base58_encode_limit b (by omega), by simp⟩
  · by_cases h : s.length ≤ 0xffffffff
    · obtain ⟨r, hr, hi⟩ := base58_decode_iff s h
      refine ⟨r, hr, ?_⟩
      rcases r with ⟨d, _ | _⟩
      · by_cases hv : ∀ c ∈ s, look base58_table c &&& 0x80 = 0
        · rw [decode58_ok s h hv] at hr; cases hr
        · have hb : ∃ c ∈ s, look base58_table c &&& 0x80 ≠ 0 := by
            by_contra hh
            apply hv
            intro c hc
            by_contra hn
            exact hh ⟨c, hc, hn⟩
          rw [decode58_bad s h hb, C.ok.injEq, DecOut.mk.injEq] at hr
          rw [← hr.1]; simp
      · have := (hi d).1 rfl
        have h2 := len_base58 d
        rw [this] at h2
        exact h2
    · exact ⟨_, base58_decode_limit s (by omega), by simp⟩

/-- C08: `base58_test` agrees with `base58_decode` within the length limit. -/
theorem base58_test_eq_decode (s : List Byte) (h : s.length ≤ 0xffffffff) :
    ∃ r, base58_decode s = .ok r ∧ base58_test s = r.ret := by
  have hl : ∀ c : Byte, look base58_table c &&& 0x80 = 0 ↔ look base58_table c ≠ 255 := by
    decide +kernel
  by_cases hv : ∀ c ∈ s, look base58_table c &&& 0x80 = 0
  · refine ⟨_, decode58_ok s h hv, ?_⟩
    simp only [base58_test, List.all_eq_true, bne_iff_ne]
    exact fun c hc => (hl c).1 (hv c hc)
  · have hb : ∃ c ∈ s, look base58_table c &&& 0x80 ≠ 0 := by
      by_contra hh
      apply hv
      intro c hc
      by_contra hn
      exact hh ⟨c, hc, hn⟩
    refine ⟨_, decode58_bad s h hb, ?_⟩
    obtain ⟨c, hc, hn⟩ := hb
    simp only [base58_test, Bool.eq_false_iff, ne_eq, List.all_eq_true, bne_iff_ne]
    intro hh
    exact hn ((hl c).2 (hh c hc))

/-- Each leading zero byte is one leading `1` of the text, and conversely. -/
theorem base58_leading (b : List Byte) :
    ((base58 b).takeWhile (· == ch '1')).length = (b.takeWhile (· == 0)).length := by
  have hone : ch '1' = base58Char 0 := by decide
  have hdig : ∀ d ∈ (Nat.digits 58 (beVal b)).reverse, d < 58 := fun d hd =>
    Nat.digits_lt_base (by decide) (List.mem_reverse.1 hd)
  have hhead : ∀ d, ((Nat.digits 58 (beVal b)).reverse.map base58Char).head? = some d →
      d ≠ ch '1' := by
    intro d hd
    rw [List.head?_map, Option.map_eq_some_iff] at hd
    obtain ⟨n, hn, rfl⟩ := hd
    have h0 := head_digits hn
    rw [hone]
    exact fun hh => h0 (inj58 n (hdig n (List.mem_of_mem_head? hn)) 0 (by decide) hh)
  obtain ⟨t1, _⟩ := takeWhile_rep (ch '1') (b.takeWhile (· == 0)).length _ hhead
  unfold base58
  rw [← hone, t1, List.length_replicate]

example : base58_encode (str "hello") = .ok (some (str "Cn8eVZg")) := by decide +kernel
example : base58_encode [0, 0, 1, 0] = .ok (some (str "115R")) := by decide +kernel
example : base58_decode (str "115R") = .ok ⟨[0, 0, 1, 0], true⟩ := by decide +kernel
example : base58_decode (str "11l") = .ok ⟨[], false⟩ := by decide +kernel

end Torsion
