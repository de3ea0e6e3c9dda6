import Verif.Cipher.ModeLemmas

/-!
# Lemmas: the stream modes byte by byte
-/
namespace Torsion.Ciph
open Spec Blk

variable {n : Nat}

/-- The state without the position: `state` and `iv`. -/
abbrev SI (n : Nat) := Vector Byte n × Vector Byte n

/-- Put a state and position together. -/
def mk (q : SI n) (pos : Nat) : StreamMode n := ⟨q.1, q.2, pos⟩

/-- The callback byte by byte, inside a block. -/
def inner (p : SI n → Nat → Byte → Byte × SI n) : SI n → Nat → List Byte → List Byte × SI n
  | q, _, [] => ([], q)
  | q, pos, b :: bs =>
    ((p q pos b).1 :: (inner p (p q pos b).2 (pos + 1) bs).1, (inner p (p q pos b).2 (pos + 1) bs).2)

/-- The whole mode byte by byte. -/
def serial (S : SI n → SI n) (p : SI n → Nat → Byte → Byte × SI n) :
    SI n → Nat → List Byte → List Byte × SI n × Nat
  | q, pos, [] => ([], q, pos)
  | q, pos, b :: bs =>
    let q1 := if pos = 0 then S q else q
    let r := p q1 pos b
    let s := serial S p r.2 ((pos + 1) % n) bs
    (r.1 :: s.1, s.2)

variable {S : SI n → SI n} {p : SI n → Nat → Byte → Byte × SI n}

theorem serial_append : ∀ (a b : List Byte) (q : SI n) (pos : Nat),
    serial S p q pos (a ++ b) =
      ((serial S p q pos a).1 ++ (serial S p (serial S p q pos a).2.1 (serial S p q pos a).2.2 b).1,
        (serial S p (serial S p q pos a).2.1 (serial S p q pos a).2.2 b).2)
  | [], b, q, pos => rfl
  | x :: a, b, q, pos => by
    rw [List.cons_append, serial, serial_append a b]
    rfl

theorem serial_length : ∀ (a : List Byte) (q : SI n) (pos : Nat), (serial S p q pos a).1.length = a.length
  | [], q, pos => rfl
  | x :: a, q, pos => by
    rw [serial]; simp [serial_length a]

theorem serial_pos (hn : 0 < n) : ∀ (a : List Byte) (q : SI n) (pos : Nat), pos < n →
    (serial S p q pos a).2.2 = (pos + a.length) % n
  | [], q, pos, h => by simp [serial, Nat.mod_eq_of_lt h]
  | x :: a, q, pos, h => by
    rw [serial]
    dsimp only
    rw [serial_pos hn a _ _ (Nat.mod_lt _ hn), List.length_cons, Nat.mod_add_mod]
    congr 1; omega

theorem serial_mid : ∀ (l : List Byte) (q : SI n) (pos : Nat), 0 < pos → pos < n → pos + l.length ≤ n →
    serial S p q pos l = ((inner p q pos l).1, (inner p q pos l).2, (pos + l.length) % n)
  | [], q, pos, h1, h2, _ => by simp [serial, inner, Nat.mod_eq_of_lt h2]
  | x :: l, q, pos, h1, h2, h3 => by
    rw [List.length_cons] at h3
    rw [serial, if_neg (by omega)]
    cases l with
    | nil => simp [serial, inner]
    | cons y l =>
      rw [List.length_cons] at h3
      rw [Nat.mod_eq_of_lt (by omega : pos + 1 < n),
        serial_mid (y :: l) _ (pos + 1) (by omega) (by omega) (by rw [List.length_cons]; omega)]
      rw [show (x :: y :: l).length = (y :: l).length + 1 from rfl,
        show pos + ((y :: l).length + 1) = pos + 1 + (y :: l).length by omega]
      rfl

theorem serial_start {l : List Byte} (h : 0 < l.length) (h2 : l.length ≤ n) (q : SI n) :
    serial S p q 0 l = ((inner p (S q) 0 l).1, (inner p (S q) 0 l).2, l.length % n) := by
  cases l with
  | nil => simp at h
  | cons x l =>
    rw [List.length_cons] at h2
    rw [serial, if_pos rfl]
    cases l with
    | nil => simp [serial, inner]
    | cons y l =>
      rw [List.length_cons] at h2
      rw [Nat.zero_add, Nat.mod_eq_of_lt (by omega : 1 < n),
        serial_mid (y :: l) _ 1 (by omega) (by omega) (by rw [List.length_cons]; omega)]
      rw [show (x :: y :: l).length = (y :: l).length + 1 from rfl,
        show (y :: l).length + 1 = 1 + (y :: l).length by omega]
      rfl

/-- What the callbacks are asked to be. -/
structure Callbacks (stream : StreamMode n → C (StreamMode n)) (permute : XorF n) (S : SI n → SI n)
    (p : SI n → Nat → Byte → Byte × SI n) : Prop where
  stream : ∀ q pos, stream (mk q pos) = .ok (mk (S q) pos)
  permute : ∀ q pos' pos l, pos + l.length ≤ n →
    permute (mk q pos') pos l = .ok ((inner p q pos l).1, mk (inner p q pos l).2 pos')

variable {stream : StreamMode n → C (StreamMode n)} {permute : XorF n}

theorem loop_serial (hn : 0 < n) (h : Callbacks stream permute S p) (pos : Nat) :
    ∀ (k : Nat) (q : SI n) (src : List Byte), src.length ≤ k →
    ∃ a b, src = a ++ b ∧ b.length < n ∧ (serial S p q 0 a).2.2 = 0 ∧
      xstream_loop stream permute k (mk q pos) src =
        .ok ((serial S p q 0 a).1, mk (serial S p q 0 a).2.1 pos, b)
  | 0, q, src, hk => by
    have : src = [] := by simpa using hk
    subst this
    exact ⟨[], [], rfl, hn, rfl, by rw [xstream_loop, if_neg (by simp; omega)]; rfl⟩
  | k + 1, q, src, hk => by
    rw [xstream_loop]
    by_cases hl : src.length ≥ n
    · have ht : (src.take n).length = n := by rw [List.length_take]; omega
      rw [if_pos hl, h.stream, C.ok_bind, h.permute _ _ _ _ (by omega), C.ok_bind]
      obtain ⟨a, b, h1, h2, h3, h4⟩ := loop_serial hn h pos k (inner p (S q) 0 (src.take n)).2 (src.drop n)
        (by rw [List.length_drop]; omega)
      have hs := serial_start (S := S) (p := p) (l := src.take n) (by omega) (by omega) q
      rw [ht, Nat.mod_self] at hs
      refine ⟨src.take n ++ a, b, by rw [List.append_assoc, ← h1, List.take_append_drop], h2, ?_, ?_⟩
      · rw [serial_append, hs]; exact h3
      · dsimp only
        rw [h4, C.ok_bind, serial_append, hs]
    · rw [if_neg hl]
      exact ⟨[], src, rfl, by omega, rfl, rfl⟩

theorem update_serial (hn : 0 < n) (h : Callbacks stream permute S p) (q : SI n) {pos : Nat} (hpos : pos < n)
    (src : List Byte) :
    xstream_update stream permute (mk q pos) src =
      .ok ((serial S p q pos src).1, mk (serial S p q pos src).2.1 (serial S p q pos src).2.2) := by
  unfold xstream_update
  dsimp only
  rw [show (mk q pos).pos = pos from rfl]
  -- the part after the loop, with a position of zero
  have tail0 : ∀ (o : List Byte) (q' : SI n) (b : List Byte) (pos' : Nat), b.length < n →
      (if b.length > 0 then do
          let m ← (if (0 : Nat) = 0 then stream (mk q' pos') else .ok (mk q' pos'))
          let r ← permute m 0 b
          .ok (o ++ r.1, { r.2 with pos := 0 + b.length })
        else .ok (o, { mk q' pos' with pos := 0 }) : C (List Byte × StreamMode n)) =
        .ok (o ++ (serial S p q' 0 b).1, mk (serial S p q' 0 b).2.1 (serial S p q' 0 b).2.2) := by
    intro o q' b pos' hb
    by_cases hb0 : b.length > 0
    · rw [if_pos hb0, if_pos rfl, h.stream, C.ok_bind, h.permute _ _ _ _ (by omega), C.ok_bind,
        serial_start hb0 (by omega), Nat.mod_eq_of_lt hb, Nat.zero_add]
      rfl
    · have : b = [] := by simpa using hb0
      subst this
      rw [if_neg hb0]
      simp [serial, mk]
  by_cases hw : src.length ≥ n - pos
  · rw [if_pos hw]
    by_cases hp : pos > 0
    · have ht : (src.take (n - pos)).length = n - pos := by rw [List.length_take]; omega
      rw [if_pos hp, h.permute _ _ _ _ (by omega), C.ok_bind, C.ok_bind]
      dsimp only
      obtain ⟨a, b, h1, h2, h3, h4⟩ := loop_serial hn h pos (src.drop (n - pos)).length
        (inner p q pos (src.take (n - pos))).2 (src.drop (n - pos)) (Nat.le_refl _)
      rw [h4, C.ok_bind, C.ok_bind]
      dsimp only
      rw [tail0 _ _ _ _ h2]
      have hs := serial_mid (S := S) (p := p) (src.take (n - pos)) q pos hp hpos (by omega)
      rw [ht, show pos + (n - pos) = n by omega, Nat.mod_self] at hs
      conv_rhs => rw [← List.take_append_drop (n - pos) src, serial_append, hs, h1]
      dsimp only
      rw [serial_append, h3, List.append_assoc]
    · have hp0 : pos = 0 := by omega
      subst hp0
      rw [if_neg hp, C.ok_bind]
      dsimp only
      obtain ⟨a, b, h1, h2, h3, h4⟩ := loop_serial hn h 0 src.length q src (Nat.le_refl _)
      rw [h4, C.ok_bind, C.ok_bind]
      dsimp only
      rw [tail0 _ _ _ _ h2, h1, serial_append, h3]
      rfl
  · rw [if_neg hw, C.ok_bind]
    dsimp only
    by_cases hp : pos = 0
    · subst hp
      exact tail0 [] q src 0 (by omega)
    · by_cases hl : src.length > 0
      · rw [if_pos hl, if_neg hp, C.ok_bind, h.permute _ _ _ _ (by omega), C.ok_bind,
          serial_mid _ _ _ (by omega) hpos (by omega), Nat.mod_eq_of_lt (by omega : pos + src.length < n)]
        rfl
      · have : src = [] := by simpa using hl
        subst this
        rw [if_neg hl]; rfl

/-! ## Key streams -/

/-- Exclusive or with the byte at the position. -/
def xorByte (q : SI n) (pos : Nat) (b : Byte) : Byte × SI n := (b ^^^ q.1.toList.getD pos 0, q)

theorem inner_xor : ∀ (l : List Byte) (q : SI n) (pos : Nat), pos + l.length ≤ n →
    inner xorByte q pos l = (memxor3 l ((q.1.toList.drop pos).take l.length), q)
  | [], q, pos, _ => by simp [inner, memxor3]
  | b :: l, q, pos, h => by
    rw [List.length_cons] at h
    rw [inner, show (xorByte q pos b).2 = q from rfl, inner_xor l q (pos + 1) (by omega)]
    have hd : q.1.toList.drop pos = q.1.toList[pos]'(by simp; omega) :: q.1.toList.drop (pos + 1) :=
      List.drop_eq_getElem_cons (by simp; omega)
    rw [hd, List.length_cons, List.take_succ_cons]
    have hz : ∀ (x y : Byte) (a b : List Byte), memxor3 (x :: a) (y :: b) = (x ^^^ y) :: memxor3 a b :=
      fun _ _ _ _ => rfl
    rw [hz]
    congr 2
    rw [xorByte, List.getD_eq_getElem?_getD, List.getElem?_eq_getElem (by simp; omega)]
    rfl

theorem ctr_xor_inner (q : SI n) (pos' pos : Nat) (l : List Byte) (h : pos + l.length ≤ n) :
    ctr_xor (mk q pos') pos l = .ok ((inner xorByte q pos l).1, mk (inner xorByte q pos l).2 pos') := by
  rw [ctr_xor, inner_xor l q pos h]
  show (C.slice q.1.toList pos l.length >>= _) = _
  rw [slice_mid (by simp; omega)]
  rfl

/-- The state after `off` bytes of a key stream mode. -/
def atOff (S : SI n → SI n) (q0 : SI n) (off : Nat) : SI n := S^[(off + n - 1) / n] q0

theorem serial_xor (hn : 0 < n) (S : SI n → SI n) (q0 : SI n) : ∀ (l : List Byte) (off : Nat),
    serial S xorByte (atOff S q0 off) (off % n) l =
      (xorStream (fun i => (S^[i / n + 1] q0).1.toList.getD (i % n) 0) off l,
        atOff S q0 (off + l.length), (off + l.length) % n)
  | [], off => by simp [serial, xorStream]
  | b :: l, off => by
    have hdm := Nat.div_add_mod off n
    have hml := Nat.mod_lt off hn
    have e1 : (if off % n = 0 then S (atOff S q0 off) else atOff S q0 off) = S^[off / n + 1] q0 := by
      by_cases h : off % n = 0
      · rw [if_pos h, Function.iterate_succ_apply', atOff]
        congr 2
        rw [show off + n - 1 = n * (off / n) + (n - 1) by omega, Nat.mul_add_div hn,
          Nat.div_eq_of_lt (by omega : n - 1 < n), Nat.add_zero]
      · rw [if_neg h, atOff]
        congr 2
        rw [show off + n - 1 = n * (off / n + 1) + (off % n - 1) by rw [Nat.mul_add]; omega,
          Nat.mul_add_div hn, Nat.div_eq_of_lt (by omega : off % n - 1 < n), Nat.add_zero]
    have e2 : atOff S q0 (off + 1) = S^[off / n + 1] q0 := by
      rw [atOff]
      congr 1
      rw [show off + 1 + n - 1 = off + n by omega, Nat.add_div_right _ hn]
    rw [serial]
    rw [e1, show (xorByte (S^[off / n + 1] q0) (off % n) b).2 = S^[off / n + 1] q0 from rfl, ← e2,
      Nat.mod_add_mod, serial_xor hn S q0 l (off + 1)]
    rw [List.length_cons, show off + 1 + l.length = off + (l.length + 1) by omega]
    congr 1
    rw [xorStream, xorStream, List.mapIdx_cons, e2]
    congr 1
    dsimp only
    congr 1
    funext i c
    rw [show off + 1 + i = off + (i + 1) by omega]

theorem atOff_zero (hn : 0 < n) (S : SI n → SI n) (q0 : SI n) : atOff S q0 0 = q0 := by
  rw [atOff, Nat.div_eq_of_lt (by omega)]; rfl

/-! ## CTR -/

/-- One counter step. -/
def ctrS (c : Cipher n) (q : SI n) : SI n :=
  (c.enc q.2, beBlock n ((beVal q.2.toList + 1) % 256 ^ n))

theorem ctr_stream_eq (c : Cipher n) (q : SI n) (pos : Nat) :
    ctr_stream c (mk q pos) = .ok (mk (ctrS c q) pos) := by
  rw [ctr_stream]
  show (increment_be_var q.2.toList >>= _) = _
  obtain ⟨y, h1, h2, h3⟩ := increment_be_spec q.2.toList
  rw [increment_be_var_eq, h1, C.ok_bind]
  rw [Vector.length_toList] at h2 h3
  obtain ⟨v, h4, h5⟩ := vec_ok (n := n) (xs := y) (by omega)
  rw [List.take_of_length_le (by omega)] at h5
  rw [h4, C.ok_bind]
  have : v = beBlock n ((beVal q.2.toList + 1) % 256 ^ n) := by
    rw [← h3, ← h5, beBlock_val]
  rw [this]
  rfl

theorem ctr_callbacks (c : Cipher n) : Callbacks (ctr_stream c) ctr_xor (ctrS c) xorByte :=
  ⟨ctr_stream_eq c, ctr_xor_inner⟩

theorem ctrS_iter (c : Cipher n) (q : SI n) : ∀ k, ((ctrS c)^[k] q).2 = beBlock n ((beVal q.2.toList + k) % 256 ^ n)
  | 0 => by
    have : beVal q.2.toList < 256 ^ n := by simpa using beVal_lt q.2.toList
    rw [Function.iterate_zero_apply, Nat.add_zero, Nat.mod_eq_of_lt this, beBlock_val]
  | k + 1 => by
    rw [Function.iterate_succ_apply', ctrS, ctrS_iter c q k]
    dsimp only
    rw [beVal_beBlock (Nat.mod_lt _ (Nat.pow_pos (by omega))), Nat.mod_add_mod, Nat.add_assoc]

theorem ctr_ks (c : Cipher n) (q : SI n) :
    (fun i => ((ctrS c)^[i / n + 1] q).1.toList.getD (i % n) 0) = ctrStream c.enc q.2 := by
  funext i
  rw [Function.iterate_succ_apply', ctrStream, ctrS, ctrS_iter]

/-! ## OFB -/

/-- One output feedback step. -/
def ofbS (c : Cipher n) (q : SI n) : SI n := (c.enc q.1, q.2)

theorem ofb_callbacks (c : Cipher n) : Callbacks (ofb_stream c) ctr_xor (ofbS c) xorByte :=
  ⟨fun _ _ => rfl, ctr_xor_inner⟩

theorem ofbS_iter (c : Cipher n) (q : SI n) : ∀ k, ((ofbS c)^[k] q).1 = c.enc^[k] q.1
  | 0 => rfl
  | k + 1 => by
    rw [Function.iterate_succ_apply', ofbS, ofbS_iter c q k, Function.iterate_succ_apply']

theorem ofb_ks (c : Cipher n) (q : SI n) :
    (fun i => ((ofbS c)^[i / n + 1] q).1.toList.getD (i % n) 0) = ofbStream c.enc q.1 := by
  funext i
  rw [ofbS_iter, ofbStream]

/-! ## CFB -/

/-- Replace one byte. -/
def setB (v : Vector Byte n) (i : Nat) (b : Byte) : Vector Byte n :=
  Vector.ofFn fun j : Fin n => if j.val = i then b else v[j.val]

/-- One cipher feedback step. -/
def cfbS (c : Cipher n) (q : SI n) : SI n := (c.enc q.2, q.2)

/-- One byte of encryption. -/
def cfbE (q : SI n) (pos : Nat) (b : Byte) : Byte × SI n :=
  (b ^^^ q.1.toList.getD pos 0, (q.1, setB q.2 pos (b ^^^ q.1.toList.getD pos 0)))

/-- One byte of decryption. -/
def cfbD (q : SI n) (pos : Nat) (b : Byte) : Byte × SI n := (b ^^^ q.1.toList.getD pos 0, (q.1, setB q.2 pos b))

/-- `C.putat` as a function. -/
def put (v : Vector Byte n) (pos : Nat) (data : List Byte) : Vector Byte n :=
  Vector.ofFn fun i : Fin n =>
    if pos ≤ i.val ∧ i.val < pos + data.length then data.getD (i.val - pos) 0 else v[i.val]

theorem putat_eq (v : Vector Byte n) {pos : Nat} {data : List Byte} (h : pos + data.length ≤ n) :
    C.putat v pos data = .ok (put v pos data) := by
  rw [C.putat, if_pos h]; rfl

theorem put_nil (v : Vector Byte n) (pos : Nat) : put v pos [] = v := by
  apply Vector.ext
  intro i hi
  simp only [put, Vector.getElem_ofFn, List.length_nil]
  rw [if_neg (by omega)]

theorem put_cons (v : Vector Byte n) (pos : Nat) (b : Byte) (l : List Byte) :
    put v pos (b :: l) = put (setB v pos b) (pos + 1) l := by
  apply Vector.ext
  intro i hi
  simp only [put, setB, Vector.getElem_ofFn, List.length_cons]
  by_cases h1 : i = pos
  · subst h1
    rw [if_pos (by omega), if_neg (by omega), if_pos rfl, Nat.sub_self]; rfl
  · rw [if_neg h1]
    by_cases h2 : pos + 1 ≤ i ∧ i < pos + 1 + l.length
    · rw [if_pos (by omega), if_pos h2, show i - pos = (i - (pos + 1)) + 1 by omega]; rfl
    · rw [if_neg (by omega), if_neg h2]

theorem inner_cfbD : ∀ (l : List Byte) (q : SI n) (pos : Nat),
    inner cfbD q pos l = ((inner xorByte q pos l).1, (q.1, put q.2 pos l))
  | [], q, pos => by rw [put_nil]; rfl
  | b :: l, q, pos => by
    rw [inner, inner_cfbD l, put_cons, inner]
    have : ∀ (l : List Byte) (a b b' : Vector Byte n) (pos : Nat),
        (inner xorByte (a, b) pos l).1 = (inner xorByte (a, b') pos l).1 := by
      intro l
      induction l with
      | nil => intros; rfl
      | cons x l ih =>
        intro a b b' pos
        exact congrArg (((x ^^^ a.toList.getD pos 0)) :: ·) (ih a b b' (pos + 1))
    simp only [cfbD, xorByte]
    rw [this l q.1 _ q.2]

theorem inner_cfbE : ∀ (l : List Byte) (q : SI n) (pos : Nat),
    inner cfbE q pos l = ((inner xorByte q pos l).1, (q.1, put q.2 pos (inner xorByte q pos l).1))
  | [], q, pos => by rw [inner, inner, put_nil]
  | b :: l, q, pos => by
    rw [inner, inner_cfbE l, inner]
    have : ∀ (l : List Byte) (a b b' : Vector Byte n) (pos : Nat),
        (inner xorByte (a, b) pos l).1 = (inner xorByte (a, b') pos l).1 := by
      intro l
      induction l with
      | nil => intros; rfl
      | cons x l ih =>
        intro a b b' pos
        exact congrArg (((x ^^^ a.toList.getD pos 0)) :: ·) (ih a b b' (pos + 1))
    simp only [cfbE, xorByte]
    rw [this l q.1 _ q.2, put_cons]

theorem inner_length (p : SI n → Nat → Byte → Byte × SI n) : ∀ (l : List Byte) (q : SI n) (pos : Nat),
    (inner p q pos l).1.length = l.length
  | [], q, pos => rfl
  | b :: l, q, pos => by rw [inner]; simp [inner_length p l]

theorem cfb_callbacks_enc (c : Cipher n) : Callbacks (cfb_stream c) cfb_xor_enc (cfbS c) cfbE := by
  refine ⟨fun _ _ => rfl, fun q pos' pos l h => ?_⟩
  rw [cfb_xor_enc]
  show (C.slice q.1.toList pos l.length >>= _) = _
  rw [slice_mid (by simp; omega), C.ok_bind]
  have hx := inner_xor l q pos h
  have hl := inner_length xorByte l q pos
  rw [inner_cfbE]
  rw [hx] at hl ⊢
  dsimp only at hl ⊢
  rw [putat_eq _ (by omega), C.ok_bind]
  rfl

theorem cfb_callbacks_dec (c : Cipher n) : Callbacks (cfb_stream c) cfb_xor_dec (cfbS c) cfbD := by
  refine ⟨fun _ _ => rfl, fun q pos' pos l h => ?_⟩
  rw [cfb_xor_dec]
  show (C.putat q.2 pos l >>= _) = _
  rw [putat_eq _ h, C.ok_bind]
  show (C.slice q.1.toList pos l.length >>= _) = _
  rw [slice_mid (by simp; omega), C.ok_bind, inner_cfbD, inner_xor l q pos h]
  rfl

theorem cfb_inv (S : SI n → SI n) : ∀ (l : List Byte) (q : SI n) (pos : Nat),
    serial S cfbD q pos (serial S cfbE q pos l).1 = (l, (serial S cfbE q pos l).2)
  | [], q, pos => rfl
  | b :: l, q, pos => by
    rw [serial]
    dsimp only
    rw [serial]
    have e : ∀ q : SI n, (cfbD q pos (cfbE q pos b).1) = (b, (cfbE q pos b).2) := by
      intro q
      simp [cfbD, cfbE, BitVec.xor_assoc]
    rw [e]
    dsimp only
    rw [cfb_inv S l]

theorem cfbPrev_append (iv : Vector Byte n) (pre r : List Byte) (k : Nat) (h : k * n ≤ pre.length) :
    cfbPrev iv (pre ++ r) k = cfbPrev iv pre k := by
  cases k with
  | zero => rfl
  | succ k =>
    rw [Nat.add_mul] at h
    apply Vector.ext
    intro j hj
    simp only [cfbPrev, Vector.getElem_ofFn]
    rw [List.getD_eq_getElem?_getD, List.getElem?_append_left (by omega), ← List.getD_eq_getElem?_getD]

/-- The state after ciphertext `pre`. -/
def CfbAt (c : Cipher n) (iv : Vector Byte n) (pre : List Byte) (q : SI n) : Prop :=
  (∀ j (h : j < n), q.2[j] = if j < pre.length % n then pre.getD (pre.length / n * n + j) 0
    else (cfbPrev iv pre (pre.length / n))[j]) ∧
  (pre.length % n ≠ 0 → q.1 = c.enc (cfbPrev iv pre (pre.length / n)))

theorem cfb_step (hn : 0 < n) {c : Cipher n} {iv : Vector Byte n} {pre : List Byte} {q : SI n}
    (h : CfbAt c iv pre q) (b : Byte) :
    (cfbE (if pre.length % n = 0 then cfbS c q else q) (pre.length % n) b).1 =
      b ^^^ (c.enc (cfbPrev iv pre (pre.length / n))).toList.getD (pre.length % n) 0 ∧
    CfbAt c iv (pre ++ [(cfbE (if pre.length % n = 0 then cfbS c q else q) (pre.length % n) b).1])
      (cfbE (if pre.length % n = 0 then cfbS c q else q) (pre.length % n) b).2 := by
  obtain ⟨h1, h2⟩ := h
  have hdm := Nat.div_add_mod pre.length n
  have hml := Nat.mod_lt pre.length hn
  have e1 : (if pre.length % n = 0 then cfbS c q else q) = (c.enc (cfbPrev iv pre (pre.length / n)), q.2) := by
    by_cases h0 : pre.length % n = 0
    · rw [if_pos h0, cfbS]
      congr 2
      apply Vector.ext
      intro j hj
      rw [h1 j hj, if_neg (by omega)]
    · rw [if_neg h0, ← h2 h0]
  rw [e1]
  refine ⟨rfl, ?_⟩
  dsimp only [cfbE]
  generalize hx : (b ^^^ (c.enc (cfbPrev iv pre (pre.length / n))).toList.getD (pre.length % n) 0) = x
  have hcomm : pre.length / n * n = n * (pre.length / n) := Nat.mul_comm _ _
  have hpre : cfbPrev iv (pre ++ [x]) (pre.length / n) = cfbPrev iv pre (pre.length / n) :=
    cfbPrev_append _ _ _ _ (by omega)
  have hget : ∀ j, (pre ++ [x]).getD (pre.length / n * n + j) 0 =
      if pre.length / n * n + j < pre.length then pre.getD (pre.length / n * n + j) 0 else
        if pre.length / n * n + j = pre.length then x else 0 := by
    intro j
    split
    · rename_i h; rw [List.getD_eq_getElem?_getD, List.getElem?_append_left h, ← List.getD_eq_getElem?_getD]
    · rename_i h
      rw [List.getD_eq_getElem?_getD, List.getElem?_append_right (by omega)]
      split
      · rename_i h'; rw [h', Nat.sub_self]; rfl
      · rw [List.getElem?_eq_none (by simp; omega)]; rfl
  have hlen : (pre ++ [x]).length = pre.length + 1 := by simp
  unfold CfbAt
  rw [hlen]
  by_cases hlast : pre.length % n + 1 < n
  · have hd : (pre.length + 1) / n = pre.length / n := by
      rw [show pre.length + 1 = n * (pre.length / n) + (pre.length % n + 1) by omega, Nat.mul_add_div hn,
        Nat.div_eq_of_lt hlast, Nat.add_zero]
    have hm : (pre.length + 1) % n = pre.length % n + 1 := by
      conv_lhs => rw [show pre.length + 1 = n * (pre.length / n) + (pre.length % n + 1) by omega]
      rw [Nat.mul_add_mod, Nat.mod_eq_of_lt hlast]
    rw [hd, hm, hpre]
    refine ⟨fun j hj => ?_, fun _ => rfl⟩
    simp only [setB, Vector.getElem_ofFn]
    rw [hget]
    by_cases hj1 : j = pre.length % n
    · rw [if_pos hj1, if_pos (by omega), if_neg (by omega), if_pos (by omega)]
    · rw [if_neg hj1, h1 j hj]
      by_cases hj2 : j < pre.length % n
      · rw [if_pos hj2, if_pos (by omega), if_pos (by omega)]
      · rw [if_neg hj2, if_neg (by omega)]
  · have hd : (pre.length + 1) / n = pre.length / n + 1 := by
      rw [show pre.length + 1 = n * (pre.length / n + 1) by rw [Nat.mul_add]; omega, Nat.mul_div_cancel_left _ hn]
    have hm : (pre.length + 1) % n = 0 := by
      rw [show pre.length + 1 = n * (pre.length / n + 1) by rw [Nat.mul_add]; omega, Nat.mul_mod_right]
    rw [hd, hm]
    refine ⟨fun j hj => ?_, fun h => absurd rfl h⟩
    rw [if_neg (by omega)]
    simp only [setB, cfbPrev, Vector.getElem_ofFn]
    rw [hget]
    by_cases hj1 : j = pre.length % n
    · rw [if_pos hj1, if_neg (by omega), if_pos (by omega)]
    · rw [if_neg hj1, h1 j hj, if_pos (by omega), if_pos (by omega)]

theorem cfb_exact (hn : 0 < n) {c : Cipher n} {iv : Vector Byte n} : ∀ (l pre : List Byte) (q : SI n),
    CfbAt c iv pre q → ∀ i < l.length,
    (serial (cfbS c) cfbE q (pre.length % n) l).1.getD i 0 = l.getD i 0 ^^^
      (c.enc (cfbPrev iv (pre ++ (serial (cfbS c) cfbE q (pre.length % n) l).1) ((pre.length + i) / n))).toList.getD
        ((pre.length + i) % n) 0
  | [], pre, q, _, i, hi => by simp at hi
  | b :: l, pre, q, h, i, hi => by
    obtain ⟨h1, h2⟩ := cfb_step hn h b
    rw [serial]
    generalize he : cfbE (if pre.length % n = 0 then cfbS c q else q) (pre.length % n) b = e at *
    dsimp only
    cases i with
    | zero =>
      rw [List.getD_cons_zero, List.getD_cons_zero, h1, show pre.length + 0 = pre.length from rfl, cfbPrev_append _ _ _ _ (Nat.div_mul_le_self _ _)]
    | succ i =>
      have ih := cfb_exact hn l (pre ++ [e.1]) e.2 h2 i (by simpa using hi)
      rw [show (pre ++ [e.1]).length = pre.length + 1 by simp, List.append_assoc, List.singleton_append,
        ← Nat.mod_add_mod] at ih
      rw [List.getD_cons_succ, List.getD_cons_succ, show pre.length + (i + 1) = pre.length + 1 + i by omega]
      rw [Nat.mod_add_mod] at ih
      rw [Nat.mod_add_mod]
      exact ih

theorem cfbAt_nil (c : Cipher n) (st iv : Vector Byte n) : CfbAt c iv [] (st, iv) := by
  refine ⟨fun j hj => ?_, fun h => absurd (by simp) h⟩
  rw [if_neg (by simp)]
  simp [cfbPrev]

end Torsion.Ciph
