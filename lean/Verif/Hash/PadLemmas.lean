import Verif.Hash.RepLemmas

/-!
# Lemmas about padding and collisions
-/
namespace Torsion.Hsh
open Spec Blk Strm

/-- Two lists with the same fold, neither a suffix of the other, contain a collision. -/
theorem fold_collision {St X : Type} (f : St → X → St) (iv : St) :
    ∀ (xs ys : List X), ¬ xs <:+ ys → ¬ ys <:+ xs → xs.foldl f iv = ys.foldl f iv →
      Collide f iv xs ys := by
  intro xs
  induction xs using List.reverseRecOn with
  | nil =>
    intro ys h1 _ _
    exact absurd (List.nil_suffix) h1
  | append_singleton xs x ih =>
    intro ys hn1 hn2 hf
    rcases List.eq_nil_or_concat ys with rfl | ⟨ys', y, hy⟩
    · exact absurd (List.nil_suffix) hn2
    · rw [List.concat_eq_append] at hy
      subst hy
      rw [List.foldl_append, List.foldl_append] at hf
      by_cases heq : (xs.foldl f iv, x) = (ys'.foldl f iv, y)
      · simp only [Prod.mk.injEq] at heq
        obtain ⟨p, x', q, y', h1, h2, h3, h4⟩ := ih ys'
          (fun ⟨t, e⟩ => hn1 ⟨t, by rw [← e, heq.2, List.append_assoc]⟩)
          (fun ⟨t, e⟩ => hn2 ⟨t, by rw [← e, heq.2, List.append_assoc]⟩) heq.1
        exact ⟨p, x', q, y', h1.trans (List.prefix_append _ _), h2.trans (List.prefix_append _ _), h3, h4⟩
      · exact ⟨xs, x, ys', y, List.prefix_refl _, List.prefix_refl _, heq, hf⟩

theorem not_suffix_len {X : Type} {xs ys : List X} (hl : xs.length = ys.length) (hne : xs ≠ ys) :
    ¬ xs <:+ ys ∧ ¬ ys <:+ xs :=
  ⟨fun h => hne (h.eq_of_length hl), fun h => hne (h.eq_of_length hl.symm).symm⟩

theorem not_suffix_last {X : Type} {xs ys : List X} {x y : X} (hne : x ≠ y) :
    ¬ xs ++ [x] <:+ ys ++ [y] ∧ ¬ ys ++ [y] <:+ xs ++ [x] := by
  have h : ∀ (a b : List X) (x y : X), x ≠ y → ¬ a ++ [x] <:+ b ++ [y] := by
    intro a b x y h ⟨t, e⟩
    rw [← List.append_assoc] at e
    exact h (by simpa using (List.append_inj' e rfl).2)
  exact ⟨h _ _ _ _ hne, h _ _ _ _ hne.symm⟩

theorem blocks_len (n : Nat) (m : List Byte) : (blocks n m).length = m.length / n := by
  rw [blocks, List.length_map, List.length_range]

/-- A whole number of blocks is a list of blocks. -/
theorem whole {n : Nat} (hn : 0 < n) {m : List Byte} (h : m.length % n = 0) : cat (blocks n m) = m := by
  obtain ⟨bl, t, h1, h2⟩ := split n hn m
  have : t = [] := by
    rw [h1, List.length_append, cat_length, Nat.mul_comm, Nat.mul_add_mod, Nat.mod_eq_of_lt h2] at h
    exact List.length_eq_zero_iff.1 h
  subst this
  rw [h1, blocks_cat bl [] (by simpa using hn), List.append_nil]

theorem mdPad_len (bs lenOff : Nat) (enc : Nat → Nat → List Byte) (hel : ∀ k v, (enc k v).length = k)
    (hl : lenOff < bs) (m : List Byte) : (mdPad bs lenOff enc m).length % bs = 0 := by
  have hz : m.length = m.length / bs * bs + m.length % bs := (Nat.div_add_mod' _ _).symm
  have ht : m.length % bs < bs := Nat.mod_lt _ (by omega)
  have h1 := mdZeros_eq bs lenOff (m.length / bs) (m.length % bs) ht hl
  rw [← hz] at h1
  rw [mdPad]
  simp only [List.length_append, List.length_cons, List.length_replicate, hel]
  rw [h1]
  generalize m.length % bs = t at *
  generalize m.length / bs = a at *
  split
  · rw [show m.length + (bs - t - 1 + lenOff + 1) + (bs - lenOff) = (a + 2) * bs by
      rw [hz, Nat.add_mul]; omega, Nat.mul_mod_left]
  · rw [show m.length + (lenOff - t - 1 + 1) + (bs - lenOff) = (a + 1) * bs by
      rw [hz, Nat.add_mul]; omega, Nat.mul_mod_left]

theorem mdZeros_lt (bs lenOff n : Nat) (h : 0 < bs) : mdZeros bs lenOff n < bs := Nat.mod_lt _ h

theorem mdPad_tail (bs lenOff : Nat) (enc : Nat → Nat → List Byte) (hel : ∀ k v, (enc k v).length = k)
    (m : List Byte) :
    (mdPad bs lenOff enc m).drop ((mdPad bs lenOff enc m).length - (bs - lenOff)) =
      enc (bs - lenOff) (8 * m.length) := by
  rw [mdPad]
  apply List.drop_left'
  simp only [List.length_append, hel]
  omega

theorem mdPad_inj (bs lenOff : Nat) (enc : Nat → Nat → List Byte) (hel : ∀ k v, (enc k v).length = k)
    (hei : ∀ k u v, enc k u = enc k v → u % 256 ^ k = v % 256 ^ k)
    (hl : lenOff < bs) (hbs : 8 * bs ≤ 256 ^ (bs - lenOff)) (a b : List Byte)
    (h : mdPad bs lenOff enc a = mdPad bs lenOff enc b) : a = b := by
  have ta := mdPad_tail bs lenOff enc hel a
  rw [h, mdPad_tail bs lenOff enc hel b] at ta
  have hm := hei _ _ _ ta
  have hlen := congrArg List.length h
  have za := mdZeros_lt bs lenOff a.length (by omega)
  have zb := mdZeros_lt bs lenOff b.length (by omega)
  rw [mdPad, mdPad] at hlen
  simp only [List.length_append, List.length_cons, List.length_replicate, hel] at hlen
  have hab : a.length = b.length := by
    generalize 256 ^ (bs - lenOff) = P at *
    rcases Nat.lt_trichotomy a.length b.length with hlt | heq | hgt
    · exfalso
      have h1 : (8 * (b.length - a.length)) % P = 0 := by
        have := (Nat.modEq_iff_dvd' (n := P) (by omega : 8 * a.length ≤ 8 * b.length)).1 hm.symm
        rw [← Nat.mul_sub] at this
        exact Nat.mod_eq_zero_of_dvd this
      rw [Nat.mod_eq_of_lt (by omega)] at h1
      omega
    · exact heq
    · exfalso
      have h1 : (8 * (a.length - b.length)) % P = 0 := by
        have := (Nat.modEq_iff_dvd' (n := P) (by omega : 8 * b.length ≤ 8 * a.length)).1 hm
        rw [← Nat.mul_sub] at this
        exact Nat.mod_eq_zero_of_dvd this
      rw [Nat.mod_eq_of_lt (by omega)] at h1
      omega
  rw [mdPad, mdPad, List.append_assoc, List.append_assoc] at h
  exact List.append_inj_left h hab

theorem leBytes_inj (k u v : Nat) (h : leBytes k u = leBytes k v) : u % 256 ^ k = v % 256 ^ k := by
  rw [← leVal_leBytes, ← leVal_leBytes, h]

theorem bigBytes_inj (k u v : Nat) (h : bigBytes k u = bigBytes k v) : u % 256 ^ k = v % 256 ^ k :=
  leBytes_inj k u v (List.reverse_injective h)

/-- The last block decides the length. -/
theorem md_collide {St : Type} (bs lenOff : Nat) (enc : Nat → Nat → List Byte)
    (hel : ∀ k v, (enc k v).length = k) (hei : ∀ k u v, enc k u = enc k v → u % 256 ^ k = v % 256 ^ k)
    (hl : lenOff < bs) (hbs : 8 * bs ≤ 256 ^ (bs - lenOff)) (f : St → Vector Byte bs → St) (iv : St)
    (a b : List Byte) (ha : 8 * a.length < 256 ^ (bs - lenOff)) (hb : 8 * b.length < 256 ^ (bs - lenOff))
    (hab : a ≠ b)
    (h : (blocks bs (mdPad bs lenOff enc a)).foldl f iv = (blocks bs (mdPad bs lenOff enc b)).foldl f iv) :
    Collide f iv (blocks bs (mdPad bs lenOff enc a)) (blocks bs (mdPad bs lenOff enc b)) := by
  have h0 : 0 < bs := by omega
  have wa := whole h0 (mdPad_len bs lenOff enc hel hl a)
  have wb := whole h0 (mdPad_len bs lenOff enc hel hl b)
  have hne : mdPad bs lenOff enc a ≠ mdPad bs lenOff enc b := fun e =>
    hab (mdPad_inj bs lenOff enc hel hei hl hbs a b e)
  have ta := mdPad_tail bs lenOff enc hel a
  have tb := mdPad_tail bs lenOff enc hel b
  by_cases hlen : a.length = b.length
  · obtain ⟨n1, n2⟩ := not_suffix_len (xs := blocks bs (mdPad bs lenOff enc a))
      (ys := blocks bs (mdPad bs lenOff enc b)) (by
        rw [blocks_len, blocks_len, mdPad, mdPad]
        simp only [List.length_append, List.length_cons, List.length_replicate, hel, hlen])
      (fun e => hne (by rw [← wa, ← wb, e]))
    exact fold_collision f iv _ _ n1 n2 h
  · have hene : enc (bs - lenOff) (8 * a.length) ≠ enc (bs - lenOff) (8 * b.length) := by
      intro e
      have := hei _ _ _ e
      rw [Nat.mod_eq_of_lt ha, Nat.mod_eq_of_lt hb] at this
      omega
    generalize blocks bs (mdPad bs lenOff enc a) = xs at *
    generalize blocks bs (mdPad bs lenOff enc b) = ys at *
    -- the last block ends with the length
    have last : ∀ (zs : List (Vector Byte bs)) (m : List Byte), cat zs = mdPad bs lenOff enc m →
        ∃ p x, zs = p ++ [x] ∧ x.toList.drop lenOff = enc (bs - lenOff) (8 * m.length) := by
      intro zs m hz
      rcases List.eq_nil_or_concat zs with rfl | ⟨p, x, hx⟩
      · have := congrArg List.length hz
        rw [mdPad] at this
        simp at this
      · rw [List.concat_eq_append] at hx
        refine ⟨p, x, hx, ?_⟩
        rw [← mdPad_tail bs lenOff enc hel m, ← hz, hx, cat_append, cat_cons, cat_nil, List.append_nil,
          List.length_append, Vector.length_toList, List.drop_append,
          List.drop_of_length_le (l := cat p) (by omega), List.nil_append]
        congr 1
        omega
    obtain ⟨p, x, hx, ex⟩ := last xs a wa
    obtain ⟨q, y, hy, ey⟩ := last ys b wb
    have hxy : x ≠ y := by
      intro e
      rw [e, ey] at ex
      exact hene ex.symm
    subst hx hy
    obtain ⟨n1, n2⟩ := not_suffix_last (xs := p) (ys := q) hxy
    exact fold_collision f iv _ _ n1 n2 h

theorem md2Pad_len (m : List Byte) : (md2Pad m).length % 16 = 0 := by
  rw [md2Pad]; simp; omega

theorem md2Pad_inj (a b : List Byte) (h : md2Pad a = md2Pad b) : a = b := by
  have hl := congrArg List.length h
  have hlast := congrArg List.getLast? h
  rw [md2Pad, md2Pad] at h hl hlast
  have e : ∀ m : List Byte, (m ++ List.replicate (16 - m.length % 16) (BitVec.ofNat 8 (16 - m.length % 16))).getLast? =
      some (BitVec.ofNat 8 (16 - m.length % 16)) := by
    intro m
    rw [List.getLast?_append, List.getLast?_replicate, if_neg (by omega)]
    rfl
  rw [e, e, Option.some_inj] at hlast
  have hv := congrArg BitVec.toNat hlast
  rw [BitVec.toNat_ofNat, BitVec.toNat_ofNat] at hv
  simp only [List.length_append, List.length_replicate] at hl
  exact List.append_inj_left h (by omega)

theorem sponge_len (bs : Nat) (h : 1 < bs) (p : Byte) (m : List Byte) : (sponge10 bs p m).length % bs = 0 := by
  have ht : m.length % bs < bs := Nat.mod_lt _ (by omega)
  have hz : m.length = m.length / bs * bs + m.length % bs := (Nat.div_add_mod' _ _).symm
  rw [sponge10]
  generalize m.length % bs = t at *
  generalize m.length / bs = a at *
  have e : ∀ n, n = (a + 1) * bs → n % bs = 0 := fun n hn => by rw [hn, Nat.mul_mod_left]
  split
  · refine e _ ?_
    simp only [List.length_append, List.length_singleton, Nat.add_mul]; omega
  · refine e _ ?_
    simp only [List.length_append, List.length_cons, List.length_replicate, List.length_nil, Nat.add_mul]
    omega

/-- Strings ending in a non-zero byte and zeros. -/
theorem strip (p : Byte) (hp : p ≠ 0) : ∀ (a b : List Byte) (i j : Nat),
    a ++ p :: List.replicate i 0 = b ++ p :: List.replicate j 0 → a = b := by
  have key : ∀ (a b : List Byte) (i j : Nat),
      List.replicate i 0 ++ p :: a = List.replicate j 0 ++ p :: b → a = b := by
    intro a b i
    induction i with
    | zero =>
      intro j h
      cases j with
      | zero => simpa using h
      | succ j =>
        rw [List.replicate_succ] at h
        simp only [List.replicate_zero, List.nil_append, List.cons_append, List.cons.injEq] at h
        exact absurd h.1 hp
    | succ i ih =>
      intro j h
      cases j with
      | zero =>
        rw [List.replicate_succ] at h
        simp only [List.replicate_zero, List.nil_append, List.cons_append, List.cons.injEq] at h
        exact absurd h.1.symm hp
      | succ j =>
        rw [List.replicate_succ, List.replicate_succ] at h
        simp only [List.cons_append, List.cons.injEq, true_and] at h
        exact ih j h
  intro a b i j h
  have h2 := congrArg List.reverse h
  simp only [List.reverse_append, List.reverse_cons, List.reverse_replicate, List.append_assoc,
    List.singleton_append] at h2
  exact List.reverse_injective (key _ _ _ _ h2)

theorem sponge_inj (bs : Nat) (hbs : 1 < bs) (p : Byte) (hp0 : p ≠ 0) (hp8 : p ≠ 0x80) (a b : List Byte)
    (h : sponge10 bs p a = sponge10 bs p b) : a = b := by
  have h80 : p ||| 0x80 ≠ 0x80 := (by decide : ∀ p : Byte, p ≠ 0 → p ≠ 0x80 → p ||| 0x80 ≠ 0x80) p hp0 hp8
  have hor : p ||| 0x80 = p ||| 0x80 := rfl
  have la := Nat.mod_lt a.length (by omega : 0 < bs)
  have lb := Nat.mod_lt b.length (by omega : 0 < bs)
  rw [sponge10, sponge10] at h
  split at h <;> split at h
  · exact (List.append_inj' h rfl).1
  · rw [List.append_assoc] at h
    have hh := congrArg List.getLast? h
    rw [← List.append_assoc] at hh
    simp only [List.getLast?_append, List.getLast?_singleton, Option.some_or, Option.some_inj] at hh
    exact absurd hh h80
  · rw [List.append_assoc] at h
    have hh := congrArg List.getLast? h
    rw [← List.append_assoc] at hh
    simp only [List.getLast?_append, List.getLast?_singleton, Option.some_or, Option.some_inj] at hh
    exact absurd hh.symm h80
  · exact strip p hp0 a b _ _ (List.append_inj' h rfl).1

/-! ## BLAKE2 and GOST94 -/

theorem blake2_fold {w : Nat} (bs : Nat) (compress : Vector (BitVec w) 8 → BitVec w → BitVec w →
      Vector Byte bs → BitVec w → Vector (BitVec w) 8)
    (iv : Vector (BitVec w) 8) (len : Nat) (key m : List Byte) :
    blake2 bs compress iv len key m =
      ((((blake2Inputs w bs (b2data bs key m)).foldl (blake2Step compress)
        (iv.set 0 (iv[0] ^^^ BitVec.ofNat w (0x01010000 + 256 * key.length + len)))).toList.flatMap
          fun x => leBytes (w / 8) x.toNat).take len) := by
  rw [blake2, blake2Inputs, List.foldl_append, List.foldl_map]
  rfl

theorem b2last_ne (w bs : Nat) (a b : List Byte) (ha : a.length < 2 ^ (2 * w)) (hb : b.length < 2 ^ (2 * w))
    (h : a.length ≠ b.length) (x y : Vector Byte bs) (o o' : BitVec w) :
    (x, BitVec.ofNat w a.length, BitVec.ofNat w (a.length / 2 ^ w), o) ≠
      (y, BitVec.ofNat w b.length, BitVec.ofNat w (b.length / 2 ^ w), o') := by
  intro e
  simp only [Prod.mk.injEq] at e
  have e1 := congrArg BitVec.toNat e.2.1
  have e2 := congrArg BitVec.toNat e.2.2.1
  have hw : 2 ^ (2 * w) = 2 ^ w * 2 ^ w := by rw [Nat.two_mul, Nat.pow_add]
  rw [hw] at ha hb
  rw [BitVec.toNat_ofNat, BitVec.toNat_ofNat] at e1 e2
  rw [Nat.mod_eq_of_lt (Nat.div_lt_of_lt_mul ha), Nat.mod_eq_of_lt (Nat.div_lt_of_lt_mul hb)] at e2
  have d1 := Nat.div_add_mod a.length (2 ^ w)
  have d2 := Nat.div_add_mod b.length (2 ^ w)
  rw [e1, e2] at d1
  omega

theorem b2inputs_inj (w bs : Nat) (hbs : 0 < bs) (a b : List Byte) (hl : a.length = b.length)
    (h : blake2Inputs w bs a = blake2Inputs w bs b) : a = b := by
  rw [blake2Inputs, blake2Inputs] at h
  rw [← hl] at h
  generalize hn : (a.length - 1) / bs = n at h
  obtain ⟨h1, h2⟩ := List.append_inj' h rfl
  simp only [List.cons.injEq, Prod.mk.injEq, and_true] at h2
  have hb : blocks bs (a.take (n * bs)) = blocks bs (b.take (n * bs)) := by
    have := congrArg (List.map fun x : Vector Byte bs × BitVec w × BitVec w × BitVec w => x.1) h1
    rw [List.map_map, List.map_map] at this
    have e : ∀ l : List (Vector Byte bs), (l.zipIdx.map ((fun x : Vector Byte bs × BitVec w × BitVec w × BitVec w => x.1) ∘
        fun b : Vector Byte bs × Nat => (b.1, BitVec.ofNat w ((b.2 + 1) * bs), BitVec.ofNat w ((b.2 + 1) * bs / 2 ^ w), 0))) = l := by
      intro l
      exact List.zipIdx_map_fst 0 l
    rwa [e, e] at this
  have hle : n * bs ≤ a.length := by
    rw [← hn]
    exact Nat.le_trans (Nat.div_mul_le_self _ _) (by omega)
  have hlt : a.length ≤ n * bs + bs := by
    have h3 := Nat.div_add_mod (a.length - 1) bs
    have h4 := Nat.mod_lt (a.length - 1) hbs
    rw [hn, Nat.mul_comm] at h3
    omega
  have hm : ∀ m : List Byte, m.length = a.length → (m.take (n * bs)).length % bs = 0 := by
    intro m hm
    rw [List.length_take, hm, Nat.min_eq_left hle, Nat.mul_mod_left]
  have ht : a.take (n * bs) = b.take (n * bs) := by
    rw [← whole hbs (hm a rfl), ← whole hbs (hm b hl.symm), hb]
  have hd : a.drop (n * bs) = b.drop (n * bs) := by
    apply List.ext_getElem
    · simp [hl]
    · intro i h3 h4
      rw [List.length_drop] at h3 h4
      have hi : i < bs := by omega
      have := congrArg (fun v : Vector Byte bs => v[i]) h2
      simp only [Vector.getElem_ofFn] at this
      rw [List.getElem_drop, List.getElem_drop]
      rw [List.getD_eq_getElem?_getD, List.getD_eq_getElem?_getD, List.getElem?_eq_getElem (by omega),
        List.getElem?_eq_getElem (by omega)] at this
      exact this
  rw [← List.take_append_drop (n * bs) a, ht, hd, List.take_append_drop]

theorem b2data_inj (bs : Nat) (key a b : List Byte) (h : b2data bs key a = b2data bs key b) : a = b :=
  List.append_cancel_left h

theorem words_inj {w n : Nat} (k : Nat) (hk : w = 8 * k) (a b : Vector (BitVec w) n)
    (h : (a.toList.flatMap fun x => leBytes k x.toNat) = b.toList.flatMap fun x => leBytes k x.toNat) :
    a = b := by
  have key : ∀ (xs ys : List (BitVec w)), xs.length = ys.length →
      (xs.flatMap fun x => leBytes k x.toNat) = (ys.flatMap fun x => leBytes k x.toNat) → xs = ys := by
    intro xs
    induction xs with
    | nil => intro ys hl _; exact (List.length_eq_zero_iff.1 hl.symm).symm
    | cons x xs ih =>
      intro ys hl h
      cases ys with
      | nil => simp at hl
      | cons y ys =>
        rw [List.flatMap_cons, List.flatMap_cons] at h
        obtain ⟨h1, h2⟩ := List.append_inj h (by rw [leBytes_len, leBytes_len])
        have := leBytes_inj k _ _ h1
        have hp : 256 ^ k = 2 ^ w := by rw [hk, Nat.pow_mul]
        rw [hp, Nat.mod_eq_of_lt x.isLt, Nat.mod_eq_of_lt y.isLt] at this
        rw [BitVec.eq_of_toNat_eq this, ih ys (by simpa using hl) h2]
  exact Vector.toList_inj.1 (key _ _ (by simp) h)

theorem blake2_collide {w : Nat} (bs k : Nat) (hk : w = 8 * k) (hbs : 0 < bs)
    (compress : Vector (BitVec w) 8 → BitVec w → BitVec w →
      Vector Byte bs → BitVec w → Vector (BitVec w) 8)
    (iv : Vector (BitVec w) 8) (key a b : List Byte)
    (ha : (b2data bs key a).length < 2 ^ (2 * w)) (hb : (b2data bs key b).length < 2 ^ (2 * w)) (hab : a ≠ b)
    (h : blake2 bs compress iv w key a = blake2 bs compress iv w key b) :
    Collide (blake2Step compress)
      (iv.set 0 (iv[0] ^^^ BitVec.ofNat w (0x01010000 + 256 * key.length + w)))
      (blake2Inputs w bs (b2data bs key a)) (blake2Inputs w bs (b2data bs key b)) := by
  have hne : b2data bs key a ≠ b2data bs key b := fun e => hab (b2data_inj bs key a b e)
  rw [blake2_fold, blake2_fold] at h
  generalize iv.set 0 (iv[0] ^^^ BitVec.ofNat w (0x01010000 + 256 * key.length + w)) = h0 at *
  generalize b2data bs key a = x at *
  generalize b2data bs key b = y at *
  have hk8 : w / 8 = k := by omega
  have hfl : ∀ v : Vector (BitVec w) 8, (v.toList.flatMap fun x => leBytes (w / 8) x.toNat).take w =
      v.toList.flatMap fun x => leBytes k x.toNat := by
    intro v
    rw [hk8, List.take_of_length_le]
    rw [flat_len _ k (fun x => leBytes_len _ _), Vector.length_toList]
    omega
  rw [hfl, hfl] at h
  have h' := words_inj k hk _ _ h
  by_cases hl : x.length = y.length
  · have hin : blake2Inputs w bs x ≠ blake2Inputs w bs y := fun e => hne (b2inputs_inj w bs hbs x y hl e)
    obtain ⟨n1, n2⟩ := not_suffix_len (by
      rw [blake2Inputs, blake2Inputs]
      simp only [List.length_append, List.length_map, List.length_zipIdx, blocks_len, List.length_take, hl,
        List.length_singleton]) hin
    exact fold_collision _ _ _ _ n1 n2 h'
  · have hlast := b2last_ne w bs x y ha hb hl
    rw [blake2Inputs, blake2Inputs] at *
    obtain ⟨n1, n2⟩ := not_suffix_last (hlast _ _ _ _)
    exact fold_collision _ _ _ _ n1 n2 h'

theorem zeroPad_len (n : Nat) (hn : 0 < n) (m : List Byte) : (zeroPad n m).length % n = 0 := by
  rw [zeroPad, List.length_append, List.length_replicate, Nat.add_mod, Nat.mod_mod]
  have ht := Nat.mod_lt m.length hn
  by_cases h0 : m.length % n = 0
  · rw [h0]; simp
  · rw [Nat.mod_eq_of_lt (a := n - m.length % n) (by omega), show m.length % n + (n - m.length % n) = n by omega,
      Nat.mod_self]

theorem gost_fold2 (m : List Byte) :
    Spec.gost94 m = ((gost94Inputs m).foldl Std.gost94Compress (Vector.replicate 32 0)).toList := by
  rw [Spec.gost94, gost94Inputs, List.foldl_append]
  rfl

theorem gost_inputs_form (m : List Byte) : ∃ l t : Vector Byte 32,
    gost94Inputs m = blocks 32 (zeroPad 32 m) ++ [l, t] ∧
    (8 * m.length < 2 ^ 256 → leVal l.toList = 8 * m.length) := by
  refine ⟨_, _, rfl, fun hm => ?_⟩
  have e : (Vector.ofFn fun i : Fin 32 => BitVec.ofNat 8 (8 * m.length / 256 ^ i.val)).toList =
      leBytes 32 (8 * m.length) := by
    rw [leBytes]
    apply List.ext_getElem
    · simp
    · intro i h1 h2
      simp
  rw [e, leVal_leBytes]
  exact Nat.mod_eq_of_lt hm

theorem gost_collide (a b : List Byte) (ha : 8 * a.length < 2 ^ 256) (hb : 8 * b.length < 2 ^ 256) (hab : a ≠ b)
    (h : Spec.gost94 a = Spec.gost94 b) :
    Collide Std.gost94Compress (Vector.replicate 32 0) (gost94Inputs a) (gost94Inputs b) := by
  rw [gost_fold2, gost_fold2, Vector.toList_inj] at h
  generalize Std.gost94Compress = f at *
  generalize Vector.replicate 32 (0 : Byte) = iv at *
  obtain ⟨l, s, ea, la⟩ := gost_inputs_form a
  obtain ⟨l', s', eb, lb⟩ := gost_inputs_form b
  have za := whole (by decide) (zeroPad_len 32 (by decide) a)
  have zb := whole (by decide) (zeroPad_len 32 (by decide) b)
  have zl : a.length = b.length → (blocks 32 (zeroPad 32 a)).length = (blocks 32 (zeroPad 32 b)).length := by
    intro hl
    rw [blocks_len, blocks_len, zeroPad, zeroPad, List.length_append, List.length_append,
      List.length_replicate, List.length_replicate, hl]
  rw [ea, eb] at h ⊢
  generalize blocks 32 (zeroPad 32 a) = xs at *
  generalize blocks 32 (zeroPad 32 b) = ys at *
  by_cases hl : a.length = b.length
  · have hin : xs ++ [l, s] ≠ ys ++ [l', s'] := by
      intro e
      have e1 := (List.append_inj' e rfl).1
      rw [e1, zb, zeroPad, zeroPad] at za
      exact hab (List.append_inj za hl.symm).1.symm
    obtain ⟨n1, n2⟩ := not_suffix_len (by
      rw [List.length_append, List.length_append, zl hl]; rfl) hin
    exact fold_collision _ _ _ _ n1 n2 h
  · have hne : l ≠ l' := by
      intro e
      have := la ha
      rw [e, lb hb] at this
      omega
    have sfx : ∀ (p q : List (Vector Byte 32)) (l l' s s' : Vector Byte 32), l ≠ l' →
        ¬ (p ++ [l, s]) <:+ (q ++ [l', s']) := by
      intro p q l l' s s' hne ⟨t, e⟩
      rw [← List.append_assoc] at e
      have := (List.append_inj' e rfl).2
      simp only [List.cons.injEq, and_true] at this
      exact hne this.1
    exact fold_collision _ _ _ _ (sfx _ _ _ _ _ _ hne) (sfx _ _ _ _ _ _ hne.symm) h

end Torsion.Hsh
