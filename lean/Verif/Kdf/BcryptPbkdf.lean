import Verif.Kdf.BcryptProps
import Verif.Hash.RepLemmas

/-!
# Lemmas for bcrypt_pbkdf: the chain of blocks and the order in which the key is written
-/
namespace Torsion.Bcr
open Torsion.Spec Torsion.Bf Torsion.Hsh

theorem flat_len (f : Nat → BitVec 32 × BitVec 32) (g : BitVec 32 → List Byte) (hg : ∀ w, (g w).length = 4) (l : List Nat) :
    (l.flatMap fun i => g (f i).1 ++ g (f i).2).length = 8 * l.length := by
  induction l with
  | nil => rfl
  | cons a l ih => rw [List.flatMap_cons, List.length_append, ih, List.length_cons, List.length_append, hg, hg]; omega

theorem block_len (key salt : List Byte) : (bcryptBlock key salt).length = 32 := by
  unfold bcryptBlock
  exact flat_len _ le32 (fun _ => rfl) _

theorem hash256_eq (key salt : List Byte) (hs : salt.length ≤ 1096) : bcrypt_hash256 key salt 6 = bcryptBlock key salt := by
  have hst : ofCtx ((List.range (2 ^ 6)).foldl (fun st _ => blowfish_expand0state (blowfish_expand0state st salt) key) (blowfish_init key salt)) =
      (fun s => bfExpand (bfExpand s [] salt) [] key)^[64] (bfExpand bfPi salt key) := by
    rw [fold_iter (fun st => blowfish_expand0state (blowfish_expand0state st salt) key),
      iter_ctx (h := fun s => bfExpand (bfExpand s [] salt) [] key), blowfish_init_exact, List.take_of_length_le hs]
    · rfl
    · intro c
      unfold blowfish_expand0state
      rw [expand_eq, expand_eq]
  have hw : (fun w => (write32le w).toList) = le32 := funext write32le_le32
  unfold bcrypt_hash256 bcryptBlock
  dsimp only
  rw [show bcrypt_clamp 6 = 6 from rfl, hw, out_eq _ _ 4, hst, show bcrypt_ciphertext256 = asciiStr "OxychromaticBlowfishSwatDynamite" from by decide]

theorem sha_eq (junk : Nat → Byte) (m : List Byte) (hm : m.length < 2 ^ 64) : bcrypt_sha512 junk m = .ok (sha512 m) := by
  obtain ⟨c, h1, h2⟩ := md_rep_update ok512 (sha512_ini junk) m hm
  unfold bcrypt_sha512
  rw [h1, C.ok_bind, sha512_fin h2, List.nil_append]

theorem chain_len (pass salt : List Byte) (count i : Nat) : (pbkdfChain pass salt count i).length = 32 := by
  cases i <;> exact block_len _ _

theorem rounds_eq (junk : Nat → Nat → Byte) (pass salt : List Byte) (count : Nat) : ∀ (n i : Nat),
    bcrypt_pbkdf_rounds junk (sha512 pass) n (pbkdfChain pass salt count i) ((List.range 32).map (pbkdfByte pass salt (i + 1) count)) =
      .ok ((List.range 32).map (pbkdfByte pass salt (i + 1 + n) count))
  | 0, i => rfl
  | n + 1, i => by
    rw [bcrypt_pbkdf_rounds, sha_eq _ _ (by rw [chain_len]; decide), C.ok_bind]
    dsimp only
    rw [hash256_eq _ _ (by rw [sha512_len]; decide)]
    have hx : List.zipWith (· ^^^ ·) ((List.range 32).map (pbkdfByte pass salt (i + 1) count)) (bcryptBlock (sha512 pass) (sha512 (pbkdfChain pass salt count i))) =
        (List.range 32).map (pbkdfByte pass salt (i + 1 + 1) count) := by
      refine List.ext_getElem (by simp [block_len]) (fun j h1 h2 => ?_)
      rw [List.getElem_zipWith, List.getElem_map, List.getElem_map, List.getElem_range]
      have hp : pbkdfByte pass salt (i + 1 + 1) count j = pbkdfByte pass salt (i + 1) count j ^^^ (pbkdfChain pass salt count (i + 1)).getD j 0 := by
        unfold pbkdfByte
        rw [List.range_succ, List.foldl_append]
        rfl
      have hj : j < 32 := by simpa using h2
      rw [hp, List.getD_eq_getElem?_getD, List.getElem?_eq_getElem (by rw [chain_len]; exact hj)]
      rfl
    rw [hx]
    have := rounds_eq junk pass salt count n (i + 1)
    rw [show i + 1 + (n + 1) = i + 1 + 1 + n by omega]
    exact this

theorem first_eq (pass salt : List Byte) (count : Nat) : pbkdfChain pass salt count 0 = (List.range 32).map (pbkdfByte pass salt 1 count) := by
  refine List.ext_getElem (by simp [chain_len]) (fun j h1 h2 => ?_)
  rw [List.getElem_map, List.getElem_range]
  unfold pbkdfByte
  rw [show List.range 1 = [0] from rfl, List.foldl_cons, List.foldl_nil, List.getD_eq_getElem?_getD, List.getElem?_eq_getElem h1]
  simp

theorem wr_set {xs : List Byte} {i : Nat} {b : Byte} (h : i < xs.length) : C.wr xs i b = .ok (xs.set i b) := by
  unfold C.wr
  rw [if_pos h]

/-- How many places of a residue there are. -/
def places (size stride c : Nat) : Nat := size / stride + if c < size % stride then 1 else 0

theorem places_iff {size stride c : Nat} (hc : c < stride) (k : Nat) : k * stride + c < size ↔ k < places size stride c := by
  unfold places
  have hd := Nat.div_add_mod size stride
  have hm := Nat.mod_lt size (show 0 < stride by omega)
  rw [Nat.mul_comm] at hd
  generalize size / stride = q at *
  generalize size % stride = ρ at *
  rcases Nat.lt_trichotomy k q with h | h | h
  · have := Nat.mul_le_mul_right stride (show k + 1 ≤ q from h)
    rw [Nat.add_mul] at this
    constructor
    · intro _; split <;> omega
    · intro _; omega
  · subst h
    split <;> omega
  · have := Nat.mul_le_mul_right stride (show q + 1 ≤ k from h)
    rw [Nat.add_mul] at this
    constructor
    · intro _; omega
    · intro h'; split at h' <;> omega

theorem copy_eq {size stride c : Nat} (hc : c < stride) (out : List Byte) (h32 : places size stride c ≤ out.length) :
    ∀ (n i : Nat) (key : List Byte), key.length = size → i ≤ places size stride c → places size stride c ≤ i + n →
    ∃ key', bcrypt_pbkdf_copy out size stride (c + 1) n i key = .ok (key', places size stride c) ∧ key'.length = size ∧
      ∀ p, p < size → key'[p]? = if p % stride = c ∧ i ≤ p / stride then out[p / stride]? else key[p]?
  | n, i, key, hk, hi, hn => by
    have hsp : 0 < stride := by omega
    have done : i = places size stride c → ∀ p, p < size → key[p]? = if p % stride = c ∧ i ≤ p / stride then out[p / stride]? else key[p]? := by
      intro e p hp
      rw [if_neg]
      rintro ⟨h1, h2⟩
      have hpd := Nat.div_add_mod p stride
      rw [h1, Nat.mul_comm] at hpd
      have := (places_iff hc (p / stride)).1 (by rw [hpd]; exact hp)
      omega
    match n with
    | 0 =>
      have e : i = places size stride c := by omega
      rw [bcrypt_pbkdf_copy, ← e]
      exact ⟨key, rfl, hk, done e⟩
    | n + 1 =>
      rw [bcrypt_pbkdf_copy, Nat.add_sub_cancel]
      by_cases hd : i * stride + c ≥ size
      · have e : i = places size stride c := by
          have := mt (places_iff (size := size) hc i).2 (by omega)
          omega
        rw [if_pos hd, ← e]
        exact ⟨key, rfl, hk, done e⟩
      · rw [if_neg hd]
        have hlt := (places_iff (size := size) hc i).1 (by omega)
        rw [rd_of_lt (show i < out.length by omega), C.ok_bind, wr_set (by omega), C.ok_bind]
        obtain ⟨key', h1, h2, h3⟩ := copy_eq hc out h32 n (i + 1) (key.set (i * stride + c) out[i]) (by rw [List.length_set, hk]) hlt (by omega)
        refine ⟨key', h1, h2, fun p hp => ?_⟩
        rw [h3 p hp]
        by_cases hpc : p % stride = c
        · have hpd := Nat.div_add_mod p stride
          rw [hpc] at hpd
          rcases Nat.lt_trichotomy (p / stride) i with h | h | h
          · rw [if_neg (by omega), if_neg (by omega), List.getElem?_set, if_neg]
            intro e
            rw [← e] at h
            have : (i * stride + c) / stride = i := by
              rw [Nat.add_comm, Nat.add_mul_div_right _ _ hsp, Nat.div_eq_of_lt hc, Nat.zero_add]
            omega
          · rw [if_neg (by omega), if_pos ⟨hpc, by omega⟩, List.getElem?_set, if_pos (by rw [← hpd, h, Nat.mul_comm]), if_pos (by omega), h,
              List.getElem?_eq_getElem]
          · rw [if_pos ⟨hpc, by omega⟩, if_pos ⟨hpc, by omega⟩]
        · rw [if_neg (fun h => hpc h.1), if_neg (fun h => hpc h.1), List.getElem?_set, if_neg]
          intro e
          apply hpc
          rw [← e, Nat.add_comm, Nat.add_mul_mod_self_right, Nat.mod_eq_of_lt hc]
  termination_by n => n

/-- How many bytes are not yet written. -/
def left (size stride c : Nat) : Nat := size / stride * (stride - c) + (size % stride - c)

theorem left_step {size stride c : Nat} (hc : c < stride) : left size stride c - places size stride c = left size stride (c + 1) ∧
    places size stride c ≤ left size stride c := by
  unfold left places
  generalize size / stride = q
  have : q * (stride - c) = q * (stride - (c + 1)) + q := by
    rw [show stride - c = (stride - (c + 1)) + 1 by omega, Nat.mul_add, Nat.mul_one]
  rw [this]
  split <;> constructor <;> omega

theorem loop_eq (junk : Nat → Nat → Byte) (pass salt : List Byte) (shash : MdCtx sha512Alg) (hsh : MdRep ok512 ivSha512 shash salt)
    {rounds size stride amount : Nat} (hr : 0 < rounds) (hq : 0 < size / stride)
    (h32 : ∀ c, c < stride → places size stride c ≤ 32) (ham : ∀ c, c < stride → places size stride c ≤ amount) :
    ∀ (fuel c amt : Nat) (key : List Byte), c ≤ stride → stride - c ≤ fuel → min amount (left size stride c) ≤ amt → key.length = size →
    ∃ key', bcrypt_pbkdf_loop junk (sha512 pass) shash rounds size stride fuel (c + 1) (left size stride c) amt key = .ok key' ∧ key'.length = size ∧
      ∀ p, p < size → key'[p]? = if c ≤ p % stride then some (pbkdfByte pass salt rounds (p % stride + 1) (p / stride)) else key[p]?
  | fuel, c, amt, key, hc, hf, ha, hk => by
    have hsp : 0 < stride := by
      rcases Nat.eq_zero_or_pos stride with h | h
      · rw [h, Nat.div_zero] at hq; omega
      · exact h
    by_cases he : c = stride
    · have hl : left size stride c = 0 := by
        unfold left
        have := Nat.mod_lt size hsp
        rw [he, Nat.sub_self, Nat.mul_zero, Nat.zero_add]
        omega
      have hfin : bcrypt_pbkdf_loop junk (sha512 pass) shash rounds size stride fuel (c + 1) (left size stride c) amt key = .ok key := by
        rw [hl]
        cases fuel <;> (rw [bcrypt_pbkdf_loop, if_pos rfl])
      refine ⟨key, hfin, hk, fun p _ => ?_⟩
      rw [if_neg (by have := Nat.mod_lt p hsp; omega)]
    · have hcs : c < stride := by omega
      match fuel with
      | 0 => omega
      | fuel + 1 =>
        obtain ⟨ls, lp⟩ := left_step (size := size) hcs
        have hpos : 0 < places size stride c := by unfold places; omega
        rw [bcrypt_pbkdf_loop, if_neg (by omega)]
        obtain ⟨c2, u1, u2⟩ := md_rep_update ok512 hsh (write32be (BitVec.ofNat 32 (c + 1))).toList (by simp)
        rw [u1, C.ok_bind, sha512_fin u2, C.ok_bind]
        dsimp only
        rw [hash256_eq _ _ (by rw [sha512_len]; decide), write32be_be32]
        have hch : bcryptBlock (sha512 pass) (sha512 (salt ++ be32 (BitVec.ofNat 32 (c + 1)))) = pbkdfChain pass salt (c + 1) 0 := rfl
        have hre := rounds_eq junk pass salt (c + 1) (rounds - 1) 0
        rw [← first_eq, show 0 + 1 + (rounds - 1) = rounds by omega] at hre
        rw [hch, hre, C.ok_bind]
        have hamt : places size stride c ≤ (if amt > left size stride c then left size stride c else amt) := by
          have := ham c hcs
          split <;> omega
        obtain ⟨key1, k1, k2, k3⟩ := copy_eq hcs ((List.range 32).map (pbkdfByte pass salt rounds (c + 1))) (by simpa using h32 c hcs)
          (if amt > left size stride c then left size stride c else amt) 0 key hk (Nat.zero_le _) (by omega)
        rw [k1, C.ok_bind]
        dsimp only
        rw [ls]
        obtain ⟨key2, m1, m2, m3⟩ := loop_eq junk pass salt shash hsh hr hq h32 ham fuel (c + 1)
          (if amt > left size stride c then left size stride c else amt) key1 hcs (by omega) (by split <;> omega) k2
        refine ⟨key2, m1, m2, fun p hp => ?_⟩
        rw [m3 p hp]
        by_cases h1 : c + 1 ≤ p % stride
        · rw [if_pos h1, if_pos (by omega)]
        · rw [if_neg h1, k3 p hp]
          by_cases h2 : p % stride = c
          · have hpl := (places_iff hcs (p / stride)).1 (by
              have hpd := Nat.div_add_mod p stride
              rw [h2, Nat.mul_comm] at hpd
              rw [hpd]; exact hp)
            have := h32 c hcs
            rw [if_pos ⟨h2, Nat.zero_le _⟩, if_pos (by omega), List.getElem?_map, List.getElem?_range (by omega), h2]
            rfl
          · rw [if_neg (fun h => h2 h.1), if_neg (by omega)]
  termination_by fuel => fuel

end Torsion.Bcr
