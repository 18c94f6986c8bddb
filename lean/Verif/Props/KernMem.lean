import Verif.Lemmas.KernMem
set_option autoImplicit false
/-
C78: the test kernel's memset and memcpy (testkern/lib.c:15-37); C56: its calloc.
-/
namespace RME.Testkern

theorem num_split (num : BitVec 32) : 4 * (num / 4).toNat + (num &&& 3).toNat = num.toNat ∧
    (num &&& 3).toNat = num.toNat % 4 := by
  have h1 : (num / 4).toNat = num.toNat / 4 := by simp [BitVec.toNat_udiv]
  have h2 : (num &&& 3).toNat = num.toNat % 4 := by
    rw [BitVec.toNat_and]
    exact Nat.and_two_pow_sub_one_eq_mod num.toNat 2
  omega

theorem rest_off (a dest : BitVec 32) (k r : Nat) (hk : k + r < 2 ^ 32) :
    ((a - (dest + BitVec.ofNat 32 k)).toNat < r ↔ k ≤ (a - dest).toNat ∧ (a - dest).toNat < k + r) ∧
    (k ≤ (a - dest).toNat → (a - (dest + BitVec.ofNat 32 k)).toNat = (a - dest).toNat - k) := by
  rw [sub_shift a dest k (by omega)]
  have := (a - dest).isLt
  constructor
  · split <;> omega
  · intro h; rw [if_pos h]

/-- What `memset` really does, for every call: the pointer is returned; in the words that fit into
the block byte `i` becomes byte `i % 4` of `Val`, in the 0 to 3 remaining bytes the low byte of
`Val`; every other byte keeps its value. -/
theorem C78_memset_exact (mem : BitVec 32 → BitVec 8) (dest val num : BitVec 32) :
    (memset mem dest val num).1 = dest ∧
    ∀ a, (memset mem dest val num).2 a =
      if (a - dest).toNat < num.toNat / 4 * 4 then val.extractLsb' (8 * ((a - dest).toNat % 4)) 8
      else if (a - dest).toNat < num.toNat then val.setWidth 8
      else mem a := by
  refine ⟨rfl, fun a => ?_⟩
  obtain ⟨hs, hm⟩ := num_split num
  have hn := num.isLt
  obtain ⟨h1, h2⟩ := repStos_spec 4 (by decide) (num / 4).toNat mem dest val (by omega)
  obtain ⟨-, h4⟩ := repStos_spec 1 (by decide) (num &&& 3).toNat (repStos 4 (num / 4).toNat mem dest val).1
    (repStos 4 (num / 4).toNat mem dest val).2 val (by omega)
  simp only [memset]
  rw [h4, h2, h1]
  obtain ⟨hr, -⟩ := rest_off a dest (4 * (num / 4).toNat) (num &&& 3).toNat (by omega)
  rw [show 1 * (num &&& 3).toNat = (num &&& 3).toNat from Nat.one_mul _]
  generalize (a - dest).toNat = d at *
  by_cases hlo : d < num.toNat / 4 * 4
  · rw [if_neg (by rw [hr]; omega), if_pos (by omega), if_pos hlo]
  · rw [if_neg hlo]
    by_cases hd : d < num.toNat
    · rw [if_pos (by rw [hr]; omega), if_pos hd, Nat.mod_one]
      rfl
    · rw [if_neg (by rw [hr]; omega), if_neg (by omega), if_neg hd]

/-- The C contract of `memset(dest, val, num)`: the `num` bytes from `dest` on hold the low byte of
`val`, nothing else changes, and `dest` is returned. -/
def MemsetContract (mem : BitVec 32 → BitVec 8) (dest val num : BitVec 32)
    (r : BitVec 32 × (BitVec 32 → BitVec 8)) : Prop :=
  r.1 = dest ∧ (∀ i < num.toNat, r.2 (dest + BitVec.ofNat 32 i) = val.setWidth 8) ∧
  ∀ a, (∀ i < num.toNat, a ≠ dest + BitVec.ofNat 32 i) → r.2 a = mem a

theorem off_ofNat (dest : BitVec 32) (i : Nat) (h : i < 2 ^ 32) :
    (dest + BitVec.ofNat 32 i - dest).toNat = i := by
  have : dest + BitVec.ofNat 32 i - dest = BitVec.ofNat 32 i := by
    generalize BitVec.ofNat 32 i = x
    bv_omega
  rw [this, BitVec.toNat_ofNat, Nat.mod_eq_of_lt h]

theorem add_off (a dest : BitVec 32) : a = dest + BitVec.ofNat 32 (a - dest).toNat := by
  rw [BitVec.ofNat_toNat, BitVec.setWidth_eq]
  bv_omega

/-- C78: `memset` meets its contract exactly when the block is shorter than 4 bytes or the four bytes
of the `int` argument are equal. -/
theorem C78_memset_partial (mem : BitVec 32 → BitVec 8) (dest val num : BitVec 32) :
    MemsetContract mem dest val num (memset mem dest val num) ↔
      num.toNat < 4 ∨ ∀ i < 4, val.extractLsb' (8 * i) 8 = val.setWidth 8 := by
  obtain ⟨hd, hx⟩ := C78_memset_exact mem dest val num
  have hn := num.isLt
  constructor
  · rintro ⟨-, hin, -⟩
    by_cases h4 : num.toNat < 4
    · exact .inl h4
    · refine .inr fun i hi => ?_
      have := hin i (by omega)
      rw [hx, off_ofNat dest i (by omega), if_pos (by omega), Nat.mod_eq_of_lt hi] at this
      exact this
  · intro hc
    refine ⟨hd, ?_, ?_⟩
    · intro i hi
      rw [hx, off_ofNat dest i (by omega)]
      by_cases hlo : i < num.toNat / 4 * 4
      · rw [if_pos hlo]
        rcases hc with hc | hc
        · omega
        · exact hc _ (Nat.mod_lt _ (by decide))
      · rw [if_neg hlo, if_pos hi]
    · intro a ha
      have hge : ¬ (a - dest).toNat < num.toNat := fun h => ha _ h (add_off a dest)
      rw [hx, if_neg (by omega), if_neg hge]

example : ∀ i < 4, (0#32).extractLsb' (8 * i) 8 = (0#32).setWidth 8 := by decide
example : ∀ i < 4, (0xFFFFFFFF#32).extractLsb' (8 * i) 8 = (0xFFFFFFFF#32).setWidth 8 := by decide

/-- Violation of C78: filling any block of at least 4 bytes with a value from 1 to 255 leaves zero in
its second byte. -/
theorem C78_violated_memset (mem : BitVec 32 → BitVec 8) (dest val num : BitVec 32)
    (hv : 0 < val.toNat ∧ val.toNat < 256) (hn : 4 ≤ num.toNat) :
    (memset mem dest val num).2 (dest + 1) = 0 ∧
    ¬ MemsetContract mem dest val num (memset mem dest val num) := by
  have hz : val.extractLsb' 8 8 = 0 := by
    apply BitVec.eq_of_toNat_eq
    rw [BitVec.extractLsb'_toNat, Nat.shiftRight_eq_div_pow]
    simp; omega
  have h1 : (memset mem dest val num).2 (dest + 1) = 0 := by
    have h := (C78_memset_exact mem dest val num).2 (dest + BitVec.ofNat 32 1)
    rw [off_ofNat dest 1 (by decide), if_pos (by omega)] at h
    rw [← hz]; exact h
  refine ⟨h1, fun hc => ?_⟩
  have := hc.2.1 1 (by omega)
  rw [show BitVec.ofNat 32 1 = 1#32 from rfl] at this
  have h1' : (memset mem dest val num).2 (dest + 1#32) = 0 := h1
  rw [h1'] at this
  have h2 := congrArg BitVec.toNat this
  simp [BitVec.toNat_setWidth] at h2
  omega

example : 0 < (0x20#32).toNat ∧ (0x20#32).toNat < 256 ∧ 4 ≤ (80#32).toNat := by decide

theorem shift_src (s a e x : BitVec 32) : s + x + (a - (e + x)) = s + (a - e) := by bv_omega
theorem shift_both (d s x : BitVec 32) : d + x - (s + x) = d - s := by bv_omega
theorem add_back (d x : BitVec 32) : d + x - d = x := by bv_omega

/-- C78: `memcpy` copies: for all arguments where the destination does not start strictly inside the
source block (so in particular for all blocks that do not overlap, and for moves to a lower address),
byte `i` of the destination is afterwards what byte `i` of the source was before, every byte outside
the destination is unchanged, and `dest` is returned. -/
theorem C78_memcpy (mem : BitVec 32 → BitVec 8) (dest src num : BitVec 32)
    (hov : dest = src ∨ num.toNat ≤ (dest - src).toNat) :
    (memcpy mem dest src num).1 = dest ∧
    (∀ i < num.toNat, (memcpy mem dest src num).2 (dest + BitVec.ofNat 32 i) = mem (src + BitVec.ofNat 32 i)) ∧
    ∀ a, (∀ i < num.toNat, a ≠ dest + BitVec.ofNat 32 i) → (memcpy mem dest src num).2 a = mem a := by
  obtain ⟨hs, hm⟩ := num_split num
  have hn := num.isLt
  have key : ∀ a, (memcpy mem dest src num).2 a =
      if (a - dest).toNat < num.toNat then mem (src + (a - dest)) else mem a := by
    intro a
    obtain ⟨h1, h2⟩ := repMovs_spec 4 (by decide) (num / 4).toNat mem dest src (by omega)
      (by rcases hov with h | h; exact .inl h; exact .inr (by omega))
    have h1a := congrArg Prod.fst h1
    have h1b := congrArg Prod.snd h1
    simp only at h1a h1b
    generalize hk : 4 * (num / 4).toNat = k at *
    have hsh := shift_both dest src (BitVec.ofNat 32 k)
    obtain ⟨-, h4⟩ := repMovs_spec 1 (by decide) (num &&& 3).toNat (repMovs 4 (num / 4).toNat mem dest src).1
      (dest + BitVec.ofNat 32 k) (src + BitVec.ofNat 32 k) (by omega)
      (by rcases hov with h | h
          · exact .inl (by rw [h])
          · exact .inr (by rw [hsh]; omega))
    simp only [memcpy]
    rw [h1a, h1b, h4, h2, h2]
    rw [show 1 * (num &&& 3).toNat = (num &&& 3).toNat from Nat.one_mul _]
    have hsrc := shift_src src a dest (BitVec.ofNat 32 k)
    rw [hsrc]
    obtain ⟨hr, -⟩ := rest_off a dest k (num &&& 3).toNat (by omega)
    by_cases hlo : (a - dest).toNat < k
    · rw [if_neg (by rw [hr]; omega), if_pos hlo, if_pos (by omega)]
    · by_cases hd : (a - dest).toNat < num.toNat
      · rw [if_pos (by rw [hr]; omega), if_pos hd]
        have hnot : ¬ (src + (a - dest) - dest).toNat < k := by
          rw [add_sub_toNat]
          have := (dest - src).isLt
          rw [BitVec.toNat_sub]
          rcases hov with h | h
          · rw [h, show (src - src : BitVec 32).toNat = 0 by simp]
            rw [h] at hlo hd; omega
          · omega
        rw [if_neg hnot]
      · rw [if_neg (by rw [hr]; omega), if_neg hlo, if_neg hd]
  refine ⟨rfl, ?_, ?_⟩
  · intro i hi
    rw [key, off_ofNat dest i (by omega), if_pos hi]
    rw [add_back]
  · intro a ha
    rw [key, if_neg (fun h => ha _ h (add_off a dest))]

/-- Copying the interrupt vector block to the heap (testkern/main.c:28), 64 KiB from address 0. -/
example : (0x10000#32).toNat ≤ (0x110000#32 - 0#32).toNat := by decide
/-- Moving a block down by one byte. -/
example : (100#32).toNat ≤ (0x1000#32 - 0x1001#32).toNat := by decide

/-- Copying up by 1 inside the block is outside the hypothesis, and there `memcpy` does not copy
(as the C standard allows). -/
theorem C78_memcpy_sharp : ∃ mem : BitVec 32 → BitVec 8,
    (memcpy mem 1 0 8).2 (1 + 4) ≠ mem (0 + 4) := by
  refine ⟨fun a => a.setWidth 8, ?_⟩
  decide

/-- C56: `calloc` returns a block of `nmemb * size` zero bytes and touches nothing else (no
overflow in the product). -/
theorem C56_calloc (heap : BitVec 32) (mem : BitVec 32 → BitVec 8) (nmemb size : BitVec 32)
    (hov : nmemb.toNat * size.toNat < 2 ^ 32) :
    (calloc heap mem nmemb size).1 = heap ∧
    (∀ i < nmemb.toNat * size.toNat,
      (calloc heap mem nmemb size).2.2 (heap + BitVec.ofNat 32 i) = 0) ∧
    (∀ a, (∀ i < nmemb.toNat * size.toNat, a ≠ heap + BitVec.ofNat 32 i) →
      (calloc heap mem nmemb size).2.2 a = mem a) := by
  have hm : (nmemb * size).toNat = nmemb.toNat * size.toNat := by
    rw [BitVec.toNat_mul, Nat.mod_eq_of_lt hov]
  obtain ⟨-, h1, h2⟩ := (C78_memset_partial mem heap 0 (nmemb * size)).2 (.inr (by decide))
  rw [hm] at h1 h2
  exact ⟨rfl, fun i hi => (h1 i hi).trans (by decide), h2⟩

example : (1#32).toNat * (0x1234#32).toNat < 2 ^ 32 := by decide

/-- Violation next to C56: `calloc` does not check the product: a request of 2^16 × 2^16 bytes
advances the heap by nothing. -/
theorem C56_calloc_overflow_witness (heap : BitVec 32) (mem : BitVec 32 → BitVec 8) :
    (calloc heap mem 0x10000 0x10000).2.1 = heap := by
  simp [calloc, malloc]

end RME.Testkern
