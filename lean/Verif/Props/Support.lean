import Verif.Model.DebugPrint
import Verif.Model.Testkern
import Verif.Model.Nativetest
set_option autoImplicit false
/-
C47 (debug text buffer), C56, C57, C60 (test kernel run time), C58, C59 (native tester).
-/
namespace RME.Debug

/-- The buffer is sound: length field in 0..64 and a NUL at index `min len 63` (within the 64 bytes). -/
def Sound (b : Buf) : Prop := b.len ≤ 64 ∧ b.mem (min b.len 63) = 0

/-- Everything a sequence of debug prints does after the reset at the start of an instruction. -/
def prints (b : Buf) (texts : List (List (BitVec 8))) : Buf := texts.foldl debugPrint b

theorem debugPrint_sound {b : Buf} (h : Sound b) (t : List (BitVec 8)) : Sound (debugPrint b t) := by
  obtain ⟨h1, h2⟩ := h
  simp only [Sound, debugPrint, vsnprintfMem]
  split
  · rename_i hlt
    refine ⟨by simp only [SIZE] at *; omega, ?_⟩
    rw [if_neg (by omega)]
    have e : List.take (SIZE - b.len - 1) t = t := List.take_of_length_le (by omega)
    simp only [e, SIZE] at *
    rw [if_neg (by omega), if_neg (by omega), if_pos (by omega)]
  · exact ⟨by simp, by simp [SIZE]⟩

theorem debugPrint_frame (b : Buf) (t : List (BitVec 8)) (h : b.len ≤ 64) (i : Nat) (hi : 64 ≤ i) :
    (debugPrint b t).mem i = b.mem i := by
  simp only [debugPrint, vsnprintfMem, SIZE]
  split
  · split
    · rfl
    · rename_i h1 h2
      have e : List.take (64 - b.len - 1) t = t := List.take_of_length_le (by omega)
      simp only [e]
      rw [if_neg (by omega), if_neg (by omega), if_neg (by omega)]
  · simp only
    rw [if_neg (by omega), if_neg (by omega)]
    split
    · rfl
    · rename_i h1 h2
      have e : (List.take (64 - b.len - 1) t).length ≤ 64 - b.len - 1 := List.length_take_le _ _
      simp only
      rw [if_neg (by omega), if_neg (by omega), if_neg (by omega)]

/-- C47: for every sequence of printed texts, after the per-instruction reset (and from every sound
buffer) the length field stays in 0..64, the text is NUL terminated inside the 64 bytes, and no byte
behind the buffer is changed. -/
theorem C47_debug_buffer (b : Buf) (texts : List (List (BitVec 8))) :
    Sound (prints (reset b) texts) ∧
    ∀ i, 64 ≤ i → (prints (reset b) texts).mem i = b.mem i := by
  have key : ∀ (ts : List (List (BitVec 8))) (c : Buf), Sound c →
      Sound (prints c ts) ∧ ∀ i, 64 ≤ i → (prints c ts).mem i = c.mem i := by
    intro ts
    induction ts with
    | nil => intro c h; exact ⟨h, fun _ _ => rfl⟩
    | cons t ts ih =>
      intro c h
      obtain ⟨h1, h2⟩ := ih (debugPrint c t) (debugPrint_sound h t)
      refine ⟨h1, fun i hi => ?_⟩
      rw [show prints c (t :: ts) = prints (debugPrint c t) ts from rfl, h2 i hi,
        debugPrint_frame c t h.1 i hi]
  obtain ⟨h1, h2⟩ := key texts (reset b) ⟨by simp [reset], by simp [reset]⟩
  refine ⟨h1, fun i hi => ?_⟩
  rw [h2 i hi]
  simp only [reset]
  rw [if_neg (by omega)]

/-- C47: as long as the texts fit, the buffer holds exactly their concatenation followed by NUL. -/
theorem C47_debug_text (b : Buf) (texts : List (List (BitVec 8))) (hfit : texts.flatten.length < 64) :
    (prints (reset b) texts).len = texts.flatten.length ∧
    (∀ i (hi : i < texts.flatten.length), (prints (reset b) texts).mem i = texts.flatten[i]) ∧
    (prints (reset b) texts).mem texts.flatten.length = 0 := by
  have key : ∀ (ts : List (List (BitVec 8))) (c : Buf) (done : List (BitVec 8)),
      c.len = done.length → (∀ i (hi : i < done.length), c.mem i = done[i]) → c.mem done.length = 0 →
      (done ++ ts.flatten).length < 64 →
      (prints c ts).len = (done ++ ts.flatten).length ∧
      (∀ i (hi : i < (done ++ ts.flatten).length), (prints c ts).mem i = (done ++ ts.flatten)[i]) ∧
      (prints c ts).mem (done ++ ts.flatten).length = 0 := by
    intro ts
    induction ts with
    | nil => intro c done h1 h2 h3 _; simpa [prints] using ⟨h1, h2, h3⟩
    | cons t ts ih =>
      intro c done h1 h2 h3 hlt
      have e : done ++ (t :: ts).flatten = (done ++ t) ++ ts.flatten := by simp
      have hl : done.length + t.length < 64 := by simp at hlt; omega
      have hd : debugPrint c t = Buf.mk (c.len + t.length) (fun i =>
          if i < c.len then c.mem i else if i < c.len + t.length then t.getD (i - c.len) 0
          else if i = c.len + t.length then 0 else c.mem i) := by
        simp only [debugPrint, vsnprintfMem, SIZE]
        rw [if_pos (by omega), if_neg (by omega)]
        have e : List.take (64 - c.len - 1) t = t := List.take_of_length_le (by omega)
        simp only [e]
      have := ih (debugPrint c t) (done ++ t) (by rw [hd]; simp [h1]) (by
        intro i hi
        rw [hd]
        simp only [List.length_append] at hi
        by_cases h : i < done.length
        · simp [h1, h, h2 i h, List.getElem_append]
        · have h' : i < done.length + t.length := hi
          simp [h1, h, h', List.getElem_append]
          have : i - done.length < t.length := by omega
          simp [this]) (by rw [hd]; simp [h1]; omega) (by simpa [List.append_assoc] using hlt)
      simp only [e]
      exact this
  have := key texts (reset b) [] (by simp [reset]) (by simp) (by simp [reset]) (by simpa using hfit)
  simpa using this

example : ([[0x41], [0x42, 0x43]] : List (List (BitVec 8))).flatten.length < 64 := by decide

theorem prints_full (ts : List (List (BitVec 8))) : ∀ c : Buf, c.len = 64 → c.mem 62 = 0x24 → c.mem 63 = 0 →
    (prints c ts).mem 62 = 0x24 ∧ (prints c ts).mem 63 = 0 ∧ ∀ i, i < 62 → (prints c ts).mem i = c.mem i := by
  induction ts with
  | nil => intro c _ h2 h3; exact ⟨h2, h3, fun _ _ => rfl⟩
  | cons t ts ih =>
    intro c h1 h2 h3
    have hd : debugPrint c t = Buf.mk 64 (fun i => if i = 62 then 0x24 else if i = 63 then 0 else c.mem i) := by
      simp only [debugPrint, vsnprintfMem, SIZE, h1]
      rw [if_neg (by omega)]
      rfl
    obtain ⟨h4, h5, h6⟩ := ih (debugPrint c t) (by rw [hd]) (by rw [hd]; rfl) (by rw [hd]; rfl)
    refine ⟨h4, h5, fun i hi => ?_⟩
    rw [show prints c (t :: ts) = prints (debugPrint c t) ts from rfl, h6 i hi, hd]
    show (if i = 62 then _ else if i = 63 then _ else c.mem i) = _
    rw [if_neg (by omega), if_neg (by omega)]

theorem prints_long (ts : List (List (BitVec 8))) : ∀ (c : Buf) (done : List (BitVec 8)), c.len = done.length → done.length < 64 →
    (∀ i (hi : i < done.length), c.mem i = done[i]) → 64 ≤ (done ++ ts.flatten).length →
    (prints c ts).mem 62 = 0x24 ∧ (prints c ts).mem 63 = 0 ∧ ∀ i (hi : i < (done ++ ts.flatten).length), i < 62 → (prints c ts).mem i = (done ++ ts.flatten)[i] := by
  induction ts with
  | nil => intro c done _ h2 _ h4; simp at h4; omega
  | cons t ts ih =>
    intro c done h1 h2 h3 h4
    by_cases hl : done.length + t.length < 64
    · have hd : debugPrint c t = Buf.mk (c.len + t.length) (fun i =>
          if i < c.len then c.mem i else if i < c.len + t.length then t.getD (i - c.len) 0
          else if i = c.len + t.length then 0 else c.mem i) := by
        simp only [debugPrint, vsnprintfMem, SIZE]
        rw [if_pos (by omega), if_neg (by omega)]
        have e : List.take (64 - c.len - 1) t = t := List.take_of_length_le (by omega)
        simp only [e]
      have e : done ++ (t :: ts).flatten = (done ++ t) ++ ts.flatten := by simp
      have := ih (debugPrint c t) (done ++ t) (by rw [hd]; simp [h1]) (by simpa using hl) (by
        intro i hi
        rw [hd]
        simp only [List.length_append] at hi
        by_cases h : i < done.length
        · simp [h1, h, h3 i h]
        · have h' : i < done.length + t.length := hi
          simp [h1, h, h', List.getElem_append]
          have : i - done.length < t.length := by omega
          simp [this]) (by rw [← e]; exact h4)
      simp only [e]
      exact this
    · have hd : debugPrint c t = Buf.mk 64 (fun i => if i = 62 then 0x24 else if i = 63 then 0 else
          if i < c.len then c.mem i else if i < c.len + (t.take (64 - c.len - 1)).length then (t.take (64 - c.len - 1)).getD (i - c.len) 0
          else if i = c.len + (t.take (64 - c.len - 1)).length then 0 else c.mem i) := by
        simp only [debugPrint, vsnprintfMem, SIZE]
        rw [if_neg (by omega), if_neg (by omega)]
      obtain ⟨h5, h6, h7⟩ := prints_full ts (debugPrint c t) (by rw [hd]) (by rw [hd]; rfl) (by rw [hd]; rfl)
      refine ⟨h5, h6, fun i hi h62 => ?_⟩
      rw [show prints c (t :: ts) = prints (debugPrint c t) ts from rfl, h7 i h62, hd]
      show (if i = 62 then _ else if i = 63 then _ else _) = _
      rw [if_neg (by omega), if_neg (by omega)]
      by_cases h : i < done.length
      · rw [if_pos (by omega), h3 i h]; simp [List.getElem_append, h]
      · rw [if_neg (by omega)]
        have hlt : (t.take (64 - c.len - 1)).length = 63 - c.len := by rw [List.length_take]; omega
        rw [if_pos (by omega)]
        have h8 : i - done.length < t.length := by omega
        rw [List.getD_eq_getElem?_getD, List.getElem?_eq_getElem (by omega)]
        simp [List.getElem_append, h, h1, h8]

theorem takeWhile_nul {l rest : List (BitVec 8)} (h : (0 : BitVec 8) ∉ l) : (l ++ 0 :: rest).takeWhile (· ≠ 0) = l := by
  induction l with
  | nil => simp
  | cons a l ih =>
    simp only [List.mem_cons, not_or] at h
    have : a ≠ 0 := fun e => h.1 e.symm
    rw [List.cons_append, List.takeWhile_cons, if_pos (by simpa using this), ih h.2]

theorem shown_of {b : Buf} {l : List (BitVec 8)} (hn : (0 : BitVec 8) ∉ l) (hl : l.length < 64) (hm : ∀ i (hi : i < l.length), b.mem i = l[i])
    (h0 : b.mem l.length = 0) : shown b = l := by
  have e : (List.range SIZE).map b.mem = l ++ 0 :: (List.range (63 - l.length)).map (fun i => b.mem (l.length + 1 + i)) := by
    apply List.ext_getElem
    · simp [SIZE]; omega
    · intro i h1 h2
      simp only [List.getElem_map, List.getElem_range, List.getElem_append]
      split
      · rename_i h; exact hm i h
      · rename_i h
        obtain ⟨k, hk⟩ : ∃ k, i = l.length + k := ⟨i - l.length, by omega⟩
        subst hk
        cases k with
        | zero => simpa using h0
        | succ k =>
          simp only [Nat.add_sub_cancel_left, List.getElem_cons_succ, List.getElem_map, List.getElem_range]
          congr 1; omega
  rw [shown, e]
  exact takeWhile_nul hn

/-- C47: what the trace shows of the texts of an instruction (without NUL characters): all of it if it has at most 63 characters,
else exactly the first 62 characters and a dollar sign, however the text was put together. -/
theorem C47_debug_shown (b : Buf) (texts : List (List (BitVec 8))) (hn : (0 : BitVec 8) ∉ texts.flatten) :
    shown (prints (reset b) texts) = if texts.flatten.length ≤ 63 then texts.flatten else texts.flatten.take 62 ++ [0x24] := by
  split
  · rename_i h
    obtain ⟨_, h2, h3⟩ := C47_debug_text b texts (by omega)
    exact shown_of hn (by omega) h2 h3
  · rename_i h
    obtain ⟨h1, h2, h3⟩ := prints_long texts (reset b) [] rfl (by decide) (by intro i hi; cases hi) (by rw [List.nil_append]; omega)
    have hlen : (texts.flatten.take 62).length = 62 := by rw [List.length_take]; omega
    refine shown_of ?_ (by simp [hlen]) ?_ (by simp only [List.length_append, hlen]; exact h2)
    · intro hm
      rcases List.mem_append.1 hm with hm | hm
      · exact hn (List.mem_of_mem_take hm)
      · simp at hm
    · intro i hi
      simp only [List.length_append, hlen, List.length_singleton] at hi
      by_cases h62 : i < 62
      · rw [List.getElem_append_left (by omega), List.getElem_take]
        have := h3 i (by rw [List.nil_append]; omega) h62
        simpa using this
      · have : i = 62 := by omega
        subst this
        rw [h1]
        simp [hlen]

theorem cutText_eq (texts : List (List (BitVec 8))) (b : Buf) (hn : (0 : BitVec 8) ∉ texts.flatten) :
    shown (prints (reset b) texts) = cutText 0x24 texts.flatten := by
  rw [C47_debug_shown b texts hn, cutText]
  generalize texts.flatten = l
  by_cases h : l.length ≤ 63
  · rw [if_pos h, if_pos (show l.length < 64 by omega)]
  · rw [if_neg h, if_neg (show ¬ l.length < 64 by omega)]; rfl

example : shown (prints (reset ⟨9, fun _ => 7⟩) [List.replicate 40 0x41, List.replicate 30 0x42]) =
    List.replicate 40 0x41 ++ List.replicate 22 0x42 ++ [0x24] := by decide +kernel

end RME.Debug

namespace RME.Testkern

/-! ### C56 -/

/-- Bytes handed out for a request, rounded up to 8. -/
def rounded (b : BitVec 32) : Nat := (b.toNat + 7) / 8 * 8

theorem round_eq (b : BitVec 32) (hb : b.toNat + 7 < 2 ^ 32) :
    ((b + 7) &&& ~~~7 : BitVec 32).toNat = rounded b := by
  have h1 : (b + 7 : BitVec 32).toNat = b.toNat + 7 := by
    rw [BitVec.toNat_add]; simp; omega
  have h2 : ∀ x : BitVec 32, (x &&& ~~~7#32) = (x >>> 3) <<< 3 := by
    intro x
    apply BitVec.eq_of_getLsbD_eq
    intro i hi
    simp only [BitVec.getLsbD_and, BitVec.getLsbD_shiftLeft, BitVec.getLsbD_ushiftRight]
    by_cases h : i < 3
    · have : i = 0 ∨ i = 1 ∨ i = 2 := by omega
      rcases this with rfl | rfl | rfl <;> simp <;> decide
    · have : (~~~7#32).getLsbD i = true := by
        have : ∀ j : Nat, j < 32 → ¬ j < 3 → (~~~7#32).getLsbD j = true := by decide
        exact this i hi h
      rw [this, show 3 + (i - 3) = i by omega]
      simp [h, hi]
  show ((b + 7) &&& ~~~7#32).toNat = _
  rw [h2]
  simp only [BitVec.toNat_shiftLeft, BitVec.toNat_ushiftRight, Nat.shiftRight_eq_div_pow,
    Nat.shiftLeft_eq, h1, rounded]
  omega

/-- C56: for every sequence of allocation requests that fits into the address space above the heap
start, the returned blocks are, in order: block i starts where the (rounded) blocks before it end.
Hence they ascend, are disjoint, large enough, and 8-aligned if the heap start is. -/
theorem C56_malloc_sequence (heap : BitVec 32) (reqs : List (BitVec 32))
    (hfit : heap.toNat + (reqs.map rounded).sum < 2 ^ 32) (hreq : ∀ b ∈ reqs, b.toNat + 7 < 2 ^ 32) :
    (mallocs heap reqs).length = reqs.length ∧
    (∀ i (hi : i < (mallocs heap reqs).length) (hi' : i < reqs.length),
        heap.toNat ≤ (mallocs heap reqs)[i].toNat ∧
        (mallocs heap reqs)[i].toNat + reqs[i].toNat ≤ heap.toNat + (reqs.map rounded).sum ∧
        (heap.toNat % 8 = 0 → (mallocs heap reqs)[i].toNat % 8 = 0)) ∧
    (∀ i j (hi : i < (mallocs heap reqs).length) (hj : j < (mallocs heap reqs).length)
        (hi' : i < reqs.length), i < j →
        (mallocs heap reqs)[i].toNat + reqs[i].toNat ≤ (mallocs heap reqs)[j].toNat) := by
  induction reqs generalizing heap with
  | nil => simp [mallocs]
  | cons b bs ih =>
    have hb := hreq b (by simp)
    have hr := round_eq b hb
    have hge : b.toNat ≤ rounded b := by simp only [rounded]; omega
    have h8 : rounded b % 8 = 0 := by simp only [rounded]; omega
    have hsum : ((b :: bs).map rounded).sum = rounded b + (bs.map rounded).sum := by simp
    have hnext : (heap + ((b + 7) &&& ~~~7)).toNat = heap.toNat + rounded b := by
      rw [BitVec.toNat_add, hr]; omega
    obtain ⟨hl, h1, h2⟩ := ih (heap + ((b + 7) &&& ~~~7)) (by rw [hnext]; omega)
      (fun x hx => hreq x (by simp [hx]))
    rw [hnext] at h1
    have hm : mallocs heap (b :: bs) = heap :: mallocs (heap + ((b + 7) &&& ~~~7)) bs := rfl
    refine ⟨by rw [hm, List.length_cons, hl, List.length_cons], ?_, ?_⟩
    · intro i hi hi'
      cases i with
      | zero =>
        simp only [hm, List.getElem_cons_zero, hsum]
        refine ⟨Nat.le_refl _, by omega, id⟩
      | succ i =>
        simp only [hm, List.getElem_cons_succ, hsum]
        have := h1 i (by simpa [hm] using hi) (by simpa using hi')
        refine ⟨by omega, by omega, fun h => this.2.2 (by omega)⟩
    · intro i j hi hj hi' hij
      cases j with
      | zero => omega
      | succ j =>
        cases i with
        | zero =>
          simp only [hm, List.getElem_cons_zero, List.getElem_cons_succ]
          have hj' : j < (mallocs (heap + ((b + 7) &&& ~~~7)) bs).length := by simpa [hm] using hj
          have := (h1 j hj' (by rw [← hl]; exact hj')).1
          omega
        | succ i =>
          simp only [hm, List.getElem_cons_succ]
          exact h2 i j (by simpa [hm] using hi) (by simpa [hm] using hj) (by simpa using hi') (by omega)

example : (0x100000#32).toNat + (([5, 16, 0, 1000] : List (BitVec 32)).map rounded).sum < 2 ^ 32 := by
  decide

/-! ### C57 -/

/-- The subtraction loop: exact description.  It stops one step early on exact multiples. -/
theorem subLoop_spec (num den ret : Nat) (hd : 0 < den) :
    subLoop num den ret =
      if num = 0 then (ret, 0)
      else (ret + (num - 1) / den, (num - 1) % den + 1) := by
  induction num using Nat.strongRecOn generalizing ret with
  | _ num ih =>
    rw [subLoop]
    by_cases h : num > den
    · rw [if_pos ⟨h, hd⟩, ih (num - den) (by omega), if_neg (by omega), if_neg (by omega)]
      have e : num - 1 = (num - den - 1) + den := by omega
      rw [e, Nat.add_div_right _ hd, Nat.add_mod_right]
      ext <;> simp; omega
    · rw [if_neg (by omega)]
      split
      · subst num; rfl
      · have : num - 1 < den := by omega
        rw [Nat.div_eq_of_lt this, Nat.mod_eq_of_lt this]
        ext <;> simp; omega

theorem ite_some_elim {c : Prop} [Decidable c] {a k : Nat} {r : Option Nat}
    (h : (if c then some a else r) = some k) : (c ∧ a = k) ∨ r = some k := by
  by_cases hc : c
  · rw [if_pos hc] at h; exact Or.inl ⟨hc, Option.some.inj h⟩
  · rw [if_neg hc] at h; exact Or.inr h

theorem speedHack_spec (d k : Nat) (h : speedHack d = some k) : d = 2 ^ k ∧ k ≤ 16 := by
  simp only [speedHack] at h
  iterate 13
    rcases ite_some_elim h with ⟨rfl, rfl⟩ | h
    · exact ⟨by decide, by decide⟩
  cases h

/-- Arguments for which the helpers take the slow loop. -/
def slow (num den : BitVec 64) : Prop :=
  speedHack den.toNat = none ∧ ¬ (num.toNat < 2 ^ 32 ∧ den.toNat < 2 ^ 32)

theorem hi_zero (x : BitVec 64) : x >>> 32 = 0 ↔ x.toNat < 2 ^ 32 := by
  rw [← BitVec.toNat_inj]
  simp only [BitVec.toNat_ushiftRight, Nat.shiftRight_eq_div_pow]
  simp

/-- C57 where it holds: for every non-zero divisor, except an exact non-zero multiple that is not
covered by a shortcut, both helpers are right. -/
theorem C57_divmod_partial (num den : BitVec 64) (hd : den ≠ 0)
    (hok : ¬ (slow num den ∧ num ≠ 0 ∧ num.toNat % den.toNat = 0)) :
    (udivdi3 num den).toNat = num.toNat / den.toNat ∧
    (umoddi3 num den).toNat = num.toNat % den.toNat := by
  have hd0 : 0 < den.toNat := by
    rcases Nat.eq_zero_or_pos den.toNat with h | h
    · exact absurd (BitVec.eq_of_toNat_eq h) hd
    · exact h
  have hlt := num.isLt
  simp only [udivdi3, umoddi3]
  cases hs : speedHack den.toNat with
  | some k =>
    obtain ⟨h2, hk⟩ := speedHack_spec _ _ hs
    simp only
    rw [h2]
    constructor
    · simp [Nat.shiftRight_eq_div_pow]
    · have hk64 : 2 ^ k < 2 ^ 64 := Nat.pow_lt_pow_right (by decide) (by omega)
      have : (((1 : BitVec 64) <<< k) - 1 : BitVec 64).toNat = 2 ^ k - 1 := by
        have h1 : ((1 : BitVec 64) <<< k).toNat = 2 ^ k := by
          simp [BitVec.toNat_shiftLeft, Nat.shiftLeft_eq, Nat.mod_eq_of_lt hk64]
        have hpos : 0 < 2 ^ k := Nat.two_pow_pos k
        rw [BitVec.toNat_sub_of_le (by rw [BitVec.le_def, h1]; simp; omega), h1]; rfl
      rw [BitVec.toNat_and, this, Nat.and_two_pow_sub_one_eq_mod]
  | none =>
    simp only [hi_zero]
    split
    · rename_i h
      have h1 := h.1; have h2 := h.2
      constructor
      · simp only [BitVec.toNat_setWidth, BitVec.toNat_udiv]
        rw [Nat.mod_eq_of_lt h1, Nat.mod_eq_of_lt h2]
        apply Nat.mod_eq_of_lt
        have := Nat.div_le_self num.toNat den.toNat; omega
      · simp only [BitVec.toNat_setWidth, BitVec.toNat_umod]
        rw [Nat.mod_eq_of_lt h1, Nat.mod_eq_of_lt h2]
        apply Nat.mod_eq_of_lt
        have := Nat.mod_le num.toNat den.toNat; omega
    · rename_i h
      rw [subLoop_spec _ _ _ hd0]
      split
      · rename_i h0; simp [h0]
      · rename_i h0
        have hmod : num.toNat % den.toNat ≠ 0 := by
          intro hm
          exact hok ⟨⟨hs, h⟩, by intro hz; rw [hz] at h0; exact h0 rfl, hm⟩
        have hdm := Nat.div_add_mod num.toNat den.toNat
        have hml := Nat.mod_lt num.toNat hd0
        have e : num.toNat - 1 = (num.toNat % den.toNat - 1) + den.toNat * (num.toNat / den.toNat) := by
          omega
        have hq : (num.toNat - 1) / den.toNat = num.toNat / den.toNat := by
          rw [e, Nat.add_mul_div_left _ _ hd0, Nat.div_eq_of_lt (by omega)]; simp
        have hr : (num.toNat - 1) % den.toNat = num.toNat % den.toNat - 1 := by
          rw [e, Nat.add_mul_mod_self_left, Nat.mod_eq_of_lt (by omega)]
        rw [hq, hr]
        have := Nat.div_le_self num.toNat den.toNat
        simp only [BitVec.toNat_ofNat]
        constructor
        · rw [Nat.zero_add, Nat.mod_eq_of_lt (by omega)]
        · rw [Nat.mod_eq_of_lt (by omega)]; omega

/-- C57 violated: on every exact non-zero multiple that reaches the loop, the quotient is one too
small and the "remainder" is the divisor. -/
theorem C57_exact_multiple_wrong (num den : BitVec 64) (hd : den ≠ 0) (hs : slow num den) (hn : num ≠ 0)
    (hm : num.toNat % den.toNat = 0) :
    (udivdi3 num den).toNat = num.toNat / den.toNat - 1 ∧ umoddi3 num den = den := by
  have hd0 : 0 < den.toNat := by
    rcases Nat.eq_zero_or_pos den.toNat with h | h
    · exact absurd (BitVec.eq_of_toNat_eq h) hd
    · exact h
  have hlt := num.isLt
  have hn0 : num.toNat ≠ 0 := fun h => hn (BitVec.eq_of_toNat_eq h)
  simp only [udivdi3, umoddi3, hs.1, hi_zero]
  rw [if_neg hs.2, if_neg hs.2, subLoop_spec _ _ _ hd0, if_neg hn0]
  obtain ⟨q, hq⟩ := Nat.dvd_of_mod_eq_zero hm
  have hq0 : q ≠ 0 := by intro h; rw [h] at hq; simp at hq; exact hn0 (by simp [hq])
  obtain ⟨q', rfl⟩ : ∃ q', q = q' + 1 := ⟨q - 1, by omega⟩
  have e : num.toNat - 1 = (den.toNat - 1) + den.toNat * q' := by
    rw [hq, Nat.mul_add]; omega
  have e1 : (num.toNat - 1) / den.toNat = q' := by
    rw [e, Nat.add_mul_div_left _ _ hd0, Nat.div_eq_of_lt (by omega)]; simp
  have e2 : (num.toNat - 1) % den.toNat = den.toNat - 1 := by
    rw [e, Nat.add_mul_mod_self_left, Nat.mod_eq_of_lt (by omega)]
  have e3 : num.toNat / den.toNat = q' + 1 := by rw [hq, Nat.mul_div_cancel_left _ hd0]
  have hle := Nat.div_le_self num.toNat den.toNat
  rw [e1, e2, e3]
  constructor
  · simp only [BitVec.toNat_ofNat, Nat.zero_add]; rw [Nat.mod_eq_of_lt (by omega)]; omega
  · apply BitVec.eq_of_toNat_eq
    rw [show den.toNat - 1 + 1 = den.toNat by omega]; simp

/-- Concrete witness: 30000000000 / 10. -/
theorem C57_witness : (udivdi3 30000000000 10).toNat = 2999999999 ∧ umoddi3 30000000000 10 = 10 := by
  have := C57_exact_multiple_wrong 30000000000 10 (by decide) ⟨by decide, by decide⟩ (by decide) (by decide)
  exact ⟨this.1, this.2⟩

example : ¬ (slow 30000000001 10 ∧ (30000000001 : BitVec 64) ≠ 0 ∧
    (30000000001 : BitVec 64).toNat % (10 : BitVec 64).toNat = 0) := by
  rintro ⟨_, _, h⟩; exact absurd h (by decide)

/-! ### C60 -/

/-- Value of a digit character of `cHEXCHARS`. -/
def digitVal (c : Char) : Nat :=
  if '0' ≤ c ∧ c ≤ '9' then c.toNat - '0'.toNat else c.toNat - 'A'.toNat + 10

/-- Value of a digit string, most significant digit first. -/
def evalDigits (base : Nat) (cs : List Char) : Nat :=
  cs.foldl (fun acc c => acc * base + digitVal c) 0

theorem hexChar_val (i : Nat) (h : i < 16) : ∃ c, hexChar i = some c ∧ digitVal c = i := by
  have : ∀ j : Fin 16, ∃ c, hexChar j.val = some c ∧ digitVal c = j.val := by decide
  exact this ⟨i, h⟩

theorem evalDigits_snoc (b : Nat) (xs : List Char) (c : Char) :
    evalDigits b (xs ++ [c]) = evalDigits b xs * b + digitVal c := by
  simp [evalDigits]

/-- Bases and values for which the 64-bit helpers are exact. -/
def exactFor (val base : BitVec 64) : Prop := speedHack base.toNat ≠ none ∨ val.toNat < 2 ^ 32

theorem exactFor_spec {val base : BitVec 64} (h : exactFor val base) (hb : 2 ≤ base.toNat)
    (hb' : base.toNat ≤ 16) :
    (udivdi3 val base).toNat = val.toNat / base.toNat ∧
    (umoddi3 val base).toNat = val.toNat % base.toNat := by
  apply C57_divmod_partial
  · intro h0; rw [h0] at hb; simp at hb
  · rintro ⟨⟨h1, h2⟩, _⟩
    rcases h with h | h
    · exact h h1
    · exact h2 ⟨h, by omega⟩

/-- What the digit loop returns: the digits of `val`, least significant first, as many as needed. -/
theorem itoaDigits_spec (base : BitVec 64) (hb : 2 ≤ base.toNat) (hb' : base.toNat ≤ 16) :
    ∀ (fuel : Nat) (val : BitVec 64) (acc : List Char), exactFor val base → val.toNat < 2 ^ fuel →
      ∃ ds, itoaDigits (fuel + 1) val base acc = some (acc ++ ds) ∧ 1 ≤ ds.length ∧
        ds.length ≤ fuel + 1 ∧ evalDigits base.toNat ds.reverse = val.toNat ∧
        (∀ c ∈ ds, digitVal c < base.toNat) ∧
        (1 < ds.length → ∃ c, ds.reverse.head? = some c ∧ digitVal c ≠ 0) ∧
        (val.toNat ≠ 0 → ∃ c, ds.reverse.head? = some c ∧ digitVal c ≠ 0) := by
  intro fuel
  induction fuel with
  | zero =>
    intro val acc h hv
    have hv0 : val.toNat = 0 := by simpa using hv
    obtain ⟨hd, hm⟩ := exactFor_spec h hb hb'
    rw [hv0] at hd hm
    simp at hd hm
    obtain ⟨c, hc, hcv⟩ := hexChar_val 0 (by omega)
    refine ⟨[c], ?_, by simp, by simp, ?_, ?_, by simp, by intro h; omega⟩
    · simp only [itoaDigits]
      simp [hm, hc, show udivdi3 val base = 0 from BitVec.eq_of_toNat_eq hd]
    · simp [evalDigits, hcv, hv0]
    · simp [hcv]; omega
  | succ fuel ih =>
    intro val acc h hv
    obtain ⟨hd, hm⟩ := exactFor_spec h hb hb'
    obtain ⟨c, hc, hcv⟩ := hexChar_val (val.toNat % base.toNat) (by
      have := Nat.mod_lt val.toNat (show 0 < base.toNat by omega); omega)
    have hml := Nat.mod_lt val.toNat (show 0 < base.toNat by omega)
    have hdm := Nat.div_add_mod val.toNat base.toNat
    rw [itoaDigits]
    simp only [hm, hc]
    by_cases hz : udivdi3 val base = 0
    · rw [if_pos hz]
      have hz' : val.toNat / base.toNat = 0 := by rw [← hd, hz]; rfl
      rw [hz'] at hdm
      refine ⟨[c], rfl, by simp, by simp, ?_, ?_, by simp, ?_⟩
      · simp [evalDigits, hcv]; omega
      · simp [hcv]; omega
      · intro hn; exact ⟨c, by simp, by omega⟩
    · rw [if_neg hz]
      have hlt : val.toNat / base.toNat < 2 ^ fuel := by
        rw [Nat.div_lt_iff_lt_mul (by omega)]
        calc val.toNat < 2 ^ fuel * 2 := by rw [← Nat.pow_succ]; exact hv
          _ ≤ 2 ^ fuel * base.toNat := Nat.mul_le_mul_left _ hb
      have hle := Nat.div_le_self val.toNat base.toNat
      obtain ⟨ds, e, h1, h2, h3, h4, h5, h6⟩ := ih (udivdi3 val base) (acc ++ [c])
        (by rcases h with h | h
            · exact Or.inl h
            · exact Or.inr (by omega)) (by omega)
      have hnz : (udivdi3 val base).toNat ≠ 0 := fun h => hz (BitVec.eq_of_toNat_eq h)
      obtain ⟨t, ht1, ht2⟩ := h6 hnz
      have hhd : ∃ t, (c :: ds).reverse.head? = some t ∧ digitVal t ≠ 0 :=
        ⟨t, by rw [List.reverse_cons, List.head?_append, ht1]; rfl, ht2⟩
      refine ⟨c :: ds, by rw [e]; simp, by simp, by simp; omega, ?_, ?_, fun _ => hhd, fun _ => hhd⟩
      · rw [List.reverse_cons, evalDigits_snoc, h3, hd, hcv, Nat.mul_comm]; exact hdm
      · intro x hx
        rcases List.mem_cons.1 hx with rfl | hx
        · omega
        · exact h4 x hx

/-- C60 where it holds (values below 2^32, or bases 2, 4, 8, 16): the text is padding followed by the
digits of the value in the given base, most significant first without superfluous zeros; its length
is the larger of the number of digits and the minimum length; evaluating the digits gives the value. -/
theorem C60_itoa_partial (val base : BitVec 64) (minLength : Nat) (pad : Char)
    (hb : 2 ≤ base.toNat) (hb' : base.toNat ≤ 16) (hmin : minLength ≤ 65)
    (hex : val.toNat < 2 ^ 32 ∨ base.toNat = 2 ∨ base.toNat = 4 ∨ base.toNat = 8 ∨ base.toNat = 16) :
    ∃ ds : List Char,
      itoa val base minLength pad = some (List.replicate (minLength - ds.length) pad ++ ds) ∧
      1 ≤ ds.length ∧ ds.length ≤ 65 ∧ evalDigits base.toNat ds = val.toNat ∧
      (∀ c ∈ ds, digitVal c < base.toNat) ∧
      (1 < ds.length → ∃ c, ds.head? = some c ∧ digitVal c ≠ 0) := by
  have hex' : exactFor val base := by
    rcases hex with h | h | h | h | h
    · exact Or.inr h
    all_goals (left; rw [h]; decide)
  obtain ⟨ds, e, h1, h2, h3, h4, h5, _⟩ := itoaDigits_spec base hb hb' 64 val [] hex' val.isLt
  refine ⟨ds.reverse, ?_, by simpa using h1, by simpa using h2, h3, by simpa using h4, by simpa using h5⟩
  simp only [itoa, e, List.nil_append]
  rw [if_neg (by omega)]
  simp [List.reverse_append]

/-- C60 violated for a large value and base 10 (consequence of C57): 10000000000 is printed as
999999999A. -/
theorem C60_witness : itoa 10000000000 10 0 ' ' = some "999999999A".toList := by
  have h := C57_exact_multiple_wrong 10000000000 10 (by decide) ⟨by decide, by decide⟩ (by decide)
    (by decide)
  have hq : udivdi3 10000000000 10 = 999999999 := BitVec.eq_of_toNat_eq (by rw [h.1]; decide)
  have hd : itoaDigits 65 10000000000 10 [] = itoaDigits 64 999999999 10 ['A'] := by
    rw [itoaDigits, h.2, hq]; rfl
  rw [itoa, hd]; decide

example : itoa 0x1F 16 8 '0' = some "0000001F".toList := by decide

end RME.Testkern

namespace RME.Native

/-! ### C58 -/

/-- Cursor inside the 80x25 screen. -/
def OnScreen (s : Screen) : Prop := 0 ≤ s.x ∧ s.x < 80 ∧ 0 ≤ s.y ∧ s.y < 25

/-- Effect of a printable character, spelled out. -/
theorem putChar_print (s : Screen) (c attr : BitVec 8) (h8 : c ≠ 8) (h10 : c ≠ 10) (h13 : c ≠ 13) :
    putChar s c attr = Screen.mk (if s.x + 1 = 80 then 0 else s.x + 1)
      (if s.x + 1 = 80 then (if s.y + 1 = 25 then s.y else s.y + 1) else s.y)
      (fun i => if i = 0xB8000 + (s.y * 80 + s.x) * 2 + 1 then attr else
        if i = 0xB8000 + (s.y * 80 + s.x) * 2 then c else s.mem i)
      (s.oob || decide (0xB8000 + (s.y * 80 + s.x) * 2 < 0 ∨ 0x110000 ≤ 0xB8000 + (s.y * 80 + s.x) * 2)
        || decide (0xB8000 + (s.y * 80 + s.x) * 2 + 1 < 0 ∨ 0x110000 ≤ 0xB8000 + (s.y * 80 + s.x) * 2 + 1)) := by
  simp only [putChar, Screen.poke, COLS, ROWS, h8, h10, h13, if_false]
  by_cases hx : s.x + 1 = 80
  · simp only [hx, if_true, Int.add_zero]
    congr 1
    split <;> omega
  · simp only [hx, if_false, Int.add_zero]
    rfl

theorem putChar_onScreen {s : Screen} (h : OnScreen s) (ch attr : BitVec 8) :
    OnScreen (putChar s ch attr) ∧ (putChar s ch attr).oob = s.oob ∧
    ∀ a, a < 0xB8000 ∨ 0xB8000 + 4000 ≤ a → (putChar s ch attr).mem a = s.mem a := by
  obtain ⟨h1, h2, h3, h4⟩ := h
  by_cases h10 : ch = 10
  · subst h10
    simp only [putChar, if_true, OnScreen]
    refine ⟨⟨h1, h2, ?_, ?_⟩, trivial, fun _ _ => trivial⟩ <;> split <;> omega
  by_cases h13 : ch = 13
  · subst h13
    exact ⟨⟨by simp [putChar], by simp [putChar], h3, h4⟩, rfl, fun _ _ => rfl⟩
  by_cases h8 : ch = 8
  · subst h8
    simp only [putChar, if_true, OnScreen]
    refine ⟨⟨?_, ?_, h3, h4⟩, rfl, fun _ _ => rfl⟩
    · show 0 ≤ (if s.x > 0 then s.x - 1 else s.x); split <;> omega
    · show (if s.x > 0 then s.x - 1 else s.x) < 80; split <;> omega
  rw [putChar_print s ch attr h8 h10 h13]
  refine ⟨⟨?_, ?_, ?_, ?_⟩, ?_, fun a ha => ?_⟩
  · show 0 ≤ (if s.x + 1 = 80 then 0 else s.x + 1); split <;> omega
  · show (if s.x + 1 = 80 then 0 else s.x + 1) < 80; split <;> omega
  · show 0 ≤ (if s.x + 1 = 80 then (if s.y + 1 = 25 then s.y else s.y + 1) else s.y)
    split
    · split <;> omega
    · omega
  · show (if s.x + 1 = 80 then (if s.y + 1 = 25 then s.y else s.y + 1) else s.y) < 25
    split
    · split <;> omega
    · omega
  · show (s.oob || decide _ || decide _) = s.oob
    rw [decide_eq_false (by omega), decide_eq_false (by omega), Bool.or_false, Bool.or_false]
  · show (if a = 0xB8000 + (s.y * 80 + s.x) * 2 + 1 then attr else
        if a = 0xB8000 + (s.y * 80 + s.x) * 2 then ch else s.mem a) = s.mem a
    rw [if_neg (by omega), if_neg (by omega)]

/-- C58: any character sequence keeps the cursor on the screen, never uses an index outside `gaMemory`
and writes only the 4000 bytes of text memory at B8000h. -/
theorem C58_teletype (s : Screen) (h : OnScreen s) (str : List (BitVec 8)) (attr : BitVec 8) :
    OnScreen (putString s str attr) ∧ (putString s str attr).oob = s.oob ∧
    ∀ a, a < 0xB8000 ∨ 0xB8000 + 4000 ≤ a → (putString s str attr).mem a = s.mem a := by
  induction str generalizing s with
  | nil => exact ⟨h, rfl, fun _ _ => rfl⟩
  | cons c cs ih =>
    obtain ⟨h1, h0, h2⟩ := putChar_onScreen h c attr
    obtain ⟨h3, h5, h4⟩ := ih (putChar s c attr) h1
    exact ⟨h3, h5.trans h0, fun a ha => by rw [show putString s (c :: cs) attr = putString (putChar s c attr) cs attr
      from rfl, h4 a ha, h2 a ha]⟩

theorem putString_old (attr : BitVec 8) : ∀ (cs : List (BitVec 8)) (t : Screen), OnScreen t →
    (∀ x ∈ cs, x ≠ 8 ∧ x ≠ 10 ∧ x ≠ 13) → t.x + cs.length < 80 →
    ∀ a, a < 0xB8000 + (t.y * 80 + t.x) * 2 → (putString t cs attr).mem a = t.mem a := by
  intro cs
  induction cs with
  | nil => intros; rfl
  | cons d ds ih =>
    intro t ht hp hf a ha
    obtain ⟨t1, t2, t3, t4⟩ := ht
    obtain ⟨d1, d2, d3⟩ := hp d (by simp)
    simp only [List.length_cons] at hf
    have e := putChar_print t d attr d1 d2 d3
    rw [if_neg (by omega), if_neg (by omega)] at e
    rw [show putString t (d :: ds) attr = putString (putChar t d attr) ds attr from rfl, e,
      ih ⟨t.x + 1, t.y, _, _⟩ ⟨Int.le_add_one t1, (by omega : t.x + 1 < 80), t3, t4⟩ (fun x hx => hp x (by simp [hx]))
        (show t.x + 1 + (ds.length : Int) < 80 by omega) a
        (show a < 0xB8000 + (t.y * 80 + (t.x + 1)) * 2 by omega)]
    show (if a = 0xB8000 + (t.y * 80 + t.x) * 2 + 1 then attr else
        if a = 0xB8000 + (t.y * 80 + t.x) * 2 then d else t.mem a) = t.mem a
    rw [if_neg (by omega), if_neg (by omega)]

/-- Text that stays on one line appears at the cursor, character by character. -/
theorem C58_text_appears (s : Screen) (h : OnScreen s) (str : List (BitVec 8)) (attr : BitVec 8)
    (hfit : s.x + str.length < 80) (hpr : ∀ c ∈ str, c ≠ 8 ∧ c ≠ 10 ∧ c ≠ 13) :
    (putString s str attr).x = s.x + str.length ∧ (putString s str attr).y = s.y ∧
    ∀ i (hi : i < str.length),
      (putString s str attr).mem (0xB8000 + (s.y * 80 + s.x + i) * 2) = str[i] ∧
      (putString s str attr).mem (0xB8000 + (s.y * 80 + s.x + i) * 2 + 1) = attr := by
  induction str generalizing s with
  | nil => simp [putString]
  | cons c cs ih =>
    obtain ⟨h1, h2, h3, h4⟩ := h
    obtain ⟨d1, d2, d3⟩ := hpr c (by simp)
    simp only [List.length_cons] at hfit
    have e := putChar_print s c attr d1 d2 d3
    rw [if_neg (by omega), if_neg (by omega)] at e
    have hs : putString s (c :: cs) attr = putString (putChar s c attr) cs attr := rfl
    have hp' : ∀ x ∈ cs, x ≠ 8 ∧ x ≠ 10 ∧ x ≠ 13 := fun x hx => hpr x (by simp [hx])
    rw [hs, e]
    generalize hm : (fun i => if i = 0xB8000 + (s.y * 80 + s.x) * 2 + 1 then attr else
        if i = 0xB8000 + (s.y * 80 + s.x) * 2 then c else s.mem i) = mem
    generalize (s.oob || _ || _) = ob
    have hon : OnScreen ⟨s.x + 1, s.y, mem, ob⟩ := ⟨Int.le_add_one h1, (by omega : s.x + 1 < 80), h3, h4⟩
    have hf' : (⟨s.x + 1, s.y, mem, ob⟩ : Screen).x + (cs.length : Int) < 80 :=
      (by omega : s.x + 1 + (cs.length : Int) < 80)
    obtain ⟨i1, i2, i3⟩ := ih ⟨s.x + 1, s.y, mem, ob⟩ hon hf' hp'
    refine ⟨by rw [i1]; show s.x + 1 + (cs.length : Int) = s.x + ((cs.length + 1 : Nat) : Int); omega,
      i2, ?_⟩
    intro i hi
    cases i with
    | zero =>
      constructor
      · rw [putString_old attr cs _ hon hp' hf' _
          (show _ < 0xB8000 + (s.y * 80 + (s.x + 1)) * 2 by omega)]
        show mem _ = c
        subst hm
        simp only
        rw [if_neg (by omega), if_pos (by omega)]
      · rw [putString_old attr cs _ hon hp' hf' _
          (show _ < 0xB8000 + (s.y * 80 + (s.x + 1)) * 2 by omega)]
        show mem _ = attr
        subst hm
        simp only
        rw [if_pos (by omega)]
    | succ i =>
      have := i3 i (by simpa using hi)
      simp only [List.getElem_cons_succ]
      rw [show s.y * 80 + s.x + ((i + 1 : Nat) : Int) = s.y * 80 + (s.x + 1) + i by omega]
      exact this

example : OnScreen ⟨79, 24, fun _ => 0, false⟩ := by simp [OnScreen]

/-- Outside C58 (the host API "set cursor" is not clamped): after INT 10h AH=02 the next character is written at row DH, column DL of the text memory wherever
that is: outside the row for DL ≥ 80, outside the text page for DH ≥ 25. -/
theorem C58_setCursor_witness (s : Screen) (dl dh : BitVec 8) :
    (putChar (setCursor s dl dh) 0x41 7).mem (0xB8000 + (dh.toNat * 80 + dl.toNat) * 2) = 0x41 ∧
    (25 ≤ dh.toNat → 0xB8000 + 4000 ≤ 0xB8000 + (dh.toNat * 80 + dl.toNat) * 2) := by
  refine ⟨?_, by omega⟩
  simp [putChar, setCursor, Screen.poke, COLS]
  split <;> (simp; omega)

/-! ### C59 -/

/-- C59: which CHS triples are accepted for disk 0 (for non-negative cylinder and head and a sector
number of at least 1 the LBA address is in range and determines the triple). -/
theorem C59_chs_partial (c h sec : Int) (hc : 0 ≤ c) (hh : 0 ≤ h) (hs : 1 ≤ sec) :
    ((readDiskCHS 0 c h sec).isSome ↔ c < 80 ∧ h < 2 ∧ sec ≤ 18) ∧
    (∀ l, readDiskCHS 0 c h sec = some l → 0 ≤ l ∧ l < 2880 ∧ l = (c * 2 + h) * 18 + (sec - 1)) ∧
    (∀ c' h' sec' l, 0 ≤ c' → 0 ≤ h' → 1 ≤ sec' → readDiskCHS 0 c h sec = some l →
        readDiskCHS 0 c' h' sec' = some l → c = c' ∧ h = h' ∧ sec = sec') := by
  simp only [readDiskCHS, getDiskParams, if_true]
  refine ⟨?_, ?_, ?_⟩
  · split
    · simp; omega
    split
    · simp; omega
    split
    · simp; omega
    · simp; omega
  · intro l
    split
    · simp
    split
    · simp
    split
    · simp
    · simp only [Option.some.injEq]; intro e; omega
  · intro c' h' sec' l hc' hh' hs'
    split
    · simp
    split
    · simp
    split
    · simp
    · simp only [Option.some.injEq]
      intro e
      split
      · simp
      split
      · simp
      split
      · simp
      · simp only [Option.some.injEq]; intro e'; omega

/-- C59: no other disk is accepted. -/
theorem C59_other_disks (d c h sec : Int) (hd : d ≠ 0) : readDiskCHS d c h sec = none := by
  simp [readDiskCHS, getDiskParams, hd]

/-- C59: every sector of the disk is reachable. -/
theorem C59_surjective (l : Int) (h0 : 0 ≤ l) (h1 : l < 2880) :
    readDiskCHS 0 (l / 36) (l / 18 % 2) (l % 18 + 1) = some l := by
  simp only [readDiskCHS, getDiskParams, if_true]
  rw [if_neg (by omega), if_neg (by omega), if_neg (by omega)]
  congr 1; omega

/-- C59 violated: sector number 0 is accepted and aliases the previous track's last sector (or gives
LBA -1 for the first track). -/
theorem C59_sector0_witness : readDiskCHS 0 0 0 0 = some (-1) ∧
    readDiskCHS 0 0 1 0 = readDiskCHS 0 0 0 18 := by decide

end RME.Native
