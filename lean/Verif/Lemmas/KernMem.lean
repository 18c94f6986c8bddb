import Verif.Model.Testkern
set_option autoImplicit false
/-
The string instructions of the test kernel's memset and memcpy, by induction over the count.
-/
namespace RME.Testkern

theorem sub_shift (a e : BitVec 32) (w : Nat) (hw : w < 2 ^ 32) :
    (a - (e + BitVec.ofNat 32 w)).toNat =
      if w ≤ (a - e).toNat then (a - e).toNat - w else (a - e).toNat + 2 ^ 32 - w := by
  have h : a - (e + BitVec.ofNat 32 w) = (a - e) - BitVec.ofNat 32 w := by
    generalize BitVec.ofNat 32 w = x
    bv_omega
  rw [h, BitVec.toNat_sub, BitVec.toNat_ofNat, Nat.mod_eq_of_lt hw]
  generalize hd : (a - e).toNat = d
  have : d < 2 ^ 32 := by rw [← hd]; exact BitVec.isLt _
  split <;> omega

/-- `rep stos`: offset by offset. -/
theorem repStos_spec (w : Nat) (hw : 0 < w) : ∀ (n : Nat) (mem : BitVec 32 → BitVec 8) (edi eax : BitVec 32),
    w * n < 2 ^ 32 →
    (repStos w n mem edi eax).2 = edi + BitVec.ofNat 32 (w * n) ∧
    ∀ a, (repStos w n mem edi eax).1 a =
      if (a - edi).toNat < w * n then eax.extractLsb' (8 * ((a - edi).toNat % w)) 8 else mem a := by
  intro n
  induction n with
  | zero => intro mem edi eax _; simp [repStos]
  | succ n ih =>
    intro mem edi eax h
    have hmul : w * (n + 1) = w * n + w := Nat.mul_succ w n
    rw [hmul] at h ⊢
    obtain ⟨h1, h2⟩ := ih (putBytes w mem edi (fun i => eax.extractLsb' (8 * i) 8))
      (edi + BitVec.ofNat 32 w) eax (by omega)
    refine ⟨?_, ?_⟩
    · simp only [repStos]
      rw [h1, BitVec.add_assoc, ← BitVec.ofNat_add, Nat.add_comm w]
    · intro a
      simp only [repStos]
      rw [h2, sub_shift a edi w (by omega)]
      simp only [putBytes]
      generalize hd : (a - edi).toNat = d
      have hlt : d < 2 ^ 32 := by rw [← hd]; exact BitVec.isLt _
      by_cases hwd : w ≤ d
      · rw [if_pos hwd, ← Nat.mod_eq_sub_mod hwd]
        by_cases hn : d - w < w * n
        · rw [if_pos hn, if_pos (by omega)]
        · rw [if_neg hn, if_neg (by omega), if_neg (by omega)]
      · rw [if_neg hwd, if_neg (by omega), if_pos (by omega), if_pos (by omega),
          Nat.mod_eq_of_lt (by omega)]

theorem add_sub_toNat (s d e : BitVec 32) : (s + (d - e)) - e = (d - e) - (e - s) := by
  apply BitVec.eq_of_toNat_eq
  simp only [BitVec.toNat_sub, BitVec.toNat_add]
  have := s.isLt; have := d.isLt; have := e.isLt
  omega

/-- `rep movs`: offset by offset, when the destination does not start inside the source block. -/
theorem repMovs_spec (w : Nat) (hw : 0 < w) : ∀ (n : Nat) (mem : BitVec 32 → BitVec 8) (edi esi : BitVec 32),
    w * n < 2 ^ 32 → (edi = esi ∨ w * n ≤ (edi - esi).toNat) →
    (repMovs w n mem edi esi).2 = (edi + BitVec.ofNat 32 (w * n), esi + BitVec.ofNat 32 (w * n)) ∧
    ∀ a, (repMovs w n mem edi esi).1 a =
      if (a - edi).toNat < w * n then mem (esi + (a - edi)) else mem a := by
  intro n
  induction n with
  | zero => intro mem edi esi _ _; simp [repMovs]
  | succ n ih =>
    intro mem edi esi h hov
    have hmul : w * (n + 1) = w * n + w := Nat.mul_succ w n
    rw [hmul] at h hov ⊢
    have hshift : edi + BitVec.ofNat 32 w - (esi + BitVec.ofNat 32 w) = edi - esi := by
      generalize BitVec.ofNat 32 w = x
      bv_omega
    obtain ⟨h1, h2⟩ := ih (putBytes w mem edi (fun i => mem (esi + BitVec.ofNat 32 i)))
      (edi + BitVec.ofNat 32 w) (esi + BitVec.ofNat 32 w) (by omega)
      (by rw [hshift]; rcases hov with rfl | hov; exact .inl rfl; exact .inr (by omega))
    refine ⟨?_, ?_⟩
    · simp only [repMovs]
      rw [h1, BitVec.add_assoc, BitVec.add_assoc, ← BitVec.ofNat_add, Nat.add_comm w]
    · intro a
      simp only [repMovs]
      rw [h2, sub_shift a edi w (by omega)]
      have hsrc : esi + BitVec.ofNat 32 w + (a - (edi + BitVec.ofNat 32 w)) = esi + (a - edi) := by
        generalize BitVec.ofNat 32 w = x
        bv_omega
      rw [hsrc]
      simp only [putBytes]
      rw [add_sub_toNat]
      generalize hx : a - edi = x
      generalize hd : x.toNat = d
      have hlt : d < 2 ^ 32 := by rw [← hd]; exact BitVec.isLt _
      by_cases hwd : w ≤ d
      · rw [if_pos hwd]
        by_cases hn : d - w < w * n
        · have hin : d < w * n + w := by omega
          rw [if_pos hn, if_pos hin]
          have hg := (edi - esi).isLt
          have : ¬ (x - (edi - esi)).toNat < w := by
            rw [BitVec.toNat_sub, hd]
            rcases hov with rfl | hov
            · have : (edi - edi).toNat = 0 := by simp
              rw [this]; omega
            · omega
          rw [if_neg this]
        · rw [if_neg hn, if_neg (by omega), if_neg (by omega)]
      · rw [if_neg hwd, if_neg (by omega), if_pos (by omega), if_pos (by omega), ← hd]
        simp

end RME.Testkern
