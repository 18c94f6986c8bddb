import Verif.Props.StringsIO
set_option autoImplicit false
/-
C80: string instructions with the address-size prefix 67.  The general theorems C32–C35, C62 hold for every prefix; here they are
compared with what the architecture asks for.
-/
namespace RME

theorem elemOfs_of_idx {df : Bool} {n : Nat} {b : BitVec 32} {k : Nat} (h : (elemIdx df n b k).toNat < 65536) :
    (elemOfs df n (b.setWidth 16) k).toNat = (elemIdx df n b k).toNat := by
  rw [← elemIdx_16, BitVec.toNat_setWidth]
  exact Nat.mod_eq_of_lt h

theorem ecx_low {x : BitVec 32} (h : x.toNat < 65536) : (x.setWidth 16).toNat = x.toNat := by
  rw [BitVec.toNat_setWidth]; exact Nat.mod_eq_of_lt h

theorem putLow_ecx {x : BitVec 32} {K : Nat} (h : x.toNat < 65536) (hK : K ≤ x.toNat) :
    ((x.setWidth 16 - BitVec.ofNat 16 K).setWidth 32) = x - BitVec.ofNat 32 K := by
  apply BitVec.eq_of_toNat_eq
  simp only [BitVec.toNat_sub, BitVec.toNat_setWidth, BitVec.toNat_ofNat]
  omega

theorem countDown_32 {p : Pfx} {t : State} {K : Nat} (h : p.rep ≠ .none → (t.gpr 1).toNat < 65536) (hK : p.rep ≠ .none → K ≤ (t.gpr 1).toNat) :
    countDown p t K = countDown32 p t K := by
  unfold countDown countDown32
  split
  · rfl
  · rename_i hr
    have e1 : t.gpr 1 >>> 16 = 0 := by
      apply BitVec.eq_of_toNat_eq
      rw [BitVec.toNat_ushiftRight, Nat.shiftRight_eq_div_pow]
      have := h hr
      show _ / 65536 = 0
      omega
    have e2 : t.gpr 1 >>> 32 = 0 := by
      apply BitVec.eq_of_toNat_eq
      rw [BitVec.toNat_ushiftRight, Nat.shiftRight_eq_div_pow]
      have := (t.gpr 1).isLt
      show _ / 2 ^ 32 = 0
      omega
    simp only [withE, Opnd.put, e1, e2, BitVec.setWidth_eq]
    have := putLow_ecx (h hr) (hK hr)
    rw [show cxOf t = (t.gpr 1).setWidth 16 from rfl, this]
    rfl

theorem withE_idx {p : Pfx} (ha : p.addr = true) (s : State) (n K : Nat) (t : State) :
    moveDI s p n K t = withE 7 (elemIdx (dfOf s) n (s.gpr 7) K) t ∧ moveSI s p n K t = withE 6 (elemIdx (dfOf s) n (s.gpr 6) K) t := by
  simp only [moveDI, moveSI, ha, if_true, withE, and_self]

/-- C80 (partial): with prefix 67, as long as ECX is below 65536 (with a repeat prefix) and the index registers stay in the 64 KiB of
the segment, the theorems C32–C35 and C62 say what the architecture asks for: the number of elements is ECX, element `k` is at offset
ESI ± k·size (EDI ± k·size), and ESI, EDI, ECX are updated as 32-bit registers.  Missing: larger counts (`C80_violated_count`) and
indices beyond the segment (`C80_violated_index`). -/
theorem C80_reading_partial {s : State} {p : Pfx} {n : Nat} (ha : p.addr = true) (hc : p.rep ≠ .none → (s.gpr 1).toNat < 65536) :
    reps s p = reps32 s p ∧
    (∀ k, (elemIdx (dfOf s) n (s.gpr 6) k).toNat < 65536 → (srcOfs s n k).toNat = (elemIdx (dfOf s) n (s.gpr 6) k).toNat) ∧
    (∀ k, (elemIdx (dfOf s) n (s.gpr 7) k).toNat < 65536 → (dstOfs s n k).toNat = (elemIdx (dfOf s) n (s.gpr 7) k).toNat) ∧
    (∀ K t, moveDI s p n K t = withE 7 (elemIdx (dfOf s) n (s.gpr 7) K) t) ∧
    (∀ K t, moveSI s p n K t = withE 6 (elemIdx (dfOf s) n (s.gpr 6) K) t) ∧
    (∀ K t, t.gpr 1 = s.gpr 1 → (p.rep ≠ .none → K ≤ (s.gpr 1).toNat) → countDown p t K = countDown32 p t K) := by
  refine ⟨?_, fun k h => elemOfs_of_idx h, fun k h => elemOfs_of_idx h, fun K t => (withE_idx ha s n K t).1, fun K t => (withE_idx ha s n K t).2,
    fun K t ht hK => countDown_32 (fun h => by rw [ht]; exact hc h) (fun h => by rw [ht]; exact hK h)⟩
  unfold reps reps32
  split
  · rfl
  · rename_i h; exact ecx_low (hc h)

theorem copied32_of {s : State} {p : Pfx} {n : Nat} {k : Nat} {t : State} (h : Copied s p n k t)
    (h6 : ∀ j < k, (elemIdx (dfOf s) n (s.gpr 6) j).toNat < 65536) (h7 : ∀ j < k, (elemIdx (dfOf s) n (s.gpr 7) j).toNat < 65536) :
    Copied32 s p n k t ∧ t.gpr = s.gpr := by
  induction h with
  | zero => exact ⟨.zero, rfl⟩
  | @succ k t h v hv ih =>
    obtain ⟨i1, i2⟩ := ih (fun j hj => h6 j (by omega)) (fun j hj => h7 j (by omega))
    refine ⟨.succ i1 (elemOfs_of_idx (h6 k (by omega))) (elemOfs_of_idx (h7 k (by omega))) hv, ?_⟩
    rw [← i2]
    simp only [Opnd.put]
    split <;> rfl

/-- C80 (partial), MOVS in full: 67 A4 / 67 A5 with or without repeat prefix. -/
theorem C80_movs_partial {s : State} {h0 : Nat} {p : Pfx} {len : Nat} {w : Bool} (hat : At s h0 p [strOpc 0xA4 w] len) (ha : p.addr = true)
    (env : Env) (hc : p.rep ≠ .none → (s.gpr 1).toNat < 65536)
    (h6 : ∀ k < reps32 s p, (elemIdx (dfOf s) (elemW p w) (s.gpr 6) k).toNat < 65536)
    (h7 : ∀ k < reps32 s p, (elemIdx (dfOf s) (elemW p w) (s.gpr 7) k).toNat < 65536)
    (hs : SrcMapped s p (elemW p w) (reps32 s p)) (hd : DstMapped s (elemW p w) (reps32 s p)) :
    ∃ t, Copied32 s p (elemW p w) (reps32 s p) t ∧
      (NotZeroed t h0 len → Falls env s len (withE 6 (elemIdx (dfOf s) (elemW p w) (s.gpr 6) (reps32 s p))
        (withE 7 (elemIdx (dfOf s) (elemW p w) (s.gpr 7) (reps32 s p)) (countDown32 p t (reps32 s p))))) := by
  obtain ⟨e1, _, _, e4, e5, e6⟩ := C80_reading_partial (n := elemW p w) ha hc
  rw [← e1] at hs hd h6 h7
  obtain ⟨t, hcp, hf⟩ := C32_movs hat env hs hd
  obtain ⟨c1, c2⟩ := copied32_of hcp h6 h7
  rw [← e1]
  refine ⟨t, c1, fun hn => ?_⟩
  have := hf hn
  rw [e4, e5, e6 _ _ (by rw [c2]) (fun h => by rw [reps_cx h]; exact Nat.le_of_eq (ecx_low (hc h)))] at this
  exact this

theorem filled32_of {s : State} {n : Nat} {v : BitVec n} (k : Nat) (h7 : ∀ j < k, (elemIdx (dfOf s) n (s.gpr 7) j).toNat < 65536) :
    Filled32 s n v k (filled s n v k) := by
  induction k with
  | zero => exact .zero
  | succ k ih => exact .succ (ih (fun j hj => h7 j (by omega))) (elemOfs_of_idx (h7 k (by omega)))

/-- C80 (partial), STOS in full. -/
theorem C80_stos_partial {s : State} {h0 : Nat} {p : Pfx} {len : Nat} {w : Bool} (hat : At s h0 p [strOpc 0xAA w] len) (ha : p.addr = true)
    (env : Env) {v : BitVec (elemW p w)} (hv : (Opnd.reg 0).Has s (elemW p w) v) (hc : p.rep ≠ .none → (s.gpr 1).toNat < 65536)
    (h7 : ∀ k < reps32 s p, (elemIdx (dfOf s) (elemW p w) (s.gpr 7) k).toNat < 65536) (hd : DstMapped s (elemW p w) (reps32 s p)) :
    ∃ t, Filled32 s (elemW p w) v (reps32 s p) t ∧
      (NotZeroed t h0 len → Falls env s len (withE 7 (elemIdx (dfOf s) (elemW p w) (s.gpr 7) (reps32 s p)) (countDown32 p t (reps32 s p)))) := by
  obtain ⟨e1, _, _, e4, _, e6⟩ := C80_reading_partial (n := elemW p w) ha hc
  rw [← e1] at hd h7
  rw [← e1]
  refine ⟨filled s (elemW p w) v (reps s p), filled32_of _ h7, fun hn => ?_⟩
  have := C33_stos hat env hv hd hn
  obtain ⟨H, e⟩ := filled_host s (elemW p w) v (reps s p)
  rw [e4, e6 _ _ (by rw [e]) (fun h => by rw [reps_cx h]; exact Nat.le_of_eq (ecx_low (hc h)))] at this
  exact this

/-- Violation of C80, for every string instruction: the count is CX although 67 selects ECX.  With ECX a non-zero multiple of 65536
nothing is processed and ECX stays as it is. -/
theorem C80_violated_count {s : State} {h0 : Nat} {p : Pfx} {op : BitVec 8} {len : Nat} (hop : stringOpcode op) (hat : At s h0 p [op] len)
    (_ha : p.addr = true) (hr : p.rep ≠ .none) (hc : (s.gpr 1).toNat % 65536 = 0) (_hne : s.gpr 1 ≠ 0) (env : Env) : Falls env s len s :=
  C35_cx_zero hop hat hr (BitVec.eq_of_toNat_eq (by rw [cxOf, BitVec.toNat_setWidth]; exact hc)) env

/-- Violation of C80: an index beyond the segment is truncated to 16 bits, not refused: 67 AA (STOSB) stores at ES:(EDI mod 65536) and
advances EDI. -/
theorem C80_violated_index {s : State} {h0 : Nat} {p : Pfx} {len : Nat} (hat : At s h0 p [0xAA] len) (ha : p.addr = true) (hr : p.rep = .none)
    (hdf : dfOf s = false) (_hbig : 65536 ≤ (s.gpr 7).toNat) (env : Env) {v : BitVec 8} (hv : (Opnd.reg 0).Has s 8 v) {h : Nat}
    (hm : Mapped s 8 (s.sreg .es) (BitVec.ofNat 16 ((s.gpr 7).toNat % 65536)) h) (hnz : NotZeroed { s with host := putHost s.host h v } h0 len) :
    Falls env s len (withE 7 (s.gpr 7 + 1) { s with host := putHost s.host h v }) := by
  have e0 : dstOfs s 8 0 = BitVec.ofNat 16 ((s.gpr 7).toNat % 65536) := by
    rw [dstOfs, elemOfs_zero, diOf]
    apply BitVec.eq_of_toNat_eq
    simp
  have e1 : filled s 8 v 1 = { s with host := putHost s.host h v } := by
    show (Opnd.mem (dstSeg s) (dstOfs s 8 0)).put s 8 v = _
    rw [e0]
    have : hostAddr s (dstSeg s) (BitVec.ofNat 16 ((s.gpr 7).toNat % 65536)) = some h := hm.1
    simp only [Opnd.put, this]
  have := C33_stos (w := false) hat env hv (fun k hk => by
    rw [reps_one hr] at hk
    have : k = 0 := by omega
    subst this
    refine ⟨h, ?_⟩
    show Mapped s 8 _ (dstOfs s 8 0) h
    rw [e0]; exact hm) (by
    rw [reps_one hr]
    show NotZeroed (filled s 8 v 1) h0 len
    rw [e1]; exact hnz)
  rw [reps_one hr] at this
  have hf : Falls env s len (moveDI s p 8 1 (countDown p (filled s 8 v 1) 1)) := this
  rw [e1, countDown_none hr, (withE_idx ha s 8 1 _).1, hdf] at hf
  exact hf

/-! ### The hypotheses can be met -/

theorem demo_rep67 (op : BitVec 8) : At (demo [0x67, 0xF3, op]) 0x10100 { rep := .rep, addr := true } [op] 3 :=
  ⟨demo_ready _, [0x67, 0xF3], rfl, demo_code [0x67, 0xF3, op] (by simp), rfl⟩

example : ∃ (s : State) (p : Pfx), At s 0x10100 p [strOpc 0xA4 true] 3 ∧ p.addr = true ∧ (s.gpr 1).toNat = 3 ∧ reps32 s p = 3 ∧
    (∀ k < reps32 s p, (elemIdx (dfOf s) (elemW p true) (s.gpr 6) k).toNat < 65536) ∧
    (∀ k < reps32 s p, (elemIdx (dfOf s) (elemW p true) (s.gpr 7) k).toNat < 65536) ∧ SrcMapped s p (elemW p true) (reps32 s p) ∧
    DstMapped s (elemW p true) (reps32 s p) :=
  ⟨demo [0x67, 0xF3, 0xA5], _, demo_rep67 0xA5, rfl, by decide, by decide, by decide +kernel, by decide +kernel, (demo_flat _).srcMapped _ _ _, (demo_flat _).dstMapped _ _ _⟩
example : ∃ (s : State) (p : Pfx), stringOpcode 0xA4 ∧ At s 0x10100 p [0xA4] 3 ∧ p.addr = true ∧ p.rep ≠ .none ∧ (s.gpr 1).toNat % 65536 = 0 ∧
    s.gpr 1 ≠ 0 :=
  ⟨(demo [0x67, 0xF3, 0xA4]).setGpr 1 0x10000, { rep := .rep, addr := true }, by simp [stringOpcode],
    ⟨⟨by decide, by decide, by decide⟩, [0x67, 0xF3], rfl, demo_code [0x67, 0xF3, 0xA4] (by decide), rfl⟩, rfl, by decide, by decide, by decide⟩
example : ∃ (s : State) (v : BitVec 8) (h : Nat), At s 0x10100 { addr := true } [0xAA] 2 ∧ dfOf s = false ∧ 65536 ≤ (s.gpr 7).toNat ∧
    (Opnd.reg 0).Has s 8 v ∧ Mapped s 8 (s.sreg .es) (BitVec.ofNat 16 ((s.gpr 7).toNat % 65536)) h ∧
    NotZeroed { s with host := putHost s.host h v } 0x10100 2 :=
  ⟨(demo [0x67, 0xAA]).setGpr 7 0x12345, _, _,
    ⟨⟨by decide, by decide, by decide⟩, [0x67], rfl, demo_code [0x67, 0xAA] (by decide), rfl⟩, by decide +kernel, by decide, rfl,
    demo_mapped [0x67, 0xAA] 8 _ _ (by decide), fun _ h => absurd h.1 (by decide +kernel)⟩

end RME
