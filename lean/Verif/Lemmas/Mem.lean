import Verif.Lemmas.Exec
set_option autoImplicit false
/-
Memory access lemmas: loads, stores and instruction fetch against the specification vocabulary.
-/
namespace RME

theorem linear_lt (seg ofs : BitVec 16) : linear seg ofs < 0x10FFF0 := by
  have := seg.isLt; have := ofs.isLt
  simp only [linear]; omega

theorem addr32_toNat (seg ofs : BitVec 16) :
    (seg.setWidth 32 * 16 + ofs.setWidth 32 : BitVec 32).toNat = linear seg ofs := by
  have := seg.isLt; have := ofs.isLt
  simp only [linear, BitVec.toNat_add, BitVec.toNat_mul, BitVec.toNat_setWidth]
  simp
  omega

theorem getPtr_spec (seg ofs : BitVec 16) (env : Env) (s : State) :
    getPtr seg (ofs.setWidth 32) env s =
      match hostAddr s seg ofs with
      | some h => .ok h s
      | none => if env.nullCheck then .err .badmem s else .ub .nullBlock := by
  have hl := linear_lt seg ofs
  simp only [getPtr, addr32_toNat, hostAddr, blockSize, numBlocks]
  rw [if_pos (by omega)]
  cases s.map (linear seg ofs / 4096) <;> rfl

theorem getPtr_some {seg ofs : BitVec 16} {s : State} {h : Nat} (env : Env)
    (hh : hostAddr s seg ofs = some h) : getPtr seg (ofs.setWidth 32) env s = .ok h s := by
  rw [getPtr_spec, hh]

theorem validN_iff (valid : Nat → Bool) (k h : Nat) :
    validN valid k h = true ↔ ∀ i < k, valid (h + i) = true := by
  induction k generalizing h with
  | zero => simp [validN]
  | succ k ih =>
    simp only [validN, Bool.and_eq_true, ih]
    constructor
    · rintro ⟨h0, h1⟩ i hi
      cases i with
      | zero => exact h0
      | succ i => have := h1 i (by omega); rwa [show h + (i + 1) = h + 1 + i by omega]
    · intro hv
      refine ⟨hv 0 (by omega), fun i hi => ?_⟩
      have := hv (i + 1) (by omega)
      rwa [show h + (i + 1) = h + 1 + i by omega] at this

theorem loadLE_eq (host : Nat → BitVec 8) (k : Nat) : ∀ (h v : Nat), v < 256 ^ k →
    (∀ i < k, (host (h + i)).toNat = v / 256 ^ i % 256) → loadLE host k h = v := by
  induction k with
  | zero => intro h v hv _; simp [loadLE] at *; omega
  | succ k ih =>
    intro h v hv hb
    have h0 := hb 0 (by omega)
    have := ih (h + 1) (v / 256) (by rw [Nat.pow_succ] at hv; omega) (fun i hi => by
      have := hb (i + 1) (by omega)
      rw [show h + 1 + i = h + (i + 1) by omega, this, Nat.pow_succ, Nat.mul_comm, Nat.div_div_eq_div_mul])
    simp only [loadLE, this]
    simp at h0
    omega

theorem byteOf_toNat {n : Nat} (v : BitVec n) (i : Nat) : (byteOf v i).toNat = v.toNat / 256 ^ i % 256 := by
  simp [byteOf, Nat.shiftRight_eq_div_pow, Nat.pow_mul]

theorem load_holds {n : Nat} (hn : n % 8 = 0) {s : State} {h : Nat} {v : BitVec n}
    (hv : HostHolds s h v) : BitVec.ofNat n (loadLE s.host (n / 8) h) = v := by
  have : loadLE s.host (n / 8) h = v.toNat := by
    apply loadLE_eq
    · have := v.isLt
      rwa [show (256 : Nat) = 2 ^ 8 by rfl, ← Nat.pow_mul, show 8 * (n / 8) = n by omega]
    · intro i hi; rw [hv i hi, byteOf_toNat]
  rw [this]; simp

theorem loadM_holds {n : Nat} (hn : n % 8 = 0) {s : State} {h : Nat} {v : BitVec n} (env : Env)
    (hval : ∀ i < n / 8, s.valid (h + i) = true) (hv : HostHolds s h v) :
    loadM n h env s = .ok v s := by
  simp only [loadM]
  rw [if_pos ((validN_iff _ _ _).2 hval), load_holds hn hv]

theorem readMem_holds {n : Nat} (hn : n % 8 = 0) {s : State} {seg ofs : BitVec 16} {v : BitVec n}
    (env : Env) (h : Holds s seg ofs v) : readMem n seg ofs env s = .ok v s := by
  obtain ⟨a, ⟨ha, hval⟩, hv⟩ := h
  simp only [readMem, bind_apply, getPtr_some env ha, resbind_ok, loadM_holds hn env hval hv]

/-- The value stored in mapped memory. -/
def valAt (s : State) (n h : Nat) : BitVec n := BitVec.ofNat n (loadLE s.host (n / 8) h)

theorem readMem_mapped {n : Nat} {s : State} {seg ofs : BitVec 16} {h : Nat}
    (env : Env) (hm : Mapped s n seg ofs h) : readMem n seg ofs env s = .ok (valAt s n h) s := by
  obtain ⟨ha, hval⟩ := hm
  simp only [readMem, bind_apply, getPtr_some env ha, resbind_ok, loadM, valAt]
  rw [if_pos ((validN_iff _ _ _).2 hval)]

theorem storeLE_eq {n : Nat} (host : Nat → BitVec 8) (h : Nat) (v : BitVec n) :
    storeLE host h n v = putHost host h v := rfl

theorem storeM_mapped {n : Nat} {s : State} {h : Nat} (env : Env)
    (hval : ∀ i < n / 8, s.valid (h + i) = true) (v : BitVec n) :
    storeM n h v env s = .ok () { s with host := putHost s.host h v } := by
  simp only [storeM, storeLE_eq]
  rw [if_pos ((validN_iff _ _ _).2 hval)]

theorem writeMem_mapped {n : Nat} {s : State} {seg ofs : BitVec 16} {h : Nat} (env : Env)
    (hm : Mapped s n seg ofs h) (v : BitVec n) :
    writeMem n seg ofs v env s = .ok () { s with host := putHost s.host h v } := by
  obtain ⟨ha, hval⟩ := hm
  simp only [writeMem, bind_apply, getPtr_some env ha, resbind_ok, storeM_mapped env hval]

theorem putHost_holds {n : Nat} (s : State) (h : Nat) (v : BitVec n) :
    HostHolds { s with host := putHost s.host h v } h v := by
  intro i hi
  simp only [putHost]
  rw [if_pos (by omega)]
  simp

theorem putHost_frame {n : Nat} (host : Nat → BitVec 8) (h : Nat) (v : BitVec n) (a : Nat)
    (ha : a < h ∨ h + n / 8 ≤ a) : putHost host h v a = host a := by
  simp only [putHost]
  rw [if_neg (by omega)]

/-- Two stores to the same place: the second wins. -/
theorem putHost_putHost {n : Nat} (host : Nat → BitVec 8) (h : Nat) (v w : BitVec n) :
    putHost (putHost host h v) h w = putHost host h w := by
  funext a
  simp only [putHost]
  split <;> rfl

theorem valAt_holds {n : Nat} (hn : n % 8 = 0) {s : State} {h : Nat} {v : BitVec n}
    (hv : HostHolds s h v) : valAt s n h = v := load_holds hn hv

theorem valAt_putHost {n : Nat} (hn : n % 8 = 0) (s : State) (h : Nat) (v : BitVec n) :
    valAt { s with host := putHost s.host h v } n h = v :=
  load_holds hn (putHost_holds s h v)

theorem loadLE_congr {f g : Nat → BitVec 8} (k : Nat) : ∀ h, (∀ i < k, f (h + i) = g (h + i)) →
    loadLE f k h = loadLE g k h := by
  induction k with
  | zero => intros; rfl
  | succ k ih =>
    intro h hb
    simp only [loadLE]
    rw [ih (h + 1) (fun i hi => by
      have := hb (i + 1) (by omega); rwa [show h + (i + 1) = h + 1 + i by omega] at this)]
    have := hb 0 (by omega)
    simp at this; rw [this]

theorem loadLE_lt (f : Nat → BitVec 8) (k h : Nat) : loadLE f k h < 256 ^ k := by
  induction k generalizing h with
  | zero => simp [loadLE]
  | succ k ih =>
    simp only [loadLE, Nat.pow_succ]
    have := ih (h + 1); have := (f h).isLt
    omega

theorem loadLE_byte (f : Nat → BitVec 8) (k : Nat) : ∀ h i, i < k →
    loadLE f k h / 256 ^ i % 256 = (f (h + i)).toNat := by
  induction k with
  | zero => intro h i hi; omega
  | succ k ih =>
    intro h i hi
    have hlt := (f h).isLt
    cases i with
    | zero => simp [loadLE]; omega
    | succ i =>
      have := ih (h + 1) i (by omega)
      rw [show h + (i + 1) = h + 1 + i by omega, ← this, Nat.pow_succ, Nat.mul_comm,
        ← Nat.div_div_eq_div_mul]
      congr 2
      simp only [loadLE]
      omega

/-- Whatever is in host memory, it is the little-endian representation of `valAt`. -/
theorem holds_valAt {n : Nat} (hn : n % 8 = 0) (s : State) (h : Nat) : HostHolds s h (valAt s n h) := by
  intro i hi
  apply BitVec.eq_of_toNat_eq
  have hlt := loadLE_lt s.host (n / 8) h
  rw [show (256 : Nat) = 2 ^ 8 by rfl, ← Nat.pow_mul, show 8 * (n / 8) = n by omega] at hlt
  rw [byteOf_toNat, valAt, BitVec.toNat_ofNat, Nat.mod_eq_of_lt hlt, loadLE_byte _ _ _ _ hi]

end RME
