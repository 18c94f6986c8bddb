import Verif.Lemmas.Demo
set_option autoImplicit false
/-
C01, C02, C04: guest memory access.
-/
namespace RME

/-- C01: a store of an 8/16/32-bit value succeeds on mapped memory, a load of the same width at the
same place then gives the value back, the bytes lie in memory in little-endian order, every other
host byte and everything else in the state is unchanged.  The memory map is arbitrary (blocks may
alias or be in any order). -/
theorem C01_read_after_write (env : Env) (n : Nat) (hn : n = 8 ∨ n = 16 ∨ n = 32) (s : State)
    (seg ofs : BitVec 16) (h : Nat) (hm : Mapped s n seg ofs h) (v : BitVec n) :
    ∃ t : State, writeMem n seg ofs v env s = .ok () t ∧
      readMem n seg ofs env t = .ok v t ∧
      (∀ i < n / 8, (t.host (h + i)).toNat = v.toNat / 256 ^ i % 256) ∧
      (∀ a, a < h ∨ h + n / 8 ≤ a → t.host a = s.host a) ∧
      t = { s with host := t.host } := by
  have hn8 : n % 8 = 0 := by omega
  refine ⟨{ s with host := putHost s.host h v }, writeMem_mapped env hm v, ?_, ?_, ?_, rfl⟩
  · exact readMem_holds hn8 env ⟨h, hm, putHost_holds s h v⟩
  · intro i hi
    rw [putHost_holds s h v i hi, byteOf_toNat]
  · intro a ha
    exact putHost_frame s.host h v a (by omega)

example : ∃ (s : State) (seg ofs : BitVec 16) (h : Nat), Mapped s 32 seg ofs h :=
  ⟨demo [], 0x3000, 0x1234, _, demo_mapped [] 32 _ _ (by decide)⟩

/-- C01: reading never changes the state. -/
theorem C01_read_pure (env : Env) (n : Nat) (s : State) (seg ofs : BitVec 16) (h : Nat)
    (hm : Mapped s n seg ofs h) : ∃ v, readMem n seg ofs env s = .ok v s :=
  ⟨_, readMem_mapped env hm⟩

/-- C02: what an access at seg:ofs reads is exactly the little-endian value of the host bytes at
block(linear / 4096) + linear mod 4096, linear = 16*seg + ofs. -/
theorem C02_translation (env : Env) (n : Nat) (hn : n = 8 ∨ n = 16 ∨ n = 32) (s : State)
    (seg ofs : BitVec 16) (base : Nat)
    (hmap : s.map ((seg.toNat * 16 + ofs.toNat) / 4096) = some base)
    (hval : ∀ i < n / 8, s.valid (base + (seg.toNat * 16 + ofs.toNat) % 4096 + i) = true) :
    ∃ v : BitVec n, readMem n seg ofs env s = .ok v s ∧
      ∀ i < n / 8, s.host (base + (seg.toNat * 16 + ofs.toNat) % 4096 + i) =
        (v >>> (8 * i)).setWidth 8 := by
  have hm : Mapped s n seg ofs (base + (seg.toNat * 16 + ofs.toNat) % 4096) :=
    ⟨by simp [hostAddr, linear, hmap], hval⟩
  refine ⟨_, readMem_mapped env hm, ?_⟩
  exact holds_valAt (by omega) s _

/-- C02: two seg:ofs pairs with the same linear address are the same memory: loads and stores through
either have identical results, in every state. -/
theorem C02_aliases (env : Env) (n : Nat) (s : State) (seg ofs seg' ofs' : BitVec 16)
    (heq : seg.toNat * 16 + ofs.toNat = seg'.toNat * 16 + ofs'.toNat) (v : BitVec n) :
    readMem n seg ofs env s = readMem n seg' ofs' env s ∧
    writeMem n seg ofs v env s = writeMem n seg' ofs' v env s := by
  have : hostAddr s seg ofs = hostAddr s seg' ofs' := by simp only [hostAddr, linear, heq]
  have hp : ∀ t, hostAddr t seg ofs = hostAddr t seg' ofs' := by
    intro t; simp only [hostAddr, linear, heq]
  have hg : getPtr seg (ofs.setWidth 32) env s = getPtr seg' (ofs'.setWidth 32) env s := by
    rw [getPtr_spec, getPtr_spec, this]
  constructor
  · simp only [readMem, bind_apply, hg]
  · simp only [writeMem, bind_apply, hg]

example : (0x1234 : BitVec 16).toNat * 16 + (0x0010 : BitVec 16).toNat =
    (0x1235 : BitVec 16).toNat * 16 + (0 : BitVec 16).toNat := by decide

/-- C04 for a build in which the null check is active: access to an unmapped block returns BADMEM and
changes nothing. -/
theorem C04_checked_build_partial (env : Env) (hc : env.nullCheck = true) (n : Nat) (s : State)
    (seg ofs : BitVec 16) (hm : s.map ((seg.toNat * 16 + ofs.toNat) / 4096) = none) (v : BitVec n) :
    readMem n seg ofs env s = .err .badmem s ∧ writeMem n seg ofs v env s = .err .badmem s := by
  have hh : hostAddr s seg ofs = none := by simp [hostAddr, linear, hm]
  constructor <;>
    simp only [readMem, writeMem, bind_apply, getPtr_spec, hh, hc, if_true, resbind_err]

/-- Negation of C04 for the shipped build (`RME_DO_NULL_CHECK` is defined only after the header that
uses it, finding 1): every access to an unmapped block dereferences a null pointer. -/
theorem C04_shipped_build_null_deref (env : Env) (hc : env.nullCheck = false) (n : Nat) (s : State)
    (seg ofs : BitVec 16) (hm : s.map ((seg.toNat * 16 + ofs.toNat) / 4096) = none) (v : BitVec n) :
    readMem n seg ofs env s = .ub .nullBlock ∧ writeMem n seg ofs v env s = .ub .nullBlock := by
  have hh : hostAddr s seg ofs = none := by simp [hostAddr, linear, hm]
  constructor <;> simp [readMem, writeMem, getPtr_spec, hh, hc]

/-- C04, whole program, both builds: running code from an unmapped block. -/
theorem C04_fetch (env : Env) (s : State) (hr : Ready s)
    (hm : s.map (((s.sreg .cs).toNat * 16 + s.ip.toNat) / 4096) = none) :
    runOne env s = if env.nullCheck then
        .err .badmem { s with dec := decReset, instrNum := s.instrNum + 1 }
      else .ub .nullBlock := by
  have h : readMem 8 (s.sreg .cs) (s.ip + BitVec.ofNat 16 0) env
      { s with dec := decReset, instrNum := s.instrNum + 1 } = if env.nullCheck then
        .err .badmem { s with dec := decReset, instrNum := s.instrNum + 1 } else .ub .nullBlock := by
    cases hc : env.nullCheck
    · exact (C04_shipped_build_null_deref env hc 8 _ _ _ (by simpa using hm) 0).1
    · exact (C04_checked_build_partial env hc 8 _ _ _ (by simpa using hm) 0).1
  have h1 : decodeOne env { s with dec := decReset, instrNum := s.instrNum + 1 } =
      if env.nullCheck then
        .err .badmem { s with dec := decReset, instrNum := s.instrNum + 1 } else .ub .nullBlock := by
    simp only [decodeOne, readInstr, bind_apply, getSreg_apply, nextIP_apply, resbind_ok]
    rw [show decReset.ipOffset = 0 from rfl, h]
    split <;> rfl
  rw [runOne_ready hr]
  simp only [doOpcode, bind_apply, getIP_apply, getSreg_apply, resbind_ok, startInstr, INT_MAX]
  rw [if_neg hr.counter, resbind_ok, decodeLoop_succ, h1]
  cases env.nullCheck <;> rfl

/-- C04 violated, whole program: a freshly created state (no memory registered) crashes on the first
`RME_RunOne` in the shipped build. -/
theorem C04_shipped_build_witness (env : Env) (hc : env.nullCheck = false) (host : Nat → BitVec 8)
    (valid : Nat → Bool) : runOne env (createState host valid) = .ub .nullBlock := by
  rw [C04_fetch env (createState host valid) ⟨by simp [createState], by simp [createState], by simp [createState]⟩ rfl]
  simp [hc]

example : (demo []).map ((0xFFFF : BitVec 16).toNat * 16 / 4096 + 300) = none := by decide
example (host valid) : (createState host valid).map 0 = none := rfl

end RME
