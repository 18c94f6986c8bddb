import Verif.Props.Bios
import Verif.Props.Global
set_option autoImplicit false
/-
C68: starting a machine in the native tester (floppy, BIOS image, no media).
-/
namespace RME.Native
open RME

/-- Guest memory after the last lines of the set-up. -/
def lastWord (mem : Nat → BitVec 8) (i : Nat) : BitVec 8 := if 0x9FFFE ≤ i ∧ i < 0xA0000 then 0xFF else mem i

/-- What every started machine looks like: all memory mapped onto `gaMemory`, SS:SP = 0000:FFFE, the other data segments 0, all general
registers but SP 0, FLAGS = 2, no instruction executed, no port touched, and host memory outside `gaMemory` as before. -/
structure Started (ga : Nat) (host : Nat → BitVec 8) (s : State) (cs ip : BitVec 16) : Prop where
  flat : Flat s ga
  unmapped : ∀ b, 272 ≤ b → s.map b = none
  cs : s.sreg .cs = cs
  ip : s.ip = ip
  seg : ∀ r, r ≠ .cs → s.sreg r = 0
  sp : s.gpr 4 = 0xFFFE
  gpr : ∀ r, r ≠ 4 → s.gpr r = 0
  flags : s.flags = 2
  num : s.instrNum = 0
  io : s.io = []
  null : s.lastNull = false
  outside : ∀ a, a < ga ∨ ga + 0x110000 ≤ a → s.host a = host a

theorem Started.ready {ga : Nat} {host : Nat → BitVec 8} {s : State} {cs ip : BitVec 16} (h : Started ga host s cs ip)
    (h1 : ¬ (ip = 0xFFFF ∧ cs = 0xFFFF)) (h2 : ¬ (cs = 0xB800 ∧ ip.toNat < 0x100)) : Ready s :=
  ⟨by rw [h.ip, h.cs]; exact h1, by rw [h.ip, h.cs]; exact h2, by rw [h.num]; decide⟩

theorem newMachine_flat (ga : Nat) (mem host : Nat → BitVec 8) (dbg : Int) : Flat (newMachine ga mem host dbg) ga := by
  refine ⟨fun b hb => if_pos hb, fun a ha => ?_⟩
  show decide (ga ≤ ga + a ∧ ga + a < ga + 0x110000) = true
  exact decide_eq_true ⟨by omega, by omega⟩

/-- The state `s0` of the machine before the last lines of the set-up. -/
theorem started_of {ga : Nat} {mem host : Nat → BitVec 8} {dbg : Int} {cpu : CPUType} {cs ip : BitVec 16} {g : BitVec 3 → BitVec 32}
    (hg : ∀ r, g r = 0) :
    let s := finishSetup ga cpu { (newMachine ga mem host dbg).setSreg .cs cs with ip := ip, gpr := g }
    Started ga host s cs ip ∧ ∀ i < 0x110000, s.host (ga + i) = lastWord mem i := by
  intro s
  refine ⟨⟨?_, ?_, rfl, rfl, ?_, ?_, ?_, rfl, rfl, rfl, rfl, ?_⟩, ?_⟩
  · exact ⟨(newMachine_flat ga mem host dbg).map, (newMachine_flat ga mem host dbg).valid⟩
  · intro b hb; exact if_neg (by omega)
  · intro r hr
    show (if r = .cs then cs else (if r = .cs then (0xF000 : BitVec 16) else 0)) = 0
    rw [if_neg hr, if_neg hr]
  · show (if (4 : BitVec 3) = 4 then putLow 16 (g 4) 0xFFFE else g 4) = 0xFFFE
    rw [hg]; decide
  · intro r hr
    show (if r = 4 then putLow 16 (g 4) 0xFFFE else g r) = 0
    rw [if_neg hr, hg]
  · intro a ha
    show (if ga + 0x9FFFE ≤ a ∧ a < ga + 0xA0000 then 0xFF else
      (if ga ≤ a ∧ a < ga + 0x110000 then mem (a - ga) else host a)) = host a
    rw [if_neg (by omega), if_neg (by omega)]
  · intro i hi
    show (if ga + 0x9FFFE ≤ ga + i ∧ ga + i < ga + 0xA0000 then 0xFF else
      (if ga ≤ ga + i ∧ ga + i < ga + 0x110000 then mem (ga + i - ga) else host (ga + i))) = lastWord mem i
    rw [lastWord, show ga + i - ga = i by omega, if_pos (show ga ≤ ga + i ∧ ga + i < ga + 0x110000 by omega)]
    by_cases h : 0x9FFFE ≤ i ∧ i < 0xA0000
    · rw [if_pos h, if_pos (by omega)]
    · rw [if_neg h, if_neg (by omega)]

/-- The same machine, spelled with `setReg 16 rDX 0`. -/
theorem dx_zero (s : State) (h : ∀ r, s.gpr r = 0) : s.setReg 16 rDX 0 = { s with gpr := fun _ => 0 } := by
  refine State.ext' ?_ rfl rfl rfl rfl rfl rfl rfl rfl rfl rfl rfl rfl
  funext x
  rw [gpr_setReg]
  split
  · rename_i hx
    rw [h]
    show putLow 16 0 0 = 0
    decide
  · exact h x

theorem codeAt_flat {s : State} {ga : Nat} (hf : Flat s ga) {bytes : List (BitVec 8)} {k : Nat} (hk : linear (s.sreg .cs) s.ip = k)
    (hl : (s.ip).toNat + bytes.length ≤ 0x10000)
    (hb : ∀ i (hi : i < bytes.length), s.host (ga + (k + i)) = bytes[i]) :
    CodeAt s (ga + k) bytes := by
  subst hk
  intro i hi
  have hlin : linear (s.sreg .cs) (s.ip + BitVec.ofNat 16 i) = linear (s.sreg .cs) s.ip + i := by
    simp only [linear, BitVec.toNat_add, BitVec.toNat_ofNat]
    have := s.ip.isLt
    omega
  refine ⟨?_, ?_, ?_⟩
  · rw [hf.hostAddr, hlin, Nat.add_assoc]
  · have h1 := linear_lt (s.sreg .cs) (s.ip + BitVec.ofNat 16 i)
    rw [hlin] at h1
    rw [Nat.add_assoc]
    exact hf.valid _ (by omega)
  · rw [Nat.add_assoc]
    exact hb i hi

theorem holds16_flat {s : State} {ga : Nat} (hf : Flat s ga) (seg ofs : BitVec 16) (v : BitVec 16)
    (h0 : s.host (ga + linear seg ofs) = v.setWidth 8) (h1 : s.host (ga + (linear seg ofs + 1)) = (v >>> 8).setWidth 8) : Holds s seg ofs v := by
  refine ⟨ga + linear seg ofs, hf.mapped (by decide) seg ofs, ?_⟩
  intro i hi
  have : i = 0 ∨ i = 1 := by omega
  rcases this with rfl | rfl
  · simpa [byteOf] using h0
  · simpa [byteOf, Nat.add_assoc] using h1

theorem biosMem_vec (i : Nat) (h : i < 0x400) : biosMem i =
    if i % 4 = 0 then BitVec.ofNat 8 (i / 4) else if i % 4 = 1 then 0 else if i % 4 = 2 then 0x00 else 0xB8 := by
  rw [biosMem, if_pos h]

/-- A machine whose low memory is the tester's table has all vectors on the trampolines. -/
theorem vectors_of {s : State} {ga : Nat} (hf : Flat s ga) (hm : ∀ i < 0x400, s.host (ga + i) = biosMem i) (n : BitVec 8) : HleVector s n := by
  have hn := n.isLt
  have e0 : linear 0 (n.setWidth 16 * 4) = n.toNat * 4 := by simp [linear]; omega
  have e2 : linear 0 (n.setWidth 16 * 4 + 2) = n.toNat * 4 + 2 := by simp [linear]; omega
  refine ⟨holds16_flat hf _ _ _ ?_ ?_, holds16_flat hf _ _ _ ?_ ?_⟩
  · rw [e0, hm _ (by omega), biosMem_vec _ (by omega), if_pos (by omega)]
    apply BitVec.eq_of_toNat_eq
    simp
  · rw [e0, hm _ (by omega), biosMem_vec _ (by omega), if_neg (by omega), if_pos (by omega)]
    apply BitVec.eq_of_toNat_eq
    simp
    omega
  · rw [e2, hm _ (by omega), biosMem_vec _ (by omega), if_neg (by omega), if_neg (by omega), if_pos (by omega)]
    decide
  · rw [e2, hm _ (by omega), biosMem_vec _ (by omega), if_neg (by omega), if_neg (by omega), if_neg (by omega)]
    decide

/-! ### Floppy -/

/-- C68: the tester boots a floppy image exactly if it has at least 512 bytes and the boot signature 55 AA at offset 510; otherwise it ends
with status 0 without running anything. -/
theorem C68_floppy_iff (ga : Nat) (host : Nat → BitVec 8) (dbg : Int) (cpu : CPUType) (file : List (BitVec 8)) :
    (∃ s, setup ga host dbg cpu (.floppy file) = .run s) ↔ (file[510]? = some 0x55 ∧ file[511]? = some 0xAA) := by
  simp only [setup]
  by_cases hl : file.length < 512
  · rw [if_pos hl]
    constructor
    · rintro ⟨s, h⟩; cases h
    · rintro ⟨_, h⟩
      rw [List.getElem?_eq_none (by omega)] at h
      cases h
  · rw [if_neg hl]
    have e : ∀ k, k < 512 → ∀ v : BitVec 8, (file.getD k 0 = v ↔ file[k]? = some v) := by
      intro k hk v
      rw [List.getElem?_eq_getElem (by omega), List.getD_eq_getElem?_getD, List.getElem?_eq_getElem (by omega)]
      simp
    rw [← e 510 (by omega), ← e 511 (by omega)]
    by_cases hs : file.getD 510 0 = 0x55 ∧ file.getD 511 0 = 0xAA
    · rw [if_neg (not_not_intro hs)]
      exact ⟨fun _ => hs, fun _ => ⟨_, rfl⟩⟩
    · rw [if_pos hs]
      constructor
      · rintro ⟨s, h⟩; cases h
      · intro h; exact absurd h hs

/-- C68: a booted floppy starts with the 512 bytes of its first sector at 0000:7C00 as the instructions at CS:IP = 07C0:0000, DL = 0 (drive A)
and every interrupt vector on its service. -/
theorem C68_floppy {ga : Nat} {host : Nat → BitVec 8} {dbg : Int} {cpu : CPUType} {file : List (BitVec 8)} {s : State}
    (h : setup ga host dbg cpu (.floppy file) = .run s) :
    Started ga host s 0x07C0 0 ∧ s.cpuType = cpu ∧ s.debugLevel = dbg ∧ CodeAt s (ga + 0x7C00) (file.take 512) ∧ (∀ n, HleVector s n) := by
  simp only [setup] at h
  split at h
  · cases h
  · rename_i hl
    split at h
    · cases h
    · rw [dx_zero _ (fun _ => rfl)] at h
      cases h
      obtain ⟨h1, h2⟩ := started_of (ga := ga) (host := host) (dbg := dbg) (cpu := cpu) (cs := 0x07C0) (ip := 0) (g := fun _ => 0)
        (mem := fun i => if 0x7C00 ≤ i ∧ i < 0x7E00 then file.getD (i - 0x7C00) 0 else biosMem i) (fun _ => rfl)
      refine ⟨h1, rfl, rfl, ?_, ?_⟩
      · refine codeAt_flat h1.flat (by rw [h1.cs, h1.ip]; decide) ?_ ?_
        · rw [h1.ip]; simp; omega
        · intro i hi
          simp only [List.length_take] at hi
          rw [h2 _ (by omega), lastWord, if_neg (by omega), if_pos (by omega),
            show 0x7C00 + i - 0x7C00 = i by omega, List.getElem_take, List.getD_eq_getElem?_getD, List.getElem?_eq_getElem (by omega)]
          rfl
      · refine vectors_of h1.flat ?_
        intro i hi
        rw [h2 i (by omega), lastWord, if_neg (by omega), if_neg (by omega)]

/-! ### BIOS image -/

/-- C68: a BIOS image whose length is a positive multiple of 16 up to 64 KiB is loaded so that its last byte is at FFFFF, its last 16 bytes are
the instructions at CS:IP = F000:FFF0; all interrupt vectors are 0000:0000. -/
theorem C68_bios {ga : Nat} {host : Nat → BitVec 8} {dbg : Int} {cpu : CPUType} {file : List (BitVec 8)}
    (h16 : file.length % 16 = 0) (h0 : 0 < file.length) (h1 : file.length ≤ 0x10000) :
    ∃ s, setup ga host dbg cpu (.bios (some file)) = .run s ∧ Started ga host s 0xF000 0xFFF0 ∧ s.cpuType = cpu ∧ s.debugLevel = dbg ∧
      (∀ i (hi : i < file.length), s.host (ga + (0x100000 - file.length + i)) = file[i]) ∧
      CodeAt s (ga + 0xFFFF0) (file.drop (file.length - 16)) ∧ (∀ n, Vector s n 0 0) := by
  refine ⟨_, by rw [setup, if_neg (by omega)], ?_⟩
  obtain ⟨k1, k2⟩ := started_of (ga := ga) (host := host) (dbg := dbg) (cpu := cpu) (cs := 0xF000) (ip := 0xFFF0) (g := fun _ => 0)
    (mem := fun i => if file.length ≤ 0x10000 ∧ 0x100000 - file.length ≤ i ∧ i < 0x100000 then file.getD (i - (0x100000 - file.length)) 0
      else if i < 0x400 then 0 else biosMem i) (fun _ => rfl)
  have hb : ∀ i (hi : i < file.length), _ = file[i] := fun i hi => by
    refine (k2 (0x100000 - file.length + i) (by omega)).trans ?_
    simp only [lastWord]
    rw [if_neg (by omega), if_pos (by omega), show 0x100000 - file.length + i - (0x100000 - file.length) = i by omega,
      List.getD_eq_getElem?_getD, List.getElem?_eq_getElem hi]
    rfl
  refine ⟨k1, rfl, rfl, hb, ?_, ?_⟩
  · refine codeAt_flat k1.flat (by rw [k1.cs, k1.ip]; decide) ?_ ?_
    · rw [k1.ip]; simp; omega
    · intro i hi
      simp only [List.length_drop] at hi
      rw [List.getElem_drop,
        show 0xFFFF0 + i = 0x100000 - file.length + (file.length - 16 + i) by omega]
      exact hb _ (by omega)
  · intro n
    have hn := n.isLt
    have hz : ∀ i < 0x400, (finishSetup ga cpu { (newMachine ga (fun i => if file.length ≤ 0x10000 ∧ 0x100000 - file.length ≤ i ∧ i < 0x100000 then
        file.getD (i - (0x100000 - file.length)) 0 else if i < 0x400 then 0 else biosMem i) host dbg).setSreg .cs 0xF000 with ip := 0xFFF0, gpr := fun _ => 0 }).host (ga + i) = 0 := by
      intro i hi
      rw [k2 i (by omega), lastWord, if_neg (by omega), if_neg (by omega), if_pos hi]
    have e0 : linear 0 (n.setWidth 16 * 4) = n.toNat * 4 := by simp [linear]; omega
    have e2 : linear 0 (n.setWidth 16 * 4 + 2) = n.toNat * 4 + 2 := by simp [linear]; omega
    refine ⟨holds16_flat k1.flat _ _ _ ?_ ?_, holds16_flat k1.flat _ _ _ ?_ ?_⟩
    · rw [e0, hz _ (by omega)]; rfl
    · rw [e0, hz _ (by omega)]; rfl
    · rw [e2, hz _ (by omega)]; rfl
    · rw [e2, hz _ (by omega)]; rfl

/-- C68: an image whose length is not a multiple of 16 is refused. -/
theorem C68_bios_refused (ga : Nat) (host : Nat → BitVec 8) (dbg : Int) (cpu : CPUType) (file : List (BitVec 8)) (h : file.length % 16 ≠ 0) :
    setup ga host dbg cpu (.bios (some file)) = .ret (-1) := by
  rw [setup, if_pos h]

/-- A machine with the byte F1 at CS:IP stops at once. -/
theorem stops_at_once {ga : Nat} {host : Nat → BitVec 8} {s : State} (k : Started ga host s 0xF000 0xFFF0) (hb : s.host (ga + 0xFFFF0) = 0xF1) (env : Env) :
    ∃ t, runOne env s = .err .breakpoint t := by
  have hr : Ready s := k.ready (by decide) (by decide)
  obtain ⟨d, hd⟩ := C37_breakpoint env s hr [] ⟨by simp, by simp⟩ (by
    intro i hi
    have : i = 0 := by simpa using hi
    subst this
    refine ⟨ga + 0xFFFF0, ?_, ?_, hb⟩
    · rw [k.flat.hostAddr, k.cs, k.ip]; rfl
    · exact k.flat.valid _ (by omega))
  exact ⟨_, hd⟩

/-- C68 violated: a BIOS image of more than 64 KiB (or an empty one) is not loaded, yet the machine is started; the very first instruction
is a breakpoint and the tester reports success (status 0). -/
theorem C68_violated_too_large {ga : Nat} {host : Nat → BitVec 8} {dbg : Int} {cpu : CPUType} {file : List (BitVec 8)} (env : Env)
    (h16 : file.length % 16 = 0) (h : 0x10000 < file.length ∨ file.length = 0) :
    ∃ s t, setup ga host dbg cpu (.bios (some file)) = .run s ∧ runOne env s = .err .breakpoint t ∧ exitStatus .breakpoint = 0 := by
  obtain ⟨k1, k2⟩ := started_of (ga := ga) (host := host) (dbg := dbg) (cpu := cpu) (cs := 0xF000) (ip := 0xFFF0) (g := fun _ => 0)
    (mem := fun i => if file.length ≤ 0x10000 ∧ 0x100000 - file.length ≤ i ∧ i < 0x100000 then file.getD (i - (0x100000 - file.length)) 0
      else if i < 0x400 then 0 else biosMem i) (fun _ => rfl)
  obtain ⟨t, ht⟩ := stops_at_once k1 (by
    rw [k2 _ (by omega), lastWord, if_neg (by omega), if_neg (by omega), if_neg (by omega)]
    decide) env
  refine ⟨_, t, ?_, ht, rfl⟩
  rw [setup, if_neg (by omega)]
  rfl

/-- C68: without any medium the machine is started at F000:FFF0 and stops with a breakpoint. -/
theorem C68_no_media (ga : Nat) (host : Nat → BitVec 8) (dbg : Int) (cpu : CPUType) (env : Env) :
    ∃ s t, setup ga host dbg cpu .none = .run s ∧ Started ga host s 0xF000 0xFFF0 ∧ (∀ n, HleVector s n) ∧ runOne env s = .err .breakpoint t := by
  obtain ⟨k1, k2⟩ := started_of (ga := ga) (host := host) (dbg := dbg) (cpu := cpu) (cs := 0xF000) (ip := 0xFFF0) (g := fun _ => 0)
    (mem := biosMem) (fun _ => rfl)
  have e : (newMachine ga biosMem host dbg) = { (newMachine ga biosMem host dbg).setSreg .cs 0xF000 with ip := 0xFFF0, gpr := fun _ => 0 } := by
    refine State.ext' rfl ?_ rfl rfl rfl rfl rfl rfl rfl rfl rfl rfl rfl
    funext r
    show (if r = .cs then (0xF000 : BitVec 16) else 0) = (if r = .cs then 0xF000 else if r = .cs then 0xF000 else 0)
    by_cases h : r = .cs <;> simp [h]
  obtain ⟨t, ht⟩ := stops_at_once k1 (by
    rw [k2 _ (by omega), lastWord, if_neg (by omega)]
    decide) env
  refine ⟨_, t, rfl, ?_, ?_, ?_⟩
  · rw [e]; exact k1
  · intro n
    rw [e]
    exact vectors_of k1.flat (fun i hi => by rw [k2 i (by omega), lastWord, if_neg (by omega)]) n
  · rw [e]; exact ht

/-- The exit status is 0 exactly for HLT and the breakpoint. -/
theorem C68_status (e : Err) : exitStatus e = 0 ↔ e = .halt ∨ e = .breakpoint := by
  cases e <;> simp [exitStatus]

/-- A floppy image that boots: 512 bytes, signature, first instruction INT 12h. -/
def demoFloppy : List (BitVec 8) := [0xCD, 0x12] ++ List.replicate 508 0x90 ++ [0x55, 0xAA]
example : demoFloppy[510]? = some 0x55 ∧ demoFloppy[511]? = some 0xAA := by decide +kernel
/-- A BIOS image of 16 bytes. -/
example : (List.replicate 16 (0xF4 : BitVec 8)).length % 16 = 0 ∧ 0 < (List.replicate 16 (0xF4 : BitVec 8)).length := by simp

theorem biosMem_plain (i : Nat) (h0 : 0x400 ≤ i) (h1 : i < 0xB8000 ∨ 0xB8000 + 4000 ≤ i) (h2 : i < 0xF0000 ∨ 0xF102A ≤ i) : biosMem i = 0xF1 := by
  rw [biosMem, if_neg (by omega), if_neg (by omega), if_neg (by omega), if_neg (by omega), if_neg (by omega), if_neg (by omega), if_neg (by omega),
    if_neg (by omega), if_neg (by omega), if_neg (by omega), if_neg (by omega)]

/-- C68: the rest of memory of a booted floppy: the text screen is 0, the word at 9FFFE is FFFF, and outside the vector table, the boot sector
and the BIOS area F0000–F1029 every byte is F1 (a breakpoint instruction). -/
theorem C68_floppy_memory {ga : Nat} {host : Nat → BitVec 8} {dbg : Int} {cpu : CPUType} {file : List (BitVec 8)} {s : State}
    (h : setup ga host dbg cpu (.floppy file) = .run s) :
    (∀ i < 4000, s.host (ga + (0xB8000 + i)) = 0) ∧ s.host (ga + 0x9FFFE) = 0xFF ∧ s.host (ga + 0x9FFFF) = 0xFF ∧
      (∀ i, 0x400 ≤ i → i < 0x110000 → (i < 0x7C00 ∨ 0x7E00 ≤ i) → (i < 0x9FFFE ∨ 0xA0000 ≤ i) → (i < 0xB8000 ∨ 0xB8000 + 4000 ≤ i) →
        (i < 0xF0000 ∨ 0xF102A ≤ i) → s.host (ga + i) = 0xF1) := by
  simp only [setup] at h
  split at h
  · cases h
  · split at h
    · cases h
    · rw [dx_zero _ (fun _ => rfl)] at h
      cases h
      obtain ⟨-, h2⟩ := started_of (ga := ga) (host := host) (dbg := dbg) (cpu := cpu) (cs := 0x07C0) (ip := 0) (g := fun _ => 0)
        (mem := fun i => if 0x7C00 ≤ i ∧ i < 0x7E00 then file.getD (i - 0x7C00) 0 else biosMem i) (fun _ => rfl)
      refine ⟨?_, ?_, ?_, ?_⟩
      · intro i hi
        rw [h2 _ (by omega), lastWord, if_neg (by omega), if_neg (by omega), biosMem, if_neg (by omega), if_pos (by omega)]
      · rw [h2 _ (by omega), lastWord, if_pos (by omega)]
      · rw [h2 _ (by omega), lastWord, if_pos (by omega)]
      · intro i a b c d e g
        rw [h2 _ b, lastWord, if_neg (by omega), if_neg (by omega), biosMem_plain i a e g]

/-- C68: a floppy whose first instruction is INT n, n a service of the tester that returns: the machine that `setup` makes runs it and goes
on with the next instruction. -/
theorem C68_floppy_int {ga : Nat} {host : Nat → BitVec 8} {dbg : Int} {cpu : CPUType} {file : List (BitVec 8)} {s t : State} {n : BitVec 8}
    {f : World → State → HOut} {w w' : World} (h : setup ga host dbg cpu (.floppy file) = .run s) (h0 : file[0]? = some 0xCD) (h1 : file[1]? = some n)
    (hf : hleCall n = some f) (hs : f w s = .ok w' t) (hnz : NotZeroed t (ga + 0x7C00) 2) : Falls (nativeEnv w) s 2 t := by
  obtain ⟨k, -, -, hc, hv⟩ := C68_floppy h
  refine C67_int (h0 := ga + 0x7C00) (p := {}) ⟨k.ready (by decide) (by decide), [], rfl, ?_, rfl⟩ (hv n) hf hs hnz
  have hl : ∃ l, file.take 512 = [0xCD, n] ++ l := by
    match file, h0, h1 with
    | a :: b :: l, h0, h1 =>
      simp at h0 h1
      subst h0; subst h1
      exact ⟨l.take 510, rfl⟩
  obtain ⟨l, hl⟩ := hl
  rw [hl] at hc
  intro i hi
  have hi2 : i < 2 := by simpa using hi
  have := hc i (by simp; omega)
  rw [List.getElem_append_left (by simpa using hi2)] at this
  exact this

/-- The machine started from the example floppy executes its INT 12h: AX = 027Fh (639 KiB). -/
example (ga : Nat) (host : Nat → BitVec 8) (w : World) : ∃ s, setup ga host 0 .i386 (.floppy demoFloppy) = .run s ∧
    Falls (nativeEnv w) s 2 (s.setReg 16 rAX 0x27F) := by
  obtain ⟨s, hs⟩ := (C68_floppy_iff ga host 0 .i386 demoFloppy).mpr (by decide +kernel)
  refine ⟨s, hs, C68_floppy_int (n := 0x12) (f := hle12) (w' := w) hs rfl rfl rfl rfl ?_⟩
  intro _ hz
  have h0 := (C68_floppy hs).2.2.2.1 0 (by decide +kernel)
  exact absurd (h0.2.2.symm.trans hz.1) (by decide +kernel)

end RME.Native
