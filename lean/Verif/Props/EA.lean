import Verif.Props.Move
import Verif.Lemmas.EA
import Verif.Lemmas.Conc
set_option autoImplicit false
/-
C38 effective addresses (16-bit), C39 segments of memory operands, C63 32-bit addressing.
-/
namespace RME

/-- C38, full claim, seen through MOV r8,[ea] (8A): the byte loaded is the one at segment:offset with
offset = base + index + displacement modulo 2^16 (segment as in C39).  It does not hold
(`C38_violated`). -/
def C38_Full : Prop :=
  ∀ (env : Env) (s : State) (h0 : Nat) (p : Pfx) (m : BitVec 8) (disp : List (BitVec 8)) (len : Nat) (v : BitVec 8),
    At s h0 p (0x8A :: m :: disp) len → Mem16 p m disp → usedSeg p m = eaSeg p m →
    Holds s (s.sreg (eaSeg p m)) (eaOffset s m disp) v →
    NotZeroed s h0 len → Falls env s len ((regOp 8 (regOf m)).put s 8 v)

/-- Byte loads (8A): the address used is `usedLinear`: registers + displacement *not* reduced modulo 2^16. -/
theorem C38_load8_exact {s : State} {h0 : Nat} {p : Pfx} {m : BitVec 8} {disp : List (BitVec 8)} {len a : Nat}
    (hat : At s h0 p (0x8A :: m :: disp) len) (hm : Mem16 p m disp) (env : Env)
    (ha : LinMapped s 8 (usedLinear s p m disp) a) :
    Falls env s len ((regOp 8 (regOf m)).put s 8 (s.host a)) := by
  refine step_falls hat env (by decide) mov_entry.2.2.1 rfl _ (decOf p len) ?_ (put_ip _ _ _ _) (put_map _ _ _ _) (put_valid _ _ _ _) rfl rfl
    (notZeroed_same hat (by decide) (by
      rw [regOp_8]; unfold byteReg; split <;> rfl))
  intro bytes j hc hj hsub
  subst hj
  simp only [callFn, opFn, opMovRM, parseModRM, getModRM, bind_apply, fetch8 hc env p _ hsub.head, resbind_ok, pure_apply,
    decodeModM, ite_apply]
  rw [if_neg hm.mod3, getMMM_any hc env hm hsub.tail]
  simp only [resbind_ok]
  rw [ha.ptr env (t := opState s p _) rfl]
  simp only [resbind_ok, ofByte_rrr, regB_eq s, movLoc, bind_apply, readLoc]
  rw [loadM_holds (n := 8) (s := opState s p _) (v := s.host a) (by omega) env ha.2.2.2 (by
    intro i hi
    have : i = 0 := by omega
    subst this
    simp [byteOf, opState]), resbind_ok]
  have e : j + 1 + disp.length = j + (m :: disp).length := by simp; omega
  rw [e]
  exact writeLoc_op p _ env (regOp_ok s _) _

/-- Byte stores (88): likewise. -/
theorem C38_store8_exact {s : State} {h0 : Nat} {p : Pfx} {m : BitVec 8} {disp : List (BitVec 8)} {len a : Nat} {v : BitVec 8}
    (hat : At s h0 p (0x88 :: m :: disp) len) (hm : Mem16 p m disp) (env : Env)
    (ha : LinMapped s 8 (usedLinear s p m disp) a) (hv : (regOp 8 (regOf m)).Has s 8 v)
    (hnz : NotZeroed { s with host := putHost s.host a v } h0 len) :
    Falls env s len { s with host := putHost s.host a v } := by
  refine step_falls hat env (by decide) mov_entry.1 rfl _ (decOf p len) ?_ rfl rfl rfl rfl rfl hnz
  intro bytes j hc hj hsub
  subst hj
  simp only [callFn, opFn, opMovMR, parseModRM, getModRM, bind_apply, fetch8 hc env p _ hsub.head, resbind_ok, pure_apply,
    decodeModM, ite_apply]
  rw [if_neg hm.mod3, getMMM_any hc env hm hsub.tail]
  simp only [resbind_ok]
  rw [ha.ptr env (t := opState s p _) rfl]
  simp only [resbind_ok, ofByte_rrr, regB_eq s, movLoc, bind_apply]
  rw [← regOp_8, readLoc_has (Agree.op s p _) env (Or.inl rfl) (regOp_ok s _) hv, resbind_ok]
  simp only [writeLoc]
  rw [storeM_mapped (s := opState s p _) env ha.2.2.2 v]
  have e : j + 1 + disp.length = j + (m :: disp).length := by simp; omega
  rw [e]
  rfl

/-- An address outside the 1088 KiB makes the emulator index `Memory[]` out of bounds. -/
theorem C38_outside {s : State} {h0 : Nat} {p : Pfx} {m : BitVec 8} {disp : List (BitVec 8)} {len : Nat}
    (hat : At s h0 p (0x8A :: m :: disp) len) (hm : Mem16 p m disp) (env : Env)
    (ho : 0x110000 ≤ usedLinear s p m disp) : runOne env s = .ub .blockIndexOOB := by
  refine runOne_code_ub hat env (by decide) mov_entry.2.2.1 rfl _ ?_
  intro bytes j hc hj hsub
  simp only [callFn, opFn, opMovRM, parseModRM, getModRM, bind_apply, fetch8 hc env p _ hsub.head, resbind_ok, pure_apply,
    decodeModM, ite_apply]
  rw [if_neg hm.mod3, getMMM_any hc env hm hsub.tail]
  simp only [resbind_ok, getPtr, usedLinear_eq, blockSize, numBlocks]
  rw [if_neg (by omega)]
  rfl

/-- Word and double word loads (8B): the same address; a word at the last byte of a block is refused with BADMEM. -/
theorem C38_load_exact {s : State} {h0 : Nat} {p : Pfx} {m : BitVec 8} {disp : List (BitVec 8)} {len a : Nat} {v : BitVec (opW p)}
    (hat : At s h0 p (0x8B :: m :: disp) len) (hm : Mem16 p m disp) (env : Env)
    (ha : LinMapped s (opW p) (usedLinear s p m disp) a) (hv : HostHolds s a v) (hl : usedLinear s p m disp % 4096 ≠ 4095) :
    Falls env s len ((Opnd.reg (regOf m)).put s (opW p) v) := by
  refine step_falls hat env (by decide) mov_entry.2.2.2.1 rfl _ (decOf p len) ?_ (put_ip _ _ _ _) (put_map _ _ _ _) (put_valid _ _ _ _) rfl rfl
    (notZeroed_same hat (by decide) rfl)
  intro bytes j hc hj hsub
  subst hj
  simp only [callFn, opFn, opMovRMX, parseModRMX, getModRM, bind_apply, fetch8 hc env p _ hsub.head, resbind_ok, pure_apply,
    decodeModMX, ite_apply]
  rw [if_neg hm.mod3, getMMM_any hc env hm hsub.tail]
  simp only [resbind_ok, usedLinear_eq, blockSize]
  rw [beq_eq_false_iff_ne.2 (by omega), guardE_false, resbind_ok, ha.ptr env (t := opState s p _) rfl]
  simp only [resbind_ok, ofByte_rrr, regW, withW_op (p := p) _ _ (opState _ _ _) rfl, movLoc, bind_apply, readLoc]
  rw [loadM_holds (s := opState s p _) (v := v) (by have := opW_ok p; omega) env ha.2.2.2 hv, resbind_ok]
  have e : j + 1 + disp.length = j + (m :: disp).length := by simp; omega
  rw [e]
  exact writeLoc_op (dst := .reg (regOf m)) p _ env trivial _

/-- MOV AL,[BX-20h] with BX = 10h reads DS*16 - 10h. -/
example : ∃ (s : State) (m : BitVec 8) (disp : List (BitVec 8)), At s 0x10100 {} (0x8A :: m :: disp) 3 ∧ Mem16 {} m disp ∧
    LinMapped s 8 (usedLinear s {} m disp) 0x2FFF0 ∧ eaOffset s m disp = 0xFFF0 := by
  refine ⟨demo [0x8A, 0x47, 0xE0], 0x47, [0xE0], ⟨demo_ready _, [], rfl, by decide +kernel, rfl⟩, ⟨by decide, rfl, by decide⟩, ?_, by decide +kernel⟩
  decide +kernel
/-- Store: MOV [BX-20h],AL. -/
example : ∃ (s : State) (m : BitVec 8) (disp : List (BitVec 8)) (v : BitVec 8), At s 0x10100 {} (0x88 :: m :: disp) 3 ∧ Mem16 {} m disp ∧
    LinMapped s 8 (usedLinear s {} m disp) 0x2FFF0 ∧ (regOp 8 (regOf m)).Has s 8 v ∧
    NotZeroed { s with host := putHost s.host 0x2FFF0 v } 0x10100 3 :=
  ⟨demo [0x88, 0x47, 0xE0], 0x47, [0xE0], 0x55, ⟨demo_ready _, [], rfl, by decide +kernel, rfl⟩, ⟨by decide, rfl, by decide⟩, by decide +kernel,
    rfl, fun h => absurd h (by decide)⟩
/-- Word load: MOV AX,[8000h] reads DS*16 - 8000h = 28000h. -/
example : ∃ (s : State) (m : BitVec 8) (disp : List (BitVec 8)), At s 0x10100 {} (0x8B :: m :: disp) 4 ∧ Mem16 {} m disp ∧
    LinMapped s 16 (usedLinear s {} m disp) 0x28000 ∧ HostHolds s 0x28000 (0 : BitVec 16) ∧ usedLinear s {} m disp % 4096 ≠ 4095 ∧ eaOffset s m disp = 0x8000 :=
  ⟨demo [0x8B, 0x06, 0x00, 0x80], 0x06, [0x00, 0x80], ⟨demo_ready _, [], rfl, by decide +kernel, rfl⟩, ⟨by decide, rfl, by decide⟩,
    by decide +kernel, by decide +kernel, by decide +kernel, by decide +kernel⟩
/-- MOV AL,[BX-20h] with DS = 0: `Memory[]` is indexed out of bounds. -/
example : ∃ (s : State) (m : BitVec 8) (disp : List (BitVec 8)), At s 0x10100 {} (0x8A :: m :: disp) 3 ∧ Mem16 {} m disp ∧
    0x110000 ≤ usedLinear s {} m disp :=
  ⟨{ demo [0x8A, 0x47, 0xE0] with sreg := fun r => if r = .cs then 0x1000 else 0 }, 0x47, [0xE0],
    ⟨by decide +kernel, [], rfl, by decide +kernel, rfl⟩, ⟨by decide, rfl, by decide⟩, by decide +kernel⟩

/-- C38 is violated: the sum is not reduced modulo 2^16.  With BX = 10h, MOV AL,[BX-20h] should read DS:FFF0. -/
theorem C38_violated : ¬ C38_Full := by
  intro h
  let s : State := { demo [0x8A, 0x47, 0xE0] with host := fun a => if a = 0x3FFF0 then 0x77 else (demo [0x8A, 0x47, 0xE0]).host a }
  have hat : At s 0x10100 {} [0x8A, 0x47, 0xE0] 3 := ⟨by decide +kernel, [], rfl, by decide +kernel, rfl⟩
  have h1 := h demoEnv s 0x10100 {} 0x47 [0xE0] 3 0x77 hat ⟨by decide, rfl, by decide⟩ (by decide)
    ⟨0x3FFF0, by decide +kernel, by decide +kernel⟩ (fun h => absurd h (by decide))
  have h2 := C38_load8_exact hat ⟨by decide, rfl, by decide⟩ demoEnv (a := 0x2FFF0) (by decide +kernel)
  obtain ⟨d1, h1⟩ := h1
  obtain ⟨d2, h2⟩ := h2
  rw [h1] at h2
  have h3 : ((regOp 8 (regOf 0x47)).put s 8 0x77).gpr 0 = ((regOp 8 (regOf 0x47)).put s 8 (s.host 0x2FFF0)).gpr 0 :=
    congrArg (fun r => match r with | Res.ok _ t => t.gpr 0 | _ => 0) h2
  clear h1 h2
  revert h3
  decide +kernel

/-- In general: whenever registers + displacement leaves 0..FFFF, the address used is not the one of the manual. -/
theorem C38_violated_always {s : State} {p : Pfx} {m : BitVec 8} {disp : List (BitVec 8)} (hseg : usedSeg p m = eaSeg p m)
    (h : ¬ (0 ≤ (eaRegs s m : Int) + (dispVal disp).toInt ∧ (eaRegs s m : Int) + (dispVal disp).toInt < 65536)) :
    usedLinear s p m disp ≠ linear (s.sreg (eaSeg p m)) (eaOffset s m disp) := by
  have h1 := eaRegs_lt s m
  have h2 := (s.sreg (usedSeg p m)).isLt
  have h3 := BitVec.toInt_lt (x := dispVal disp)
  have h4 := BitVec.le_toInt (x := dispVal disp)
  have h5 := (eaOffset s m disp).isLt
  simp only [usedLinear, linear, hseg] at *
  omega

/-- The rest of the property: when registers + displacement stays within 0..FFFF, the address is the one of the
8086 table (byte and word loads; every other instruction with a memory operand uses the same decoder and has its own
theorem in terms of `RM`). Missing: `C38_violated`. -/
theorem C38_address_partial {s : State} {p : Pfx} {m : BitVec 8} {disp : List (BitVec 8)} (hseg : usedSeg p m = eaSeg p m)
    (h : 0 ≤ (eaRegs s m : Int) + (dispVal disp).toInt ∧ (eaRegs s m : Int) + (dispVal disp).toInt < 65536) :
    usedLinear s p m disp = linear (s.sreg (eaSeg p m)) (eaOffset s m disp) := by
  have h1 := eaRegs_lt s m
  have h2 := (s.sreg (usedSeg p m)).isLt
  have h5 : ((eaOffset s m disp).toNat : Int) = (eaRegs s m : Int) + (dispVal disp).toInt := by
    have := congrArg BitVec.toInt (addr_plain (eaRegs s m) (dispVal disp) h1 h)
    rw [BitVec.toInt_add, BitVec.toInt_signExtend_of_le (by omega)] at this
    have e4 : (BitVec.ofNat 32 (eaRegs s m)).toInt = eaRegs s m := by
      rw [BitVec.toInt_eq_toNat_cond, BitVec.toNat_ofNat, Nat.mod_eq_of_lt (by omega), if_pos (by omega)]
    rw [e4, Int.bmod_eq_of_le (by omega) (by omega)] at this
    rw [this, BitVec.toInt_setWidth, Int.bmod_eq_of_le (by omega) (by have := (BitVec.ofNat 16 (eaRegs s m) + dispVal disp).isLt; omega)]
    rfl
  simp only [usedLinear, linear, hseg] at *
  omega

theorem C38_load_partial {s : State} {h0 : Nat} {p : Pfx} {m : BitVec 8} {disp : List (BitVec 8)} {len : Nat} {v : BitVec 8}
    (hat : At s h0 p (0x8A :: m :: disp) len) (hm : Mem16 p m disp) (env : Env) (hseg : usedSeg p m = eaSeg p m)
    (h : 0 ≤ (eaRegs s m : Int) + (dispVal disp).toInt ∧ (eaRegs s m : Int) + (dispVal disp).toInt < 65536)
    (hv : Holds s (s.sreg (eaSeg p m)) (eaOffset s m disp) v) :
    Falls env s len ((regOp 8 (regOf m)).put s 8 v) := by
  obtain ⟨a, ⟨ha, hval⟩, hh⟩ := hv
  have hl := C38_address_partial hseg h
  have hlt := linear_lt (s.sreg (eaSeg p m)) (eaOffset s m disp)
  have hb : s.host a = v := by have := hh 0 (by omega); simpa [byteOf] using this
  rw [← hb]
  refine C38_load8_exact hat hm env ⟨by omega, ?_, ?_, hval⟩ <;> rw [hl]
  all_goals
    simp only [hostAddr, Option.map_eq_some_iff] at ha
    obtain ⟨b, hb1, hb2⟩ := ha
    first | (rw [hb1]; congr 1; omega) | omega

/-- MOV AL,[BP+SI+4] reads SS:0A04. -/
example : ∃ (s : State) (m : BitVec 8) (disp : List (BitVec 8)) (v : BitVec 8), At s 0x10100 {} (0x8A :: m :: disp) 3 ∧ Mem16 {} m disp ∧
    usedSeg {} m = eaSeg {} m ∧ (0 ≤ (eaRegs s m : Int) + (dispVal disp).toInt ∧ (eaRegs s m : Int) + (dispVal disp).toInt < 65536) ∧
    Holds s (s.sreg (eaSeg {} m)) (eaOffset s m disp) v ∧ eaSeg {} m = .ss ∧ eaOffset s m disp = 0xA04 :=
  ⟨demo [0x8A, 0x42, 0x04], 0x42, [0x04], 0, ⟨demo_ready _, [], rfl, by decide +kernel, rfl⟩, ⟨by decide, rfl, by decide⟩, by decide, by decide +kernel,
    ⟨0x20A04, by decide +kernel, by decide +kernel⟩, by decide, by decide +kernel⟩
/-- The other way round. -/
example : ∃ (s : State) (m : BitVec 8) (disp : List (BitVec 8)), usedSeg {} m = eaSeg {} m ∧
    ¬ (0 ≤ (eaRegs s m : Int) + (dispVal disp).toInt ∧ (eaRegs s m : Int) + (dispVal disp).toInt < 65536) :=
  ⟨demo [], 0x47, [0xE0], by decide, by decide +kernel⟩

/-! ### C39 -/

/-- C39 with a segment prefix: every ModR/M byte uses that segment. -/
theorem C39_prefix (p : Pfx) (m : BitVec 8) (r : SReg) (h : p.seg = some r) : usedSeg p m = r ∧ eaSeg p m = r := by
  simp [usedSeg, eaSeg, h]

/-- Every segment prefix byte selects its segment register. -/
theorem C39_prefix_bytes : (∀ (b : BitVec 8) (r : SReg) (p : Pfx), p.seg = none →
      ((b, r) ∈ [((0x26 : BitVec 8), SReg.es), (0x2E, .cs), (0x36, .ss), (0x3E, .ds), (0x64, .fs), (0x65, .gs)] →
        p.add b = some { p with seg := some r })) := by
  intro b r p hp hb
  simp only [List.mem_cons, Prod.mk.injEq, List.not_mem_nil, or_false] at hb
  rcases hb with ⟨rfl, rfl⟩ | ⟨rfl, rfl⟩ | ⟨rfl, rfl⟩ | ⟨rfl, rfl⟩ | ⟨rfl, rfl⟩ | ⟨rfl, rfl⟩ <;> simp [Pfx.add, hp]

/-- C39, loads with a segment prefix: the byte comes from that segment, for every ModR/M byte (address used as in C38). -/
theorem C39_load_prefix {s : State} {h0 : Nat} {p : Pfx} {m : BitVec 8} {disp : List (BitVec 8)} {len : Nat} {v : BitVec 8} {r : SReg}
    (hat : At s h0 p (0x8A :: m :: disp) len) (hm : Mem16 p m disp) (hr : p.seg = some r) (env : Env)
    (h : 0 ≤ (eaRegs s m : Int) + (dispVal disp).toInt ∧ (eaRegs s m : Int) + (dispVal disp).toInt < 65536)
    (hv : Holds s (s.sreg r) (eaOffset s m disp) v) :
    Falls env s len ((regOp 8 (regOf m)).put s 8 v) := by
  obtain ⟨h1, h2⟩ := C39_prefix p m r hr
  refine C38_load_partial hat hm env (by rw [h1, h2]) h ?_
  rw [h2]; exact hv

/-- ES: MOV AL,[BP+SI]. -/
example : ∃ (s : State) (p : Pfx) (m : BitVec 8), At s 0x10100 p (0x8A :: m :: []) 3 ∧ Mem16 p m [] ∧ p.seg = some .es ∧
    (0 ≤ (eaRegs s m : Int) + (dispVal []).toInt ∧ (eaRegs s m : Int) + (dispVal []).toInt < 65536) ∧
    Holds s (s.sreg .es) (eaOffset s m []) (0 : BitVec 8) :=
  ⟨demo [0x26, 0x8A, 0x02], { seg := some .es }, 0x02, ⟨demo_ready _, [0x26], rfl, by decide +kernel, rfl⟩, ⟨by decide, rfl, by decide⟩, rfl,
    by decide +kernel, ⟨0x40A00, by decide +kernel, by decide +kernel⟩⟩

/-- C39 without prefix, all ModR/M bytes but `[BP+SI]` and `[BP+DI]` with mod 0: SS when BP is a base, DS otherwise.
Missing: `C39_violated`. -/
theorem C39_default_partial : ∀ (p : Pfx) (m : BitVec 8), p.seg = none → ¬ (modOf m = 0 ∧ (rmOf m = 2 ∨ rmOf m = 3)) →
    usedSeg p m = if rmOf m = 2 ∨ rmOf m = 3 ∨ (rmOf m = 6 ∧ modOf m ≠ 0) then .ss else .ds := by
  intro p m hp h
  simp only [usedSeg, hp, Option.getD_none]
  revert h
  revert m
  decide +kernel

/-- ... and it agrees with the manual exactly outside those two encodings. -/
theorem C39_agrees_iff (p : Pfx) (m : BitVec 8) : usedSeg p m = eaSeg p m ↔
    p.seg ≠ none ∨ ¬ (modOf m = 0 ∧ (rmOf m = 2 ∨ rmOf m = 3)) := by
  cases hp : p.seg with
  | some r => simp [usedSeg, eaSeg, hp]
  | none =>
    simp only [usedSeg, eaSeg, hp, Option.getD_none, ne_eq, not_true_eq_false, false_or]
    revert m
    decide +kernel

/-- C39, loads: the default segment. -/
theorem C39_load_partial {s : State} {h0 : Nat} {p : Pfx} {m : BitVec 8} {disp : List (BitVec 8)} {len : Nat} {v : BitVec 8}
    (hat : At s h0 p (0x8A :: m :: disp) len) (hm : Mem16 p m disp) (hp : p.seg = none) (env : Env)
    (hx : ¬ (modOf m = 0 ∧ (rmOf m = 2 ∨ rmOf m = 3)))
    (h : 0 ≤ (eaRegs s m : Int) + (dispVal disp).toInt ∧ (eaRegs s m : Int) + (dispVal disp).toInt < 65536)
    (hv : Holds s (s.sreg (if rmOf m = 2 ∨ rmOf m = 3 ∨ (rmOf m = 6 ∧ modOf m ≠ 0) then .ss else .ds)) (eaOffset s m disp) v) :
    Falls env s len ((regOp 8 (regOf m)).put s 8 v) := by
  have h1 := C39_default_partial p m hp hx
  have h2 := (C39_agrees_iff p m).2 (Or.inr hx)
  refine C38_load_partial hat hm env h2 h ?_
  rw [← h2, h1]; exact hv

example : ∃ (s : State) (m : BitVec 8) (disp : List (BitVec 8)) (v : BitVec 8), At s 0x10100 {} (0x8A :: m :: disp) 3 ∧ Mem16 {} m disp ∧
    ¬ (modOf m = 0 ∧ (rmOf m = 2 ∨ rmOf m = 3)) ∧
    (0 ≤ (eaRegs s m : Int) + (dispVal disp).toInt ∧ (eaRegs s m : Int) + (dispVal disp).toInt < 65536) ∧
    Holds s (s.sreg (if rmOf m = 2 ∨ rmOf m = 3 ∨ (rmOf m = 6 ∧ modOf m ≠ 0) then .ss else .ds)) (eaOffset s m disp) v :=
  ⟨demo [0x8A, 0x46, 0x04], 0x46, [0x04], 0, ⟨demo_ready _, [], rfl, by decide +kernel, rfl⟩, ⟨by decide, rfl, by decide⟩, by decide, by decide +kernel,
    ⟨0x20804, by decide +kernel, by decide +kernel⟩⟩

/-- C39 is violated: MOV AL,[BP+SI] (8A 02) reads through DS although BP is a base. -/
theorem C39_violated : ∃ (s : State) (a : Nat), At s 0x10100 {} [0x8A, 0x02] 2 ∧
    Holds s (s.sreg .ss) (eaOffset s 0x02 []) (0x77 : BitVec 8) ∧ Holds s (s.sreg .ds) (eaOffset s 0x02 []) (0x11 : BitVec 8) ∧
    s.host a = 0x11 ∧ ∀ env, Falls env s 2 ((Opnd.reg 0).put s 8 0x11) := by
  let s : State := { demo [0x8A, 0x02] with host := fun a => if a = 0x20A00 then 0x77 else if a = 0x30A00 then 0x11 else (demo [0x8A, 0x02]).host a }
  have hat : At s 0x10100 {} [0x8A, 0x02] 2 := ⟨by decide +kernel, [], rfl, by decide +kernel, rfl⟩
  refine ⟨s, 0x30A00, hat, ⟨0x20A00, by decide +kernel, by decide +kernel⟩, ⟨0x30A00, by decide +kernel, by decide +kernel⟩, by decide +kernel, ?_⟩
  intro env
  exact C38_load8_exact hat ⟨by decide, rfl, by decide⟩ env (a := 0x30A00) (by decide +kernel)

/-! ### C63: 32-bit addressing -/

/-- C63, full claim, seen through MOV r8,[ea] (67 8A): the byte comes from segment:offset with offset = base +
scaled index + displacement (within the segment limit), segment SS for the bases ESP and EBP.  It does not hold
(`C63_violated_…`). -/
def C63_Full : Prop :=
  ∀ (env : Env) (s : State) (h0 : Nat) (p : Pfx) (m : BitVec 8) (tl : List (BitVec 8)) (len : Nat) (v : BitVec 8) (seg ofs : BitVec 16),
    At s h0 p (0x8A :: m :: tl) len → p.addr = true → RM s p 8 (m :: tl) (regOf m) (.mem seg ofs) →
    Holds s seg ofs v → Falls env s len ((regOp 8 (regOf m)).put s 8 v)

/-- The part that holds (every instruction with a memory operand: `RM` and `Plain` include 32-bit addressing). Here
loads.  Missing: displacements that are negative or above FFFF, SIB byte together with a displacement, default segment
with ESP, EBP, or with EDX, EBX, ESI and a displacement (`C63_violated_…`). -/
theorem C63_load_partial {s : State} {h0 : Nat} {p : Pfx} {m : BitVec 8} {tl : List (BitVec 8)} {len : Nat} {v : BitVec 8} {seg ofs : BitVec 16}
    (hat : At s h0 p (0x8A :: m :: tl) len) (_ : p.addr = true) (h : RM s p 8 (m :: tl) (regOf m) (.mem seg ofs))
    (hp : Plain s p 8 (m :: tl)) (hv : Holds s seg ofs v) (env : Env) :
    Falls env s len ((regOp 8 (regOf m)).put s 8 v) :=
  C40_mov hat (MovEnc.rm8 h hp) env (regOp_ok s _) hv (notZeroed_same hat (by decide) (by
      rw [regOp_8]; unfold byteReg; split <;> rfl))

theorem C63_load_wide_partial {s : State} {h0 : Nat} {p : Pfx} {m : BitVec 8} {tl : List (BitVec 8)} {len : Nat} {v : BitVec (opW p)} {seg ofs : BitVec 16}
    (hat : At s h0 p (0x8B :: m :: tl) len) (_ : p.addr = true) (h : RM s p (opW p) (m :: tl) (regOf m) (.mem seg ofs))
    (hp : Plain s p (opW p) (m :: tl)) (hv : Holds s seg ofs v) (env : Env) :
    Falls env s len ((Opnd.reg (regOf m)).put s (opW p) v) := by
  have := C40_mov hat (MovEnc.rm h hp) env (regOp_ok s _) hv (by
    rw [regOp_wide (opW_ne8 p)]
    exact notZeroed_same hat (by decide) rfl)
  rwa [regOp_wide (opW_ne8 p)] at this

/-- MOV AL,[EBX+ECX*4] (67 8A 04 8B): DS:001C. -/
example : ∃ (s : State) (p : Pfx) (seg : BitVec 16), At s 0x10100 p [0x8A, 0x04, 0x8B] 4 ∧ p.addr = true ∧
    RM s p 8 [0x04, 0x8B] 0 (.mem seg 0x1C) ∧ Plain s p 8 [0x04, 0x8B] ∧ Holds s seg 0x1C (0 : BitVec 8) := by
  have h : RM (demo [0x67, 0x8A, 0x04, 0x8B]) { addr := true } 8 [0x04, 0x8B] 0 _ :=
    RM.mem32 0x04 [0x8B] (by decide) rfl (by decide) (by decide +kernel)
  exact ⟨_, _, _, ⟨demo_ready _, [0x67], rfl, by decide +kernel, rfl⟩, rfl, h,
    fun _ => ⟨by decide +kernel, by decide +kernel, by decide⟩, ⟨0x3001C, by decide +kernel, by decide +kernel⟩⟩
/-- MOV AX,[EDI+4] (67 8B 47 04): DS:0304. -/
example : ∃ (s : State) (p : Pfx) (seg : BitVec 16), At s 0x10100 p [0x8B, 0x47, 0x04] 4 ∧ p.addr = true ∧
    RM s p 16 [0x47, 0x04] 0 (.mem seg 0x304) ∧ Plain s p 16 [0x47, 0x04] ∧ Holds s seg 0x304 (0 : BitVec 16) := by
  have h : RM (demo [0x67, 0x8B, 0x47, 0x04]) { addr := true } 16 [0x47, 0x04] 0 _ :=
    RM.mem32 0x47 [0x04] (by decide) rfl (by decide) (by decide +kernel)
  exact ⟨_, _, _, ⟨demo_ready _, [0x67], rfl, by decide +kernel, rfl⟩, rfl, h,
    fun _ => ⟨by decide +kernel, by decide +kernel, by decide +kernel⟩, ⟨0x30304, by decide +kernel, by decide +kernel⟩⟩

/-- Value of AL after one step. -/
def alAfter (s : State) : Option (BitVec 8) := if resOk (runOne demoEnv s) then some ((nx demoEnv s).gpr 0 |>.setWidth 8) else none

/-- The demo machine with the byte 77h at the host address `a`. -/
def demoAt (code : List (BitVec 8)) (a : Nat) : State :=
  { demo code with host := fun x => if x = a then 0x77 else (demo code).host x }

theorem c63_refute (h : C63_Full) (tl : List (BitVec 8)) (m : BitVec 8) (a len : Nat) (seg ofs : BitVec 16)
    (hat : At (demoAt (0x67 :: 0x8A :: m :: tl) a) 0x10100 { addr := true } (0x8A :: m :: tl) len)
    (hreg : regOf m = 0)
    (hrm : RM (demoAt (0x67 :: 0x8A :: m :: tl) a) { addr := true } 8 (m :: tl) (regOf m) (.mem seg ofs))
    (hh : Holds (demoAt (0x67 :: 0x8A :: m :: tl) a) seg ofs (0x77 : BitVec 8))
    (hx : alAfter (demoAt (0x67 :: 0x8A :: m :: tl) a) ≠ some 0x77) : False := by
  obtain ⟨d, h1⟩ := h demoEnv _ _ _ _ _ _ _ _ _ hat rfl hrm hh
  apply hx
  simp only [alAfter, nx, h1, resOk, stOf, if_true, hreg]
  have h2 : regOp 8 0 = Opnd.reg 0 := by simp [regOp, byteReg]
  rw [h2]
  show some (BitVec.setWidth 8 (((0x11220055#32 >>> 8) <<< 8) ||| 0x77#32)) = _
  decide

/-- C63 is violated by a negative displacement: MOV AL,[EDI-1] reads DS:EDI+FFFF. -/
theorem C63_violated_negative : ¬ C63_Full := fun h =>
  c63_refute h [0xFF] 0x47 0x302FF 4 0x3000 0x2FF ⟨by decide +kernel, [0x67], rfl, by decide +kernel, rfl⟩ (by decide)
    (RM.mem32 0x47 [0xFF] (by decide) rfl (by decide) (by decide +kernel)) ⟨0x302FF, by decide +kernel, by decide +kernel⟩ (by decide +kernel)
/-- ... by a SIB byte with a displacement (the displacement is read before the SIB byte): MOV AL,[EBX+ECX*1+4] (67 8A 44 0B 04). -/
theorem C63_violated_sib_disp : ¬ C63_Full := fun h =>
  c63_refute h [0x0B, 0x04] 0x44 0x30017 5 0x3000 0x17 ⟨by decide +kernel, [0x67], rfl, by decide +kernel, rfl⟩ (by decide)
    (RM.mem32 0x44 [0x0B, 0x04] (by decide) rfl (by decide) (by decide +kernel)) ⟨0x30017, by decide +kernel, by decide +kernel⟩ (by decide +kernel)
/-- ... by a SIB byte without base (its displacement is skipped): MOV AL,[ECX*4+1000h]. -/
theorem C63_violated_sib_nobase : ¬ C63_Full := fun h =>
  c63_refute h [0x8D, 0x00, 0x10, 0x00, 0x00] 0x04 0x3100C 8 0x3000 0x100C ⟨by decide +kernel, [0x67], rfl, by decide +kernel, rfl⟩ (by decide)
    (RM.mem32 0x04 [0x8D, 0x00, 0x10, 0x00, 0x00] (by decide) rfl (by decide) (by decide +kernel)) ⟨0x3100C, by decide +kernel, by decide +kernel⟩ (by decide +kernel)
/-- ... by the base EBP (DS is used): MOV AL,[EBP+0]. -/
theorem C63_violated_ebp : ¬ C63_Full := fun h =>
  c63_refute h [0x00] 0x45 0x20800 4 0x2000 0x800 ⟨by decide +kernel, [0x67], rfl, by decide +kernel, rfl⟩ (by decide)
    (RM.mem32 0x45 [0x00] (by decide) rfl (by decide) (by decide +kernel)) ⟨0x20800, by decide +kernel, by decide +kernel⟩ (by decide +kernel)
/-- ... by the base ESI with a displacement (SS is used): MOV AL,[ESI+1]. -/
theorem C63_violated_esi : ¬ C63_Full := fun h =>
  c63_refute h [0x01] 0x46 0x30201 4 0x3000 0x201 ⟨by decide +kernel, [0x67], rfl, by decide +kernel, rfl⟩ (by decide)
    (RM.mem32 0x46 [0x01] (by decide) rfl (by decide) (by decide +kernel)) ⟨0x30201, by decide +kernel, by decide +kernel⟩ (by decide +kernel)
/-- ... by a 32-bit displacement above FFFF (its upper half is dropped): MOV AL,[EAX+EEDE0000h] with EAX = 11220055. -/
theorem C63_violated_disp32 : ¬ C63_Full := fun h =>
  c63_refute h [0x00, 0x00, 0xDE, 0xEE] 0x80 0x30055 7 0x3000 0x55 ⟨by decide +kernel, [0x67], rfl, by decide +kernel, rfl⟩ (by decide)
    (RM.mem32 0x80 [0x00, 0x00, 0xDE, 0xEE] (by decide) rfl (by decide) (by decide +kernel)) ⟨0x30055, by decide +kernel, by decide +kernel⟩ (by decide +kernel)

end RME
