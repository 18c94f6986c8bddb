import Verif.Props.EA
import Verif.Lemmas.EA32
set_option autoImplicit false
/-
C63, exactly: which byte, word or double word MOV with 32-bit addressing reads and writes.
-/
namespace RME

/-- Byte loads (67 8A): the byte read is the one at linear address `usedLinear32`. -/
theorem C63_load8_exact {s : State} {h0 : Nat} {p : Pfx} {m : BitVec 8} {d sib ex : List (BitVec 8)} {len a : Nat}
    (hat : At s h0 p (0x8A :: m :: (d ++ (sib ++ ex))) len) (hm : Mem32 p m d sib ex) (env : Env)
    (ha : LinMapped s 8 (usedLinear32 s p m d sib ex) a) :
    Falls env s len ((regOp 8 (regOf m)).put s 8 (s.host a)) := by
  refine step_falls hat env (by decide) mov_entry.2.2.1 rfl _ (decOf p len) ?_ (put_ip _ _ _ _) (put_map _ _ _ _) (put_valid _ _ _ _) rfl rfl
    (notZeroed_same hat (by decide) (by
      rw [regOp_8]; unfold byteReg; split <;> rfl))
  intro bytes j hc hj hsub
  subst hj
  simp only [callFn, opFn, opMovRM, parseModRM, getModRM, bind_apply, fetch8 hc env p _ hsub.head, resbind_ok, pure_apply,
    decodeModM, ite_apply]
  rw [if_neg hm.mod3, getMMM_any32 hc env hm hsub.tail]
  simp only [resbind_ok]
  rw [ha.ptr32 env (t := opState s p _) rfl]
  simp only [resbind_ok, ofByte_rrr, regB_eq s, movLoc, bind_apply, readLoc]
  rw [loadM_holds (n := 8) (s := opState s p _) (v := s.host a) (by omega) env ha.2.2.2 (by
    intro i hi
    have : i = 0 := by omega
    subst this
    simp [byteOf, opState]), resbind_ok]
  have e : j + 1 + (d ++ (sib ++ ex)).length = j + (m :: (d ++ (sib ++ ex))).length := by simp only [List.length_cons]; omega
  rw [e]
  exact writeLoc_op p _ env (regOp_ok s _) _

/-- Byte stores (67 88): likewise. -/
theorem C63_store8_exact {s : State} {h0 : Nat} {p : Pfx} {m : BitVec 8} {d sib ex : List (BitVec 8)} {len a : Nat} {v : BitVec 8}
    (hat : At s h0 p (0x88 :: m :: (d ++ (sib ++ ex))) len) (hm : Mem32 p m d sib ex) (env : Env)
    (ha : LinMapped s 8 (usedLinear32 s p m d sib ex) a) (hv : (regOp 8 (regOf m)).Has s 8 v)
    (hnz : NotZeroed { s with host := putHost s.host a v } h0 len) :
    Falls env s len { s with host := putHost s.host a v } := by
  refine step_falls hat env (by decide) mov_entry.1 rfl _ (decOf p len) ?_ rfl rfl rfl rfl rfl hnz
  intro bytes j hc hj hsub
  subst hj
  simp only [callFn, opFn, opMovMR, parseModRM, getModRM, bind_apply, fetch8 hc env p _ hsub.head, resbind_ok, pure_apply,
    decodeModM, ite_apply]
  rw [if_neg hm.mod3, getMMM_any32 hc env hm hsub.tail]
  simp only [resbind_ok]
  rw [ha.ptr32 env (t := opState s p _) rfl]
  simp only [resbind_ok, ofByte_rrr, regB_eq s, movLoc, bind_apply]
  rw [← regOp_8, readLoc_has (Agree.op s p _) env (Or.inl rfl) (regOp_ok s _) hv, resbind_ok]
  simp only [writeLoc]
  rw [storeM_mapped (s := opState s p _) env ha.2.2.2 v]
  have e : j + 1 + (d ++ (sib ++ ex)).length = j + (m :: (d ++ (sib ++ ex))).length := by simp only [List.length_cons]; omega
  rw [e]
  rfl

/-- Word and double word loads (67 8B): the same address, unless it is the last byte of a block. -/
theorem C63_load_exact {s : State} {h0 : Nat} {p : Pfx} {m : BitVec 8} {d sib ex : List (BitVec 8)} {len a : Nat} {v : BitVec (opW p)}
    (hat : At s h0 p (0x8B :: m :: (d ++ (sib ++ ex))) len) (hm : Mem32 p m d sib ex) (env : Env)
    (ha : LinMapped s (opW p) (usedLinear32 s p m d sib ex) a) (hv : HostHolds s a v)
    (hl : usedLinear32 s p m d sib ex % 4096 ≠ 4095) :
    Falls env s len ((Opnd.reg (regOf m)).put s (opW p) v) := by
  refine step_falls hat env (by decide) mov_entry.2.2.2.1 rfl _ (decOf p len) ?_ (put_ip _ _ _ _) (put_map _ _ _ _) (put_valid _ _ _ _) rfl rfl
    (notZeroed_same hat (by decide) rfl)
  intro bytes j hc hj hsub
  subst hj
  simp only [callFn, opFn, opMovRMX, parseModRMX, getModRM, bind_apply, fetch8 hc env p _ hsub.head, resbind_ok, pure_apply,
    decodeModMX, ite_apply]
  rw [if_neg hm.mod3, getMMM_any32 hc env hm hsub.tail]
  simp only [resbind_ok, usedLinear32_eq, blockSize]
  rw [beq_eq_false_iff_ne.2 (by omega), guardE_false, resbind_ok, ha.ptr32 env (t := opState s p _) rfl]
  simp only [resbind_ok, ofByte_rrr, regW, withW_op (p := p) _ _ (opState _ _ _) rfl, movLoc, bind_apply, readLoc]
  rw [loadM_holds (s := opState s p _) (v := v) (by have := opW_ok p; omega) env ha.2.2.2 hv, resbind_ok]
  have e : j + 1 + (d ++ (sib ++ ex)).length = j + (m :: (d ++ (sib ++ ex))).length := by simp only [List.length_cons]; omega
  rw [e]
  exact writeLoc_op (dst := .reg (regOf m)) p _ env trivial _

/-- An address outside the 1088 KiB makes the emulator index `Memory[]` out of bounds: with the prefix 67 a guest
needs no particular segment for this, an offset of 110000h suffices. -/
theorem C63_outside {s : State} {h0 : Nat} {p : Pfx} {m : BitVec 8} {d sib ex : List (BitVec 8)} {len : Nat}
    (hat : At s h0 p (0x8A :: m :: (d ++ (sib ++ ex))) len) (hm : Mem32 p m d sib ex) (env : Env)
    (ho : 0x110000 ≤ usedLinear32 s p m d sib ex) : runOne env s = .ub .blockIndexOOB := by
  refine runOne_code_ub hat env (by decide) mov_entry.2.2.1 rfl _ ?_
  intro bytes j hc hj hsub
  simp only [callFn, opFn, opMovRM, parseModRM, getModRM, bind_apply, fetch8 hc env p _ hsub.head, resbind_ok, pure_apply,
    decodeModM, ite_apply]
  rw [if_neg hm.mod3, getMMM_any32 hc env hm hsub.tail]
  simp only [resbind_ok, getPtr, usedLinear32_eq, blockSize, numBlocks]
  rw [if_neg (by omega)]
  rfl

/-- MOV AL,[EBX+ECX*2+disp8]: the displacement comes before the SIB byte, and DS is used. -/
example : ∃ (s : State) (p : Pfx) (m : BitVec 8) (d sib ex : List (BitVec 8)) (a : Nat),
    At s 0x10100 p (0x8A :: m :: (d ++ (sib ++ ex))) 5 ∧ Mem32 p m d sib ex ∧
    usedOffset32 s m d sib ex = (s.gpr 1 <<< 1) + s.gpr 3 + 5 ∧ LinMapped s 8 (usedLinear32 s p m d sib ex) a :=
  ⟨{ demo [0x67, 0x8A, 0x44, 0x05, 0x4B] with gpr := fun r => if r = 1 then 3 else if r = 3 then 0x10 else 0 },
    ⟨none, .none, false, true⟩, 0x44, [0x05], [0x4B], [], 0x3001B,
    ⟨by decide +kernel, [0x67], rfl, by decide +kernel, rfl⟩, ⟨by decide, rfl, by decide, by decide, by decide⟩, by decide +kernel, by decide +kernel⟩
/-- MOV [EBX+disp8],AL, with SS. -/
example : ∃ (s : State) (p : Pfx) (m : BitVec 8) (d sib ex : List (BitVec 8)) (a : Nat) (v : BitVec 8),
    At s 0x10100 p (0x88 :: m :: (d ++ (sib ++ ex))) 4 ∧ Mem32 p m d sib ex ∧ usedSeg32 p m = .ss ∧
    LinMapped s 8 (usedLinear32 s p m d sib ex) a ∧ (regOp 8 (regOf m)).Has s 8 v ∧
    NotZeroed { s with host := putHost s.host a v } 0x10100 4 :=
  ⟨{ demo [0x67, 0x88, 0x43, 0x05] with gpr := fun r => if r = 3 then 0x10 else 0 },
    ⟨none, .none, false, true⟩, 0x43, [0x05], [], [], 0x20015, 0,
    ⟨by decide +kernel, [0x67], rfl, by decide +kernel, rfl⟩, ⟨by decide, rfl, by decide, by decide, by decide⟩, rfl, by decide +kernel, rfl,
    fun h => absurd h (by decide)⟩
/-- MOV EAX,[EDX*4+00001000h]: the double word is skipped. -/
example : ∃ (s : State) (p : Pfx) (m : BitVec 8) (d sib ex : List (BitVec 8)) (a : Nat) (v : BitVec (opW p)),
    At s 0x10100 p (0x8B :: m :: (d ++ (sib ++ ex))) 9 ∧ Mem32 p m d sib ex ∧ usedOffset32 s m d sib ex = 0x20 ∧
    LinMapped s (opW p) (usedLinear32 s p m d sib ex) a ∧ HostHolds s a v ∧ usedLinear32 s p m d sib ex % 4096 ≠ 4095 :=
  ⟨{ demo [0x66, 0x67, 0x8B, 0x04, 0x95, 0x00, 0x10, 0x00, 0x00] with gpr := fun r => if r = 2 then 8 else 0 },
    ⟨none, .none, true, true⟩, 0x04, [], [0x95], [0x00, 0x10, 0x00, 0x00], 0x30020, 0,
    ⟨by decide +kernel, [0x66, 0x67], rfl, by decide +kernel, rfl⟩, ⟨by decide, rfl, by decide, by decide, by decide⟩, by decide +kernel, by decide +kernel,
    by decide +kernel, by decide +kernel⟩
/-- MOV AL,[EAX] with EAX = 110000h. -/
example : ∃ (s : State) (p : Pfx) (m : BitVec 8) (d sib ex : List (BitVec 8)),
    At s 0x10100 p (0x8A :: m :: (d ++ (sib ++ ex))) 3 ∧ Mem32 p m d sib ex ∧ 0x110000 ≤ usedLinear32 s p m d sib ex :=
  ⟨{ demo [0x67, 0x8A, 0x00] with gpr := fun r => if r = 0 then 0x110000 else 0 }, ⟨none, .none, false, true⟩, 0x00, [], [], [],
    ⟨by decide +kernel, [0x67], rfl, by decide +kernel, rfl⟩, ⟨by decide, rfl, by decide, by decide, by decide⟩, by decide +kernel⟩

end RME
