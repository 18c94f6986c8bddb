import Verif.Props.Stack2
import Verif.Props.Global
set_option autoImplicit false
/-
C61: the remaining PUSH/POP forms with operand-size prefix.
-/
namespace RME

/-- C61: PUSH imm8 with prefix 66 (66 6A ib) pushes the sign-extended 32-bit value: four bytes, SP decreased by 4. -/
theorem C61_push_imm8 {s : State} {h0 : Nat} {p : Pfx} {len : Nat} {b : BitVec 8} (hat : At s h0 p [0x6A, b] len) (ho : p.oper = true)
    (hroom : Room s 2) (env : Env)
    (hnz : NotZeroed (pushedAll s [((b.signExtend 32) >>> 16).setWidth 16, (b.signExtend 32).setWidth 16]) h0 len) :
    Falls env s len (pushedAll s [((b.signExtend 32) >>> 16).setWidth 16, (b.signExtend 32).setWidth 16]) := by
  obtain ⟨h1, h2, h3⟩ := pushed_map2 (s := s) [((b.signExtend 32) >>> 16).setWidth 16, (b.signExtend 32).setWidth 16]
  refine Runs.falls (d := decOf p len) hat ?_ h3 h1 h2 rfl rfl hnz
  refine .mk ⟨.base .pushI8, 0, false⟩ 0 (by decide) (by decide +kernel) rfl ?_
  intro bytes j hc hj hsub
  obtain rfl : j + 1 = len := hj
  simp only [callFn, opFn, opPushI8, pushVal, bind_apply, fetch8S hc env p 32 j hsub.head, resbind_ok, getDec_apply, ite_apply]
  rw [if_pos (by show p.oper = true; exact ho)]
  have hro : Room (opState s p (j + 1)) 2 := hroom.congr rfl rfl rfl rfl
  obtain ⟨a, hm⟩ := hro.first
  rw [push, pushM_ok hm rfl, resbind_ok]
  obtain ⟨a', hm'⟩ := (hro.pushed (((b.signExtend 32) >>> 16).setWidth 16)).first
  rw [push, pushM_ok hm' rfl]
  exact congrArg _ (pushedAll_op s (decOf p (j + 1)) (s.instrNum + 1) [((b.signExtend 32) >>> 16).setWidth 16, (b.signExtend 32).setWidth 16])

/-- Segment registers that can be pushed by a one-byte opcode. -/
inductive SegPush : BitVec 8 → SReg → Prop
  | es : SegPush 0x06 .es
  | cs : SegPush 0x0E .cs
  | ss : SegPush 0x16 .ss
  | ds : SegPush 0x1E .ds

/-- C61 violated: PUSH of a segment register with prefix 66 pushes two bytes only (SP decreased by 2), for every state. -/
theorem C61_violated_push_seg {s : State} {h0 : Nat} {p : Pfx} {len : Nat} {op : BitVec 8} {sr : SReg} (hat : At s h0 p [op] len) (hseg : SegPush op sr)
    (hroom : Room s 1) (env : Env) (hnz : NotZeroed (pushed s (s.sreg sr)) h0 len) :
    Falls env s len (pushed s (s.sreg sr)) ∧ spOf (pushed s (s.sreg sr)) = spOf s - 2 := by
  refine ⟨?_, spOf_pushed ..⟩
  obtain ⟨a, hm⟩ := hroom.first
  have key : ∀ (k : BitVec 3), op ≠ 0xF1 → opEntry op = some ⟨.base .pushSeg, k, false⟩ → segNum k = some sr → Falls env s len (pushed s (s.sreg sr)) := by
    intro k h1 h2 h3
    refine Runs.falls (d := decOf p len) hat ?_ (pushed_ip ..) (pushed_map ..) (pushed_valid ..) rfl rfl hnz
    refine .mk _ _ h1 h2 rfl ?_
    intro bytes j _ hj _
    obtain rfl : j = len := hj
    simp only [callFn, opFn, opPushSeg, bind_apply, segOf_num h3, resbind_ok]
    exact pushM_op hm rfl
  cases hseg with
  | es => exact key 0 (by decide) (by decide +kernel) rfl
  | cs => exact key 1 (by decide) (by decide +kernel) rfl
  | ss => exact key 2 (by decide) (by decide +kernel) rfl
  | ds => exact key 3 (by decide) (by decide +kernel) rfl

/-- Segment registers that can be popped by a one-byte opcode. -/
inductive SegPop : BitVec 8 → SReg → Prop
  | es : SegPop 0x07 .es
  | ss : SegPop 0x17 .ss
  | ds : SegPop 0x1F .ds

/-- C61 violated: POP of a segment register with prefix 66 takes two bytes only from the stack (SP increased by 2), for every state. -/
theorem C61_violated_pop_seg {s : State} {h0 : Nat} {p : Pfx} {len : Nat} {op : BitVec 8} {sr : SReg} {v : BitVec 16} (hat : At s h0 p [op] len) (hseg : SegPop op sr)
    (hv : StackTop s 0 v) (env : Env) :
    Falls env s len ((dropped s 1).setSreg sr v) ∧ spOf ((dropped s 1).setSreg sr v) = spOf s + 2 := by
  refine ⟨?_, spOf_dropped s 1⟩
  have key : ∀ (k : BitVec 3), op ≠ 0xF1 → op ≠ 0 → opEntry op = some ⟨.base .popSeg, k, false⟩ → segNum k = some sr → Falls env s len ((dropped s 1).setSreg sr v) := by
    intro k h1 h0 h2 h3
    refine one_falls hat env h1 h0 h2 _ ?_ rfl rfl rfl rfl
    simp only [opFn, opPopSeg, bind_apply, segOf_num h3, resbind_ok, pop_op hv]
    rfl
  cases hseg with
  | es => exact key 0 (by decide) (by decide) (by decide +kernel) rfl
  | ss => exact key 2 (by decide) (by decide) (by decide +kernel) rfl
  | ds => exact key 3 (by decide) (by decide) (by decide +kernel) rfl

/-- C61 violated: PUSH ESP (66 54) stores the upper half of ESP and SP-4 instead of SP, for every state. -/
theorem C61_violated_push_esp {s : State} {h0 : Nat} {p : Pfx} {len : Nat} (hat : At s h0 p [0x54] len) (ho : p.oper = true) (hroom : Room s 2) (env : Env)
    (hnz : NotZeroed (pushedAll s [hiWord s 4, spOf s - 4]) h0 len) : Falls env s len (pushedAll s [hiWord s 4, spOf s - 4]) := by
  obtain ⟨h1, h2, h3⟩ := pushed_map2 (s := s) [hiWord s 4, spOf s - 4]
  refine Runs.falls (d := decOf p len) hat ?_ h3 h1 h2 rfl rfl hnz
  refine .mk _ _ (by decide) (push_entry 4).1 rfl ?_
  intro bytes j _ hj _
  obtain rfl : j = len := hj
  simp only [callFn, opFn, opPushReg, bind_apply, getDec_apply, resbind_ok, ite_apply]
  rw [if_pos (by show p.oper = true; exact ho)]
  have hro : Room (opState s p j) 2 := hroom.congr rfl rfl rfl rfl
  obtain ⟨a, hm⟩ := hro.first
  rw [pushM_ok (x := hiWord s 4) hm, resbind_ok]
  · obtain ⟨a', hm'⟩ := (hro.pushed (hiWord s 4)).first
    rw [pushM_ok (x := spOf s - 4) hm']
    · exact congrArg _ (pushedAll_op s (decOf p j) (s.instrNum + 1) [hiWord s 4, spOf s - 4])
    · show Res.ok (spOf (withSP _ _)) _ = _
      rw [spOf_withSP, spOf_pushed, BitVec.sub_sub]
      rfl
  · show Res.ok _ _ = _
    congr 1
    show (lowW (s.gpr 4) _ >>> 16).setWidth 16 = (s.gpr 4 >>> 16).setWidth 16
    apply BitVec.eq_of_getLsbD_eq
    intro i hi
    simp [lowW, BitVec.getLsbD_ushiftRight, BitVec.getLsbD_or, BitVec.getLsbD_shiftLeft, hi]
    intro _; omega

/-- C61 violated: with prefix 66, PUSHA (60), POPA (61), POP r/m (8F), PUSHF (9C) and POPF (9D) are refused: UNDEFOPCODE, and nothing but the
instruction counter changes. -/
theorem C61_violated_refused {s : State} {h0 : Nat} {p : Pfx} {op : BitVec 8} {rest : List (BitVec 8)} {len : Nat} (hat : At s h0 p (op :: rest) len) (ho : p.oper = true)
    (hop : op = 0x60 ∨ op = 0x61 ∨ op = 0x8F ∨ op = 0x9C ∨ op = 0x9D) (env : Env) :
    ∃ d, runOne env s = .err .undefOpcode { s with dec := d, instrNum := s.instrNum + 1 } := by
  obtain ⟨pfx, hp, hc, -⟩ := hat.code
  have hd : (opState s p (pfx.length + 1)).dec.ovrOper = true := ho
  refine ⟨decOf p (pfx.length + 1), ?_⟩
  rcases hop with rfl | rfl | rfl | rfl | rfl
  · rw [runOne_bytes hat.ready hc.bytes env hp (by decide) (by decide +kernel : opEntry 0x60 = some ⟨.base .pushA, 0, false⟩) rfl]
    simp only [opFn, opPushA, bind_apply, getDec_apply, resbind_ok, hd]; rfl
  · rw [runOne_bytes hat.ready hc.bytes env hp (by decide) (by decide +kernel : opEntry 0x61 = some ⟨.base .popA, 0, false⟩) rfl]
    simp only [opFn, opPopA, bind_apply, getDec_apply, resbind_ok, hd]; rfl
  · rw [runOne_bytes hat.ready hc.bytes env hp (by decide) (by decide +kernel : opEntry 0x8F = some ⟨.base .popMX, 0, false⟩) rfl]
    simp only [opFn, opPopMX, bind_apply, getDec_apply, resbind_ok, hd]; rfl
  · rw [runOne_bytes hat.ready hc.bytes env hp (by decide) (by decide +kernel : opEntry 0x9C = some ⟨.base .pushF, 0, false⟩) rfl]
    simp only [opFn, opPushF, bind_apply, getDec_apply, resbind_ok, hd]; rfl
  · rw [runOne_bytes hat.ready hc.bytes env hp (by decide) (by decide +kernel : opEntry 0x9D = some ⟨.base .popF, 0, false⟩) rfl]
    simp only [opFn, opPopF, bind_apply, getDec_apply, resbind_ok, hd]; rfl

example : ∃ s, At s 0x10100 { oper := true } [0x6A, 0x80] 3 ∧ Room s 2 ∧
    NotZeroed (pushedAll s [(((0x80 : BitVec 8).signExtend 32) >>> 16).setWidth 16, ((0x80 : BitVec 8).signExtend 32).setWidth 16]) 0x10100 3 :=
  ⟨demo [0x66, 0x6A, 0x80], ⟨demo_ready _, [0x66], rfl, by decide +kernel, rfl⟩, (demo_flat _).room.mono (by decide), (by intro h; cases h)⟩
example : ∃ s, At s 0x10100 { oper := true } [0x1E] 2 ∧ SegPush 0x1E .ds ∧ Room s 1 ∧ NotZeroed (pushed s (s.sreg .ds)) 0x10100 2 :=
  ⟨demo [0x66, 0x1E], ⟨demo_ready _, [0x66], rfl, by decide +kernel, rfl⟩, .ds, (demo_flat _).room.mono (by decide), (by unfold NotZeroed; decide +kernel)⟩
example : ∃ s, At s 0x10100 { oper := true } [0x54] 2 ∧ Room s 2 ∧ NotZeroed (pushedAll s [hiWord s 4, spOf s - 4]) 0x10100 2 :=
  ⟨demo [0x66, 0x54], ⟨demo_ready _, [0x66], rfl, by decide +kernel, rfl⟩, (demo_flat _).room.mono (by decide), (by unfold NotZeroed; decide +kernel)⟩
example : At (demo [0x66, 0x8F, 0x07]) 0x10100 { oper := true } (0x8F :: [0x07]) 3 := ⟨demo_ready _, [0x66], rfl, by decide +kernel, rfl⟩
example : ∃ s, At s 0x10100 { oper := true } [0x1F] 2 ∧ SegPop 0x1F .ds ∧ StackTop s 0 0 :=
  ⟨demo [0x66, 0x1F], ⟨demo_ready _, [0x66], rfl, by decide +kernel, rfl⟩, .ds, ⟨_, demo_mapped _ _ _ _ (by decide), by decide +kernel⟩⟩

end RME
