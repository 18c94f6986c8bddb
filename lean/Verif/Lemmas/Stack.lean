import Verif.Spec.Stack
import Verif.Lemmas.AluStep2
import Verif.Lemmas.Demo
set_option autoImplicit false
/-
Push, pop and interrupt frames.
-/
namespace RME

section
variable (s : State) (v : BitVec 16)

@[simp] theorem withSP_sreg : (withSP s v).sreg = s.sreg := rfl
@[simp] theorem withSP_ip : (withSP s v).ip = s.ip := rfl
@[simp] theorem withSP_flags : (withSP s v).flags = s.flags := rfl
@[simp] theorem withSP_map : (withSP s v).map = s.map := rfl
@[simp] theorem withSP_host : (withSP s v).host = s.host := rfl
@[simp] theorem withSP_valid : (withSP s v).valid = s.valid := rfl
@[simp] theorem withSP_dec : (withSP s v).dec = s.dec := rfl
@[simp] theorem withSP_instrNum : (withSP s v).instrNum = s.instrNum := rfl
@[simp] theorem withSP_lastNull : (withSP s v).lastNull = s.lastNull := rfl
@[simp] theorem withSP_io : (withSP s v).io = s.io := rfl
@[simp] theorem withSP_cpuType : (withSP s v).cpuType = s.cpuType := rfl
@[simp] theorem withSP_debugLevel : (withSP s v).debugLevel = s.debugLevel := rfl
theorem withSP_eq : withSP s v = s.setReg 16 rSP v := rfl
@[simp] theorem spOf_withSP : spOf (withSP s v) = v := reg16_setReg_same s rSP v
theorem spOf_eq : spOf s = s.reg 16 rSP := rfl
theorem withSP_gpr_ne {r : BitVec 3} (h : r ≠ 4) : (withSP s v).gpr r = s.gpr r := gpr_setReg_ne s h v
theorem withSP_withSP (w : BitVec 16) : withSP (withSP s v) w = withSP s w := by
  refine State.ext' ?_ rfl rfl rfl rfl rfl rfl rfl rfl rfl rfl rfl rfl
  funext x
  simp only [withSP_eq, gpr_setReg]
  split <;> simp [putLow_putLow]
@[simp] theorem withSP_self : withSP s (spOf s) = s := setReg_self s 16 rSP

theorem pushed_sreg : (pushed s v).sreg = s.sreg := put_sreg ..
theorem pushed_ip : (pushed s v).ip = s.ip := put_ip ..
theorem pushed_flags : (pushed s v).flags = s.flags := put_flags ..
theorem pushed_map : (pushed s v).map = s.map := put_map ..
theorem pushed_valid : (pushed s v).valid = s.valid := put_valid ..
theorem pushed_dec : (pushed s v).dec = s.dec := put_dec ..
theorem pushed_instrNum : (pushed s v).instrNum = s.instrNum := put_instrNum ..
theorem pushed_lastNull : (pushed s v).lastNull = s.lastNull := put_lastNull ..
theorem pushed_gpr : (pushed s v).gpr = (withSP s (spOf s - 2)).gpr := by
  simp only [pushed, Opnd.put]; split <;> rfl
theorem pushed_io : (pushed s v).io = s.io := by
  simp only [pushed, Opnd.put]; split <;> rfl
theorem pushed_cpuType : (pushed s v).cpuType = s.cpuType := by
  simp only [pushed, Opnd.put]; split <;> rfl
theorem pushed_debugLevel : (pushed s v).debugLevel = s.debugLevel := by
  simp only [pushed, Opnd.put]; split <;> rfl
theorem spOf_pushed : spOf (pushed s v) = spOf s - 2 := by
  have : spOf (pushed s v) = spOf (withSP s (spOf s - 2)) := by simp only [spOf, pushed_gpr]
  rw [this, spOf_withSP]

end

theorem hostAddr_map {s t : State} (h : t.map = s.map) (seg ofs : BitVec 16) :
    hostAddr t seg ofs = hostAddr s seg ofs := by simp only [hostAddr, h]

theorem Mapped.congr {s t : State} (hm : t.map = s.map) (hv : t.valid = s.valid) {n : Nat} {seg ofs : BitVec 16}
    {h : Nat} (hh : Mapped s n seg ofs h) : Mapped t n seg ofs h :=
  ⟨by rw [hostAddr_map hm]; exact hh.1, by rw [hv]; exact hh.2⟩

/-- `pushed` when the slot is mapped at `h`. -/
theorem pushed_mapped {s : State} {h : Nat} (hm : hostAddr s (s.sreg .ss) (spOf s - 2) = some h) (v : BitVec 16) :
    pushed s v = { withSP s (spOf s - 2) with host := putHost s.host h v } := by
  simp only [pushed, Opnd.put, hostAddr_map (withSP_map s _), hm, withSP_host]

theorem pushM_ok {s : State} {env : Env} {m : M (BitVec 16)} {x : BitVec 16} {h : Nat}
    (hm : Mapped s 16 (s.sreg .ss) (spOf s - 2) h)
    (hx : m env (withSP s (spOf s - 2)) = .ok x (withSP s (spOf s - 2))) :
    pushM m env s = .ok () (pushed s x) := by
  rw [pushed_mapped hm.1]
  have e : (s.setReg 16 rSP (s.reg 16 rSP - 2)) = withSP s (spOf s - 2) := rfl
  simp only [pushM, bind_apply, getReg_apply, resbind_ok, setReg_apply, getSreg_apply, e, hx]
  have e2 : (withSP s (spOf s - 2)).reg 16 rSP = spOf s - 2 := spOf_withSP ..
  rw [e2]
  exact writeMem_mapped env (Mapped.congr (withSP_map ..) (withSP_valid ..) hm) x

theorem push_ok {s : State} {env : Env} {x : BitVec 16} {h : Nat}
    (hm : Mapped s 16 (s.sreg .ss) (spOf s - 2) h) :
    push x env s = .ok () (pushed s x) := pushM_ok hm rfl

/-- Pop of the top of the stack. -/
theorem pop_ok {s : State} {env : Env} {v : BitVec 16} (h : StackTop s 0 v) :
    pop env s = .ok v (dropped s 1) := by
  have h' : Holds s (s.sreg .ss) (s.reg 16 rSP) v := by
    have := h; simp only [StackTop, spOf] at this; simp only [Nat.mul_zero, BitVec.ofNat_eq_ofNat, BitVec.add_zero] at this; exact this
  simp only [pop, bind_apply, getSreg_apply, getReg_apply, resbind_ok, readMem_holds (by decide) env h', setReg_apply,
    pure_apply]
  rfl

theorem Room.mono {s : State} {k j : Nat} (h : Room s k) (hj : j ≤ k) : Room s j :=
  ⟨fun i hi => h.mapped i (by omega), fun i hi l hl => h.apart i (by omega) l (by omega)⟩

theorem Room.first {s : State} {k : Nat} (h : Room s (k + 1)) : ∃ a, Mapped s 16 (s.sreg .ss) (spOf s - 2) a :=
  h.mapped 0 (by omega)

theorem sub_slot (sp : BitVec 16) (i : Nat) :
    sp - 2 - BitVec.ofNat 16 (2 * (i + 1)) = sp - BitVec.ofNat 16 (2 * (i + 1 + 1)) := by
  rw [show 2 * (i + 1 + 1) = 2 * (i + 1) + 2 by omega, BitVec.ofNat_add]
  rw [BitVec.sub_sub, BitVec.add_comm]; rfl

theorem Room.pushed {s : State} {k : Nat} (h : Room s (k + 1)) (v : BitVec 16) : Room (RME.pushed s v) k := by
  have hs : ∀ i, spOf (RME.pushed s v) - BitVec.ofNat 16 (2 * (i + 1)) = spOf s - BitVec.ofNat 16 (2 * (i + 1 + 1)) := by
    intro i; rw [spOf_pushed]; exact sub_slot _ i
  constructor
  · intro i hi
    rw [hs, pushed_sreg]
    obtain ⟨a, ha⟩ := h.mapped (i + 1) (by omega)
    exact ⟨a, ha.congr (pushed_map ..) (pushed_valid ..)⟩
  · intro i hi j hj hne a b
    rw [hs, hs, pushed_sreg, hostAddr_map (pushed_map ..), hostAddr_map (pushed_map ..)]
    exact h.apart (i + 1) (by omega) (j + 1) (by omega) (by omega) a b

section
variable (s : State) (vs : List (BitVec 16))

theorem pushedAll_frame : (pushedAll s vs).sreg = s.sreg ∧ (pushedAll s vs).ip = s.ip ∧
    (pushedAll s vs).flags = s.flags ∧ (pushedAll s vs).map = s.map ∧ (pushedAll s vs).valid = s.valid ∧
    (pushedAll s vs).dec = s.dec ∧ (pushedAll s vs).instrNum = s.instrNum ∧
    (pushedAll s vs).lastNull = s.lastNull ∧ (pushedAll s vs).io = s.io ∧
    (pushedAll s vs).cpuType = s.cpuType ∧ (pushedAll s vs).debugLevel = s.debugLevel := by
  induction vs generalizing s with
  | nil => simp [pushedAll]
  | cons v vs ih =>
    simp only [pushedAll]
    obtain ⟨h1, h2, h3, h4, h5, h6, h7, h8, h9, h10, h11⟩ := ih (pushed s v)
    exact ⟨h1.trans (pushed_sreg ..), h2.trans (pushed_ip ..), h3.trans (pushed_flags ..), h4.trans (pushed_map ..),
      h5.trans (pushed_valid ..), h6.trans (pushed_dec ..), h7.trans (pushed_instrNum ..),
      h8.trans (pushed_lastNull ..), h9.trans (pushed_io ..), h10.trans (pushed_cpuType ..),
      h11.trans (pushed_debugLevel ..)⟩

theorem pushedAll_gpr : (pushedAll s vs).gpr = (withSP s (spOf s - BitVec.ofNat 16 (2 * vs.length))).gpr := by
  induction vs generalizing s with
  | nil => simp [pushedAll]
  | cons v vs ih =>
    simp only [pushedAll, List.length_cons]
    rw [ih, spOf_pushed]
    have e : spOf s - 2 - BitVec.ofNat 16 (2 * vs.length) = spOf s - BitVec.ofNat 16 (2 * (vs.length + 1)) := by
      rw [show 2 * (vs.length + 1) = 2 * vs.length + 2 by omega, BitVec.ofNat_add, BitVec.sub_sub, BitVec.add_comm]; rfl
    rw [e]
    funext x
    simp only [withSP_eq, gpr_setReg, pushed_gpr]
    split <;> simp [putLow_putLow]

theorem spOf_pushedAll : spOf (pushedAll s vs) = spOf s - BitVec.ofNat 16 (2 * vs.length) := by
  have : spOf (pushedAll s vs) = spOf (withSP s (spOf s - BitVec.ofNat 16 (2 * vs.length))) := by
    simp only [spOf, pushedAll_gpr]
  rw [this, spOf_withSP]

end

/-- Bytes outside the pushed slots are unchanged. -/
theorem pushedAll_host {s : State} : ∀ (vs : List (BitVec 16)) {k : Nat}, Room s k → vs.length ≤ k → ∀ a,
    (∀ i < vs.length, ∀ h, hostAddr s (s.sreg .ss) (spOf s - BitVec.ofNat 16 (2 * (i + 1))) = some h →
      a < h ∨ h + 2 ≤ a) → (pushedAll s vs).host a = s.host a := by
  intro vs
  induction vs generalizing s with
  | nil => intros; rfl
  | cons v vs ih =>
    intro k hr hk a ha
    obtain ⟨k', rfl⟩ : ∃ k', k = k' + 1 := ⟨k - 1, by simp at hk; omega⟩
    simp only [pushedAll]
    rw [ih (hr.pushed v) (by simp at hk; omega)]
    · obtain ⟨h, hm⟩ := hr.first
      rw [pushed_mapped hm.1]
      exact putHost_frame _ _ _ _ (ha 0 (by simp) h hm.1)
    · intro i hi h hh
      rw [spOf_pushed, sub_slot, pushed_sreg, hostAddr_map (pushed_map ..)] at hh
      exact ha (i + 1) (by simp; omega) h hh

/-- LIFO: after pushing `vs`, the `i`-th word from the top is the `i`-th last one pushed. -/
theorem pushedAll_top {s : State} : ∀ (vs : List (BitVec 16)) {k : Nat}, Room s k → vs.length ≤ k →
    ∀ i (hi : i < vs.length), StackTop (pushedAll s vs) i (vs[vs.length - 1 - i]'(by omega)) := by
  intro vs
  induction vs generalizing s with
  | nil => intro k _ _ i hi; simp at hi
  | cons v vs ih =>
    intro k hr hk i hi
    obtain ⟨k', rfl⟩ : ∃ k', k = k' + 1 := ⟨k - 1, by simp at hk; omega⟩
    simp only [pushedAll]
    by_cases hlast : i < vs.length
    · have := ih (hr.pushed v) (by simp at hk; omega) i hlast
      have e : (v :: vs)[(v :: vs).length - 1 - i]'(by omega) = vs[vs.length - 1 - i]'(by omega) := by
        rw [List.getElem_cons, dif_neg (by simp; omega)]
        congr 1
        simp; omega
      rw [e]; exact this
    · have hi' : i = vs.length := by simp at hi; omega
      subst hi'
      have e : (v :: vs)[(v :: vs).length - 1 - vs.length]'(by omega) = v := by simp
      rw [e]
      obtain ⟨h, hm⟩ := hr.first
      have hpos : spOf (pushedAll (pushed s v) vs) + BitVec.ofNat 16 (2 * vs.length) = spOf s - 2 := by
        rw [spOf_pushedAll, spOf_pushed, BitVec.sub_add_cancel]
      obtain ⟨g1, g2, g3, g4, g5, -⟩ := pushedAll_frame (pushed s v) vs
      have hm2 : (pushedAll (pushed s v) vs).map = s.map := g4.trans (pushed_map ..)
      have hv2 : (pushedAll (pushed s v) vs).valid = s.valid := g5.trans (pushed_valid ..)
      simp only [StackTop, hpos, g1.trans (pushed_sreg ..)]
      refine ⟨h, hm.congr hm2 hv2, ?_⟩
      intro b hb
      rw [pushedAll_host vs (hr.pushed v) (by simp at hk; omega) (h + b)]
      · rw [pushed_mapped hm.1]
        exact putHost_holds (withSP s (spOf s - 2)) h v b hb
      · intro i hi a ha
        rw [spOf_pushed, sub_slot, pushed_sreg, hostAddr_map (pushed_map ..)] at ha
        have := hr.apart 0 (by omega) (i + 1) (by simp at hk; omega) (by omega) h a hm.1 ha
        omega

/-- A flat machine has room for 32768 words at every SS:SP. -/
theorem Flat.hostAddr {s : State} {base : Nat} (h : Flat s base) (seg ofs : BitVec 16) :
    hostAddr s seg ofs = some (base + linear seg ofs) := by
  have := linear_lt seg ofs
  simp only [RME.hostAddr, h.map _ (show linear seg ofs / 4096 < 272 by omega), Option.map_some, Option.some.injEq]
  omega

theorem Flat.mapped {s : State} {base : Nat} (h : Flat s base) {n : Nat} (hn : n ≤ 32) (seg ofs : BitVec 16) :
    Mapped s n seg ofs (base + linear seg ofs) := by
  refine ⟨h.hostAddr seg ofs, fun i hi => ?_⟩
  have := linear_lt seg ofs
  rw [Nat.add_assoc]
  exact h.valid _ (by omega)

theorem Flat.room {s : State} {base : Nat} (h : Flat s base) : Room s 32768 := by
  constructor
  · intro i _; exact ⟨_, h.mapped (by decide) _ _⟩
  · intro i hi j hj hne a b
    rw [h.hostAddr, h.hostAddr]
    intro ha hb
    cases ha; cases hb
    generalize spOf s = sp
    have e : ∀ k, (sp - BitVec.ofNat 16 (2 * (k + 1))).toNat = (65536 - (2 * (k + 1)) % 65536 + sp.toNat) % 65536 := by
      intro k; rw [BitVec.toNat_sub]; simp
    have := sp.isLt
    simp only [linear, e]
    omega

theorem demo_flat (code : List (BitVec 8)) : Flat (demo code) 0 :=
  ⟨fun b hb => by simp [demo, hb], fun a ha => by simp [demo]; omega⟩

end RME
