import Verif.Lemmas.Stack
import Verif.Lemmas.AluStep2
set_option autoImplicit false
/-
Taking an interrupt.
-/
namespace RME

theorem readMem_at {s t : State} {n : Nat} (hn : n = 8 ∨ n = 16 ∨ n = 32) {seg ofs : BitVec 16} {v : BitVec n} (h : Holds s seg ofs v)
    (hm : t.map = s.map) (hv : t.valid = s.valid) (hh : t.host = s.host) : Holds t seg ofs v := by
  obtain ⟨a, h1, h2⟩ := h
  exact ⟨a, h1.congr hm hv, fun i hi => by rw [hh]; exact h2 i hi⟩

theorem readMem_like {s t : State} {n : Nat} {seg ofs : BitVec 16} {v : BitVec n} (h : Holds s seg ofs v) {env : Env}
    (hn : n = 8 ∨ n = 16 ∨ n = 32 := by decide)
    (hm : t.map = s.map) (hv : t.valid = s.valid) (hh : t.host = s.host) : readMem n seg ofs env t = .ok v t :=
  readMem_holds (by omega) env (readMem_at hn h hm hv hh)

theorem clearIT_eq (f : BitVec 16) : clr f (FLAG_IF ||| FLAG_TF) = clearIT f := rfl

/-- `RME_int_CallInt` with room on the stack and a readable vector (the vector is read after the pushes). -/
theorem callIntInternal_ok {s : State} (env : Env) (n : BitVec 8) (hr : Room s 3) {cs ip : BitVec 16}
    (hv : Vector (pushedAll s [s.flags, s.sreg .cs, s.ip]) n cs ip) :
    callIntInternal n.toNat env s = .ok () (interrupted s s.ip cs ip) := by
  have hg : (decide ((n.toNat : Int) < 0) || decide ((n.toNat : Int) > 0xFF)) = false := by
    have := n.isLt
    simp; omega
  have ho : BitVec.ofInt 16 ((n.toNat : Int) * 4) = n.setWidth 16 * 4 := by
    apply BitVec.eq_of_toNat_eq
    have := n.isLt
    rw [show ((n.toNat : Int) * 4) = ((n.toNat * 4 : Nat) : Int) by simp, BitVec.ofInt_natCast]
    simp [BitVec.toNat_mul]
  obtain ⟨a1, h1⟩ := hr.first
  have hr2 := hr.pushed s.flags
  obtain ⟨a2, h2⟩ := hr2.first
  have hr3 := hr2.pushed (s.sreg .cs)
  obtain ⟨a3, h3⟩ := hr3.first
  unfold callIntInternal
  simp only [hg, guardE_false, bind_apply, resbind_ok]
  rw [pushM_ok (x := s.flags) h1 rfl, resbind_ok]
  rw [pushM_ok (x := s.sreg .cs) h2 (by simp only [getSreg_apply]; rw [withSP_sreg, pushed_sreg]), resbind_ok]
  rw [pushM_ok (x := s.ip) h3 (by simp only [getIP_apply]; rw [withSP_ip, pushed_ip, pushed_ip]), resbind_ok]
  simp only [getFlags_apply, setFlags_apply, resbind_ok, ho]
  rw [readMem_like hv.1, resbind_ok]
  rotate_left
  · rfl
  · rfl
  · rfl
  simp only [setIP_apply, resbind_ok]
  rw [readMem_like hv.2, resbind_ok]
  rotate_left
  · rfl
  · rfl
  · rfl
  simp only [setSreg_apply]
  rw [pushed_flags, pushed_flags, pushed_flags]
  rfl

theorem Room.congr {s t : State} {k : Nat} (h : Room s k) (hm : t.map = s.map) (hv : t.valid = s.valid) (hs : t.sreg .ss = s.sreg .ss)
    (hg : t.gpr = s.gpr) : Room t k := by
  have e : spOf t = spOf s := by simp only [spOf, hg]
  constructor
  · intro i hi
    obtain ⟨a, ha⟩ := h.mapped i hi
    exact ⟨a, by rw [e, hs]; exact ha.congr hm hv⟩
  · intro i hi j hj hne a b h1 h2
    rw [e, hs, hostAddr_map hm] at h1 h2
    exact h.apart i hi j hj hne a b h1 h2

theorem pushed_op (s : State) (d : Decoder) (i : Int) (v : BitVec 16) :
    pushed { s with dec := d, instrNum := i } v = { pushed s v with dec := d, instrNum := i } := by
  show (match hostAddr s (s.sreg .ss) (spOf s - 2) with
      | some h => { withSP { s with dec := d, instrNum := i } (spOf s - 2) with host := putHost s.host h v }
      | none => withSP { s with dec := d, instrNum := i } (spOf s - 2)) =
    { (match hostAddr s (s.sreg .ss) (spOf s - 2) with
      | some h => { withSP s (spOf s - 2) with host := putHost s.host h v }
      | none => withSP s (spOf s - 2) : State) with dec := d, instrNum := i }
  split <;> rfl

theorem pushedAll_op (s : State) (d : Decoder) (i : Int) (vs : List (BitVec 16)) :
    pushedAll { s with dec := d, instrNum := i } vs = { pushedAll s vs with dec := d, instrNum := i } := by
  induction vs generalizing s with
  | nil => rfl
  | cons v vs ih => simp only [pushedAll, pushed_op]; exact ih _

theorem interrupted_op (s : State) (d : Decoder) (i : Int) (ret cs ip : BitVec 16) :
    interrupted { s with dec := d, instrNum := i } ret cs ip = { interrupted s ret cs ip with dec := d, instrNum := i } := by
  simp only [interrupted, pushedAll_op, State.setSreg]

/-- A divide error delivered from `s`. -/
theorem div_delivers {s : State} (env : Env) (p : Pfx) (k : Nat) (hrun : runOne env s = callIntInternal 0 env (opState s p k))
    (hr : Room s 3) {cs ip : BitVec 16} (hv : Vector (pushedAll s [s.flags, s.sreg .cs, s.ip]) 0 cs ip) :
    Delivers env s (interrupted s s.ip cs ip) := by
  refine ⟨decOf p k, ?_⟩
  rw [hrun]
  have h1 : pushedAll (opState s p k) [s.flags, s.sreg .cs, s.ip] = { pushedAll s [s.flags, s.sreg .cs, s.ip] with dec := decOf p k, instrNum := s.instrNum + 1 } :=
    pushedAll_op ..
  have := callIntInternal_ok (s := opState s p k) env 0 (hr.congr rfl rfl rfl rfl) (cs := cs) (ip := ip) (by
    show Vector (pushedAll (opState s p k) [s.flags, s.sreg .cs, s.ip]) 0 cs ip
    rw [h1]; exact ⟨readMem_at (by decide) hv.1 rfl rfl rfl, readMem_at (by decide) hv.2 rfl rfl rfl⟩)
  exact this.trans (congrArg _ (interrupted_op ..))

end RME
