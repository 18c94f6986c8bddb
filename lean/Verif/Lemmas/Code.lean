import Verif.Lemmas.Interrupt
set_option autoImplicit false
/-
Executing the instruction at CS:IP when its effect is known, whatever the runaway detector says.
-/
namespace RME

/-- Executing the opcode function of `code` succeeds with state `s1`. -/
def Runs (env : Env) (s : State) (h0 : Nat) (p : Pfx) (code : List (BitVec 8)) (len : Nat) (s1 : State) : Prop :=
  ∃ op rest e a, code = op :: rest ∧ op ≠ 0xF1 ∧ opEntry op = some e ∧ paramOf e rest[0]? = some a ∧
    ∀ bytes j, CodeAt s h0 bytes → j + rest.length = len → Sub bytes j rest → callFn e.fn a env (opState s p j) = .ok () s1

theorem Runs.mk {env : Env} {s : State} {h0 : Nat} {p : Pfx} {op : BitVec 8} {rest : List (BitVec 8)} {len : Nat} {s1 : State}
    (e : Entry) (a : BitVec 3) (hop : op ≠ 0xF1) (he : opEntry op = some e) (ha : paramOf e rest[0]? = some a)
    (h : ∀ bytes j, CodeAt s h0 bytes → j + rest.length = len → Sub bytes j rest → callFn e.fn a env (opState s p j) = .ok () s1) :
    Runs env s h0 p (op :: rest) len s1 := ⟨op, rest, e, a, rfl, hop, he, ha, h⟩

theorem finish_code_brk {s0 : State} {h0 : Nat} {bytes : List (BitVec 8)} (h : CodeAt s0 h0 bytes)
    (env : Env) (s1 : State) (hm : s1.map = s0.map) (hv : s1.valid = s0.valid)
    (hl : s1.dec.ipOffset ≤ bytes.length) (hn : (isNull s1 h0 && s1.lastNull) = true) :
    finishInstr (s0.sreg .cs) s0.ip env s1 = .err .breakpoint (tailState s1 true) := by
  have hadv : advanceIP env s1 = .ok () (tailState s1 s1.lastNull) := by
    simp only [advanceIP, bind_apply, getDec_apply, resbind_ok, ite_apply, tailState]
    split <;> simp
  simp only [isNull, Bool.and_eq_true, beq_iff_eq] at hn
  obtain ⟨⟨⟨h2, z1⟩, z2⟩, hl1⟩ := hn
  simp only [finishInstr, bind_apply, hadv, resbind_ok]
  have hmap : ∀ (b : Bool) (x : Nat), x < s1.dec.ipOffset →
      Mapped (tailState s1 b) 8 (s0.sreg .cs) (s0.ip + BitVec.ofNat 16 x) (h0 + x) := by
    intro b x hx
    have := h x (by omega)
    refine ⟨?_, fun i hi => ?_⟩
    · simp only [hostAddr, tailState, hm]; exact this.1
    · have : i = 0 := by omega
      subst this
      simp only [tailState, hv]; exact (h x (by omega)).2.1
  have e1 : readMem 8 (s0.sreg .cs) s0.ip env (tailState s1 s1.lastNull) = .ok (s1.host h0) (tailState s1 s1.lastNull) := by
    have := readMem_mapped env (hmap s1.lastNull 0 (by omega))
    simp only [BitVec.ofNat_eq_ofNat, BitVec.add_zero, Nat.add_zero, valAt8] at this
    exact this
  have e2 : readMem 8 (s0.sreg .cs) (s0.ip + 1) env (tailState s1 s1.lastNull) =
      .ok (s1.host (h0 + 1)) (tailState s1 s1.lastNull) := by
    have := readMem_mapped env (hmap s1.lastNull 1 (by omega))
    rw [valAt8] at this
    exact this
  have hnull : nullCheckTail (s0.sreg .cs) s0.ip env (tailState s1 s1.lastNull) = .err .breakpoint (tailState s1 true) := by
    have h2' : (tailState s1 s1.lastNull).dec.ipOffset = 2 := h2
    simp only [nullCheckTail, bind_apply, getDec_apply, resbind_ok, ite_apply]
    rw [if_pos h2']
    simp only [bind_apply, e1, e2, resbind_ok, z1, z2, and_self, if_true, ite_apply, gets_apply]
    have : (tailState s1 s1.lastNull).lastNull = true := hl1
    rw [this, hl1]
    rfl
  rw [hnull, resbind_err]

/-- Outcome of an instruction whose opcode function succeeds. -/
theorem Runs.out {env : Env} {s : State} {h0 : Nat} {p : Pfx} {code : List (BitVec 8)} {len : Nat} {s1 : State}
    (hat : At s h0 p code len) (hr : Runs env s h0 p code len s1) (hm : s1.map = s.map) (hv : s1.valid = s.valid)
    (hl : s1.dec.ipOffset = len) :
    runOne env s = if isNull s1 h0 && s1.lastNull then .err .breakpoint (tailState s1 true)
      else .ok () (tailState s1 (isNull s1 h0)) := by
  obtain ⟨op, rest, e, a, rfl, hop, he, ha, hrun⟩ := hr
  obtain ⟨hready, pfx, hp, hc, hlen⟩ := hat
  simp only [List.length_cons] at hlen
  have hsub : Sub (pfx ++ op :: rest) (pfx.length + 1) rest := (Sub.of_append pfx (op :: rest)).tail
  have hrr := hrun _ _ hc (by omega) hsub
  split
  · rename_i hn
    rw [runOne_ready hready, decode_code hc env hready.counter hp hop he ha _ hrr (by simp)]
    simp only [resbind_ok]
    rw [finish_code_brk hc env s1 hm hv (by simp; omega) hn]
  · rename_i hn
    exact runOne_code_ok hready hc env hp hop he ha s1 hrr hm hv (by omega) (by simpa using hn)

theorem isNull_false {s1 : State} {h0 len : Nat} (hl : s1.dec.ipOffset = len) (hn : NotZeroed s1 h0 len) : isNull s1 h0 = false := by
  simp only [isNull, hl]
  by_cases h2 : len = 2
  · have := hn h2
    rw [Bool.and_assoc, Bool.and_eq_false_imp]
    intro _
    rw [Bool.and_eq_false_imp]
    intro h
    exact beq_false_of_ne (fun h' => this ⟨eq_of_beq h, h'⟩)
  · simp [h2]

theorem Runs.falls {env : Env} {s : State} {h0 : Nat} {p : Pfx} {code : List (BitVec 8)} {len : Nat} {t : State} {d : Decoder}
    (hat : At s h0 p code len) (hr : Runs env s h0 p code len { t with dec := d, instrNum := s.instrNum + 1 })
    (hip : t.ip = s.ip) (hm : t.map = s.map) (hv : t.valid = s.valid)
    (hl : d.ipOffset = len) (hd : d.dontChangeIP = false) (hn : NotZeroed t h0 len) : Falls env s len t := by
  have hnull := isNull_false (s1 := { t with dec := d, instrNum := s.instrNum + 1 }) hl hn
  have := hr.out hat hm hv hl
  rw [hnull] at this
  refine ⟨d, ?_⟩
  rw [this]
  simp only [Bool.false_and, Bool.false_eq_true, if_false, tailState, hd, hl, hip]

theorem Runs.jumps {env : Env} {s : State} {h0 : Nat} {p : Pfx} {code : List (BitVec 8)} {len : Nat} {t : State} {d : Decoder}
    (hat : At s h0 p code len) (hr : Runs env s h0 p code len { t with dec := d, instrNum := s.instrNum + 1 })
    (hm : t.map = s.map) (hv : t.valid = s.valid)
    (hl : d.ipOffset = len) (hd : d.dontChangeIP = true) (hn : NotZeroed t h0 len) : Jumps env s t.ip t := by
  have hnull := isNull_false (s1 := { t with dec := d, instrNum := s.instrNum + 1 }) hl hn
  have := hr.out hat hm hv hl
  rw [hnull] at this
  refine ⟨d, ?_⟩
  rw [this]
  simp only [Bool.false_and, Bool.false_eq_true, if_false, tailState, hd, hl, if_true]

/-- A successful step, whatever the runaway detector does. -/
theorem Runs.any {env : Env} {s : State} {h0 : Nat} {p : Pfx} {code : List (BitVec 8)} {len : Nat} {s1 u : State}
    (hat : At s h0 p code len) (hr : Runs env s h0 p code len s1) (hm : s1.map = s.map) (hv : s1.valid = s.valid)
    (hl : s1.dec.ipOffset = len) (h : runOne env s = .ok () u) : ∃ l, u = tailState s1 l := by
  rw [hr.out hat hm hv hl] at h
  split at h
  · cases h
  · cases h; exact ⟨_, rfl⟩

end RME
