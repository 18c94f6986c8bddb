import Verif.Props.Move
import Verif.Spec.Flags
set_option autoImplicit false
/-
C31 flag instructions, C42 CBW/CWD, C55 HLT.
-/
namespace RME

/-- One-byte instructions that fall through. -/
theorem one_falls {s : State} {h0 : Nat} {p : Pfx} {op : BitVec 8} {len : Nat} (hat : At s h0 p [op] len) (env : Env)
    (hop : op ≠ 0xF1) (hop0 : op ≠ 0) {o : Op} {a : BitVec 3} (he : opEntry op = some ⟨.base o, a, false⟩) (t : State)
    (hrun : opFn o a env (opState s p len) = .ok () { t with dec := decOf p len, instrNum := s.instrNum + 1 })
    (hip : t.ip = s.ip) (hm : t.map = s.map) (hv : t.valid = s.valid) (hh : t.host = s.host) : Falls env s len t := by
  refine step_falls hat env hop he rfl t (decOf p len) ?_ hip hm hv rfl rfl (notZeroed_same hat hop0 hh)
  intro bytes j _ hj _
  obtain rfl : j = len := hj
  exact hrun

/-- Code behind an instruction. -/
theorem codeAt_next {s t : State} {h0 : Nat} {l1 l2 : List (BitVec 8)} (h : CodeAt s h0 (l1 ++ l2))
    (hcs : t.sreg .cs = s.sreg .cs) (hip : t.ip = s.ip + BitVec.ofNat 16 l1.length) (hm : t.map = s.map) (hv : t.valid = s.valid)
    (hh : ∀ i < l2.length, t.host (h0 + l1.length + i) = s.host (h0 + l1.length + i)) : CodeAt t (h0 + l1.length) l2 := by
  intro i hi
  have := h (l1.length + i) (by rw [List.length_append]; omega)
  rw [List.getElem_append_right (by omega), BitVec.ofNat_add, ← BitVec.add_assoc, ← Nat.add_assoc] at this
  have h2 : (l1.length + i) - l1.length = i := by omega
  simp only [h2] at this
  rw [hcs, hip, hostAddr_map hm, hv, hh i hi]
  exact this

theorem codeAt_left {s : State} {h0 : Nat} {l1 l2 : List (BitVec 8)} (h : CodeAt s h0 (l1 ++ l2)) : CodeAt s h0 l1 := by
  intro i hi
  have := h i (by rw [List.length_append]; omega)
  rw [List.getElem_append_left hi] at this
  exact this

/-! ### C31 -/

theorem flag_entry (op : BitVec 8) (i : Nat) (g : Bool → Bool) (h : flagEffect op = some (i, g)) :
    ∃ k, opEntry op = some ⟨.base (.flag k), 0, false⟩ ∧ ∀ f : BitVec 16, (∀ j < 16, (flagOp k f).getLsbD j =
      if j = i then g (f.getLsbD j) else f.getLsbD j) := by
  unfold flagEffect at h
  split at h
  · subst op; cases h
    refine ⟨.clc, by decide +kernel, fun f => forall_bits ?_⟩
    simp [flagOp, clr, bCF, bIF, bDF]
  split at h
  · subst op; cases h
    refine ⟨.stc, by decide +kernel, fun f => forall_bits ?_⟩
    simp [flagOp, bCF, bIF, bDF]
  split at h
  · subst op; cases h
    refine ⟨.cli, by decide +kernel, fun f => forall_bits ?_⟩
    simp [flagOp, clr, bCF, bIF, bDF]
  split at h
  · subst op; cases h
    refine ⟨.sti, by decide +kernel, fun f => forall_bits ?_⟩
    simp [flagOp, bCF, bIF, bDF]
  split at h
  · subst op; cases h
    refine ⟨.cld, by decide +kernel, fun f => forall_bits ?_⟩
    simp [flagOp, clr, bCF, bIF, bDF]
  split at h
  · subst op; cases h
    refine ⟨.std, by decide +kernel, fun f => forall_bits ?_⟩
    simp [flagOp, bCF, bIF, bDF]
  split at h
  · subst op; cases h
    refine ⟨.cmc, by decide +kernel, fun f => forall_bits ?_⟩
    simp [flagOp, bCF, bIF, bDF]
  · cases h

/-- C31: CLC STC CLI STI CLD STD CMC change exactly their flag. -/
theorem C31_flag {s : State} {h0 : Nat} {p : Pfx} {op : BitVec 8} {len i : Nat} {g : Bool → Bool}
    (hat : At s h0 p [op] len) (hop : flagEffect op = some (i, g)) (env : Env) :
    ∃ f', f'.getLsbD i = g (s.flags.getLsbD i) ∧ OnlyBits [i] s.flags f' ∧ Falls env s len { s with flags := f' } := by
  obtain ⟨k, he, hk⟩ := flag_entry op i g hop
  have hi : i < 16 := by
    unfold flagEffect at hop
    repeat' split at hop
    all_goals (cases hop; try decide)
  have h1 : op ≠ 0xF1 := by rintro rfl; cases hop
  have h2 : op ≠ 0 := by rintro rfl; cases hop
  refine ⟨flagOp k s.flags, ?_, ?_, one_falls hat env h1 h2 he _ rfl rfl rfl rfl rfl⟩
  · rw [hk _ _ hi, if_pos rfl]
  · intro j hj hn
    rw [hk _ _ hj, if_neg (by simpa using hn)]

theorem ah_bit (s : State) (i : Nat) (hi : i < 8) : (s.regH 8 rAX).getLsbD i = (s.gpr 0).getLsbD (8 + i) := regH8_bit s 0 i hi

/-- C31: SAHF loads exactly SF, ZF, AF, PF, CF from the corresponding bits of AH. -/
theorem C31_sahf {s : State} {h0 : Nat} {p : Pfx} {len : Nat} (hat : At s h0 p [0x9E] len) (env : Env) {ah : BitVec 8}
    (hah : (Opnd.high 0).Has s 8 ah) :
    ∃ f', (∀ i ∈ lowFlagBits, f'.getLsbD i = ah.getLsbD i) ∧ OnlyBits lowFlagBits s.flags f' ∧ Falls env s len { s with flags := f' } := by
  have e : ah = s.regH 8 rAX := by rw [regH_eq]; exact hah.2
  subst e
  refine ⟨clr s.flags 0xD5 ||| ((s.regH 8 rAX &&& 0xD5).setWidth 16), ?_, ?_,
    one_falls hat env (by decide) (by decide) (o := .sahf) (a := 0) (by decide +kernel) _ rfl rfl rfl rfl rfl⟩
  · generalize s.regH 8 rAX = x
    intro i hi
    simp only [lowFlagBits, List.mem_cons, List.not_mem_nil, or_false] at hi
    rcases hi with rfl | rfl | rfl | rfl | rfl <;> simp [clr, bSF, bZF, bAF, bPF, bCF]
  · intro j hj hn
    revert hn
    revert j
    refine forall_bits ?_
    simp [lowFlagBits, clr]

/-- C31: LAHF stores the low byte of FLAGS into AH. -/
theorem C31_lahf {s : State} {h0 : Nat} {p : Pfx} {len : Nat} (hat : At s h0 p [0x9F] len) (env : Env) :
    Falls env s len ((Opnd.high 0).put s 8 (s.flags.setWidth 8)) := by
  refine one_falls hat env (by decide) (by decide) (o := .lahf) (a := 0) (by decide +kernel) _ ?_ rfl rfl rfl rfl
  have := writeLoc_put (s := s) (t := opState s p len) rfl rfl env (n := 8) (o := .high 0) rfl (s.flags.setWidth 8)
  refine Eq.trans ?_ (this.trans ?_)
  · rfl
  · rw [put_op]

/-- C31: LAHF; SAHF leaves FLAGS as they were. -/
theorem C31_lahf_sahf {s : State} {h0 : Nat} (hs : Ready s) (hc : CodeAt s h0 [0x9F, 0x9E])
    (hr : Ready { s with ip := s.ip + 1, instrNum := s.instrNum + 1 }) (env : Env) :
    ∃ t, Iter env 2 s t ∧ t.flags = s.flags ∧ t.ip = s.ip + 2 ∧ t.host = s.host ∧ t.sreg = s.sreg ∧
      (∀ r, r ≠ 0 → t.gpr r = s.gpr r) := by
  have hat : At s h0 {} [0x9F] 1 := ⟨hs, [], rfl, codeAt_left (l2 := [0x9E]) hc, rfl⟩
  obtain ⟨d, h1⟩ := C31_lahf hat env
  have hat2 : At { (Opnd.high 0).put s 8 (s.flags.setWidth 8) with ip := s.ip + BitVec.ofNat 16 1, instrNum := s.instrNum + 1, dec := d, lastNull := false }
      (h0 + 1) {} [0x9E] 1 :=
    ⟨⟨hr.notMagic, hr.notHle, hr.counter⟩, [], rfl, codeAt_next (l1 := [0x9F]) (l2 := [0x9E]) hc rfl rfl rfl rfl (fun _ _ => rfl), rfl⟩
  have hah : (Opnd.high 0).Has { (Opnd.high 0).put s 8 (s.flags.setWidth 8) with ip := s.ip + BitVec.ofNat 16 1, instrNum := s.instrNum + 1, dec := d, lastNull := false }
      8 (s.flags.setWidth 8) := put_has (s := s) (n := 8) (o := .high 0) (Or.inl rfl) rfl _
  obtain ⟨f', hf1, hf2, d2, h2⟩ := C31_sahf hat2 env hah
  refine ⟨_, .succ h1 (.succ h2 (.zero _)), ?_, ?_, rfl, rfl, ?_⟩
  · apply BitVec.eq_of_getLsbD_eq
    intro i hi
    by_cases h : i ∈ lowFlagBits
    · show f'.getLsbD i = _
      rw [hf1 i h]
      simp only [lowFlagBits, List.mem_cons, List.not_mem_nil, or_false] at h
      rcases h with rfl | rfl | rfl | rfl | rfl <;> simp [bSF, bZF, bAF, bPF, bCF]
    · exact hf2 i hi h
  · show s.ip + BitVec.ofNat 16 1 + BitVec.ofNat 16 1 = _
    rw [BitVec.add_assoc]; rfl
  · intro r hr
    show (if r = 0 then _ else s.gpr r) = _
    rw [if_neg hr]

example : ∃ s i g, At s 0x10100 {} [0xF5] 1 ∧ flagEffect 0xF5 = some (i, g) := ⟨demo [0xF5], _, _, demo_at _ (by decide), rfl⟩
example : ∃ s ah, At s 0x10100 {} [0x9E] 1 ∧ (Opnd.high 0).Has s 8 ah := ⟨demo [0x9E], _, demo_at _ (by decide), rfl, rfl⟩
example : ∃ s, At s 0x10100 {} [0x9F] 1 := ⟨demo [0x9F], demo_at _ (by decide)⟩
example : ∃ s, Ready s ∧ CodeAt s 0x10100 [0x9F, 0x9E] ∧ Ready { s with ip := s.ip + 1, instrNum := s.instrNum + 1 } :=
  ⟨demo [0x9F, 0x9E], demo_ready _, demo_code _ (by decide), by constructor <;> decide⟩

/-! ### C42 -/

/-- C42: CBW sign-extends AL into AX and changes nothing else. -/
theorem C42_cbw {s : State} {h0 : Nat} {p : Pfx} {len : Nat} (hat : At s h0 p [0x98] len) (ho : p.oper = false) (env : Env)
    {al : BitVec 8} (hal : (Opnd.reg 0).Has s 8 al) :
    ∃ v : BitVec 16, v.toInt = al.toInt ∧ Falls env s len ((Opnd.reg 0).put s 16 v) := by
  have hal' : al = s.reg 8 rAX := hal
  subst hal'
  refine ⟨(s.reg 8 rAX).signExtend 16, BitVec.toInt_signExtend_of_le (by decide), ?_⟩
  refine one_falls hat env (by decide) (by decide) (o := .cbw) (a := 0) (by decide +kernel) _ ?_ rfl rfl rfl rfl
  show opCbw env (opState s p len) = _
  unfold opCbw
  rw [withW_op (p := p) _ _ (opState _ _ _) rfl, opW, ho]
  rfl

/-- Witness: CWDE (66 98) with EAX = 11220155h should give EAX = 00000155h (AX = 0155h extended); the emulator extends AL and gives
00000055h. -/
theorem C42_violated_cwde : ∃ s t, At s 0x10100 { oper := true } [0x98] 2 ∧ s.gpr 0 = 0x11220155 ∧ runOne demoEnv s = .ok () t ∧
    t.gpr 0 = 0x55 :=
  ⟨(demo [0x66, 0x98]).setGpr 0 0x11220155, _, ⟨⟨by decide, by decide, by decide⟩, [0x66], rfl, demo_code [0x66, 0x98] (by decide), rfl⟩, rfl, rfl,
    by decide +kernel⟩

/-- C42 (partial): CWDE is right exactly when AX is already the sign extension of AL.  Missing: the other values of AX
(`C42_violated_cwde`). -/
theorem C42_cwde_partial {s : State} {h0 : Nat} {p : Pfx} {len : Nat} (hat : At s h0 p [0x98] len) (ho : p.oper = true) (env : Env)
    {ax : BitVec 16} (hax : (Opnd.reg 0).Has s 16 ax) {al : BitVec 8} (hal : (Opnd.reg 0).Has s 8 al) :
    ∃ v : BitVec 32, v.toInt = al.toInt ∧ (v.toInt = ax.toInt ↔ ax.toInt = al.toInt) ∧ Falls env s len ((Opnd.reg 0).put s 32 v) := by
  have hal' : al = s.reg 8 rAX := hal
  subst hal'
  have h1 : ((s.reg 8 rAX).signExtend 32).toInt = (s.reg 8 rAX).toInt := BitVec.toInt_signExtend_of_le (by decide)
  refine ⟨(s.reg 8 rAX).signExtend 32, h1, ?_, ?_⟩
  · rw [h1]; exact eq_comm
  refine one_falls hat env (by decide) (by decide) (o := .cbw) (a := 0) (by decide +kernel) _ ?_ rfl rfl rfl rfl
  show opCbw env (opState s p len) = _
  unfold opCbw
  rw [withW_op (p := p) _ _ (opState _ _ _) rfl, opW, ho]
  rfl

/-- C42: CWD/CDQ extend AX/EAX into DX:AX/EDX:EAX (`hi:lo` as a signed double-width number is the signed value of `lo`); only the high
half changes. -/
theorem C42_cwd {s : State} {h0 : Nat} {p : Pfx} {len : Nat} (hat : At s h0 p [0x99] len) (env : Env)
    {a : BitVec (opW p)} (ha : (Opnd.reg 0).Has s (opW p) a) :
    ∃ hi : BitVec (opW p), hi.toInt * 2 ^ opW p + a.toNat = a.toInt ∧ Falls env s len ((Opnd.reg 2).put s (opW p) hi) := by
  have ha' : a = s.reg (opW p) rAX := ha
  have hw := opW_cases p
  refine ⟨if a.msb then BitVec.allOnes _ else 0, ?_, ?_⟩
  · have hpos : 0 < opW p := by omega
    have hm : a.toInt = _ := BitVec.toInt_eq_msb_cond a
    rw [hm]
    cases a.msb
    · simp
    · rw [if_pos rfl, if_pos rfl, BitVec.toInt_allOnes, if_pos hpos]
      have : ((2 ^ opW p : Nat) : Int) = (2 : Int) ^ opW p := Int.natCast_pow ..
      omega
  · refine one_falls hat env (by decide) (by decide) (o := .cwd) (a := 0) (by decide +kernel) _ ?_ rfl rfl rfl rfl
    show opCwd env (opState s p len) = _
    unfold opCwd
    rw [withW_op (p := p) _ _ (opState _ _ _) rfl, ← and_smask_ne_zero (by omega)]
    subst ha'
    rfl

example : ∃ s al, At s 0x10100 {} [0x98] 1 ∧ (Opnd.reg 0).Has s 8 al ∧ al.toInt < 0 :=
  ⟨(demo [0x98]).setGpr 0 0x11220085, 0x85, ⟨⟨by decide, by decide, by decide⟩, [], rfl, demo_code [0x98] (by decide), rfl⟩, rfl, by decide⟩
example : ∃ s, At s 0x10100 { oper := true } [0x98] 2 ∧ (Opnd.reg 0).Has s 16 0x55 ∧ (Opnd.reg 0).Has s 8 0x55 :=
  ⟨demo [0x66, 0x98], ⟨⟨by decide, by decide, by decide⟩, [0x66], rfl, demo_code [0x66, 0x98] (by decide), rfl⟩, rfl, rfl⟩
example : ∃ s, At s 0x10100 {} [0x99] 1 ∧ (Opnd.reg 0).Has s (opW {}) 0x55 := ⟨demo [0x99], demo_at _ (by decide), rfl⟩

/-! ### C55 -/

/-- C55: HLT returns HALT; only the instruction counter and scratch data change, CS:IP stays at the HLT. -/
theorem C55_hlt {s : State} {h0 : Nat} {p : Pfx} {len : Nat} (hat : At s h0 p [0xF4] len) (env : Env) :
    ∃ d, runOne env s = .err .halt { s with instrNum := s.instrNum + 1, dec := d } := by
  obtain ⟨hr, pfx, hp, hc, hlen⟩ := hat
  refine ⟨decOf p (pfx.length + 1), ?_⟩
  exact runOne_code_err hr hc env hp (by decide) (e := ⟨.base .hlt, 0, false⟩) (by decide +kernel) rfl _ _ (by rfl) (by decide) (by decide)

/-- C55: running again (any number of times) reports HALT again, with nothing changed but the instruction counter and scratch data. -/
theorem C55_again {s : State} {h0 : Nat} {p : Pfx} {len : Nat} (hat : At s h0 p [0xF4] len) (env : Env) (k : Nat)
    (hk : 0 ≤ s.instrNum ∧ s.instrNum + k ≤ 2147483647) :
    ∃ d, Halted env k s { s with instrNum := s.instrNum + k, dec := d } := by
  induction k generalizing s with
  | zero => exact ⟨s.dec, by simpa using Halted.zero s⟩
  | succ k ih =>
    obtain ⟨d, h⟩ := C55_hlt hat env
    obtain ⟨hr, pfx, hp, hc, hlen⟩ := hat
    cases k with
    | zero => exact ⟨d, .succ h (.zero _)⟩
    | succ k =>
      obtain ⟨d', h'⟩ := ih (s := { s with instrNum := s.instrNum + 1, dec := d })
        ⟨⟨hr.notMagic, hr.notHle, by simp only; omega⟩, pfx, hp, hc, hlen⟩ (by simp only; omega)
      refine ⟨d', .succ h ?_⟩
      have e : s.instrNum + 1 + ((k + 1 : Nat) : Int) = s.instrNum + ((k + 1 + 1 : Nat) : Int) := by omega
      rw [← e]
      exact h'

example : ∃ s, At s 0x10100 {} [0xF4] 1 ∧ 0 ≤ s.instrNum ∧ s.instrNum + (3 : Nat) ≤ 2147483647 :=
  ⟨demo [0xF4], demo_at _ (by decide), by decide, by decide⟩

end RME
