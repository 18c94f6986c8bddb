import Verif.Lemmas.Mem
set_option autoImplicit false
/-
Instruction fetch, prefix decoding, and the tail of RME_Int_DoOpcode on states with known code bytes.
-/
namespace RME

/-- `CodeAt` depends only on CS, IP, map, valid and host. -/
theorem CodeAt.congr {s t : State} {h0 : Nat} {bytes : List (BitVec 8)} (h : CodeAt s h0 bytes)
    (h1 : t.sreg .cs = s.sreg .cs) (h2 : t.ip = s.ip) (h3 : t.map = s.map) (h4 : t.valid = s.valid)
    (h5 : t.host = s.host) : CodeAt t h0 bytes := by
  intro i hi
  have := h i hi
  simp only [hostAddr, h1, h2, h3, h4, h5] at *
  exact this

/-- The instruction `bytes` is at CS:IP in `s` (see `CodeAt`), as a fetchable stream: reading `k`
bytes at offset `o`. -/
theorem CodeAt.mapped {s : State} {h0 : Nat} {bytes : List (BitVec 8)} (h : CodeAt s h0 bytes)
    (o k : Nat) (hk : 0 < k) (ho : o + k ≤ bytes.length) :
    hostAddr s (s.sreg .cs) (s.ip + BitVec.ofNat 16 o) = some (h0 + o) ∧
      ∀ i < k, s.valid (h0 + o + i) = true := by
  refine ⟨(h o (by omega)).1, fun i hi => ?_⟩
  have := (h (o + i) (by omega)).2.1
  rwa [← Nat.add_assoc] at this

theorem readInstr_code {s : State} {h0 : Nat} {bytes : List (BitVec 8)} (h : CodeAt s h0 bytes)
    (env : Env) (n : Nat) (hn : 0 < n / 8) (ho : s.dec.ipOffset + n / 8 ≤ bytes.length) :
    readInstr n env s = .ok (valAt s n (h0 + s.dec.ipOffset))
      { s with dec := { s.dec with ipOffset := s.dec.ipOffset + n / 8 } } := by
  have hm : Mapped s n (s.sreg .cs) (s.ip + BitVec.ofNat 16 s.dec.ipOffset) (h0 + s.dec.ipOffset) :=
    h.mapped s.dec.ipOffset (n / 8) hn ho
  simp only [readInstr, bind_apply, getSreg_apply, nextIP_apply, resbind_ok, readMem_mapped env hm,
    modDec_apply, pure_apply]

theorem valAt8 (s : State) (h : Nat) : valAt s 8 h = s.host h := by
  simp [valAt, loadLE]

theorem valAt16 (s : State) (h : Nat) : valAt s 16 h = le16 (s.host h) (s.host (h + 1)) := by
  apply BitVec.eq_of_toNat_eq
  have h1 := (s.host h).isLt; have h2 := (s.host (h + 1)).isLt
  simp only [valAt, loadLE, le16, BitVec.toNat_ofNat, BitVec.toNat_append]
  rw [Nat.shiftLeft_eq, Nat.mul_comm (s.host (h+1)).toNat, ← Nat.two_pow_add_eq_or_of_lt h1]
  omega

theorem readInstr8_code {s : State} {h0 : Nat} {bytes : List (BitVec 8)} (h : CodeAt s h0 bytes)
    (env : Env) (o : Nat) (ho : s.dec.ipOffset = o) (b : BitVec 8) (hb : bytes[o]? = some b) :
    readInstr 8 env s = .ok b { s with dec := { s.dec with ipOffset := o + 1 } } := by
  subst ho
  obtain ⟨hlt, hb⟩ := List.getElem?_eq_some_iff.1 hb
  rw [readInstr_code h env 8 (by decide) (by omega), valAt8, (h _ hlt).2.2, hb]

theorem readInstr16_code {s : State} {h0 : Nat} {bytes : List (BitVec 8)} (h : CodeAt s h0 bytes)
    (env : Env) (o : Nat) (ho : s.dec.ipOffset = o) (b c : BitVec 8) (hb : bytes[o]? = some b)
    (hc : bytes[o + 1]? = some c) :
    readInstr 16 env s = .ok (le16 b c) { s with dec := { s.dec with ipOffset := o + 2 } } := by
  subst ho
  obtain ⟨hlt, hb⟩ := List.getElem?_eq_some_iff.1 hb
  obtain ⟨hlt', hc⟩ := List.getElem?_eq_some_iff.1 hc
  rw [readInstr_code h env 16 (by decide) (by omega), valAt16, (h _ hlt).2.2, hb, Nat.add_assoc,
    (h _ hlt').2.2, hc]

theorem readInstr8S_code {s : State} {h0 : Nat} {bytes : List (BitVec 8)} (h : CodeAt s h0 bytes)
    (env : Env) (n : Nat) (o : Nat) (ho : s.dec.ipOffset = o) (b : BitVec 8) (hb : bytes[o]? = some b) :
    readInstr8S n env s = .ok (b.signExtend n) { s with dec := { s.dec with ipOffset := o + 1 } } := by
  simp only [readInstr8S, bind_apply, readInstr8_code h env o ho b hb, resbind_ok, pure_apply]

/-! ### Prefixes -/

/-- Decoder contents after the prefixes `p` and `k` instruction bytes. -/
def decOf (p : Pfx) (k : Nat) : Decoder :=
  { ovrSeg := p.seg, rep := p.rep, ovrOper := p.oper, ovrAddr := p.addr, dontChangeIP := false,
    ipOffset := k }

theorem decReset_eq : decReset = decOf {} 0 := rfl

/-- One round of the decode loop with the opcode byte `b` at offset `k`. -/
theorem decodeOne_code {s : State} {h0 : Nat} {bytes : List (BitVec 8)} (h : CodeAt s h0 bytes)
    (env : Env) (k : Nat) (hk : s.dec.ipOffset = k) (b : BitVec 8)
    (hb : bytes[k]? = some b) (h1 : b ≠ 0xF1) (e : Entry) (he : opEntry b = some e) :
    decodeOne env s = (fetchParam e env { s with dec := { s.dec with ipOffset := k + 1 } }).bind
        (fun a s' => callFn e.fn a env s') := by
  simp only [decodeOne, bind_apply, readInstr8_code h env k hk b hb, resbind_ok, he]
  rw [show (b == 0xF1) = false by simpa using h1]
  rfl

/-- What a prefix byte does: table entry and effect. -/
theorem Pfx.add_cases {p p' : Pfx} {b : BitVec 8} (hp : p.add b = some p') :
    b ≠ 0xF1 ∧ ∃ e : Entry, opEntry b = some e ∧ e.modrm = false ∧
      ∀ env (s : State) k, s.dec = decOf p k →
        callFn e.fn e.arg env s = .err .cont { s with dec := decOf p' k } := by
  simp only [Pfx.add] at hp
  split at hp
  · rename_i hb; subst hb
    refine ⟨by decide, _, (by decide : opEntry 0x26 = some ⟨.base .ovrSeg, 0, false⟩), rfl, ?_⟩
    intro env s k hd
    split at hp <;> cases hp
    simp [callFn, opFn, opOvrSeg, segOf, decOf, hd, *]
  split at hp
  · rename_i hb; subst hb
    refine ⟨by decide, _, (by decide : opEntry 0x2E = some ⟨.base .ovrSeg, 1, false⟩), rfl, ?_⟩
    intro env s k hd
    split at hp <;> cases hp
    simp [callFn, opFn, opOvrSeg, segOf, decOf, hd, *]
  split at hp
  · rename_i hb; subst hb
    refine ⟨by decide, _, (by decide : opEntry 0x36 = some ⟨.base .ovrSeg, 2, false⟩), rfl, ?_⟩
    intro env s k hd
    split at hp <;> cases hp
    simp [callFn, opFn, opOvrSeg, segOf, decOf, hd, *]
  split at hp
  · rename_i hb; subst hb
    refine ⟨by decide, _, (by decide : opEntry 0x3E = some ⟨.base .ovrSeg, 3, false⟩), rfl, ?_⟩
    intro env s k hd
    split at hp <;> cases hp
    simp [callFn, opFn, opOvrSeg, segOf, decOf, hd, *]
  split at hp
  · rename_i hb; subst hb
    refine ⟨by decide, _, (by decide : opEntry 0x64 = some ⟨.base .ovrSeg, 4, false⟩), rfl, ?_⟩
    intro env s k hd
    split at hp <;> cases hp
    simp [callFn, opFn, opOvrSeg, segOf, decOf, hd, *]
  split at hp
  · rename_i hb; subst hb
    refine ⟨by decide, _, (by decide : opEntry 0x65 = some ⟨.base .ovrSeg, 5, false⟩), rfl, ?_⟩
    intro env s k hd
    split at hp <;> cases hp
    simp [callFn, opFn, opOvrSeg, segOf, decOf, hd, *]
  split at hp
  · rename_i hb; subst hb
    refine ⟨by decide, _, (by decide : opEntry 0x66 = some ⟨.base .ovrOper, 0, false⟩), rfl, ?_⟩
    intro env s k hd
    split at hp <;> cases hp
    simp [callFn, opFn, opOvrOper, decOf, hd, *]
  split at hp
  · rename_i hb; subst hb
    refine ⟨by decide, _, (by decide : opEntry 0x67 = some ⟨.base .ovrAddr, 0, false⟩), rfl, ?_⟩
    intro env s k hd
    split at hp <;> cases hp
    simp [callFn, opFn, opOvrAddr, decOf, hd, *]
  split at hp
  · rename_i hb; subst hb
    refine ⟨by decide, _, (by decide : opEntry 0xF2 = some ⟨.base .repnz, 0, false⟩), rfl, ?_⟩
    intro env s k hd
    split at hp <;> cases hp
    simp [callFn, opFn, opPrefixRep, decOf, hd, *]
  split at hp
  · rename_i hb; subst hb
    refine ⟨by decide, _, (by decide : opEntry 0xF3 = some ⟨.base .rep, 0, false⟩), rfl, ?_⟩
    intro env s k hd
    split at hp <;> cases hp
    simp [callFn, opFn, opPrefixRep, decOf, hd, *]
  · cases hp

/-- One prefix byte is consumed by one round of the decode loop. -/
theorem decodeOne_prefix {s : State} {h0 : Nat} {bytes : List (BitVec 8)} (h : CodeAt s h0 bytes)
    (env : Env) (p p' : Pfx) (k : Nat) (hd : s.dec = decOf p k) (b : BitVec 8)
    (hb : bytes[k]? = some b) (hp : p.add b = some p') :
    decodeOne env s = .err .cont { s with dec := decOf p' (k + 1) } := by
  obtain ⟨h1, e, he, hm, hf⟩ := Pfx.add_cases hp
  rw [decodeOne_code h env k (by rw [hd]; rfl) b hb h1 e he]
  simp only [fetchParam, hm, Bool.false_eq_true, if_false, pure_apply, resbind_ok]
  rw [hf env _ (k + 1) (by rw [hd]; rfl)]

/-- Number of prefix kinds present. -/
def Pfx.count (p : Pfx) : Nat :=
  (if p.seg = none then 0 else 1) + (if p.rep = .none then 0 else 1) + (if p.oper then 1 else 0) +
    (if p.addr then 1 else 0)

theorem Pfx.add_count {p p' : Pfx} {b : BitVec 8} (hp : p.add b = some p') :
    p'.count = p.count + 1 := by
  simp only [Pfx.add] at hp
  repeat' split at hp
  all_goals first
    | (cases hp; done)
    | (cases hp; simp_all [Pfx.count]; try omega)

theorem Pfx.count_le (p : Pfx) : p.count ≤ 4 := by
  simp only [Pfx.count]; split <;> split <;> split <;> split <;> omega

theorem Pfx.parse_count {p p' : Pfx} {bs : List (BitVec 8)} (hp : p.parse bs = some p') :
    p'.count = p.count + bs.length := by
  induction bs generalizing p with
  | nil => simp [Pfx.parse] at hp; simp [hp]
  | cons b bs ih =>
    simp only [Pfx.parse, Option.bind_eq_some_iff] at hp
    obtain ⟨q, h1, h2⟩ := hp
    rw [ih h2, Pfx.add_count h1]; simp; omega

theorem decodeLoop_succ (fuel : Nat) (env : Env) (s : State) :
    decodeLoop (fuel + 1) env s = match decodeOne env s with
      | .err .cont s' => decodeLoop fuel env s'
      | r => r := rfl

/-- The decode loop consumes a list of prefixes. -/
theorem decodeLoop_prefixes (env : Env) {h0 : Nat} {bytes : List (BitVec 8)} (pfx : List (BitVec 8)) :
    ∀ (s : State) (p p' : Pfx) (k fuel : Nat), CodeAt s h0 bytes → s.dec = decOf p k →
      (∀ i (hi : i < pfx.length), bytes[k + i]? = some pfx[i]) → p.parse pfx = some p' →
      decodeLoop (pfx.length + fuel) env s =
        decodeLoop fuel env { s with dec := decOf p' (k + pfx.length) } := by
  induction pfx with
  | nil =>
    intro s p p' k fuel h hd hb hp
    simp [Pfx.parse] at hp
    subst hp
    simp only [List.length_nil, Nat.zero_add, Nat.add_zero]
    rw [← hd]
  | cons b bs ih =>
    intro s p p' k fuel h hd hb hp
    simp only [Pfx.parse, Option.bind_eq_some_iff] at hp
    obtain ⟨q, h1, h2⟩ := hp
    have hb0 : bytes[k]? = some b := hb 0 (by simp)
    rw [show (b :: bs).length + fuel = (bs.length + fuel) + 1 by simp; omega]
    rw [decodeLoop]
    simp only [decodeOne_prefix h env p q k hd b hb0 h1]
    rw [ih { s with dec := decOf q (k + 1) } q p' (k + 1) fuel h rfl (fun i hi => by
      have := hb (i + 1) (by simp; omega)
      rw [show k + 1 + i = k + (i + 1) by omega]; simpa using this) h2]
    simp only [List.length_cons]
    rw [show k + 1 + bs.length = k + (bs.length + 1) by omega]

/-! ### The tail of an instruction -/

theorem dumpLoop_ok (env : Env) (cs : BitVec 16) : ∀ (j : Nat) (i : BitVec 16) (s : State),
    (∀ x < j, ∃ h, Mapped s 8 cs (i + BitVec.ofNat 16 x) h) →
    dumpLoop cs j i env s = .ok () s := by
  intro j
  induction j with
  | zero => intros; rfl
  | succ j ih =>
    intro i s h
    obtain ⟨a, ha⟩ := h 0 (by omega)
    simp only [BitVec.ofNat_eq_ofNat, BitVec.add_zero] at ha
    simp only [dumpLoop, bind_apply, readMem_mapped env ha, resbind_ok]
    apply ih
    intro x hx
    obtain ⟨b, hb⟩ := h (x + 1) (by omega)
    refine ⟨b, ?_⟩
    rwa [show i + 1 + BitVec.ofNat 16 x = i + BitVec.ofNat 16 (x + 1) by
      rw [BitVec.add_assoc, ← BitVec.ofNat_add_ofNat, BitVec.add_comm 1]; rfl]

/-- Result of the tail of `RME_Int_DoOpcode`: IP advance and runaway detector. -/
def tailState (s : State) (null : Bool) : State :=
  { s with ip := if s.dec.dontChangeIP then s.ip else s.ip + BitVec.ofNat 16 s.dec.ipOffset,
           lastNull := null }

/-- "the instruction was two bytes long and they are (now) 00 00" -/
def isNull (s : State) (h0 : Nat) : Bool :=
  s.dec.ipOffset == 2 && s.host h0 == 0 && s.host (h0 + 1) == 0

theorem finish_code {s0 : State} {h0 : Nat} {bytes : List (BitVec 8)} (h : CodeAt s0 h0 bytes)
    (env : Env) (s1 : State) (hm : s1.map = s0.map) (hv : s1.valid = s0.valid)
    (hl : s1.dec.ipOffset ≤ bytes.length) (hn : (isNull s1 h0 && s1.lastNull) = false) :
    finishInstr (s0.sreg .cs) s0.ip env s1 = .ok () (tailState s1 (isNull s1 h0)) := by
  have hadv : advanceIP env s1 = .ok () (tailState s1 s1.lastNull) := by
    simp only [advanceIP, bind_apply, getDec_apply, resbind_ok, ite_apply, tailState]
    split <;> simp
  simp only [finishInstr, bind_apply, hadv, resbind_ok]
  have hmap : ∀ (b : Bool) (x : Nat), x < s1.dec.ipOffset →
      Mapped (tailState s1 b) 8 (s0.sreg .cs) (s0.ip + BitVec.ofNat 16 x) (h0 + x) := by
    intro b x hx
    have := h x (by omega)
    refine ⟨?_, fun i hi => ?_⟩
    · simp only [hostAddr, tailState, hm]; exact this.1
    · have : i = 0 := by omega
      subst this
      simp only [tailState, hv]; exact (h x (by omega)).2.1
  have hnull : nullCheckTail (s0.sreg .cs) s0.ip env (tailState s1 s1.lastNull) =
      .ok () (tailState s1 (isNull s1 h0)) := by
    simp only [nullCheckTail, bind_apply, getDec_apply, resbind_ok, ite_apply]
    by_cases h2 : s1.dec.ipOffset = 2
    · have e1 : readMem 8 (s0.sreg .cs) s0.ip env (tailState s1 s1.lastNull) = .ok (s1.host h0) (tailState s1 s1.lastNull) := by
        have := readMem_mapped env (hmap s1.lastNull 0 (by omega))
        simp only [BitVec.ofNat_eq_ofNat, BitVec.add_zero, Nat.add_zero, valAt8] at this
        exact this
      have e2 : readMem 8 (s0.sreg .cs) (s0.ip + 1) env (tailState s1 s1.lastNull) =
          .ok (s1.host (h0 + 1)) (tailState s1 s1.lastNull) := by
        have := readMem_mapped env (hmap s1.lastNull 1 (by omega))
        rw [valAt8] at this
        exact this
      have h2' : (tailState s1 s1.lastNull).dec.ipOffset = 2 := h2
      rw [if_pos h2']
      simp only [bind_apply, e1, e2, resbind_ok]
      simp only [tailState, isNull, h2, BEq.rfl, Bool.true_and] at hn ⊢
      by_cases hz : s1.host h0 = 0 ∧ s1.host (h0 + 1) = 0
      · simp [hz] at hn
        simp [hz, hn]
      · rw [if_neg hz]
        have : (s1.host h0 == 0 && s1.host (h0 + 1) == 0) = false := by
          rw [Bool.and_eq_false_imp]; intro a
          exact beq_false_of_ne (fun b => hz ⟨eq_of_beq a, b⟩)
        rw [this]; rfl
    · have h2' : ¬ (tailState s1 s1.lastNull).dec.ipOffset = 2 := h2
      simp [h2', isNull, h2, tailState]
  rw [hnull, resbind_ok]
  simp only [debugTail, bind_apply, gets_apply, resbind_ok, ite_apply, getDec_apply]
  split
  · apply dumpLoop_ok
    intro x hx
    exact ⟨_, hmap _ x hx⟩
  · rfl

/-- Parameter handed to the opcode function: the reg field of the ModR/M byte for group opcodes. -/
def paramOf (e : Entry) (next : Option (BitVec 8)) : Option (BitVec 3) :=
  if e.modrm then next.map (fun (b : BitVec 8) => ((b >>> 3).setWidth 3 : BitVec 3)) else some e.arg

/-- State in which the opcode function is called. -/
def opState (s : State) (p : Pfx) (k : Nat) : State :=
  { s with dec := decOf p k, instrNum := s.instrNum + 1 }

theorem getModRM_code {s : State} {h0 : Nat} {bytes : List (BitVec 8)} (h : CodeAt s h0 bytes)
    (env : Env) (k : Nat) (hk : s.dec.ipOffset = k) (b : BitVec 8) (hb : bytes[k]? = some b) :
    getModRM_unchecked env s =
      .ok (ModRM.ofByte b) { s with dec := { s.dec with ipOffset := k + 1 } } := by
  have : getModRM env s = .ok (ModRM.ofByte b) { s with dec := { s.dec with ipOffset := k + 1 } } := by
    simp only [getModRM, bind_apply, readInstr8_code h env k hk b hb, resbind_ok, pure_apply]
  unfold getModRM_unchecked
  rw [this]

theorem fetchParam_code {s : State} {h0 : Nat} {bytes : List (BitVec 8)} (h : CodeAt s h0 bytes)
    (env : Env) (k : Nat) (hk : s.dec.ipOffset = k) (e : Entry) (p : BitVec 3)
    (hp : paramOf e bytes[k]? = some p) : fetchParam e env s = .ok p s := by
  simp only [fetchParam, paramOf] at *
  split
  · rename_i hm
    rw [if_pos hm] at hp
    obtain ⟨b, hb, hp'⟩ := Option.map_eq_some_iff.1 hp
    rw [bind_apply, getModRM_code h env k hk b hb, resbind_ok, bind_apply, modDec_apply, resbind_ok,
      pure_apply]
    subst hk hp'
    rfl
  · rename_i hm
    rw [if_neg hm] at hp
    cases hp; rfl

/-- Fetch and decode up to the call of the opcode function. -/
theorem decode_code {s : State} {h0 : Nat} {pfx rest : List (BitVec 8)} {op : BitVec 8} {p : Pfx}
    (h : CodeAt s h0 (pfx ++ op :: rest)) (env : Env) (hc : s.instrNum ≠ 2147483647)
    (hp : Pfx.parse {} pfx = some p) (hop : op ≠ 0xF1) {e : Entry} (he : opEntry op = some e)
    {a : BitVec 3} (ha : paramOf e rest[0]? = some a) (r : Res Unit)
    (hr : callFn e.fn a env (opState s p (pfx.length + 1)) = r) (hcont : ∀ s', r ≠ .err .cont s') :
    doOpcode env s = r.bind (fun _ s' => finishInstr (s.sreg .cs) s.ip env s') := by
  have hlen : pfx.length ≤ 4 := by
    have := Pfx.parse_count hp; have := p.count_le; simp [Pfx.count] at *; omega
  simp only [doOpcode, bind_apply, getIP_apply, getSreg_apply, resbind_ok, startInstr, INT_MAX]
  rw [if_neg hc]
  simp only [resbind_ok]
  congr 1
  have h' : CodeAt { s with dec := decReset, instrNum := s.instrNum + 1 } h0 (pfx ++ op :: rest) := h
  have := decodeLoop_prefixes env pfx { s with dec := decReset, instrNum := s.instrNum + 1 } {} p 0
    (6 - pfx.length) h' rfl (fun i hi => by
      rw [Nat.zero_add, List.getElem?_append_left hi]; simp [hi]) hp
  rw [show pfx.length + (6 - pfx.length) = 6 by omega] at this
  rw [this, show 6 - pfx.length = (5 - pfx.length) + 1 by omega, decodeLoop_succ]
  have hk : (pfx ++ op :: rest)[pfx.length]? = some op := by simp
  have h'' : CodeAt { s with dec := decOf p (0 + pfx.length), instrNum := s.instrNum + 1 } h0
    (pfx ++ op :: rest) := h
  have hd := decodeOne_code h'' env pfx.length (by simp [decOf]) op hk hop e he
  rw [hd]
  have h3 : CodeAt (opState s p (pfx.length + 1)) h0 (pfx ++ op :: rest) := h
  have hf := fetchParam_code h3 env (pfx.length + 1) rfl e a (by
    rw [List.getElem?_append_right (by omega)]
    simpa using ha)
  simp only [opState, decOf] at hf hr ⊢
  rw [hf, resbind_ok, hr]
  cases r with
  | ok _ _ => rfl
  | ub _ => rfl
  | err e s' => cases e <;> first | rfl | exact absurd rfl (hcont s')

theorem runOne_ready {s : State} (hr : Ready s) (env : Env) :
    runOne env s = match doOpcode env s with
      | .err .divErr s' => callIntInternal 0 env s'
      | r => r := by
  unfold runOne
  rw [if_neg hr.notMagic, if_neg hr.notHle]
  rfl

/-- An instruction whose opcode function succeeds. -/
theorem runOne_code_ok {s : State} {h0 : Nat} {pfx rest : List (BitVec 8)} {op : BitVec 8} {p : Pfx}
    (hready : Ready s) (h : CodeAt s h0 (pfx ++ op :: rest)) (env : Env)
    (hp : Pfx.parse {} pfx = some p) (hop : op ≠ 0xF1) {e : Entry} (he : opEntry op = some e)
    {a : BitVec 3} (ha : paramOf e rest[0]? = some a) (s1 : State)
    (hr : callFn e.fn a env (opState s p (pfx.length + 1)) = .ok () s1)
    (hm : s1.map = s.map) (hv : s1.valid = s.valid)
    (hl : s1.dec.ipOffset ≤ pfx.length + 1 + rest.length)
    (hn : (isNull s1 h0 && s1.lastNull) = false) :
    runOne env s = .ok () (tailState s1 (isNull s1 h0)) := by
  rw [runOne_ready hready, decode_code h env hready.counter hp hop he ha _ hr (by simp)]
  simp only [resbind_ok]
  rw [finish_code h env s1 hm hv (by simp; omega) hn]

/-- An instruction whose opcode function fails with `e'` other than CONTINUE and DIVERR. -/
theorem runOne_code_err {s : State} {h0 : Nat} {pfx rest : List (BitVec 8)} {op : BitVec 8} {p : Pfx}
    (hready : Ready s) (h : CodeAt s h0 (pfx ++ op :: rest)) (env : Env)
    (hp : Pfx.parse {} pfx = some p) (hop : op ≠ 0xF1) {e : Entry} (he : opEntry op = some e)
    {a : BitVec 3} (ha : paramOf e rest[0]? = some a) (e' : Err) (s1 : State)
    (hr : callFn e.fn a env (opState s p (pfx.length + 1)) = .err e' s1)
    (h1 : e' ≠ .cont) (h2 : e' ≠ .divErr) :
    runOne env s = .err e' s1 := by
  rw [runOne_ready hready, decode_code h env hready.counter hp hop he ha _ hr (by
    intro s' hh; cases hh; exact h1 rfl)]
  simp only [resbind_err]
  cases e' <;> first | rfl | exact absurd rfl h2

/-- An instruction whose opcode function reports a divide error. -/
theorem runOne_code_div {s : State} {h0 : Nat} {pfx rest : List (BitVec 8)} {op : BitVec 8} {p : Pfx}
    (hready : Ready s) (h : CodeAt s h0 (pfx ++ op :: rest)) (env : Env)
    (hp : Pfx.parse {} pfx = some p) (hop : op ≠ 0xF1) {e : Entry} (he : opEntry op = some e)
    {a : BitVec 3} (ha : paramOf e rest[0]? = some a) (s1 : State)
    (hr : callFn e.fn a env (opState s p (pfx.length + 1)) = .err .divErr s1) :
    runOne env s = callIntInternal 0 env s1 := by
  rw [runOne_ready hready, decode_code h env hready.counter hp hop he ha _ hr (by
    intro s' hh; cases hh)]
  rfl

end RME
