import Verif.Lemmas.Step
import Verif.Spec.Run
set_option autoImplicit false
/-
Forward execution of `RME_RunOne` on instruction bytes that are mapped one by one.
-/
namespace RME

theorem fetch8_at {s : State} {k b} (h : ByteAt s k b) (env p) :
    readInstr 8 env (opState s p k) = .ok b (opState s p (k + 1)) := by
  obtain ⟨a, h1, h2, h3⟩ := h
  rcases fetch8_cases env s p k with ⟨b', ⟨a', h1', h2', h3'⟩, hr⟩ | ⟨hn, _⟩ | ⟨hn, _⟩
  · rw [h1] at h1'; cases h1'; rw [h3] at h3'; cases h3'; exact hr
  · rw [h1] at hn; cases hn
  · exact absurd ⟨a, h1, h2, h3⟩ (hn b)

theorem decodeOne_at {s : State} {k b} (h : ByteAt s k b) (env p) :
    decodeOne env (opState s p k) = if b = 0xF1 then .err .breakpoint (opState s p (k + 1)) else
      match opEntry b with
      | none => .err .undefOpcode (opState s p (k + 1))
      | some e => (fetchParam e env (opState s p (k + 1))).bind (fun a s' => callFn e.fn a env s') := by
  simp only [decodeOne, bind_apply, fetch8_at h, resbind_ok]
  by_cases hb : b = 0xF1
  · subst hb; rfl
  · rw [show (b == 0xF1) = false by simpa using hb, if_neg hb]
    cases opEntry b <;> rfl

theorem decodeLoop_pfx (env : Env) (s : State) (pfx : List (BitVec 8)) : ∀ q p k fuel, Pfx.parse q pfx = some p →
    (∀ i (hi : i < pfx.length), ByteAt s (k + i) pfx[i]) →
    decodeLoop (pfx.length + fuel) env (opState s q k) = decodeLoop fuel env (opState s p (k + pfx.length)) := by
  induction pfx with
  | nil =>
    intro q p k fuel hp _
    simp [Pfx.parse] at hp
    subst hp
    simp
  | cons b bs ih =>
    intro q p k fuel hp hb
    simp only [Pfx.parse, Option.bind_eq_some_iff] at hp
    obtain ⟨q', h1, h2⟩ := hp
    rw [show (b :: bs).length + fuel = (bs.length + fuel) + 1 by simp; omega, decodeLoop_succ,
      decodeOne_at (k := k) (b := b) (hb 0 (by simp))]
    obtain ⟨hne, e, he, hm, hf⟩ := Pfx.add_cases h1
    rw [if_neg hne, he]
    simp only [fetchParam, hm, Bool.false_eq_true, if_false, pure_apply, resbind_ok]
    rw [hf env (opState s q (k + 1)) (k + 1) rfl]
    have := ih q' p (k + 1) fuel h2 (fun i hi => by
      have := hb (i + 1) (by simp; omega)
      rw [show k + 1 + i = k + (i + 1) by omega]; simpa using this)
    simp only [List.length_cons]
    rw [show k + (bs.length + 1) = k + 1 + bs.length by omega]
    exact this

theorem ByteAt.inj {s : State} {k b c} (h1 : ByteAt s k b) (h2 : ByteAt s k c) : b = c := by
  obtain ⟨a, h1, _, h3⟩ := h1
  obtain ⟨a', h1', _, h3'⟩ := h2
  rw [h1] at h1'; cases h1'; exact h3.symm.trans h3'

theorem BytesAt.left {s : State} {a b : List (BitVec 8)} (h : BytesAt s (a ++ b)) : BytesAt s a := by
  intro i hi
  have := h i (by simp; omega)
  rwa [List.getElem_append_left hi] at this

theorem BytesAt.right {s : State} {a b : List (BitVec 8)} (h : BytesAt s (a ++ b)) (i) (hi : i < b.length) :
    ByteAt s (a.length + i) b[i] := by
  have := h (a.length + i) (by simp; omega)
  simpa using this

/-- The first opcode byte. -/
theorem decode_bytes {s : State} {pfx rest : List (BitVec 8)} {op : BitVec 8} {p : Pfx}
    (h : BytesAt s (pfx ++ op :: rest)) (env : Env) (hp : Pfx.parse {} pfx = some p) :
    decodeLoop 6 env (opState s {} 0) = match (decodeOne env (opState s p pfx.length)) with
      | .err .cont s' => decodeLoop (5 - pfx.length) env s'
      | r => r := by
  have hlen : pfx.length ≤ 4 := by
    have := Pfx.parse_count hp; have := p.count_le; simp [Pfx.count] at *; omega
  have := decodeLoop_pfx env s pfx {} p 0 (6 - pfx.length) hp (fun i hi => by
    have := h.left i hi; simpa using this)
  rw [show pfx.length + (6 - pfx.length) = 6 by omega] at this
  rw [this, show 6 - pfx.length = (5 - pfx.length) + 1 by omega, decodeLoop_succ, Nat.zero_add]
  rfl

theorem runOne_tail {s : State} (hr : Ready s) (env : Env) :
    runOne env s = tailOf env s (decodeLoop 6 env (opState s {} 0)) := by
  rw [runOne_ready hr]
  have : doOpcode env s = (decodeLoop 6 env (opState s {} 0)).bind (fun _ t => finishInstr (s.sreg .cs) s.ip env t) := by
    simp only [doOpcode, bind_apply, getIP_apply, getSreg_apply, resbind_ok, startInstr, INT_MAX]
    rw [if_neg hr.counter]
    rfl
  rw [this]
  cases h : decodeLoop 6 env (opState s {} 0) with
  | ok a t =>
    simp only [resbind_ok, tailOf]
    cases h2 : finishInstr (s.sreg .cs) s.ip env t with
    | ok _ _ => rfl
    | ub _ => rfl
    | err e u => rcases finish_err _ _ env t e u h2 with rfl | rfl <;> rfl
  | ub u => rfl
  | err e t => cases e <;> rfl

/-- An instruction with a one-byte opcode that is not a group. -/
theorem runOne_bytes {s : State} (hr : Ready s) {pfx rest : List (BitVec 8)} {op : BitVec 8} {p : Pfx}
    (h : BytesAt s (pfx ++ op :: rest)) (env : Env) (hp : Pfx.parse {} pfx = some p) (hop : op ≠ 0xF1)
    {o : Op} {a : BitVec 3} (he : opEntry op = some ⟨.base o, a, false⟩) (ho : o.isPrefix = false) :
    runOne env s = tailOf env s (opFn o a env (opState s p (pfx.length + 1))) := by
  rw [runOne_tail hr, decode_bytes h env hp, decodeOne_at (k := pfx.length) (b := op) (h.right 0 (by simp)), if_neg hop, he]
  simp only [fetchParam, Bool.false_eq_true, if_false, pure_apply, resbind_ok, callFn]
  have hc := fun t => noCont o a env (opState s p (pfx.length + 1)) t ho
  congr 1
  cases hres : opFn o a env (opState s p (pfx.length + 1)) with
  | ok x t => rfl
  | ub u => rfl
  | err e t => cases e <;> first | rfl | exact absurd hres (hc t)

/-- An instruction of a group (the ModR/M byte selects the operation). -/
theorem runOne_bytes_grp {s : State} (hr : Ready s) {pfx rest : List (BitVec 8)} {op m : BitVec 8} {p : Pfx}
    (h : BytesAt s (pfx ++ op :: m :: rest)) (env : Env) (hp : Pfx.parse {} pfx = some p) (hop : op ≠ 0xF1)
    {o : Op} {a : BitVec 3} (he : opEntry op = some ⟨.base o, a, true⟩) (ho : o.isPrefix = false) :
    runOne env s = tailOf env s (opFn o ((m >>> 3).setWidth 3) env (opState s p (pfx.length + 1))) := by
  rw [runOne_tail hr, decode_bytes h env hp, decodeOne_at (k := pfx.length) (b := op) (h.right 0 (by simp)), if_neg hop, he]
  have hb1 : ByteAt s (pfx.length + 1) m := h.right 1 (by simp)
  have hm := fetch8_at hb1 env p
  simp only [fetchParam, if_true, bind_apply, getModRM_unchecked_eq, hm, resbind_ok, modDec_apply, pure_apply, callFn]
  have hst : { opState s p (pfx.length + 1 + 1) with
      dec := { (opState s p (pfx.length + 1 + 1)).dec with
        ipOffset := (opState s p (pfx.length + 1 + 1)).dec.ipOffset - 1 } } = opState s p (pfx.length + 1) := rfl
  rw [hst, show (ModRM.ofByte m).rrr = (m >>> 3).setWidth 3 from rfl]
  have hc := fun t => noCont o ((m >>> 3).setWidth 3) env (opState s p (pfx.length + 1)) t ho
  congr 1
  cases hres : opFn o ((m >>> 3).setWidth 3) env (opState s p (pfx.length + 1)) with
  | ok x t => rfl
  | ub u => rfl
  | err e t => cases e <;> first | rfl | exact absurd hres (hc t)

/-- A two-byte opcode. -/
theorem runOne_bytes_0F {s : State} (hr : Ready s) {pfx rest : List (BitVec 8)} {op : BitVec 8} {p : Pfx}
    (h : BytesAt s (pfx ++ 0x0F :: op :: rest)) (env : Env) (hp : Pfx.parse {} pfx = some p) :
    runOne env s = tailOf env s (match opEntry0F op with
      | none => .err .undefOpcode (opState s p (pfx.length + 2))
      | some e => callFn e.fn e.arg env (opState s p (pfx.length + 2))) := by
  rw [runOne_tail hr, decode_bytes h env hp, decodeOne_at (k := pfx.length) (b := 0x0F) (h.right 0 (by simp)), if_neg (by decide)]
  rw [(by decide : opEntry 0x0F = some ⟨.ext0F, 0, false⟩)]
  have hb1 : ByteAt s (pfx.length + 1) op := h.right 1 (by simp)
  have hm := fetch8_at hb1 env p
  simp only [fetchParam, Bool.false_eq_true, if_false, pure_apply, resbind_ok, callFn, ext0F, bind_apply, hm]
  congr 1
  cases he2 : opEntry0F op with
  | none => rfl
  | some e2 =>
    obtain ⟨fn2, a2, m2⟩ := e2
    cases fn2 with
    | ext0F => exact absurd he2 (entry0F_noext op a2 m2)
    | base o =>
      have hnp := entry0F_prefix op o a2 m2 he2
      have hc := fun t => noCont o a2 env (opState s p (pfx.length + 2)) t hnp
      show (match opFn o a2 env (opState s p (pfx.length + 2)) with
        | .err .cont s' => decodeLoop (5 - pfx.length) env s'
        | r => r) = opFn o a2 env (opState s p (pfx.length + 2))
      cases hres : opFn o a2 env (opState s p (pfx.length + 2)) with
      | ok x t => rfl
      | ub u => rfl
      | err e t => cases e <;> first | rfl | exact absurd hres (hc t)

theorem CodeAt.bytes {s h0 l} (h : CodeAt s h0 l) : BytesAt s l := fun i hi =>
  ⟨h0 + i, (h i hi).1, (h i hi).2.1, (h i hi).2.2⟩

end RME
