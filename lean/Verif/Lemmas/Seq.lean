import Verif.Lemmas.LenOps
import Verif.Lemmas.Bytes
set_option autoImplicit false
/-
The instruction at CS:IP is unique; CS:IP during an instruction.
-/
set_option linter.unusedSectionVars false
namespace RME

theorem Pfx.add_isPrefix {p p' : Pfx} {b} (h : p.add b = some p') : isPrefixByte b = true := by
  cases hb : isPrefixByte b
  · exfalso
    simp only [isPrefixByte, Bool.or_eq_false_iff, beq_eq_false_iff_ne, ne_eq] at hb
    obtain ⟨⟨⟨⟨⟨⟨⟨⟨⟨h1, h2⟩, h3⟩, h4⟩, h5⟩, h6⟩, h7⟩, h8⟩, h9⟩, h10⟩ := hb
    simp only [Pfx.add] at h
    rw [if_neg h1, if_neg h2, if_neg h3, if_neg h4, if_neg h5, if_neg h6, if_neg h7, if_neg h8, if_neg h9, if_neg h10] at h
    cases h
  · rfl

theorem Pfx.parse_isPrefix : ∀ (l : List (BitVec 8)) (q p : Pfx), Pfx.parse q l = some p → ∀ b ∈ l, isPrefixByte b = true
  | [], _, _, _, _, hb => by simp at hb
  | x :: xs, q, p, h, b, hb => by
    simp only [Pfx.parse, Option.bind_eq_some_iff] at h
    obtain ⟨q', h1, h2⟩ := h
    rcases List.mem_cons.1 hb with rfl | hb
    · exact Pfx.add_isPrefix h1
    · exact Pfx.parse_isPrefix xs q' p h2 b hb

theorem bytes_len {s : State} {l l' : List (BitVec 8)} {op op' : BitVec 8} {r r' : List (BitVec 8)} (h : BytesAt s (l ++ op :: r)) (h' : BytesAt s (l' ++ op' :: r'))
    (h1 : isPrefixByte op = false) (hl' : ∀ b ∈ l', isPrefixByte b = true) : l'.length ≤ l.length := by
  refine Nat.le_of_not_lt fun hlt => ?_
  have h2 : ByteAt s l.length op := h.right 0 (by simp)
  have h3 := h'.left l.length hlt
  have h4 := ByteAt.inj h2 h3
  have := hl' l'[l.length] (List.getElem_mem _)
  rw [← h4, h1] at this
  cases this

/-- Prefixes and opcode are determined by memory. -/
theorem pfx_unique {s : State} {l l' : List (BitVec 8)} {p p' : Pfx} {op op' : BitVec 8} {r r' : List (BitVec 8)}
    (h : BytesAt s (l ++ op :: r)) (h' : BytesAt s (l' ++ op' :: r'))
    (hp : Pfx.parse {} l = some p) (hp' : Pfx.parse {} l' = some p') (h1 : isPrefixByte op = false) (h1' : isPrefixByte op' = false) :
    l = l' ∧ p = p' ∧ op = op' := by
  have hlen : l.length = l'.length := Nat.le_antisymm
    (bytes_len h' h h1' (Pfx.parse_isPrefix _ _ _ hp)) (bytes_len h h' h1 (Pfx.parse_isPrefix _ _ _ hp'))
  have hl : l = l' := by
    refine List.ext_getElem hlen fun i hi hi' => ?_
    exact ByteAt.inj (h.left i hi) (h'.left i hi')
  subst hl
  rw [hp] at hp'
  cases hp'
  exact ⟨rfl, rfl, ByteAt.inj (h.right 0 (by simp)) (h'.right 0 (by simp))⟩

theorem AddrAt.unique {s : State} {p : Pfx} {k r r' n n'} (h : AddrAt s p k r n) (h' : AddrAt s p k r' n') : r = r' ∧ n = n' := by
  obtain ⟨m, sib, hm, hr, hs, rfl⟩ := h
  obtain ⟨m', sib', hm', hr', hs', rfl⟩ := h'
  have := ByteAt.inj hm hm'
  subst this
  refine ⟨hr.symm.trans hr', ?_⟩
  by_cases hc : p.addr = true ∧ modOf m = 0 ∧ rmOf m = 4
  · rw [ByteAt.inj (hs hc.1 hc.2.1 hc.2.2) (hs' hc.1 hc.2.1 hc.2.2)]
  · unfold rmLen
    by_cases h1 : p.addr = true
    · by_cases h3 : modOf m = 3
      · simp [h3]
      · by_cases h4 : rmOf m = 4
        · have h0 : modOf m ≠ 0 := fun h => hc ⟨h1, h, h4⟩
          rcases mod_cases m with h | h | h | h
          · exact absurd h h0
          · simp [h]
          · simp [h]
          · simp [h]
        · simp only [h4, false_and, or_false]
    · simp [h1]

/-- What `Dec` and `InstrAt` say about the same memory. -/
theorem dec_instr {s : State} {p p' k o a two op r n} (hd : Dec s p k o a) (hn : o.isPrefix = false) (hi : InstrAt s p' two op r n) :
    p = p' ∧ (two = false → (∃ a', opEntry op = some ⟨.base o, a', false⟩ ∧ a = a') ∨
        (∃ a' m, opEntry op = some ⟨.base o, a', true⟩ ∧ ByteAt s k m ∧ a = (m >>> 3).setWidth 3)) ∧
      (two = true → ∃ m, opEntry0F op = some ⟨.base o, a, m⟩) ∧
      (if two then
        (((opForm0F op).1 = false ∧ r = 0 ∧ n = k + immLen p (opForm0F op).2) ∨
          ((opForm0F op).1 = true ∧ ∃ j, AddrAt s p k r j ∧ n = k + j + immLen p (opForm0F op).2))
       else
        (((opForm op 0).1 = false ∧ r = 0 ∧ n = k + immLen p (opForm op 0).2) ∨
          ((opForm op r).1 = true ∧ ∃ j, AddrAt s p k r j ∧ n = k + j + immLen p (opForm op r).2))) := by
  have hop : ∀ {op a m}, opEntry op = some ⟨.base o, a, m⟩ → isPrefixByte op = false := by
    intro op a m he
    cases h : isPrefixByte op
    · rfl
    · obtain ⟨o', a', he', h2⟩ := prefix_entry op h
      rw [he] at he'; cases he'; rw [hn] at h2; cases h2
  have h0F : opEntry 0x0F = some ⟨.ext0F, 0, false⟩ := by decide
  cases hd with
  | @one pfx p op1 o a hp hb h1 he =>
    cases hi with
    | plain hp' hb' h1' h2' hf =>
      obtain ⟨rfl, rfl, rfl⟩ := pfx_unique hb hb' hp hp' (hop he) h1'
      exact ⟨rfl, fun _ => Or.inl ⟨_, he, rfl⟩, fun h => (by cases h), Or.inl ⟨hf, rfl, rfl⟩⟩
    | rm hp' hb' h1' h2' hf ha =>
      obtain ⟨rfl, rfl, rfl⟩ := pfx_unique hb hb' hp hp' (hop he) h1'
      exact ⟨rfl, fun _ => Or.inl ⟨_, he, rfl⟩, fun h => (by cases h), Or.inr ⟨hf, _, ha, rfl⟩⟩
    | plain0F hp' hb' hf =>
      obtain ⟨rfl, rfl, rfl⟩ := pfx_unique hb hb' hp hp' (hop he) (by decide)
      rw [h0F] at he; cases he
    | rm0F hp' hb' hf ha =>
      obtain ⟨rfl, rfl, rfl⟩ := pfx_unique hb hb' hp hp' (hop he) (by decide)
      rw [h0F] at he; cases he
  | @grp pfx p op1 m o a hp hb h1 he =>
    have hm : ByteAt s (pfx.length + 1) m := hb.right 1 (by simp)
    cases hi with
    | plain hp' hb' h1' h2' hf =>
      obtain ⟨rfl, rfl, rfl⟩ := pfx_unique hb hb' hp hp' (hop he) h1'
      exact ⟨rfl, fun _ => Or.inr ⟨_, m, he, hm, rfl⟩, fun h => (by cases h), Or.inl ⟨hf, rfl, rfl⟩⟩
    | rm hp' hb' h1' h2' hf ha =>
      obtain ⟨rfl, rfl, rfl⟩ := pfx_unique hb hb' hp hp' (hop he) h1'
      exact ⟨rfl, fun _ => Or.inr ⟨_, m, he, hm, rfl⟩, fun h => (by cases h), Or.inr ⟨hf, _, ha, rfl⟩⟩
    | plain0F hp' hb' hf =>
      obtain ⟨rfl, rfl, rfl⟩ := pfx_unique hb hb' hp hp' (hop he) (by decide)
      rw [h0F] at he; cases he
    | rm0F hp' hb' hf ha =>
      obtain ⟨rfl, rfl, rfl⟩ := pfx_unique hb hb' hp hp' (hop he) (by decide)
      rw [h0F] at he; cases he
  | @ext pfx p op1 o a b hp hb he =>
    have hm : ByteAt s (pfx.length + 1) op1 := hb.right 1 (by simp)
    cases hi with
    | plain hp' hb' h1' h2' hf =>
      obtain ⟨rfl, rfl, rfl⟩ := pfx_unique hb hb' hp hp' (by decide) h1'
      exact absurd rfl h2'
    | rm hp' hb' h1' h2' hf ha =>
      obtain ⟨rfl, rfl, rfl⟩ := pfx_unique hb hb' hp hp' (by decide) h1'
      exact absurd rfl h2'
    | plain0F hp' hb' hf =>
      obtain ⟨rfl, rfl, _⟩ := pfx_unique hb hb' hp hp' (by decide) (by decide)
      have := ByteAt.inj hm (hb'.right 1 (by simp))
      subst this
      exact ⟨rfl, fun h => (by cases h), fun _ => ⟨b, he⟩, Or.inl ⟨hf, rfl, rfl⟩⟩
    | rm0F hp' hb' hf ha =>
      obtain ⟨rfl, rfl, _⟩ := pfx_unique hb hb' hp hp' (by decide) (by decide)
      have := ByteAt.inj hm (hb'.right 1 (by simp))
      subst this
      exact ⟨rfl, fun h => (by cases h), fun _ => ⟨b, he⟩, Or.inr ⟨hf, _, ha, rfl⟩⟩

theorem regOf_eq (m : BitVec 8) : (m >>> 3).setWidth 3 = regOf m := ofByte_rrr m

/-- The form of the opcode function agrees with the manual, except PUSH imm with prefix 66. -/
theorem form_table {s : State} {p p' k o a two op r n} (hd : Dec s p k o a) (hn : o.isPrefix = false) (hi : InstrAt s p' two op r n)
    (h68 : ¬ (two = false ∧ op = 0x68 ∧ p'.oper = true)) (hc : o.ctl a = false) {k'} (hq : QForm s p k (o.form a) k') : k' = n := by
  obtain ⟨rfl, h1, h2, h3⟩ := dec_instr hd hn hi
  have aux : ∀ {f : Bool × ImmKind}, ((f.1 = false ∧ r = 0 ∧ n = k + immLen p f.2) ∨ (f.1 = true ∧ ∃ j, AddrAt s p k r j ∧ n = k + j + immLen p f.2)) →
      (o.form a = f ∨ (f = (false, .z) ∧ o.form a = (false, .w) ∧ p.oper = false)) → k' = n := by
    rintro f h (rfl | ⟨rfl, h4, h5⟩)
    · rcases h with ⟨h, _, h6⟩ | ⟨h, j, h6, h7⟩
      · simp only [QForm, h, Bool.false_eq_true, if_false] at hq
        omega
      · simp only [QForm, h, if_true] at hq
        obtain ⟨r', n', h8, h9⟩ := hq
        have := (AddrAt.unique h6 h8).2
        omega
    · rcases h with ⟨_, _, h6⟩ | ⟨h, _⟩
      · simp only [QForm, h4, Bool.false_eq_true, if_false] at hq
        simp [immLen, h5] at *
        omega
      · cases h
  cases two with
  | false =>
    simp only [Bool.false_eq_true, if_false] at h3
    rcases h1 rfl with ⟨a', he, rfl⟩ | ⟨a', m, he, hm, rfl⟩
    · have t1 : ∀ b, chk (fun b e => e.modrm || (match e.fn with
          | .base o => o.isPrefix || o.ctl e.arg || decide (o.form e.arg = opForm b 0) || (b == 0x68 && decide (opForm b 0 = (false, .z)) && decide (o.form e.arg = (false, .w)))
          | _ => true)) b = true := by decide +kernel
      have t2 : ∀ r b, chk (fun b e => e.modrm || decide (opForm b r = opForm b 0)) b = true := by decide +kernel
      have e1 := chk_some (t1 op) he
      have e2 := chk_some (t2 r op) he
      simp [hc, hn] at e1 e2
      rw [e2] at h3
      refine aux h3 ?_
      rcases e1 with e1 | ⟨⟨e1, e3⟩, e4⟩
      · exact Or.inl e1
      · refine Or.inr ⟨e3, e4, ?_⟩
        cases ho : p.oper
        · rfl
        · exact absurd ⟨rfl, e1, ho⟩ h68
    · rw [regOf_eq] at *
      have t1 : ∀ r b, chk (fun b e => !e.modrm || (match e.fn with
          | .base o => (opForm b r).1 && (o.isPrefix || o.ctl r || decide (o.form r = opForm b r))
          | _ => true)) b = true := by decide +kernel
      have e1 := chk_some (t1 (regOf m) op) he
      simp [hc, hn] at e1
      have e0 := chk_some (t1 0 op) he
      simp [hn] at e0
      rcases h3 with ⟨h3, _⟩ | ⟨h3, j, h4, h5⟩
      · have e2 : (opForm op 0).1 = true := e0.1
        rw [e2] at h3; cases h3
      · have : r = regOf m := by
          obtain ⟨m', sib, hm', hr, _⟩ := h4
          rw [← hr, ByteAt.inj hm hm']
        subst this
        exact aux (f := opForm op (regOf m)) (Or.inr ⟨h3, j, h4, h5⟩) (Or.inl e1.2)
  | true =>
    simp only [if_true] at h3
    obtain ⟨m, he⟩ := h2 rfl
    have t1 : ∀ b, chkF (fun b e => match e.fn with
        | .base o => o.isPrefix || o.ctl e.arg || decide (o.form e.arg = opForm0F b)
        | _ => true) b = true := by decide +kernel
    have e1 := chkF_some (t1 op) he
    simp [hc, hn] at e1
    exact aux h3 (Or.inl e1)

/-- Transfers and segment loads. -/
theorem transfer_table {s : State} {p p' k o a two op r n} (hd : Dec s p k o a) (hn : o.isPrefix = false) (hi : InstrAt s p' two op r n)
    (ht : isTransfer two op r = false) : o.ctl a = false ∧ (o ≠ .movSR → o.segs a .cs = false) ∧ (o = .movSR → AddrAt s p k r (n - k) ∧ r ≠ 1) ∧
      (o.isDiv a = true → isDivide two op r = true) := by
  obtain ⟨rfl, h1, h2, h3⟩ := dec_instr hd hn hi
  cases two with
  | false =>
    simp only [Bool.false_eq_true, if_false] at h3
    rcases h1 rfl with ⟨a', he, rfl⟩ | ⟨a', m, he, hm, rfl⟩
    · have t1 : ∀ r b, chk (fun b e => e.modrm || (match e.fn with
          | .base o => o.isPrefix || isTransfer false b r || (!o.ctl e.arg && (decide (o = .movSR) || !o.segs e.arg .cs) &&
              (!decide (o = .movSR) || decide ((opForm b r) = (true, .none) ∧ (opForm b 0).1 = true ∧ r ≠ 1)) && (!o.isDiv e.arg || isDivide false b r))
          | _ => true)) b = true := by decide +kernel
      have e1 := chk_some (t1 r op) he
      simp only [Bool.false_eq_true, false_or, ht, hn, Bool.or_eq_true, Bool.and_eq_true, Bool.not_eq_true', decide_eq_true_eq] at e1
      obtain ⟨⟨⟨h5, h6⟩, h7⟩, h8⟩ := e1
      refine ⟨h5, fun hne => h6.resolve_left hne, fun he => ?_, fun hdv => by rcases h8 with h8 | h8; (rw [hdv] at h8; cases h8); exact h8⟩
      rcases h7 with h7 | ⟨h7, h9, h10⟩
      · exact absurd he (by simpa using h7)
      · rcases h3 with ⟨h3, _⟩ | ⟨_, j, h4, h5⟩
        · rw [h9] at h3; cases h3
        · rw [h7] at h5
          simp only [immLen] at h5
          rw [show n - k = j by omega]
          exact ⟨h4, h10⟩
    · rw [regOf_eq] at *
      have t1 : ∀ r b, chk (fun b e => !e.modrm || (match e.fn with
          | .base o => (opForm b r).1 && (o.isPrefix || isTransfer false b r || (!o.ctl r && !decide (o = .movSR) && !o.segs r .cs && (!o.isDiv r || isDivide false b r)))
          | _ => true)) b = true := by decide +kernel
      have e0 := chk_some (t1 0 op) he
      simp [hn] at e0
      have : r = regOf m := by
        rcases h3 with ⟨h3, _⟩ | ⟨h3, j, h4, h5⟩
        · have e2 : (opForm op 0).1 = true := e0.1
          rw [e2] at h3; cases h3
        · obtain ⟨m', sib, hm', hr, _⟩ := h4
          rw [← hr, ByteAt.inj hm hm']
      subst this
      have e1 := chk_some (t1 (regOf m) op) he
      simp [ht, hn] at e1
      exact ⟨e1.2.1.1.1, fun _ => e1.2.1.2, fun h => absurd h e1.2.1.1.2, fun hdv => by rcases e1.2.2 with h8 | h8; (rw [hdv] at h8; cases h8); exact h8⟩
  | true =>
    obtain ⟨m, he⟩ := h2 rfl
    have t1 : ∀ b, chkF (fun b e => match e.fn with
        | .base o => o.isPrefix || isTransfer true b 0 || (!o.ctl e.arg && !decide (o = .movSR) && !o.segs e.arg .cs && !o.isDiv e.arg)
        | _ => true) b = true := by decide +kernel
    have e1 := chkF_some (t1 op) he
    have ht : isTransfer true op 0 = false := ht
    simp only [ht, hn, Bool.or_eq_true, Bool.and_eq_true, Bool.not_eq_true', decide_eq_false_iff_not, Bool.false_eq_true, false_or] at e1
    exact ⟨e1.1.1.1, fun _ => e1.1.2, fun h => absurd h e1.1.1.2, fun h => by rw [e1.2] at h; cases h⟩

end RME
