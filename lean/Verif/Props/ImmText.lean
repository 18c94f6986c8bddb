import Verif.Lemmas.ImmText
import Verif.Spec.ImmText
import Verif.Props.OperandText
import Verif.Props.Call
set_option autoImplicit false
/-
C93: the operands in the code as shown in the trace.
-/
namespace RME.Trace

theorem hexPad_value {w n : Nat} (h : n < 4294967296) : valueOf 16 (hexPad w n) = some n := by
  rw [hexPad, valueOf_zeros]
  exact hexDigits_value 8 n (by omega) (by decide)

theorem hexPad_ne (w n : Nat) : 0 < (hexPad w n).length := by
  have : hexText n ≠ [] := by
    simp only [hexText, hexDigits]
    split <;> simp
  have := List.length_pos_iff.2 this
  simp only [hexPad, List.length_append]; omega

theorem hexPad_len {w n : Nat} (h : n < 4294967296) (hw : w ≤ 8) : (hexPad w n).length ≤ 8 := by
  have : (hexText n).length ≤ 8 := hexDigits_len 8 8 n (by omega) (by decide)
  simp only [hexPad, List.length_append, List.length_replicate]; omega

theorem num_any (pre : String) (w n : Nat) (h : n < 4294967296) (hw : w ≤ 8) : HexAny pre n (num pre w n) :=
  ⟨_, hexPad_ne w n, hexPad_len h hw, _, ⟨rfl, hexPad_value h⟩, rfl⟩

theorem num_text (pre : String) {w n : Nat} (h : n < 16 ^ w) (h0 : 0 < w) (h8 : w ≤ 8) : HexText pre w n (num pre w n) :=
  ⟨_, hexPad_field h h0 h8, rfl⟩

theorem num16 (pre : String) (v : BitVec 16) : HexText pre 4 v.toNat (num pre 4 v.toNat) := ⟨_, hexPad16 v, rfl⟩
theorem num8 (pre : String) (v : BitVec 8) : HexText pre 2 v.toNat (num pre 2 v.toNat) := ⟨_, hexPad08 v, rfl⟩

theorem leVal_lt : ∀ l : List (BitVec 8), leVal l < 256 ^ l.length := by
  intro l
  induction l with
  | nil => exact Nat.one_pos
  | cons b bs ih =>
    have := b.isLt
    rw [leVal, List.length_cons, Nat.pow_succ]
    omega

theorem leVal2 (a b : BitVec 8) : BitVec.ofNat 16 (leVal [a, b]) = le16 a b := by
  apply BitVec.eq_of_toNat_eq
  have := a.isLt; have := b.isLt
  rw [BitVec.toNat_ofNat, le16, BitVec.toNat_append, ← Nat.shiftLeft_add_eq_or_of_lt a.isLt]
  simp only [leVal, Nat.shiftLeft_eq]; omega

theorem len2 {l : List (BitVec 8)} (h : l.length = 2) : ∃ a b, l = [a, b] := by
  cases l with
  | nil => cases h
  | cons a l => cases l with
    | nil => cases h
    | cons b l => cases l with
      | nil => exact ⟨a, b, rfl⟩
      | cons c l => simp at h

/-! ### The text of a function -/

/-- If `m` ends, its text is `b`. -/
def Tx (m : M (List Char)) (env : Env) (u : State) (b : List Char) : Prop := ∀ x t, m env u = .ok x t → x = b

theorem Tx.quiet (m : M Unit) (env : Env) (u : State) : Tx (quiet m) env u [] := by
  intro x t h
  simp only [Trace.quiet, bind_apply] at h
  cases hm : m env u with
  | ok y v => rw [hm] at h; cases h; rfl
  | err e v => rw [hm] at h; cases h
  | ub v => rw [hm] at h; cases h

theorem Tx.say {a b : List Char} {m : M (List Char)} {env : Env} {u : State} (h : Tx m env u b) : Tx (say a m) env u (a ++ b) := by
  intro x t h1
  simp only [Trace.say, bind_apply] at h1
  cases hm : m env u with
  | ok y v => rw [hm] at h1; cases h1; rw [h _ _ hm]
  | err e v => rw [hm] at h1; cases h1
  | ub v => rw [hm] at h1; cases h1

theorem Tx.sayq (a : List Char) (m : M Unit) (env : Env) (u : State) : Tx (Trace.say a (Trace.quiet m)) env u a := by
  have := (Tx.quiet m env u).say (a := a)
  rwa [List.append_nil] at this

/-- A function reading its operand from the code, then printing. -/
theorem Tx.fetch {α : Type} {m : M α} {k : α → M (List Char)} {env : Env} {u v : State} {x : α} {b : List Char} (h : m env u = .ok x v) (hk : Tx (k x) env v b) :
    Tx (m >>= k) env u b := by
  intro y t h1
  simp only [bind_apply, h, resbind_ok] at h1
  exact hk y t h1

theorem Tx.withW {f : Nat → M (List Char)} {env : Env} {s : State} {p : Pfx} {j : Nat} {b : List Char}
    (h : Tx (f (p.bytes * 8)) env (opState s p j) b) : Tx (withW f) env (opState s p j) b := by
  intro x t h1
  simp only [RME.withW, bind_apply, getDec_apply, resbind_ok, ite_apply] at h1
  have e : (opState s p j).dec.ovrOper = p.oper := rfl
  rw [e] at h1
  rw [Pfx.bytes] at h
  cases hp : p.oper with
  | true => rw [hp] at h h1; exact h x t h1
  | false => rw [hp] at h h1; exact h x t h1

/-! ### Instructions -/

/-- The instruction `code` runs an opcode function that ends the prefix loop and whose text is as `ImmText` says. -/
def Typed (s : State) (h0 : Nat) (p : Pfx) (code : List (BitVec 8)) : Prop :=
  ∃ op rest e a, code = op :: rest ∧ op ≠ 0xF1 ∧ opEntry op = some e ∧ paramOf e rest[0]? = some a ∧
    ∀ bytes j, CodeAt s h0 bytes → Sub bytes j rest → ∀ other env,
      (∀ t, callFn e.fn a env (opState s p j) ≠ .err .cont t) ∧ ∀ x t, callFnT other e.fn a env (opState s p j) = .ok x t → ImmText s p code x

theorem Typed.base {s : State} {h0 : Nat} {p : Pfx} {op : BitVec 8} {rest : List (BitVec 8)} (o : Op) (a : BitVec 3) (hop : op ≠ 0xF1)
    (he : opEntry op = some ⟨.base o, a, false⟩) (hnp : o.isPrefix = false)
    (h : ∀ bytes j, CodeAt s h0 bytes → Sub bytes j rest → ∀ other env, ∃ b, ImmText s p (op :: rest) b ∧ Tx (opFnT other o a) env (opState s p j) b) :
    Typed s h0 p (op :: rest) :=
  ⟨op, rest, _, a, rfl, hop, he, rfl, fun bytes j hc hs other env => ⟨fun t => noCont o a env _ t hnp, fun x t hx => by
    obtain ⟨b, h1, h2⟩ := h bytes j hc hs other env
    rw [h2 x t hx]; exact h1⟩⟩

theorem jcc_entries : ∀ op : BitVec 8, (0x70 ≤ op.toNat ∧ op.toNat < 0x80 → op ≠ 0xF1 ∧ opEntry op = some ⟨.base (.jccS (condOf (op.setWidth 4))), 0, false⟩) ∧
    (0x80 ≤ op.toNat ∧ op.toNat < 0x90 → opEntry0F op = some ⟨.base (.jccN (condOf (op.setWidth 4))), 0, false⟩) := by decide +kernel
theorem alu_entries : ∀ op : BitVec 8, (op.toNat < 0x40 ∧ op.toNat % 8 = 4 → op ≠ 0xF1 ∧ opEntry op = some ⟨.base (.alu (aluOfNum ((op >>> 3).setWidth 3)) .AI), 0, false⟩) ∧
    (op.toNat < 0x40 ∧ op.toNat % 8 = 5 → op ≠ 0xF1 ∧ opEntry op = some ⟨.base (.alu (aluOfNum ((op >>> 3).setWidth 3)) .AIX), 0, false⟩) := by decide +kernel
theorem mov_entries : ∀ r : BitVec 3, opEntry (0xB0 + r.setWidth 8) = some ⟨.base .movRegB, r, false⟩ ∧ opEntry (0xB8 + r.setWidth 8) = some ⟨.base .movReg, r, false⟩ ∧
    (0xB0 + r.setWidth 8 : BitVec 8) ≠ 0xF1 ∧ (0xB8 + r.setWidth 8 : BitVec 8) ≠ 0xF1 := by decide +kernel

theorem nameB_reg : ∀ r : BitVec 3, IsReg8 (nameB r) r := by unfold IsReg8; decide +kernel
theorem nameX_reg (p : Pfx) : ∀ r : BitVec 3, IsRegW (nameX p.oper r) p r := by
  simp only [IsRegW, Pfx.bytes]
  cases p.oper
  · decide +kernel
  · decide +kernel

theorem acc_text (p : Pfx) : " ".toList ++ accX (p.bytes * 8) = (accName p).toList := by
  simp only [Pfx.bytes, accName]
  cases p.oper <;> rfl

theorem acc_text' (p : Pfx) : " ".toList ++ accX (if p.oper then 32 else 16) = (accName p).toList := by
  simp only [accName]
  cases p.oper <;> rfl

theorem acc_num (p : Pfx) (w n : Nat) : " ".toList ++ accX (p.bytes * 8) ++ num " 0x" w n = num (accName p ++ " 0x") w n := by
  rw [acc_text, num, num, String.toList_append, List.append_assoc]

theorem width_num (pre : String) (p : Pfx) {imm : List (BitVec 8)} (h : imm.length = p.bytes) :
    HexText pre (2 * p.bytes) (leVal imm) (num pre (p.bytes * 8 / 4) (BitVec.ofNat (p.bytes * 8) (leVal imm)).toNat) := by
  have hl := leVal_lt imm
  rw [h] at hl
  have e : (256 : Nat) ^ p.bytes = 2 ^ (p.bytes * 8) := by rw [show (256 : Nat) = 2 ^ 8 by decide, ← Nat.pow_mul, Nat.mul_comm]
  rw [BitVec.toNat_ofNat, Nat.mod_eq_of_lt (by rw [← e]; exact hl), show p.bytes * 8 / 4 = 2 * p.bytes by omega]
  have e2 : (16 : Nat) ^ (2 * p.bytes) = 256 ^ p.bytes := by rw [Nat.pow_mul]
  have hb : p.bytes = 4 ∨ p.bytes = 2 := by simp only [Pfx.bytes]; split <;> simp
  exact num_text _ (by rw [e2]; exact hl) (by omega) (by omega)

theorem fetchW {s : State} {h0 : Nat} {bytes : List (BitVec 8)} (hc : CodeAt s h0 bytes) (env : Env) (p : Pfx) (j : Nat) {imm : List (BitVec 8)}
    (h : imm.length = p.bytes) (hs : Sub bytes j imm) :
    readInstr (p.bytes * 8) env (opState s p j) = .ok (BitVec.ofNat (p.bytes * 8) (leVal imm)) (opState s p (j + p.bytes)) := by
  have hb : p.bytes = 4 ∨ p.bytes = 2 := by simp only [Pfx.bytes]; split <;> simp
  have := fetchN hc env p (p.bytes * 8) j (by omega) (l := imm) (by omega) hs
  rwa [show p.bytes * 8 / 8 = p.bytes by omega] at this

/-- The memory operand of the moffs forms reads as the place used. -/
theorem moffs_text {s : State} {h0 : Nat} {bytes : List (BitVec 8)} (hc : CodeAt s h0 bytes) (env : Env) (p : Pfx) (j : Nat) {ofs : List (BitVec 8)}
    (h : ofs.length = (if p.addr then 4 else 2)) (hs : Sub bytes j ofs) :
    ∃ q m j', moffsT env (opState s p j) = .ok (q, m) (opState s p j') ∧ readMemText s m = some (s.sreg (p.seg.getD .ds), BitVec.ofNat 32 (leVal ofs)) ∧
      m.length ≤ 16 := by
  have e1 : (opState s p j).dec.ovrSeg = p.seg := rfl
  have e2 : (opState s p j).dec.ovrAddr = p.addr := rfl
  have rd : ∀ (v : BitVec 32), readMemText s (" ".toList ++ segName (p.seg.getD .ds) ++ ":[0x".toList ++ hexText v.toNat ++ "]".toList) = some (s.sreg (p.seg.getD .ds), v) := by
    intro v
    have := seg_head s (p.seg.getD .ds) _ v (SumIs.disp s v)
    rw [← this]
    congr 1
    generalize hexText v.toNat = x
    simp
  have hl := leVal_lt ofs
  have len : ∀ (n : Nat), n < 4294967296 → (" ".toList ++ segName (p.seg.getD .ds) ++ ":[0x".toList ++ hexText n ++ "]".toList).length ≤ 16 := by
    intro n hn
    have h1 : (hexText n).length ≤ 8 := hexDigits_len 8 8 n (by omega) (by decide)
    have h2 : (segName (p.seg.getD .ds)).length = 2 := by cases p.seg.getD .ds <;> rfl
    simp only [List.length_append, h2, show (" ".toList).length = 1 from rfl, show (":[0x".toList).length = 4 from rfl, show ("]".toList).length = 1 from rfl]
    omega
  simp only [moffsT, segUsed, getSegment, bind_apply, getDec_apply, resbind_ok, pure_apply, getSreg_apply, ite_apply, e1, e2]
  cases ha : p.addr with
  | true =>
    rw [ha] at h
    have hr := fetchN hc env p 32 j (by decide) (l := ofs) h hs
    simp only [if_true, hr, resbind_ok]
    exact ⟨_, _, _, rfl, rd _, len _ (BitVec.isLt _)⟩
  | false =>
    rw [ha] at h
    have hr := fetchN hc env p 16 j (by decide) (l := ofs) h hs
    simp only [Bool.false_eq_true, if_false, hr, resbind_ok]
    refine ⟨_, _, _, rfl, ?_, len _ (by have := (BitVec.ofNat 16 (leVal ofs)).isLt; omega)⟩
    have := rd (BitVec.ofNat 32 (leVal ofs))
    rw [h] at hl
    simp only [Bool.false_eq_true, if_false] at hl
    rw [BitVec.toNat_ofNat, Nat.mod_eq_of_lt (by omega)] at this
    rw [BitVec.toNat_ofNat, Nat.mod_eq_of_lt (by omega)]
    exact this

/-- The address of XLAT. -/
theorem xlat_mem (s : State) (p : Pfx) :
    readMemText s (" ".toList ++ segName (p.seg.getD .ds) ++ (if p.addr then ":[EBX+AL]" else ":[BX+AL]").toList) =
      some (s.sreg (p.seg.getD .ds), (if p.addr then s.gpr 3 else s.gpr 3 % 65536) + s.gpr 0 % 256) ∧
    (" ".toList ++ segName (p.seg.getD .ds) ++ (if p.addr then ":[EBX+AL]" else ":[BX+AL]").toList).length ≤ 13 := by
  have hal : SumIs s "AL".toList (s.gpr 0 % 256) := .single (by decide) rfl
  have h1 : SumIs s "EBX+AL".toList (s.gpr 3 + s.gpr 0 % 256) := SumIs.add (a := "EBX".toList) (by decide) (nameD_facts s 3).2.2.2 hal
  have h2 : SumIs s "BX+AL".toList (s.gpr 3 % 65536 + s.gpr 0 % 256) := SumIs.add (a := "BX".toList) (by decide) (W_term s).1 hal
  cases p.addr with
  | true =>
    have := seg_head s (p.seg.getD .ds) _ _ h1
    refine ⟨?_, by cases p.seg.getD .ds <;> decide⟩
    rw [List.append_assoc] at this
    exact this
  | false =>
    have := seg_head s (p.seg.getD .ds) _ _ h2
    refine ⟨?_, by cases p.seg.getD .ds <;> decide⟩
    rw [List.append_assoc] at this
    exact this

theorem ImmText.typed {s : State} {h0 : Nat} {p : Pfx} {code : List (BitVec 8)} {b0 : List Char} (hi : ImmText s p code b0) : Typed s h0 p code := by
  cases hi with
  | jcc op d t h =>
    obtain ⟨h1, h2⟩ := (jcc_entries op).1 h
    exact .base _ _ h1 h2 rfl fun bytes j hc hs other env => ⟨_, .jcc op d _ h (num16 _ _), .fetch (fetch8S hc env p 16 j hs.head) (Tx.sayq _ _ env _)⟩
  | jccNear op lo hi t h =>
    have h2 := (jcc_entries op).2 h
    refine ⟨0x0F, _, ⟨.ext0F, 0, false⟩, 0, rfl, by decide, by decide, rfl, fun bytes j hc hs other env => ?_⟩
    refine ⟨fun t ht => ?_, fun x t hx => ?_⟩
    · simp only [callFn, ext0F_run hc env p hs.head h2] at ht
      exact noCont _ _ env _ _ rfl ht
    · simp only [callFnT, ext0FT, bind_apply, fetch8 hc env p j hs.head, resbind_ok, h2] at hx
      have := Tx.fetch (fetch16 hc env p (j + 1) hs.tail.head hs.tail.tail.head) (Tx.sayq _ _ env _) x t hx
      rw [this]
      exact .jccNear op lo hi _ h (num16 _ _)
  | loop op d t h =>
    have hop : op = 0xE0 ∨ op = 0xE1 ∨ op = 0xE2 ∨ op = 0xE3 := by
      have : op.toNat = 0xE0 ∨ op.toNat = 0xE1 ∨ op.toNat = 0xE2 ∨ op.toNat = 0xE3 := by omega
      rcases this with h | h | h | h
      · exact .inl (BitVec.eq_of_toNat_eq h)
      · exact .inr (.inl (BitVec.eq_of_toNat_eq h))
      · exact .inr (.inr (.inl (BitVec.eq_of_toNat_eq h)))
      · exact .inr (.inr (.inr (BitVec.eq_of_toNat_eq h)))
    have hn : (dist8 d).toNat < 4294967296 := by have := (dist8 d).isLt; omega
    obtain ⟨e0, e1, e2, e3⟩ := loop_entry
    rcases hop with rfl | rfl | rfl | rfl
    · exact .base _ _ (by decide) e0 rfl fun bytes j hc hs other env => ⟨_, .loop _ d _ h (num_any _ 2 _ hn (by decide)), .fetch (fetch8S hc env p 16 j hs.head) (Tx.sayq _ _ env _)⟩
    · exact .base _ _ (by decide) e1 rfl fun bytes j hc hs other env => ⟨_, .loop _ d _ h (num_any _ 2 _ hn (by decide)), .fetch (fetch8S hc env p 16 j hs.head) (Tx.sayq _ _ env _)⟩
    · exact .base _ _ (by decide) e2 rfl fun bytes j hc hs other env => ⟨_, .loop _ d _ h (num_any _ 2 _ hn (by decide)), .fetch (fetch8S hc env p 16 j hs.head) (Tx.sayq _ _ env _)⟩
    · exact .base _ _ (by decide) e3 rfl fun bytes j hc hs other env => ⟨_, .loop _ d _ h (num_any _ 2 _ hn (by decide)), .fetch (fetch8S hc env p 16 j hs.head) (Tx.sayq _ _ env _)⟩
  | xlat t m h =>
    exact .base _ _ (by decide) (by decide +kernel : opEntry 0xD7 = some ⟨.base .xlat, 0, false⟩) rfl fun bytes j hc hs other env =>
      ⟨_, .xlat _ _ (xlat_mem s p).1 (xlat_mem s p).2 rfl, fun x t hx => by
        simp only [opFnT, xlatT, segUsed, bind_apply, getDec_apply, resbind_ok, pure_apply] at hx
        exact Tx.sayq _ _ env _ x t hx⟩
  | jmpShort d t h =>
    have hn : (dist8 d).toNat < 4294967296 := by have := (dist8 d).isLt; omega
    exact .base .jmpS 0 (by decide) (by decide +kernel) rfl fun bytes j hc hs other env =>
      ⟨_, .jmpShort d _ (num_any _ 2 _ hn (by decide)), .fetch (fetch8S hc env p 16 j hs.head) (Tx.sayq _ _ env _)⟩
  | near op lo hi t h =>
    rcases h with rfl | rfl
    · exact .base .callN 0 (by decide) (by decide +kernel) rfl fun bytes j hc hs other env =>
        ⟨_, .near _ lo hi _ (.inl rfl) (num16 _ _), .fetch (fetch16 hc env p j hs.head hs.tail.head) (Tx.sayq _ _ env _)⟩
    · exact .base .jmpN 0 (by decide) (by decide +kernel) rfl fun bytes j hc hs other env =>
        ⟨_, .near _ lo hi _ (.inr rfl) (num16 _ _), .fetch (fetch16 hc env p j hs.head hs.tail.head) (Tx.sayq _ _ env _)⟩
  | far op a b c d t x y h =>
    rcases h with rfl | rfl
    · exact .base .callF 0 (by decide) (by decide +kernel) rfl fun bytes j hc hs other env =>
        ⟨_, .far _ a b c d _ _ _ (.inl rfl) (num16 _ _) (num16 _ _) rfl, .fetch (fetch16 hc env p j hs.head hs.tail.head)
          (.fetch (fetch16 hc env p (j + 2) hs.tail.tail.head hs.tail.tail.tail.head) (Tx.sayq _ _ env _))⟩
    · exact .base .jmpF 0 (by decide) (by decide +kernel) rfl fun bytes j hc hs other env =>
        ⟨_, .far _ a b c d _ _ _ (.inr rfl) (num16 _ _) (num16 _ _) rfl, .fetch (fetch16 hc env p j hs.head hs.tail.head)
          (.fetch (fetch16 hc env p (j + 2) hs.tail.tail.head hs.tail.tail.tail.head) (Tx.sayq _ _ env _))⟩
  | int n t h =>
    have hn : n.toNat < 4294967296 := by have := n.isLt; omega
    have hx : HexAny " 0x" n.toNat (" 0x".toList ++ hexText n.toNat) := by
      refine ⟨_, ?_, hexDigits_len 8 8 _ (by omega) (by decide), _, ⟨rfl, hexDigits_value 8 _ (by omega) (by decide)⟩, rfl⟩
      have := hexPad_ne 0 n.toNat
      rwa [hexPad, Nat.zero_sub, List.replicate_zero, List.nil_append] at this
    exact .base .intI 0 (by decide) (by decide +kernel) rfl fun bytes j hc hs other env =>
      ⟨_, .int n _ hx, .fetch (fetch8 hc env p j hs.head) (Tx.sayq _ _ env _)⟩
  | enter lo hi lv t x y =>
    have hlv : (lv &&& 31).toNat = lv.toNat % 32 := by
      rw [BitVec.toNat_and]
      exact Nat.and_two_pow_sub_one_eq_mod lv.toNat 5
    have hd : valueOf 10 (decDigits 10 (lv &&& 31).toNat) = some (lv.toNat % 32) := by
      rw [hlv]
      exact decDigits_value 10 _ (by omega) (by decide)
    have hd2 : (decDigits 10 (lv &&& 31).toNat).length ≤ 2 := by
      have : ∀ n, n < 32 → (decDigits 10 n).length ≤ 2 := by decide +kernel
      exact this _ (by rw [hlv]; omega)
    refine .base .enter 0 (by decide) (by decide +kernel) rfl fun bytes j hc hs other env =>
      ⟨num " 0x" 4 (le16 lo hi).toNat ++ (" ".toList ++ decDigits 10 (lv &&& 31).toNat), .enter lo hi lv _ _ _ (num16 _ _) hd (decDigits_ne _ _ (by decide)) hd2 rfl, ?_⟩
    exact .fetch (fetch16 hc env p j hs.head hs.tail.head) (.say (.fetch (fetch8 hc env p (j + 2) hs.tail.tail.head) (Tx.sayq _ _ env _)))
  | push16 lo hi t h =>
    exact .base .pushI 0 (by decide) (by decide +kernel) rfl fun bytes j hc hs other env =>
      ⟨_, .push16 lo hi _ (num16 _ _), .fetch (fetch16 hc env p j hs.head hs.tail.head) (Tx.sayq _ _ env _)⟩
  | push8 d t h =>
    have hn : (d.signExtend 32).toNat < 4294967296 := (d.signExtend 32).isLt
    exact .base .pushI8 0 (by decide) (by decide +kernel) rfl fun bytes j hc hs other env =>
      ⟨_, .push8 d _ (num_any _ 2 _ hn (by decide)), .fetch (fetch8S hc env p 32 j hs.head) (Tx.sayq _ _ env _)⟩
  | mov8 r d t name x =>
    exact .base .movRegB r (mov_entries r).2.2.1 (mov_entries r).1 rfl fun bytes j hc hs other env =>
      ⟨_, .mov8 r d _ (nameB r) _ (nameB_reg r) (num8 _ _) rfl, .fetch (fetch8 hc env p j hs.head) (.say (Tx.sayq _ _ env _))⟩
  | mov r imm t name x hl =>
    refine .base .movReg r (mov_entries r).2.2.2 (mov_entries r).2.1 rfl fun bytes j hc hs other env =>
      ⟨_, .mov r imm _ (nameX p.oper r) _ hl (nameX_reg p r) (width_num _ p hl) rfl, ?_⟩
    exact .fetch (getDec_apply env _) (.withW (.fetch (fetchW hc env p j hl hs) (.say (Tx.sayq _ _ env _))))
  | alu8 op d t h =>
    rcases h with h | rfl
    · obtain ⟨h1, h2⟩ := (alu_entries op).1 h
      exact .base _ _ h1 h2 rfl fun bytes j hc hs other env => ⟨_, .alu8 op d _ (.inl h) (num8 _ _), .fetch (fetch8 hc env p j hs.head) (Tx.sayq _ _ env _)⟩
    · exact .base .testAI 0 (by decide) (by decide +kernel) rfl fun bytes j hc hs other env =>
        ⟨_, .alu8 _ d _ (.inr rfl) (num8 _ _), .fetch (fetch8 hc env p j hs.head) (Tx.sayq _ _ env _)⟩
  | alu op imm t h hl =>
    rcases h with h | rfl
    · obtain ⟨h1, h2⟩ := (alu_entries op).2 h
      refine .base _ _ h1 h2 rfl fun bytes j hc hs other env => ⟨_, .alu op imm _ (.inl h) hl (width_num _ p hl), ?_⟩
      rw [← acc_num]
      exact .withW (f := fun n => readInstr n >>= fun v => say (" ".toList ++ accX n ++ num " 0x" (n / 4) v.toNat) (quiet (aluApply _ n (.reg rAX) v))) (.fetch (fetchW hc env p j hl hs) (Tx.sayq _ _ env _))
    · refine .base .testAIX 0 (by decide) (by decide +kernel) rfl fun bytes j hc hs other env => ⟨_, .alu _ imm _ (.inr rfl) hl (width_num _ p hl), ?_⟩
      rw [← acc_num]
      exact .withW (f := fun n => readInstr n >>= fun v => say (" ".toList ++ accX n ++ num " 0x" (n / 4) v.toNat) (quiet (testApply n (.reg rAX) v))) (.fetch (fetchW hc env p j hl hs) (Tx.sayq _ _ env _))
  | in8 n t x =>
    exact .base .inAI 0 (by decide) (by decide +kernel) rfl fun bytes j hc hs other env =>
      ⟨_, .in8 n _ _ (num8 _ _) rfl, .fetch (fetch8 hc env p j hs.head) (Tx.sayq _ _ env _)⟩
  | inW n t x =>
    refine .base .inAIX 0 (by decide) (by decide +kernel) rfl fun bytes j hc hs other env => ⟨_, .inW n _ _ (num8 _ _) rfl, ?_⟩
    rw [← acc_text]
    exact .fetch (fetch8 hc env p j hs.head) (.say (.withW (Tx.sayq _ _ env _)))
  | out8 n t =>
    exact .base .outAI 0 (by decide) (by decide +kernel) rfl fun bytes j hc hs other env =>
      ⟨_, .out8 n _ (num8 _ _), .fetch (fetch8 hc env p j hs.head) (Tx.sayq _ _ env _)⟩
  | outW n t =>
    refine .base .outAIX 0 (by decide) (by decide +kernel) rfl fun bytes j hc hs other env => ⟨_, .outW n _ (num8 _ _), ?_⟩
    rw [← acc_num]
    exact .fetch (fetch8 hc env p j hs.head) (.withW (Tx.sayq _ _ env _))
  | movFrom op ofs t m h hl =>
    rcases h with rfl | rfl
    · refine .base .movAMo 0 (by decide) (by decide +kernel) rfl fun bytes j hc hs other env => ?_
      obtain ⟨q, m, j', h1, h2, h3⟩ := moffs_text hc env p j hl hs
      exact ⟨_, .movFrom _ ofs _ m (.inl rfl) hl h2 h3 rfl, .fetch h1 (.say (Tx.sayq _ _ env _))⟩
    · refine .base .movAMoX 0 (by decide) (by decide +kernel) rfl fun bytes j hc hs other env => ?_
      obtain ⟨q, m, j', h1, h2, h3⟩ := moffs_text hc env p j hl hs
      refine ⟨_, .movFrom _ ofs _ m (.inr rfl) hl h2 h3 rfl, ?_⟩
      rw [if_neg (by decide), ← acc_text']
      exact .fetch (getDec_apply env _) (.fetch h1 (.say (Tx.sayq _ _ env _)))
  | movTo op ofs t m h hl =>
    rcases h with rfl | rfl
    · refine .base .movMoA 0 (by decide) (by decide +kernel) rfl fun bytes j hc hs other env => ?_
      obtain ⟨q, m, j', h1, h2, h3⟩ := moffs_text hc env p j hl hs
      exact ⟨_, .movTo _ ofs _ m (.inl rfl) hl h2 h3 rfl, .fetch h1 (.say (Tx.sayq _ _ env _))⟩
    · refine .base .movMoAX 0 (by decide) (by decide +kernel) rfl fun bytes j hc hs other env => ?_
      obtain ⟨q, m, j', h1, h2, h3⟩ := moffs_text hc env p j hl hs
      refine ⟨_, .movTo _ ofs _ m (.inr rfl) hl h2 h3 rfl, ?_⟩
      rw [if_neg (by decide), ← acc_text']
      exact .fetch (getDec_apply env _) (.fetch h1 (.say (Tx.sayq _ _ env _)))

/-! ### The decode loop -/

theorem decodeAll_prefixes (other : Op → BitVec 3 → List Char) (env : Env) (s : State) : ∀ (pfx : List (BitVec 8)) (p q : Pfx) (k fuel : Nat) (acc : List Char),
    (∀ i (hi : i < pfx.length), ByteAt s (k + i) pfx[i]) → p.parse pfx = some q →
    decodeAll other (pfx.length + fuel) acc env (opState s p k) = decodeAll other fuel (joined acc pfx) env (opState s q (k + pfx.length)) := by
  intro pfx
  induction pfx with
  | nil =>
    intro p q k fuel acc _ hp
    simp [Pfx.parse] at hp
    subst hp
    simp [joined]
  | cons b bs ih =>
    intro p q k fuel acc hb hp
    simp only [Pfx.parse, Option.bind_eq_some_iff] at hp
    obtain ⟨p1, h1, h2⟩ := hp
    have hb0 : ByteAt s k b := hb 0 (by simp)
    obtain ⟨hF1, e, he, hm, hf⟩ := Pfx.add_cases h1
    have hcall : callFnT other e.fn e.arg env (opState s p (k + 1)) = .err .cont (opState s p1 (k + 1)) := by
      have h3 := callFnT_erase other e.fn e.arg env (opState s p (k + 1))
      rw [hf env _ (k + 1) rfl] at h3
      cases h4 : callFnT other e.fn e.arg env (opState s p (k + 1)) with
      | ok x t => rw [h4] at h3; cases h3
      | ub u => rw [h4] at h3; cases h3
      | err e' t => rw [h4] at h3; cases h3; rfl
    rw [show (b :: bs).length + fuel = (bs.length + fuel) + 1 by simp; omega, decodeAll]
    simp only [fetch8_at hb0, if_neg hF1, he, fetchParam, hm, Bool.false_eq_true, if_false, pure_apply, hcall]
    rw [ih p1 q (k + 1) fuel _ (fun i hi => by
      have := hb (i + 1) (by simp; omega)
      rw [show k + 1 + i = k + (i + 1) by omega]; simpa using this) h2, List.append_assoc, prefix_text h1 he]
    rw [show k + 1 + bs.length = k + (b :: bs).length by simp; omega]
    rfl

theorem codeAt_byteAt {s : State} {h0 : Nat} {bytes : List (BitVec 8)} (h : CodeAt s h0 bytes) (i : Nat) (hi : i < bytes.length) : ByteAt s i bytes[i] :=
  ⟨h0 + i, h i hi⟩

/-- The decode loop over the bytes of one instruction whose text is known. -/
theorem decodeAll_code {s : State} {h0 : Nat} {pfx : List (BitVec 8)} {op : BitVec 8} {rest : List (BitVec 8)} {e : Entry} {a : BitVec 3} {p : Pfx}
    {other : Op → BitVec 3 → List Char} {env : Env} {x : List Char × BitVec 8} {t : State}
    (hc : CodeAt s h0 (pfx ++ op :: rest)) (hp : Pfx.parse {} pfx = some p) (hF1 : op ≠ 0xF1) (he : opEntry op = some e) (ha : paramOf e rest[0]? = some a)
    {P : List Char → State → Prop}
    (hrun : ∀ bytes j, CodeAt s h0 bytes → Sub bytes j rest →
      (∀ t, callFn e.fn a env (opState s p j) ≠ .err .cont t) ∧ ∀ x t, callFnT other e.fn a env (opState s p j) = .ok x t → P x t)
    (h : decodeAll other 6 [] env (opState s {} 0) = .ok x t) :
    ∃ body, P body t ∧ decodeText body 6 [] env (opState s {} 0) = .ok x t := by
  have hlen : pfx.length ≤ 4 := by
    have := Pfx.parse_count hp; have := p.count_le; simp [Pfx.count] at *; omega
  have hpb : ∀ i (hi : i < pfx.length), ByteAt s (0 + i) pfx[i] := by
    intro i hi
    have := codeAt_byteAt hc i (by simp; omega)
    rw [List.getElem_append_left hi] at this
    simpa using this
  have hop : ByteAt s pfx.length op := by
    have := codeAt_byteAt hc pfx.length (by simp)
    simpa using this
  obtain ⟨fuel, hf⟩ : ∃ f, 6 = pfx.length + (f + 1) := ⟨5 - pfx.length, by omega⟩
  have hsub : Sub (pfx ++ op :: rest) (pfx.length + 1) rest := (Sub.of_append pfx (op :: rest)).tail
  obtain ⟨hn, htx⟩ := hrun _ _ hc hsub
  have hpar := fetchParam_code (hc.op p (pfx.length + 1)) env (pfx.length + 1) rfl e a (by
    rw [List.getElem?_append_right (by omega)]
    simpa using ha)
  rw [hf, decodeAll_prefixes other env s pfx {} p 0 (fuel + 1) [] hpb hp, Nat.zero_add] at h
  rw [decodeAll] at h
  simp only [fetch8_at hop, if_neg hF1, he, hpar] at h
  have herase := callFnT_erase other e.fn a env (opState s p (pfx.length + 1))
  cases h5 : callFnT other e.fn a env (opState s p (pfx.length + 1)) with
  | ub u => rw [h5] at h; cases h
  | err e' t3 =>
    rw [h5] at h herase
    cases e' <;> first | (cases h; done) | exact absurd herase.symm (hn t3)
  | ok body t3 =>
    rw [h5] at h herase
    cases h
    refine ⟨body, htx _ _ h5, ?_⟩
    rw [hf, decodeText_prefixes body env s pfx {} p 0 (fuel + 1) [] hpb hp, Nat.zero_add, decodeText]
    simp only [fetch8_at hop, if_neg hF1, he, hpar, ← herase]
    rfl

/-- The decode loop over an instruction with its operands in the code. -/
theorem decodeAll_typed {s : State} {h0 : Nat} {pfx code : List (BitVec 8)} {p : Pfx} {other : Op → BitVec 3 → List Char} {env : Env} {x : List Char × BitVec 8} {t : State}
    (hc : CodeAt s h0 (pfx ++ code)) (hp : Pfx.parse {} pfx = some p) (ht : Typed s h0 p code)
    (h : decodeAll other 6 [] env (opState s {} 0) = .ok x t) :
    ∃ body, ImmText s p code body ∧ decodeText body 6 [] env (opState s {} 0) = .ok x t := by
  obtain ⟨op, rest, e, a, rfl, hF1, he, ha, hrun⟩ := ht
  exact decodeAll_code (P := fun b _ => ImmText s p _ b) hc hp hF1 he ha (fun bytes j hc hs => hrun bytes j hc hs other env) h

/-- What instructions with their operands in the code are called. -/
theorem ImmText.named {s : State} {p : Pfx} {code : List (BitVec 8)} {b : List Char} (hi : ImmText s p code b) :
    ∃ two op rest, code = (if two then [0x0F, op] else [op]) ++ rest ∧ (two = false → isGroup op = false) ∧ manual two op 0 ≠ [] ∧
      (two = true → op ≠ 0xB6 ∧ op ≠ 0xB7 ∧ op ≠ 0xBA) ∧ isStringInstr two op = false := by
  have one : ∀ (op : BitVec 8) (rest : List (BitVec 8)), isGroup op = false ∧ manual false op 0 ≠ [] ∧ isStringInstr false op = false →
      ∃ two op' rest', op :: rest = (if two then [0x0F, op'] else [op']) ++ rest' ∧ (two = false → isGroup op' = false) ∧ manual two op' 0 ≠ [] ∧
      (two = true → op' ≠ 0xB6 ∧ op' ≠ 0xB7 ∧ op' ≠ 0xBA) ∧ isStringInstr two op' = false := fun op rest h => ⟨false, op, rest, rfl, fun _ => h.1, h.2.1, (fun h => by cases h), h.2.2⟩
  have tab : ∀ op : BitVec 8, (0x70 ≤ op.toNat ∧ op.toNat < 0x80 ∨ 0xE0 ≤ op.toNat ∧ op.toNat < 0xE4 ∨ op.toNat < 0x40 ∧ op.toNat % 8 = 4 ∨ op.toNat < 0x40 ∧ op.toNat % 8 = 5) →
      isGroup op = false ∧ manual false op 0 ≠ [] ∧ isStringInstr false op = false := by decide +kernel
  have tab2 : ∀ op : BitVec 8, 0x80 ≤ op.toNat ∧ op.toNat < 0x90 → manual true op 0 ≠ [] ∧ (op ≠ 0xB6 ∧ op ≠ 0xB7 ∧ op ≠ 0xBA) ∧ isStringInstr true op = false := by decide +kernel
  have tab3 : ∀ r : BitVec 3, (isGroup (0xB0 + r.setWidth 8) = false ∧ manual false (0xB0 + r.setWidth 8) 0 ≠ [] ∧ isStringInstr false (0xB0 + r.setWidth 8) = false) ∧
      (isGroup (0xB8 + r.setWidth 8) = false ∧ manual false (0xB8 + r.setWidth 8) 0 ≠ [] ∧ isStringInstr false (0xB8 + r.setWidth 8) = false) := by decide +kernel
  cases hi with
  | jcc op d t h => exact one _ _ (tab op (.inl h))
  | jccNear op lo hi t h => exact ⟨true, op, [lo, hi], rfl, (fun h => by cases h), (tab2 op h).1, fun _ => (tab2 op h).2.1, (tab2 op h).2.2⟩
  | loop op d t h => exact one _ _ (tab op (.inr (.inl h)))
  | alu8 op d t h =>
    rcases h with h | rfl
    · exact one _ _ (tab op (.inr (.inr (.inl h))))
    · exact one _ _ (by decide +kernel)
  | alu op imm t h =>
    rcases h with h | rfl
    · exact one _ _ (tab op (.inr (.inr (.inr h))))
    · exact one _ _ (by decide +kernel)
  | mov8 r d t name x => exact one _ _ (tab3 r).1
  | mov r imm t name x => exact one _ _ (tab3 r).2
  | near op lo hi t h => rcases h with rfl | rfl <;> exact one _ _ (by decide +kernel)
  | far op a b c d t x y h => rcases h with rfl | rfl <;> exact one _ _ (by decide +kernel)
  | movFrom op ofs t m h => rcases h with rfl | rfl <;> exact one _ _ (by decide +kernel)
  | movTo op ofs t m h => rcases h with rfl | rfl <;> exact one _ _ (by decide +kernel)
  | _ => exact one _ _ (by decide +kernel)

/-- The complete line is the line of C92 with a text of the operands. -/
theorem doOpcodeAll_full {other : Op → BitVec 3 → List Char} {env : Env} {s t : State} {text : List Char} (h : doOpcodeAll other env s = .ok text t)
    {Q : List Char → Prop} (hr : Ready s)
    (hd : ∀ x u, decodeAll other 6 [] env (opState s {} 0) = .ok x u → ∃ body, Q body ∧ decodeText body 6 [] env (opState s {} 0) = .ok x u) :
    ∃ body, Q body ∧ doOpcodeFull body env s = .ok text t := by
  simp only [doOpcodeAll, bind_apply, getIP_apply, getSreg_apply, resbind_ok, startInstr, INT_MAX] at h
  rw [if_neg hr.counter] at h
  simp only [resbind_ok, gets_apply] at h
  have goal : ∀ body, decodeText body 6 [] env (opState s {} 0) = decodeAll other 6 [] env (opState s {} 0) → doOpcodeFull body env s = .ok text t := by
    intro body hb
    simp only [doOpcodeFull, bind_apply, getIP_apply, getSreg_apply, resbind_ok, startInstr, INT_MAX]
    rw [if_neg hr.counter]
    simp only [resbind_ok, gets_apply]
    generalize (if s.debugLevel > 0 then _ else [] : List Char) = head at h ⊢
    have e1 : ({ s with dec := decReset, instrNum := s.instrNum + 1 } : State) = opState s {} 0 := rfl
    rw [e1] at h ⊢
    rw [hb]
    exact h
  cases h1 : decodeAll other 6 [] env (opState s {} 0) with
  | err e t =>
    have e1 : ({ s with dec := decReset, instrNum := s.instrNum + 1 } : State) = opState s {} 0 := rfl
    generalize (if s.debugLevel > 0 then _ else [] : List Char) = head at h
    rw [e1, h1] at h; cases h
  | ub u =>
    have e1 : ({ s with dec := decReset, instrNum := s.instrNum + 1 } : State) = opState s {} 0 := rfl
    generalize (if s.debugLevel > 0 then _ else [] : List Char) = head at h
    rw [e1, h1] at h; cases h
  | ok x u =>
    obtain ⟨body, hq, hb⟩ := hd x u h1
    exact ⟨body, hq, goal body (hb.trans h1.symm)⟩

/-- C93: printing changes nothing: with the complete line, operands included, the step has the outcome it has without. -/
theorem C93_text_of_step (other : Op → BitVec 3 → List Char) (env : Env) (s : State) :
    (doOpcodeAll other env s).bind (fun _ t => .ok () t) = doOpcode env s := by
  rw [← C92_text_of_step [] env s]
  simp only [doOpcodeAll, doOpcodeFull, bind_apply, getIP_apply, getSreg_apply, resbind_ok, startInstr]
  split
  · rfl
  simp only [resbind_ok, gets_apply]
  generalize (if s.debugLevel > 0 then _ else [] : List Char) = head
  generalize ({ s with dec := decReset, instrNum := s.instrNum + 1 } : State) = q
  have key : ∀ fuel acc s, (∀ x t, decodeAll other fuel acc env s = .ok x t → ∃ y, decodeText [] fuel acc env s = .ok (y, x.2) t) ∧
      (∀ e t, decodeAll other fuel acc env s = .err e t → decodeText [] fuel acc env s = .err e t) ∧
      (∀ u, decodeAll other fuel acc env s = .ub u → decodeText [] fuel acc env s = .ub u) := by
    intro fuel
    induction fuel with
    | zero => intro acc s; exact ⟨fun x t h => (by cases h), fun e t h => (by cases h), fun u h => h⟩
    | succ fuel ih =>
      intro acc s
      simp only [decodeAll, decodeText]
      cases h1 : readInstr 8 env s with
      | err e t => exact ⟨fun x t h => (by cases h), fun e t h => h, fun u h => h⟩
      | ub u => exact ⟨fun x t h => (by cases h), fun e t h => h, fun u h => h⟩
      | ok op t =>
        simp only
        by_cases h2 : op = 0xF1
        · rw [if_pos h2, if_pos h2]; exact ⟨fun x t h => (by cases h), fun e t h => h, fun u h => h⟩
        rw [if_neg h2, if_neg h2]
        cases h3 : opEntry op with
        | none => exact ⟨fun x t h => (by cases h), fun e t h => h, fun u h => h⟩
        | some e =>
          simp only
          cases h4 : fetchParam e env t with
          | err e t => exact ⟨fun x t h => (by cases h), fun e t h => h, fun u h => h⟩
          | ub u => exact ⟨fun x t h => (by cases h), fun e t h => h, fun u h => h⟩
          | ok a t2 =>
            simp only
            have he := callFnT_erase other e.fn a env t2
            cases h5 : callFnT other e.fn a env t2 with
            | ub u => rw [h5] at he; rw [← he]; exact ⟨fun x t h => (by cases h), fun e t h => h, fun u h => h⟩
            | ok b t3 => rw [h5] at he; rw [← he]; exact ⟨fun x t h => (by cases h; exact ⟨_, rfl⟩), fun e t h => (by cases h), fun u h => (by cases h)⟩
            | err e' t3 =>
              rw [h5] at he; rw [← he]
              cases e' <;> first | exact ih _ _ | exact ⟨fun x t h => (by cases h), fun e t h => h, fun u h => h⟩
  obtain ⟨k1, k2, k3⟩ := key 6 [] q
  cases h : decodeAll other 6 [] env q with
  | err e t => rw [k2 e t h]
  | ub u => rw [k3 u h]
  | ok x t =>
    obtain ⟨y, hy⟩ := k1 x t h
    obtain ⟨names, op⟩ := x
    rw [hy]
    simp only [resbind_ok, getDec_apply]
    generalize (if t.debugLevel > 0 then _ else [] : List Char) = warn
    cases h1 : advanceIP env t with
    | err e t => rfl
    | ub u => rfl
    | ok _ t1 =>
      simp only [resbind_ok]
      cases h2 : nullCheckTail (s.sreg .cs) s.ip env t1 with
      | err e t => rfl
      | ub u => rfl
      | ok _ t2 =>
        simp only [resbind_ok, ite_apply, bind_apply]
        split
        · simp only [getDec_apply, resbind_ok]
          cases h3 : traceBytes (s.sreg .cs) t2.dec.ipOffset s.ip env t2 <;> rfl
        · rfl

end RME.Trace
