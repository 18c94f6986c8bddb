import Verif.Props.ImmText
import Verif.Props.Move
set_option autoImplicit false
/-
C93: the operands in the code as shown in the trace, and what the instruction does.
-/
namespace RME.Trace

theorem regName8 (r : BitVec 3) : ∃ n, IsReg8 n r := ⟨_, nameB_reg r⟩
theorem regNameW (p : Pfx) (r : BitVec 3) : ∃ n, IsRegW n p r := ⟨_, nameX_reg p r⟩

theorem eq_of_range {op : BitVec 8} {a : Nat} (h : a ≤ op.toNat ∧ op.toNat < a + 4) (h8 : a < 252) :
    op = BitVec.ofNat 8 a ∨ op = BitVec.ofNat 8 (a + 1) ∨ op = BitVec.ofNat 8 (a + 2) ∨ op = BitVec.ofNat 8 (a + 3) := by
  have e : ∀ k, k < 256 → op.toNat = k → op = BitVec.ofNat 8 k := fun k hk he => BitVec.eq_of_toNat_eq (by rw [BitVec.toNat_ofNat, he]; omega)
  have : op.toNat = a ∨ op.toNat = a + 1 ∨ op.toNat = a + 2 ∨ op.toNat = a + 3 := by omega
  rcases this with h | h | h | h
  · exact .inl (e _ (by omega) h)
  · exact .inr (.inl (e _ (by omega) h))
  · exact .inr (.inr (.inl (e _ (by omega) h)))
  · exact .inr (.inr (.inr (e _ (by omega) h)))

/-- Every such instruction has a text. -/
theorem ImmCode.text {p : Pfx} {code : List (BitVec 8)} (h : ImmCode p code) (s : State) : ∃ b, ImmText s p code b := by
  have dec2 : ∀ n, n < 32 → (decDigits 10 n).length ≤ 2 := by decide +kernel
  have mem : ∀ ofs : List (BitVec 8), ∃ m, readMemText s m = some (s.sreg (p.seg.getD .ds), BitVec.ofNat 32 (leVal ofs)) ∧ m.length ≤ 16 := by
    intro ofs
    refine ⟨_, seg_head s (p.seg.getD .ds) _ _ (SumIs.disp s (BitVec.ofNat 32 (leVal ofs))), ?_⟩
    have h1 : (hexText (BitVec.ofNat 32 (leVal ofs)).toNat).length ≤ 8 := hexDigits_len 8 8 _ (by have := (BitVec.ofNat 32 (leVal ofs)).isLt; omega) (by decide)
    have h2 : (segName (p.seg.getD .ds)).length = 2 := by cases p.seg.getD .ds <;> rfl
    simp only [List.length_append, h2, show (" ".toList).length = 1 from rfl, show (":[".toList).length = 2 from rfl, show ("0x".toList).length = 2 from rfl, show ("]".toList).length = 1 from rfl]
    omega
  cases h with
  | jcc op d h => exact ⟨_, .jcc op d _ h (num16 _ _)⟩
  | jccNear op lo hi h => exact ⟨_, .jccNear op lo hi _ h (num16 _ _)⟩
  | loop op d h => exact ⟨_, .loop op d _ h (num_any _ 2 _ (by have := (dist8 d).isLt; omega) (by decide))⟩
  | xlat => exact ⟨_, .xlat _ _ (xlat_mem s p).1 (xlat_mem s p).2 rfl⟩
  | jmpShort d => exact ⟨_, .jmpShort d _ (num_any _ 2 _ (by have := (dist8 d).isLt; omega) (by decide))⟩
  | near op lo hi h => exact ⟨_, .near op lo hi _ h (num16 _ _)⟩
  | far op a b c d h => exact ⟨_, .far op a b c d _ _ _ h (num16 _ _) (num16 _ _) rfl⟩
  | int n => exact ⟨_, .int n _ (num_any _ 2 _ (by have := n.isLt; omega) (by decide))⟩
  | enter lo hi lv => exact ⟨_, .enter lo hi lv _ _ _ (num16 _ _) (decDigits_value 10 (lv.toNat % 32) (by omega) (by decide)) (decDigits_ne _ _ (by decide)) (dec2 _ (by omega)) rfl⟩
  | push16 lo hi => exact ⟨_, .push16 lo hi _ (num16 _ _)⟩
  | push8 d => exact ⟨_, .push8 d _ (num_any _ 2 _ (d.signExtend 32).isLt (by decide))⟩
  | mov8 r d => obtain ⟨n, hn⟩ := regName8 r; exact ⟨_, .mov8 r d _ n _ hn (num8 _ _) rfl⟩
  | mov r imm h => obtain ⟨n, hn⟩ := regNameW p r; exact ⟨_, .mov r imm _ n _ h hn (width_num _ p h) rfl⟩
  | alu8 op d h => exact ⟨_, .alu8 op d _ h (num8 _ _)⟩
  | alu op imm h hl => exact ⟨_, .alu op imm _ h hl (width_num _ p hl)⟩
  | port op n h =>
    rcases eq_of_range (a := 0xE4) h (by decide) with rfl | rfl | rfl | rfl
    · exact ⟨_, .in8 n _ _ (num8 _ _) rfl⟩
    · exact ⟨_, .inW n _ _ (num8 _ _) rfl⟩
    · exact ⟨_, .out8 n _ (num8 _ _)⟩
    · exact ⟨_, .outW n _ (num8 _ _)⟩
  | moffs op ofs h hl =>
    obtain ⟨m, hm, hm2⟩ := mem ofs
    rcases eq_of_range (a := 0xA0) h (by decide) with rfl | rfl | rfl | rfl
    · exact ⟨_, .movFrom _ ofs _ m (.inl rfl) hl hm hm2 rfl⟩
    · exact ⟨_, .movFrom _ ofs _ m (.inr rfl) hl hm hm2 rfl⟩
    · exact ⟨_, .movTo _ ofs _ m (.inl rfl) hl hm hm2 rfl⟩
    · exact ⟨_, .movTo _ ofs _ m (.inr rfl) hl hm hm2 rfl⟩

/-- `text` is the trace line of the instruction `code` with the prefixes `pfx` and the operands `body`: number, stack pointer and address, the prefixes, a mnemonic of the
manual, the operands (cut after 62 characters), the bytes. -/
def ShowsLine (s : State) (p : Pfx) (pfx code : List (BitVec 8)) (body text : List Char) : Prop :=
  ∃ two op rest mid x mnem bs, code = (if two then [0x0F, op] else [op]) ++ rest ∧
    HexField 2 x (if two then (0x0F : BitVec 8) else op).toNat ∧ readMnemonic mnem ∈ manual two op 0 ∧ mnem.length ≤ 18 ∧
    mid = warningText p.rep x ++ " ".toList ++ visible (pfx.flatMap (fun b => prefixShown b ++ " ".toList) ++ mnem ++ body) ∧
    TraceLine text mid (s.instrNum.toNat + 1) (s.sreg .cs) s.ip bs

/-- C93: the trace line of an instruction with its operands in the code, at debug level 1: after number, stack pointer and address it has the mnemonic of the
instruction and then the operands, in the instruction's order, with the values in the code: `ImmText`.  Partial as `C92_names_partial`: if prefixes, mnemonic
and operands have more than 63 characters the line is cut. -/
theorem C93_shown_partial {other : Op → BitVec 3 → List Char} {env : Env} {s t : State} {text : List Char} {h0 : Nat} {pfx code : List (BitVec 8)} {p : Pfx}
    (hr : Ready s) (hi0 : 0 ≤ s.instrNum) (hn : s.instrNum < 2147483647) (hl : 1 ≤ s.debugLevel) (hl' : 1 ≤ t.debugLevel)
    (hcb : CallbacksKeep env (fun s t => t.dec = s.dec))
    (hc : CodeAt s h0 (pfx ++ code)) (hp : Pfx.parse {} pfx = some p) (hi : ImmCode p code)
    (h : doOpcodeAll other env s = .ok text t) : ∃ body, ImmText s p code body ∧ ShowsLine s p pfx code body text := by
  obtain ⟨b0, hb0⟩ := ImmCode.text hi s
  obtain ⟨two, op, rest, hcode, hg, hm, hx, hst⟩ := ImmText.named hb0
  obtain ⟨body, hq, hfull⟩ := doOpcodeAll_full h hr fun x u hu => decodeAll_typed hc hp (ImmText.typed hb0) hu
  have hat : NamedAt s pfx two op 0 := by
    refine ⟨⟨p, hp⟩, ?_, fun h1 h2 => by rw [hg h1] at h2; cases h2⟩
    intro i hi
    have hlen : i < (pfx ++ code).length := by
      rw [hcode, ← List.append_assoc, List.length_append]; omega
    have := codeAt_byteAt hc i hlen
    have e : (pfx ++ code)[i] = (pfx ++ if two then [0x0F, op] else [op])[i] := by
      simp only [hcode, ← List.append_assoc]
      exact List.getElem_append_left hi
    rwa [e] at this
  obtain ⟨mid, x, mnem, bs, h1, h2, h3, h4, h5, _⟩ := C92_names_partial hr hi0 hn hl hl' hcb hat hp hm hx hfull
  rw [hst] at h4
  exact ⟨body, hq, two, op, rest, mid, x, mnem, bs, hcode, h1, h2, h3, h4, h5⟩

theorem ImmText.jcc_inv {s : State} {p : Pfx} {code : List (BitVec 8)} {b : List Char} (h : ImmText s p code b) {op d : BitVec 8} (hc : code = [op, d])
    (hr : 0x70 ≤ op.toNat ∧ op.toNat < 0x80) : HexText " .+0x" 4 (dist8 d).toNat b := by
  cases h <;> simp at hc
  case jcc op' d' h hx => obtain ⟨rfl, rfl⟩ := hc; exact hx
  all_goals exfalso
  all_goals obtain ⟨e, -⟩ := hc
  all_goals bv_omega

theorem ImmText.jccNear_inv {s : State} {p : Pfx} {code : List (BitVec 8)} {b : List Char} (h : ImmText s p code b) {op lo hi : BitVec 8} (hc : code = [0x0F, op, lo, hi])
    (hr : 0x80 ≤ op.toNat ∧ op.toNat < 0x90) : HexText " .+0x" 4 (le16 lo hi).toNat b := by
  cases h <;> simp at hc
  case jccNear op' lo' hi' h hx => obtain ⟨rfl, rfl, rfl⟩ := hc; exact hx
  all_goals exfalso
  all_goals obtain ⟨e, -⟩ := hc
  all_goals bv_omega

theorem ImmText.loop_inv {s : State} {p : Pfx} {code : List (BitVec 8)} {b : List Char} (h : ImmText s p code b) {op d : BitVec 8} (hc : code = [op, d])
    (hr : 0xE0 ≤ op.toNat ∧ op.toNat < 0xE4) : HexAny " .+0x" (dist8 d).toNat b := by
  cases h <;> simp at hc
  case loop op' d' h hx => obtain ⟨rfl, rfl⟩ := hc; exact hx
  all_goals exfalso
  all_goals obtain ⟨e, -⟩ := hc
  all_goals bv_omega

theorem ImmText.jmpShort_inv {s : State} {p : Pfx} {code : List (BitVec 8)} {b : List Char} (h : ImmText s p code b) {d : BitVec 8} (hc : code = [0xEB, d]) :
    HexAny " .+0x" (dist8 d).toNat b := by
  cases h <;> simp at hc
  case jmpShort d' hx => subst hc; exact hx
  all_goals exfalso
  all_goals obtain ⟨e, -⟩ := hc
  all_goals bv_omega

theorem ImmText.near_inv {s : State} {p : Pfx} {code : List (BitVec 8)} {b : List Char} (h : ImmText s p code b) {op lo hi : BitVec 8} (hc : code = [op, lo, hi])
    (hr : op = 0xE8 ∨ op = 0xE9) : HexText " .+0x" 4 (le16 lo hi).toNat b := by
  cases h <;> simp at hc
  case near op' lo' hi' h hx => obtain ⟨rfl, rfl, rfl⟩ := hc; exact hx
  all_goals exfalso
  all_goals obtain ⟨e, -⟩ := hc
  all_goals bv_omega

theorem ImmText.far_inv {s : State} {p : Pfx} {code : List (BitVec 8)} {t : List Char} (h : ImmText s p code t) {op a b c d : BitVec 8} (hc : code = [op, a, b, c, d])
    (hr : op = 0x9A ∨ op = 0xEA) : ∃ x y, HexField 4 x (le16 c d).toNat ∧ HexField 4 y (le16 a b).toNat ∧ t = " 0x".toList ++ x ++ ":".toList ++ y := by
  cases h <;> simp at hc
  case far op' a' b' c' d' x y h hx hy e =>
    obtain ⟨rfl, rfl, rfl, rfl, rfl⟩ := hc
    obtain ⟨x, hx, rfl⟩ := hx
    obtain ⟨y, hy, rfl⟩ := hy
    exact ⟨x, y, hx, hy, by rw [e]; simp only [List.append_assoc]⟩
  all_goals exfalso
  all_goals obtain ⟨e, -⟩ := hc
  all_goals bv_omega

theorem ImmText.mov_inv {s : State} {p : Pfx} {code : List (BitVec 8)} {t : List Char} (h : ImmText s p code t) {r : BitVec 3} {imm : List (BitVec 8)}
    (hc : code = (0xB8 + r.setWidth 8) :: imm) :
    ∃ name x, IsRegW name p r ∧ HexField (2 * p.bytes) x (leVal imm) ∧ t = ' ' :: name ++ (" 0x".toList ++ x) := by
  cases h <;> simp at hc
  case mov r' imm' name x hl hn hx e =>
    obtain ⟨e', rfl⟩ := hc
    obtain rfl : r' = r := by bv_omega
    obtain ⟨x, hx, rfl⟩ := hx
    exact ⟨name, x, hn, hx, e⟩
  all_goals exfalso
  all_goals obtain ⟨e, -⟩ := hc
  all_goals bv_omega

theorem HexText.len {pre : String} {w n : Nat} {t : List Char} (h : HexText pre w n t) : t.length = pre.toList.length + w := by
  obtain ⟨x, ⟨h1, _⟩, rfl⟩ := h
  rw [List.length_append, h1]

theorem HexAny.len {pre : String} {n : Nat} {t : List Char} (h : HexAny pre n t) : t.length ≤ pre.toList.length + 8 := by
  obtain ⟨w, _, hw, h⟩ := h
  rw [HexText.len h]; omega

theorem reg_len {name : List Char} {v : BitVec 3 × Nat × Nat} (h : regByName name = some v) : name.length ≤ 3 := by
  rw [regByName, Option.map_eq_some_iff] at h
  obtain ⟨a, h, -⟩ := h
  have h1 := List.mem_of_find?_eq_some h
  have h2 := List.find?_some h
  have e : a.1 = name := by simpa using h2
  have tab : ∀ a ∈ (([("AL", 0, 0, 8), ("CL", 1, 0, 8), ("DL", 2, 0, 8), ("BL", 3, 0, 8), ("AH", 0, 8, 8), ("CH", 1, 8, 8), ("DH", 2, 8, 8), ("BH", 3, 8, 8),
     ("AX", 0, 0, 16), ("CX", 1, 0, 16), ("DX", 2, 0, 16), ("BX", 3, 0, 16), ("SP", 4, 0, 16), ("BP", 5, 0, 16), ("SI", 6, 0, 16), ("DI", 7, 0, 16),
     ("EAX", 0, 0, 32), ("ECX", 1, 0, 32), ("EDX", 2, 0, 32), ("EBX", 3, 0, 32), ("ESP", 4, 0, 32), ("EBP", 5, 0, 32), ("ESI", 6, 0, 32), ("EDI", 7, 0, 32)] :
     List (String × BitVec 3 × Nat × Nat)).map fun x => (x.1.toList, x.2)), a.1.length ≤ 3 := by decide +kernel
  rw [← e]
  exact tab a h1

theorem acc_len (p : Pfx) : (accName p).toList.length ≤ 4 := by
  rw [accName]; split <;> decide

/-- The text of the operands has at most 20 characters. -/
theorem ImmText.len {s : State} {p : Pfx} {code : List (BitVec 8)} {b : List Char} (h : ImmText s p code b) : b.length ≤ 20 := by
  have e : (" .+0x".toList).length = 5 ∧ (" 0x".toList).length = 3 ∧ (":".toList).length = 1 ∧ (" AL 0x".toList).length = 6 ∧ (" AL".toList).length = 3 ∧ ("0x".toList).length = 2 ∧ (" 0x".toList).length = 3 := by decide
  obtain ⟨e1, e2, e3, e4, e5, e6, e7⟩ := e
  have hp : p.bytes ≤ 4 := by rw [Pfx.bytes]; split <;> decide
  have ha := acc_len p
  cases h with
  | jcc op d t h hx => rw [HexText.len hx]; omega
  | jccNear op lo hi t h hx => rw [HexText.len hx]; omega
  | loop op d t h hx => have := HexAny.len hx; omega
  | jmpShort d t hx => have := HexAny.len hx; omega
  | near op lo hi t h hx => rw [HexText.len hx]; omega
  | far op a b c d t x y h h1 h2 h3 => subst h3; rw [List.length_append, HexText.len h1, HexText.len h2]; omega
  | int n t hx => have := HexAny.len hx; omega
  | enter lo hi lv t x y h1 h2 h3 h4 h5 => subst h5; rw [List.length_append, List.length_cons, HexText.len h1]; omega
  | push16 lo hi t hx => rw [HexText.len hx]; omega
  | push8 d t hx => have := HexAny.len hx; omega
  | mov8 r d t name x h1 h2 h3 => subst h3; have := reg_len h1; rw [List.length_append, List.length_cons, HexText.len h2]; omega
  | mov r imm t name x hl h1 h2 h3 => subst h3; have := reg_len h1; rw [List.length_append, List.length_cons, HexText.len h2]; omega
  | alu8 op d t h hx => rw [HexText.len hx]; omega
  | alu op imm t h hl hx => rw [HexText.len hx, String.toList_append, List.length_append]; omega
  | in8 n t x h1 h2 => subst h2; rw [List.length_append, HexText.len h1]; omega
  | inW n t x h1 h2 => subst h2; rw [List.length_append, HexText.len h1]; omega
  | out8 n t hx => rw [HexText.len hx]; omega
  | outW n t hx => rw [HexText.len hx, String.toList_append, List.length_append]; omega
  | xlat t m h1 h2 h3 => subst h3; rw [List.length_append, show (" AL,".toList).length = 4 from rfl]; omega
  | movFrom op ofs t m h hl h1 h2 h3 =>
    subst h3; rw [List.length_append]; split <;> omega
  | movTo op ofs t m h hl h1 h2 h3 =>
    subst h3; rw [List.length_append]; split <;> omega

/-- What is traced: the machine is at an instruction with its operands in the code, the step with its complete line succeeds, at debug level 1 or more. -/
structure Traced (other : Op → BitVec 3 → List Char) (env : Env) (s t : State) (h0 : Nat) (pfx code : List (BitVec 8)) (p : Pfx) (text : List Char) : Prop where
  ready : Ready s
  number : 0 ≤ s.instrNum ∧ s.instrNum < 2147483647
  level : 1 ≤ s.debugLevel
  level' : 1 ≤ t.debugLevel
  callbacks : CallbacksKeep env (fun s t => t.dec = s.dec)
  code : CodeAt s h0 (pfx ++ code)
  prefixes : Pfx.parse {} pfx = some p
  step : doOpcodeAll other env s = .ok text t

theorem Traced.shown {other : Op → BitVec 3 → List Char} {env : Env} {s t : State} {h0 : Nat} {pfx code : List (BitVec 8)} {p : Pfx} {text : List Char}
    (h : Traced other env s t h0 pfx code p text) (hi : ImmCode p code) : ∃ body, ImmText s p code body ∧ ShowsLine s p pfx code body text :=
  C93_shown_partial h.ready h.number.1 h.number.2 h.level h.level' h.callbacks h.code h.prefixes hi h.step

theorem Traced.at_ {other : Op → BitVec 3 → List Char} {env : Env} {s t : State} {h0 : Nat} {pfx code : List (BitVec 8)} {p : Pfx} {text : List Char}
    (h : Traced other env s t h0 pfx code p text) : At s h0 p code (pfx.length + code.length) := ⟨h.ready, pfx, h.prefixes, h.code, rfl⟩

/-- `RME_RunOne` does the traced step. -/
theorem Traced.runs {other : Op → BitVec 3 → List Char} {env : Env} {s t : State} {h0 : Nat} {pfx code : List (BitVec 8)} {p : Pfx} {text : List Char}
    (h : Traced other env s t h0 pfx code p text) : runOne env s = .ok () t := by
  rw [runOne_ready h.ready, ← C93_text_of_step other env s, h.step]
  rfl

theorem Traced.jumps {other : Op → BitVec 3 → List Char} {env : Env} {s t u : State} {h0 : Nat} {pfx code : List (BitVec 8)} {p : Pfx} {text : List Char} {ip : BitVec 16}
    (h : Traced other env s t h0 pfx code p text) (hj : Jumps env s ip u) : t.ip = ip ∧ t.sreg = u.sreg ∧ t.gpr = u.gpr := by
  obtain ⟨d, hd⟩ := hj
  rw [h.runs] at hd
  cases hd
  exact ⟨rfl, rfl, rfl⟩

/-- C93: with at most one prefix the line is never cut: after the warning and a blank it has the prefix, the mnemonic and all of the operands. -/
theorem C93_visible {other : Op → BitVec 3 → List Char} {env : Env} {s t : State} {h0 : Nat} {pfx code : List (BitVec 8)} {p : Pfx} {text : List Char}
    (h : Traced other env s t h0 pfx code p text) (hi : ImmCode p code) (h1 : pfx.length ≤ 1) :
    ∃ body two op rest x mnem bs, ImmText s p code body ∧ code = (if two then [0x0F, op] else [op]) ++ rest ∧
      HexField 2 x (if two then (0x0F : BitVec 8) else op).toNat ∧ readMnemonic mnem ∈ manual two op 0 ∧
      TraceLine text (warningText p.rep x ++ " ".toList ++ (pfx.flatMap (fun b => prefixShown b ++ " ".toList) ++ mnem ++ body))
        (s.instrNum.toNat + 1) (s.sreg .cs) s.ip bs := by
  obtain ⟨body, hb, two, op, rest, mid, x, mnem, bs, k1, k2, k3, k4, k5, k6⟩ := h.shown hi
  have hl := ImmText.len hb
  have hq := prefixes_len pfx
  rw [visible, if_pos (by simp only [List.length_append] at hq ⊢; omega)] at k5
  subst k5
  exact ⟨body, two, op, rest, x, mnem, bs, hb, k1, k2, k3, k6⟩

/-- C93: the distance shown for a conditional jump is the one it jumps by when its condition holds. -/
theorem C93_jcc {other : Op → BitVec 3 → List Char} {env : Env} {s t : State} {h0 : Nat} {pfx code : List (BitVec 8)} {p : Pfx} {text : List Char} {cc : BitVec 4}
    {d : BitVec 16} (h : Traced other env s t h0 pfx code p text) (he : JccEnc cc code d) :
    ∃ x, HexField 4 x d.toNat ∧ ShowsLine s p pfx code (" .+0x".toList ++ x) text ∧
      t.ip = s.ip + BitVec.ofNat 16 (pfx.length + code.length) + (if condHolds cc s.flags then d else 0) := by
  have hj := (h.jumps (C24_jcc h.at_ he env)).1
  have hc : ∀ c : BitVec 4, 0x70 ≤ (0x70 + c.setWidth 8 : BitVec 8).toNat ∧ (0x70 + c.setWidth 8 : BitVec 8).toNat < 0x80 ∧
      0x80 ≤ (0x80 + c.setWidth 8 : BitVec 8).toNat ∧ (0x80 + c.setWidth 8 : BitVec 8).toNat < 0x90 := by decide +kernel
  obtain ⟨c1, c2, c3, c4⟩ := hc cc
  have hip : t.ip = s.ip + BitVec.ofNat 16 (pfx.length + code.length) + (if condHolds cc s.flags then d else 0) := by
    rw [hj]; split
    · rfl
    · exact (BitVec.add_zero _).symm
  cases he with
  | short d =>
    obtain ⟨body, hb, hs⟩ := h.shown (.jcc _ d ⟨c1, c2⟩)
    obtain ⟨x, hx, rfl⟩ := ImmText.jcc_inv hb rfl ⟨c1, c2⟩
    exact ⟨x, hx, hs, hip⟩
  | near lo hi =>
    obtain ⟨body, hb, hs⟩ := h.shown (.jccNear _ lo hi ⟨c3, c4⟩)
    obtain ⟨x, hx, rfl⟩ := ImmText.jccNear_inv hb rfl ⟨c3, c4⟩
    exact ⟨x, hx, hs, hip⟩

/-- C93: the distance shown for LOOP, LOOPZ and LOOPNZ is the one it jumps by. -/
theorem C93_loop {other : Op → BitVec 3 → List Char} {env : Env} {s t : State} {h0 : Nat} {pfx : List (BitVec 8)} {op d : BitVec 8} {p : Pfx} {text : List Char}
    (hop : op = 0xE0 ∨ op = 0xE1 ∨ op = 0xE2) (h : Traced other env s t h0 pfx [op, d] p text) :
    ∃ body n, HexAny " .+0x" n body ∧ ShowsLine s p pfx [op, d] body text ∧
      t.ip = s.ip + BitVec.ofNat 16 (pfx.length + 2) + (if cxOf s - 1 ≠ 0 ∧ loopCond op s.flags then BitVec.ofNat 16 n else 0) := by
  have hr : 0xE0 ≤ op.toNat ∧ op.toNat < 0xE4 := by rcases hop with rfl | rfl | rfl <;> decide
  obtain ⟨body, hb, hs⟩ := h.shown (.loop op d hr)
  refine ⟨body, _, ImmText.loop_inv hb rfl hr, hs, ?_⟩
  rw [(h.jumps (C25_loop hop h.at_ env)).1, BitVec.ofNat_toNat, BitVec.setWidth_eq]
  split
  · rfl
  · exact (BitVec.add_zero _).symm

/-- C93: the distance shown for a short jump is the one it jumps by. -/
theorem C93_jmp_short {other : Op → BitVec 3 → List Char} {env : Env} {s t : State} {h0 : Nat} {pfx : List (BitVec 8)} {d : BitVec 8} {p : Pfx} {text : List Char}
    (h : Traced other env s t h0 pfx [0xEB, d] p text) (ho : p.oper = false) :
    ∃ body n, HexAny " .+0x" n body ∧ ShowsLine s p pfx [0xEB, d] body text ∧ t.ip = s.ip + BitVec.ofNat 16 (pfx.length + 2) + BitVec.ofNat 16 n := by
  obtain ⟨body, hb, hs⟩ := h.shown (.jmpShort d)
  refine ⟨body, _, ImmText.jmpShort_inv hb rfl, hs, ?_⟩
  rw [(h.jumps (C28_jmp_near h.at_ ho (.short d) env)).1, BitVec.ofNat_toNat, BitVec.setWidth_eq]
  rfl

/-- C93: the distance shown for a near jump is the one it jumps by. -/
theorem C93_jmp_near {other : Op → BitVec 3 → List Char} {env : Env} {s t : State} {h0 : Nat} {pfx : List (BitVec 8)} {lo hi : BitVec 8} {p : Pfx} {text : List Char}
    (h : Traced other env s t h0 pfx [0xE9, lo, hi] p text) (ho : p.oper = false) :
    ∃ x n, HexField 4 x n ∧ ShowsLine s p pfx [0xE9, lo, hi] (" .+0x".toList ++ x) text ∧ t.ip = s.ip + BitVec.ofNat 16 (pfx.length + 3) + BitVec.ofNat 16 n := by
  obtain ⟨body, hb, hs⟩ := h.shown (.near _ lo hi (.inr rfl))
  obtain ⟨x, hx, rfl⟩ := ImmText.near_inv hb rfl (.inr rfl)
  refine ⟨x, _, hx, hs, ?_⟩
  rw [(h.jumps (C28_jmp_near h.at_ ho (.near lo hi) env)).1, BitVec.ofNat_toNat, BitVec.setWidth_eq]
  rfl

/-- C93: the segment and offset shown for a far jump are where it goes. -/
theorem C93_jmp_far {other : Op → BitVec 3 → List Char} {env : Env} {s t : State} {h0 : Nat} {pfx : List (BitVec 8)} {a b c d : BitVec 8} {p : Pfx} {text : List Char}
    (h : Traced other env s t h0 pfx [0xEA, a, b, c, d] p text) (ho : p.oper = false) :
    ∃ x y, HexField 4 x (t.sreg .cs).toNat ∧ HexField 4 y t.ip.toNat ∧ ShowsLine s p pfx [0xEA, a, b, c, d] (" 0x".toList ++ x ++ ":".toList ++ y) text := by
  obtain ⟨body, hb, hs⟩ := h.shown (.far _ a b c d (.inr rfl))
  obtain ⟨x, y, hx, hy, rfl⟩ := ImmText.far_inv hb rfl (.inr rfl)
  obtain ⟨k1, k2, -⟩ := h.jumps (C28_jmp_far h.at_ ho (.imm a b c d) env)
  refine ⟨x, y, ?_, ?_, hs⟩
  · rw [k2]; exact hx
  · rw [k1]; exact hy

/-- C93: MOV of a number to a register: the register named is the one changed, and it gets the number shown. -/
theorem C93_mov {other : Op → BitVec 3 → List Char} {env : Env} {s t : State} {h0 : Nat} {pfx imm : List (BitVec 8)} {r : BitVec 3} {p : Pfx} {text : List Char}
    (h : Traced other env s t h0 pfx ((0xB8 + r.setWidth 8) :: imm) p text) (hl : imm.length = p.bytes) :
    ∃ name x n, regByName name = some (r, 0, p.bytes * 8) ∧ HexField (2 * p.bytes) x n ∧
      ShowsLine s p pfx ((0xB8 + r.setWidth 8) :: imm) (' ' :: name ++ (" 0x".toList ++ x)) text ∧
      (t.gpr r).toNat % 2 ^ (p.bytes * 8) = n ∧ (∀ r', r' ≠ r → t.gpr r' = s.gpr r') := by
  obtain ⟨body, hb, hs⟩ := h.shown (.mov r imm hl)
  obtain ⟨name, x, hn, hx, rfl⟩ := ImmText.mov_inv hb rfl
  have hw : opW p = p.bytes * 8 := by simp only [opW, Pfx.bytes]; split <;> rfl
  have hl' : imm.length = opW p / 8 := by rw [hw, hl]; omega
  refine ⟨name, x, _, hn, hx, hs, ?_⟩
  have hz : ∀ r : BitVec 3, 0xB8 + r.setWidth 8 ≠ (0 : BitVec 8) := by decide +kernel
  have hlt := leVal_lt imm
  rw [hl, show (256 : Nat) = 2 ^ 8 by decide, ← Nat.pow_mul, Nat.mul_comm] at hlt
  have hfit : BitVec.ofNat (opW p) (leVal imm) = (BitVec.ofNat 32 (leVal imm)).setWidth (opW p) := by
    apply BitVec.eq_of_toNat_eq
    rw [BitVec.toNat_setWidth, BitVec.toNat_ofNat, BitVec.toNat_ofNat]
    have : opW p = 32 ∨ opW p = 16 := by simp only [opW]; split <;> simp
    rcases this with h | h <;> rw [h] <;> omega
  obtain ⟨d, hd⟩ := C40_mov h.at_ (.ri r imm hl') env (b := BitVec.ofNat (opW p) (leVal imm)) (by trivial) hfit
    (notZeroed_same h.at_ (hz r) rfl)
  have hrun := h.runs
  rw [hrun] at hd
  have hg : t.gpr = (s.setGpr r (((s.gpr r >>> opW p) <<< opW p) ||| (BitVec.ofNat (opW p) (leVal imm)).setWidth 32)).gpr := by
    cases hd; rfl
  rw [hg]
  simp only [State.setGpr]
  refine ⟨?_, fun r' hr' => if_neg hr'⟩
  rw [if_pos trivial, ← hw]
  have : opW p = 32 ∨ opW p = 16 := by simp only [opW]; split <;> simp
  rw [← hw] at hlt
  generalize leVal imm = v at hlt ⊢
  rcases this with e | e
  · rw [e] at hlt ⊢
    have : (s.gpr r >>> 32) <<< 32 = 0#32 := by bv_omega
    rw [this, BitVec.zero_or, BitVec.setWidth_eq, BitVec.toNat_ofNat]; omega
  · rw [e] at hlt ⊢
    have : (((s.gpr r >>> 16) <<< 16) ||| (BitVec.ofNat 16 v).setWidth 32).toNat % 2 ^ 16 = (BitVec.ofNat 16 v).toNat := by
      have h2 := putLow_low16 (s.gpr r) (BitVec.ofNat 16 v)
      rw [← BitVec.toNat_setWidth]
      exact congrArg BitVec.toNat h2
    rw [this, BitVec.toNat_ofNat]; omega

/-! ### Examples and violations -/

/-- Text of the complete trace line with the operands, if the instruction ends without error. -/
def allText (env : Env) (s : State) : Option (List Char) :=
  match doOpcodeAll (fun _ _ => []) env s with
  | .ok x _ => some x
  | _ => none

/-- The trace of `demo code` at debug level 1. -/
def demoTrace (code : List (BitVec 8)) : State := { demo code with debugLevel := 1 }

theorem demoTrace_code (code : List (BitVec 8)) (h : code.length ≤ 0x1000) : CodeAt (demoTrace code) 0x10100 code := demo_code code h
theorem demoTrace_ready (code : List (BitVec 8)) : Ready (demoTrace code) := ⟨(demo_ready code).notMagic, (demo_ready code).notHle, (demo_ready code).counter⟩

/-- MOV AX,1234h; the same with an operand-size prefix; JNZ to itself; JMP F000:FFF0; CS: MOV AX,[1234h]; ENTER 16,33 (level 1). -/
example : allText demoEnv (demoTrace [0xB8, 0x34, 0x12]) = some "(       1) [0x10100] 1000:0100 MOV (Reg) AX 0x1234\t; b8 34 12\n".toList ∧
    allText demoEnv (demoTrace [0x66, 0xB9, 1, 2, 3, 4]) = some "(       1) [0x10100] 1000:0100 Ovr (OpSize) <OPER> MOV (Reg) ECX 0x04030201\t; 66 b9 01 02 03 04\n".toList ∧
    allText demoEnv (demoTrace [0x75, 0xFE]) = some "(       1) [0x10100] 1000:0100 JNZ (S) .+0xfffe\t; 75 fe\n".toList ∧
    allText demoEnv (demoTrace [0xEA, 0xF0, 0xFF, 0x00, 0xF0]) = some "(       1) [0x10100] 1000:0100 JMP (F) 0xf000:fff0\t; ea f0 ff 00 f0\n".toList ∧
    allText demoEnv (demoTrace [0x2E, 0xA1, 0x34, 0x12]) = some "(       1) [0x10100] 1000:0100 Ovr (Seg) CS MOV (AMoX) AX CS:[0x1234]\t; 2e a1 34 12\n".toList ∧
    allText demoEnv (demoTrace [0xC8, 16, 0, 33]) = some "(       1) [0x10100] 1000:0100 ENTER (z) 0x0010 1\t; c8 10 00 21\n".toList := by
  refine ⟨?_, ?_, ?_, ?_, ?_, ?_⟩ <;> decide +kernel

/-- The hypotheses of the theorems: JNZ to itself, taken. -/
example : ∃ t text, Traced (fun _ _ => []) demoEnv (demoTrace [0x75, 0xFE]) t 0x10100 [] [0x75, 0xFE] {} text ∧ ImmCode {} [0x75, 0xFE] ∧ JccEnc 5 [0x75, 0xFE] 0xFFFE ∧
    condHolds 5 (demoTrace [0x75, 0xFE]).flags = true := by
  have h : ∃ t text, doOpcodeAll (fun _ _ => []) demoEnv (demoTrace [0x75, 0xFE]) = .ok text t ∧ 1 ≤ t.debugLevel := by
    have : (match doOpcodeAll (fun _ _ => []) demoEnv (demoTrace [0x75, 0xFE]) with | .ok _ t => decide (1 ≤ t.debugLevel) | _ => false) = true := by decide +kernel
    split at this
    · rename_i x t e; exact ⟨t, x, e, of_decide_eq_true this⟩
    · cases this
  obtain ⟨t, text, h, hl⟩ := h
  exact ⟨t, text, ⟨demoTrace_ready _, by decide, by decide, hl, (fun n f s h => by cases h), demoTrace_code _ (by decide), rfl, h⟩, .jcc _ _ (by decide),
    .short 5 0xFE, by decide⟩

/-- C93 is violated: RET with a number of bytes to discard does not show it: RET 2 and RET 4 have the same line (up to the bytes), and so do AAM with different bases. -/
theorem C93_violated_ret : ∃ x y : List Char,
    allText demoEnv (demoTrace [0xC2, 2, 0]) = some (x ++ "\t; c2 02 00\n".toList) ∧ allText demoEnv (demoTrace [0xC2, 4, 0]) = some (x ++ "\t; c2 04 00\n".toList) ∧
    allText demoEnv (demoTrace [0xD4, 10]) = some (y ++ "\t; d4 0a\n".toList) ∧ allText demoEnv (demoTrace [0xD4, 16]) = some (y ++ "\t; d4 10\n".toList) :=
  ⟨"(       1) [0x10100] 1000:0100 RET (iN)".toList, "(       1) [0x10100] 1000:0100 AAM (z)".toList, by decide +kernel, by decide +kernel, by decide +kernel, by decide +kernel⟩

/-- C93 is violated: a blank is missing between `IN AX,DX` and its operands. -/
theorem C93_violated_in :
    allText demoEnv (demoTrace [0xED]) = some "(       1) [0x10100] 1000:0100 IN (ADxX)DX AX\t; ed\n".toList ∧
    allText demoEnv (demoTrace [0x66, 0xED]) = some "(       1) [0x10100] 1000:0100 Ovr (OpSize) <OPER> IN (ADxX) DX EAX\t; 66 ed\n".toList := by
  refine ⟨?_, ?_⟩ <;> decide +kernel

/-- C93 is violated: PUSH of a number with an operand-size prefix (66 68, four bytes on the processor) shows, as it takes, only two of them. -/
theorem C93_violated_push32 :
    allText demoEnv (demoTrace [0x66, 0x68, 1, 2, 3, 4]) = some "(       1) [0x10100] 1000:0100 Ovr (OpSize) <OPER> PUSH (I) 0x0201\t; 66 68 01 02\n".toList := by
  decide +kernel

end RME.Trace
