import Verif.Model.OperandText
import Verif.Spec.OperandText
import Verif.Props.Trace
import Verif.Lemmas.Seq2
import Verif.Props.Stack2
set_option autoImplicit false
/-
C91: the operands shown in the instruction trace are the operands used.
-/
namespace RME
open RME.Trace

/-! ### Reading a text -/

theorem splitAtChar_none {c : Char} : ∀ {a : List Char}, c ∉ a → splitAtChar c a = [a] := by
  intro a
  induction a with
  | nil => intro _; rfl
  | cons x xs ih =>
    intro h
    rw [splitAtChar, if_neg (fun e : x = c => h (e ▸ List.mem_cons_self)), ih (fun e => h (List.mem_cons_of_mem _ e))]

theorem splitAtChar_app {c : Char} {b : List Char} : ∀ {a : List Char}, c ∉ a → splitAtChar c (a ++ c :: b) = a :: splitAtChar c b := by
  intro a
  induction a with
  | nil => intro _; simp [splitAtChar]
  | cons x xs ih =>
    intro h
    rw [List.cons_append, splitAtChar, if_neg (fun e : x = c => h (e ▸ List.mem_cons_self)), ih (fun e => h (List.mem_cons_of_mem _ e))]

theorem splitAtChar_ne (c : Char) (a : List Char) : splitAtChar c a ≠ [] := by
  cases a with
  | nil => simp [splitAtChar]
  | cons x xs => rw [splitAtChar]; split; · simp
                 split <;> simp

theorem hexDigit_ne {c : Char} (hc : digitOf c = none) : ∀ n, hexDigit n ≠ c ∨ c = '?' := by
  intro n
  by_cases h : n < 16
  · left
    intro e
    have := digit16 n h
    rw [e, hc] at this
    cases this
  · by_cases e : hexDigit n = c
    · right
      rw [← e, hexDigit, List.getD, List.getElem?_eq_none (by simp; omega)]; rfl
    · exact Or.inl e

theorem hexDigits_free {c : Char} (hc : digitOf c = none) (hq : c ≠ '?') : ∀ f n, c ∉ hexDigits f n := by
  intro f
  induction f with
  | zero => intro n h; simp [hexDigits] at h
  | succ f ih =>
    intro n h
    rw [hexDigits] at h
    split at h
    · rcases hexDigit_ne hc n with h1 | h1
      · exact h1 (List.mem_singleton.1 h).symm
      · exact hq h1
    · rcases List.mem_append.1 h with h | h
      · exact ih _ h
      · rcases hexDigit_ne hc (n % 16) with h1 | h1
        · exact h1 (List.mem_singleton.1 h).symm
        · exact hq h1

theorem hexText_free {c : Char} (hc : digitOf c = none) (hq : c ≠ '?') (n : Nat) : c ∉ hexText n := hexDigits_free hc hq 8 n

theorem hexText_value (v : BitVec 32) : valueOf 16 (hexText v.toNat) = some v.toNat := hexDigits_value 8 _ (by have := v.isLt; omega) (by decide)

/-- A text reads as a sum. -/
def SumIs (s : State) (t : List Char) (v : BitVec 32) : Prop := sumVal s (splitAtChar '+' t) = some v

theorem SumIs.single {s : State} {t : List Char} {v : BitVec 32} (h : '+' ∉ t) (hv : termVal s t = some v) : SumIs s t v := by
  rw [SumIs, splitAtChar_none h]; exact hv

theorem SumIs.add {s : State} {a b : List Char} {v w : BitVec 32} (h : '+' ∉ a) (hv : termVal s a = some v) (hw : SumIs s b w) :
    SumIs s (a ++ '+' :: b) (v + w) := by
  rw [SumIs, splitAtChar_app h]
  have hne := splitAtChar_ne '+' b
  rw [SumIs] at hw
  generalize splitAtChar '+' b = l at *
  cases l with
  | nil => exact absurd rfl hne
  | cons x xs => rw [sumVal, hv, Option.bind_some, hw]; rfl; exact List.cons_ne_nil _ _

/-- A hexadecimal number. -/
theorem SumIs.num (s : State) (ds : List Char) (v : BitVec 32) (hf : '+' ∉ ds) (h : valueOf 16 ds = some v.toNat) : SumIs s ("0x".toList ++ ds) v := by
  refine SumIs.single ?_ ?_
  · intro h1
    rcases List.mem_append.1 h1 with h1 | h1
    · exact absurd h1 (by decide)
    · exact hf h1
  · show (valueOf 16 ds).map (BitVec.ofNat 32) = some v
    rw [h]; simp

theorem SumIs.disp (s : State) (v : BitVec 32) : SumIs s ("0x".toList ++ hexText v.toNat) v :=
  SumIs.num s _ v (hexText_free (by decide) (by decide) _) (hexText_value v)

theorem nameD_facts (s : State) (r : BitVec 3) : '+' ∉ nameD r ∧ '*' ∉ nameD r ∧ nameVal s (nameD r) = some (s.gpr r) ∧ termVal s (nameD r) = some (s.gpr r) := by
  rcases bv3_cases r with rfl | rfl | rfl | rfl | rfl | rfl | rfl | rfl <;> exact ⟨by decide, by decide, rfl, rfl⟩

theorem seg_head (s : State) (sr : SReg) (body : List Char) (v : BitVec 32) (h : SumIs s body v) :
    readMemText s (" ".toList ++ segName sr ++ ":[".toList ++ (body ++ "]".toList)) = some (s.sreg sr, v) := by
  have e : ∀ c, readMemText s (' ' :: c :: 'S' :: ':' :: '[' :: (body ++ "]".toList)) =
      (segByName c).bind fun sr => some (s.sreg sr, v) := by
    intro c
    rw [readMemText]
    have h1 : (body ++ "]".toList).getLast? = some ']' := by show (body ++ [']']).getLast? = _; simp
    have h2 : (body ++ "]".toList).dropLast = body := by show (body ++ [']']).dropLast = _; simp
    rw [h1, h2]
    rw [SumIs] at h
    simp only [h, if_pos]; rfl
  cases sr <;> exact e _

theorem lowWord (x : BitVec 32) : (x.setWidth 16).setWidth 32 = x % 65536 := by
  apply BitVec.eq_of_toNat_eq; simp [BitVec.toNat_umod]; omega

/-! ### Operands -/

/-- `m` with text (`mT`) is `m` with something added that says `Q`. -/
def Says {α : Type} (Q : State → α → List Char → Prop) (mT : M (α × List Char)) (m : M α) : Prop :=
  ∀ env s, ((mT env s).bind fun x t => .ok x.1 t) = m env s ∧ ∀ x txt t, mT env s = .ok (x, txt) t → Q s x txt ∧ ∃ d, t = { s with dec := { s.dec with ipOffset := d } }

/-- What is said depends on general and segment registers only. -/
def RegsOnly {α : Type} (Q : State → α → List Char → Prop) : Prop := ∀ s t x y, s.gpr = t.gpr → s.sreg = t.sreg → Q t x y → Q s x y

theorem readInstr_keeps {n : Nat} {env : Env} {s t : State} {v : BitVec n} (hn : n % 8 = 0) (h : readInstr n env s = .ok v t) : ∃ d, t = { s with dec := { s.dec with ipOffset := d } } := by
  simp only [readInstr, bind_apply, getSreg_apply, nextIP_apply, resbind_ok] at h
  generalize hr : readMem n _ _ env s = r at h
  cases r with
  | err e t => simp at h
  | ub u => simp at h
  | ok v t' =>
    have := (readMem_inv hn hr).1
    subst this
    simp at h
    exact ⟨_, h.2.symm⟩

theorem Says.read {α : Type} {Q : State → α → List Char → Prop} (hQ : RegsOnly Q) {n : Nat} (hn : n % 8 = 0) {fT : BitVec n → M (α × List Char)} {f : BitVec n → M α}
    (h : ∀ v, Says Q (fT v) (f v)) : Says Q (readInstr n >>= fT) (readInstr n >>= f) := by
  intro env s
  simp only [bind_apply]
  cases hr : readInstr n env s with
  | err e t => exact ⟨rfl, fun x txt t h => by simp at h⟩
  | ub u => exact ⟨rfl, fun x txt t h => by simp at h⟩
  | ok v t =>
    obtain ⟨d, hd⟩ := readInstr_keeps hn hr
    refine ⟨(h v env t).1, fun x txt t' h' => ?_⟩
    obtain ⟨h1, d', h2⟩ := (h v env t).2 x txt t' h'
    exact ⟨hQ s t x txt (by rw [hd]) (by rw [hd]) h1, d', by rw [h2, hd]⟩

theorem Says.read8S {α : Type} {Q : State → α → List Char → Prop} (hQ : RegsOnly Q) {n : Nat} {fT : BitVec n → M (α × List Char)} {f : BitVec n → M α}
    (h : ∀ v, Says Q (fT v) (f v)) : Says Q (readInstr8S n >>= fT) (readInstr8S n >>= f) := by
  have := Says.read (n := 8) hQ (by decide) (fT := fun v => fT (v.signExtend n)) (f := fun v => f (v.signExtend n)) (fun v => h _)
  intro env s
  have h2 := this env s
  simp only [readInstr8S, bind_apply] at h2 ⊢
  cases hr : readInstr 8 env s <;> rw [hr] at h2 <;> exact h2

theorem Says.throw {α : Type} {Q : State → α → List Char → Prop} (e : Err) : Says Q (throwE e) (throwE e : M α) :=
  fun env s => ⟨rfl, fun x txt t h => by simp at h⟩

/-- The text of a memory operand reads as its segment and offset. -/
def MemText (s : State) (x : BitVec 16 × BitVec 32) (txt : List Char) : Prop := readMemText s txt = some x

theorem splitName {s t : State} (h : s.gpr = t.gpr) (l : List (List Char)) : sumVal s l = sumVal t l := by
  have hn : ∀ r, nameVal s r = nameVal t r := fun r => by simp only [nameVal, addrNames, h]
  have ht : ∀ r, termVal s r = termVal t r := fun r => by
    unfold termVal; split
    · rfl
    · simp only [hn]
  induction l with
  | nil => rfl
  | cons a l ih => cases l with
    | nil => exact ht a
    | cons b l =>
      show (termVal s a).bind (fun v => (sumVal s (b :: l)).map fun w => v + w) = (termVal t a).bind (fun v => (sumVal t (b :: l)).map fun w => v + w)
      rw [ht, ih]

theorem MemText.regsOnly : RegsOnly MemText := by
  intro s t x y h1 h2 h
  unfold MemText readMemText at *
  split
  · simp only [splitName h1, h2]; exact h
  · rename_i h3
    split at h
    · exact absurd rfl (h3 _ _)
    · cases h

theorem W_term (s : State) : termVal s "BX".toList = some ((s.reg 16 rBX).setWidth 32) ∧ termVal s "BP".toList = some ((s.reg 16 rBP).setWidth 32) ∧
    termVal s "SI".toList = some ((s.reg 16 rSI).setWidth 32) ∧ termVal s "DI".toList = some ((s.reg 16 rDI).setWidth 32) := by
  simp only [State.reg, lowWord]
  exact ⟨rfl, rfl, rfl, rfl⟩

/-- The 16-bit address forms read as sums. -/
theorem base16 (s : State) (mmm : BitVec 3) : SumIs s (addr16 s mmm).2 (addr16 s mmm).1 ∧
    ∀ d w, SumIs s d w → SumIs s ((addr16 s mmm).2 ++ '+' :: d) ((addr16 s mmm).1 + w) := by
  obtain ⟨h1, h2, h3, h4⟩ := W_term s
  have one : ∀ (a : List Char) v, '+' ∉ a → termVal s a = some v → SumIs s a v ∧ ∀ d w, SumIs s d w → SumIs s (a ++ '+' :: d) (v + w) :=
    fun a v h hv => ⟨.single h hv, fun d w hw => .add h hv hw⟩
  have two : ∀ (a b : List Char) u v, '+' ∉ a → termVal s a = some u → '+' ∉ b → termVal s b = some v →
      SumIs s (a ++ '+' :: b) (u + v) ∧ ∀ d w, SumIs s d w → SumIs s ((a ++ '+' :: b) ++ '+' :: d) (u + v + w) := by
    intro a b u v ha hu hb hv
    refine ⟨.add ha hu (.single hb hv), fun d w hw => ?_⟩
    rw [List.append_assoc, List.cons_append, BitVec.add_assoc]
    exact .add ha hu (.add hb hv hw)
  rcases bv3_cases mmm with rfl | rfl | rfl | rfl | rfl | rfl | rfl | rfl
  · exact two "BX".toList "SI".toList _ _ (by decide) h1 (by decide) h3
  · exact two "BX".toList "DI".toList _ _ (by decide) h1 (by decide) h4
  · exact two "BP".toList "SI".toList _ _ (by decide) h2 (by decide) h3
  · exact two "BP".toList "DI".toList _ _ (by decide) h2 (by decide) h4
  · exact one "SI".toList _ (by decide) h3
  · exact one "DI".toList _ (by decide) h4
  · exact one "BP".toList _ (by decide) h2
  · exact one "BX".toList _ (by decide) h1

theorem hexPad4_text (s : State) (v : BitVec 32) : SumIs s ("0x".toList ++ hexPad 4 v.toNat) v := by
  refine SumIs.num s _ v ?_ ?_
  · intro h
    rcases List.mem_append.1 h with h | h
    · exact absurd (List.mem_replicate.1 h).2 (by decide)
    · exact hexText_free (by decide) (by decide) _ h
  · rw [hexPad, valueOf_zeros]; exact hexText_value v

theorem seg_head' (s : State) (sr : SReg) (body txt : List Char) (v : BitVec 32) (e : txt = body ++ "]".toList) (h : SumIs s body v) :
    readMemText s (" ".toList ++ segName sr ++ ":[".toList ++ txt) = some (s.sreg sr, v) := e ▸ seg_head s sr body v h

theorem keeps2 {n m : Nat} {env : Env} {s t u : State} {v : BitVec n} {w : BitVec m} (hn : n % 8 = 0) (h : readInstr n env s = .ok v t) (hm : m % 8 = 0)
    (h2 : readInstr m env t = .ok w u) : ∃ d, u = { s with dec := { s.dec with ipOffset := d } } := by
  obtain ⟨d, h⟩ := readInstr_keeps hn h
  obtain ⟨d', h2⟩ := readInstr_keeps hm h2
  exact ⟨d', by rw [h2, h]⟩

theorem doFunc_says (mmm : BitVec 3) (mod0 : Bool) (disp : BitVec 16) : Says MemText (doFuncT mmm mod0 disp) (doFunc mmm mod0 disp) := by
  intro env s
  simp only [doFuncT, doFunc, segUsed, bind_apply, getDec_apply, pure_apply, resbind_ok, getSreg_apply, gets_apply, getSegment_apply, id]
  generalize s.dec.ovrSeg.getD (defaultSeg mmm mod0) = sr
  by_cases hc : mmm = 6 ∧ mod0 = true
  · rw [if_pos hc, if_pos hc]
    simp only [bind_apply]
    cases hr : readInstr 16 env s with
    | err e t => exact ⟨rfl, fun x txt t h => by simp at h⟩
    | ub u => exact ⟨rfl, fun x txt t h => by simp at h⟩
    | ok d t =>
      refine ⟨rfl, fun x txt t h => ?_⟩
      simp only [resbind_ok, pure_apply] at h
      cases h
      exact ⟨seg_head s sr _ _ (hexPad4_text s _), readInstr_keeps (by decide) hr⟩
  · rw [if_neg hc, if_neg hc]
    have hb : (addr16 s mmm).1 = (if mmm = 0 then (s.reg 16 rBX).setWidth 32 + (s.reg 16 rSI).setWidth 32
      else if mmm = 1 then (s.reg 16 rBX).setWidth 32 + (s.reg 16 rDI).setWidth 32
      else if mmm = 2 then (s.reg 16 rBP).setWidth 32 + (s.reg 16 rSI).setWidth 32
      else if mmm = 3 then (s.reg 16 rBP).setWidth 32 + (s.reg 16 rDI).setWidth 32
      else if mmm = 4 then (s.reg 16 rSI).setWidth 32
      else if mmm = 5 then (s.reg 16 rDI).setWidth 32
      else if mmm = 6 then (s.reg 16 rBP).setWidth 32
      else (s.reg 16 rBX).setWidth 32 : BitVec 32) := by
      rcases bv3_cases mmm with rfl | rfl | rfl | rfl | rfl | rfl | rfl | rfl <;> rfl
    rw [← hb]
    have h := base16 s mmm
    generalize addr16 s mmm = a at h ⊢
    cases mod0 with
    | true =>
      refine ⟨rfl, fun x txt t h' => ?_⟩
      simp only [if_true, pure_apply] at h'
      cases h'
      exact ⟨seg_head s sr _ _ h.1, s.dec.ipOffset, rfl⟩
    | false =>
      refine ⟨rfl, fun x txt t h' => ?_⟩
      simp only [Bool.false_eq_true, if_false, pure_apply] at h'
      cases h'
      exact ⟨seg_head' s sr (a.2 ++ '+' :: ("0x".toList ++ hexText (disp.signExtend 32).toNat)) _ _ (by simp) (h.2 _ _ (SumIs.disp s _)), s.dec.ipOffset, rfl⟩

theorem sib_facts (s : State) (sib : BitVec 8) : '+' ∉ sibText sib ∧ termVal s (sibText sib) = some (sibIndex s sib) := by
  have hk : (sib >>> 6).toNat = 0 ∨ (sib >>> 6).toNat = 1 ∨ (sib >>> 6).toNat = 2 ∨ (sib >>> 6).toNat = 3 := by
    have := sib.isLt
    simp [Nat.shiftRight_eq_div_pow]; omega
  have hn : ∀ (i : BitVec 3), '+' ∉ (if i = 4 then "EIZ".toList else nameD i) ∧ '*' ∉ (if i = 4 then "EIZ".toList else nameD i) ∧
      nameVal s (if i = 4 then "EIZ".toList else nameD i) = some (if i = 4 then 0 else s.gpr i) ∧
      (∀ ds, (if i = 4 then "EIZ".toList else nameD i) ≠ '0' :: ds) ∧ (if i = 4 then "EIZ".toList else nameD i) ≠ [] := by
    intro i
    rcases bv3_cases i with rfl | rfl | rfl | rfl | rfl | rfl | rfl | rfl <;>
      exact ⟨by decide, by decide, rfl, fun ds h => absurd (List.cons.inj h).1 (by decide), by decide⟩
  simp only [sibText, sibIndex]
  obtain ⟨h1, h2, h3, h4, h5⟩ := hn ((sib >>> 3).setWidth 3)
  generalize (if (sib >>> 3).setWidth 3 = (4 : BitVec 3) then "EIZ".toList else nameD ((sib >>> 3).setWidth 3)) = nm at *
  generalize (if (sib >>> 3).setWidth 3 = (4 : BitVec 3) then (0 : BitVec 32) else s.gpr ((sib >>> 3).setWidth 3)) = v at *
  have key : ∀ (c : Char) (n : Nat), c ≠ '+' → c ≠ '*' → valueOf 10 [c] = some n → '+' ∉ nm ++ "*".toList ++ [c] ∧
      termVal s (nm ++ "*".toList ++ [c]) = some (v * BitVec.ofNat 32 n) := by
    intro c n hc1 hc2 hv
    refine ⟨?_, ?_⟩
    · intro h
      simp at h
      rcases h with h | h
      · exact h1 h
      · exact hc1 h.symm
    · rw [List.append_assoc]
      show termVal s (nm ++ '*' :: [c]) = _
      have hs : splitAtChar '*' (nm ++ '*' :: [c]) = [nm, [c]] := by
        rw [splitAtChar_app h2, splitAtChar_none (by simp; exact hc2.symm)]
      unfold termVal
      split
      · rename_i ds he
        cases nm with
        | nil => exact absurd rfl h5
        | cons x xs => exact absurd (congrArg (· :: xs) (List.cons.inj he).1) (h4 xs)
      · rw [hs]
        simp only [h3, hv, Option.bind_some, Option.map_some]
  rcases hk with hk | hk | hk | hk <;> rw [hk]
  · have := key '1' 1 (by decide) (by decide) (by decide)
    refine ⟨this.1, this.2.trans ?_⟩
    congr 1; bv_omega
  · have := key '2' 2 (by decide) (by decide) (by decide)
    refine ⟨this.1, this.2.trans ?_⟩
    congr 1; bv_omega
  · have := key '4' 4 (by decide) (by decide) (by decide)
    refine ⟨this.1, this.2.trans ?_⟩
    congr 1; bv_omega
  · have := key '8' 8 (by decide) (by decide) (by decide)
    refine ⟨this.1, this.2.trans ?_⟩
    congr 1; bv_omega

theorem doFunc32_says (mmm : BitVec 3) (mod0 : Bool) (disp : BitVec 32) : Says MemText (doFunc32T mmm mod0 disp) (doFunc32 mmm mod0 disp) := by
  intro env s
  simp only [doFunc32T, doFunc32, segUsed, bind_apply, getDec_apply, pure_apply, resbind_ok, getSreg_apply, gets_apply, getSegment_apply, id]
  generalize s.dec.ovrSeg.getD (defaultSeg mmm mod0) = sr
  have hd := SumIs.disp s disp
  by_cases h4 : mmm = 4
  · rw [if_pos h4, if_pos h4]
    simp only [bind_apply]
    cases hr : readInstr 8 env s with
    | err e t => exact ⟨rfl, fun x txt t h => by simp at h⟩
    | ub u => exact ⟨rfl, fun x txt t h => by simp at h⟩
    | ok sib t =>
      simp only [resbind_ok]
      obtain ⟨f1, f2⟩ := sib_facts s sib
      obtain ⟨g1, g2, g3, g4⟩ := nameD_facts s (sib.setWidth 3)
      generalize hb : (sib.setWidth 3 : BitVec 3) = b at *
      generalize sibText sib = st at *
      generalize sibIndex s sib = iv at *
      by_cases h5 : b = 5 ∧ mod0 = true
      · rw [if_pos h5, if_pos h5]
        simp only [bind_apply]
        cases hr2 : readInstr 32 env t with
        | err e t => exact ⟨rfl, fun x txt t h => by simp at h⟩
        | ub u => exact ⟨rfl, fun x txt t h => by simp at h⟩
        | ok w t =>
          refine ⟨rfl, fun x txt t h => ?_⟩
          simp only [resbind_ok, pure_apply] at h
          cases h
          exact ⟨seg_head s sr _ _ (.single f1 f2), keeps2 (by decide) hr (by decide) hr2⟩
      · rw [if_neg h5, if_neg h5]
        cases mod0 with
        | true =>
          refine ⟨rfl, fun x txt t h => ?_⟩
          simp only [if_true, pure_apply] at h
          cases h
          exact ⟨seg_head' s sr (st ++ '+' :: nameD b) _ _ (by simp) (.add f1 f2 (.single g1 g4)), readInstr_keeps (by decide) hr⟩
        | false =>
          refine ⟨rfl, fun x txt t h => ?_⟩
          simp only [Bool.false_eq_true, if_false, pure_apply] at h
          cases h
          rw [BitVec.add_assoc]
          exact ⟨seg_head' s sr (st ++ '+' :: (nameD b ++ '+' :: ("0x".toList ++ hexText disp.toNat))) _ _ (by simp) (.add f1 f2 (.add g1 g4 hd)), readInstr_keeps (by decide) hr⟩
  · rw [if_neg h4, if_neg h4]
    by_cases h5 : mmm = 5 ∧ mod0 = true
    · rw [if_pos h5, if_pos h5]
      simp only [bind_apply]
      cases hr2 : readInstr 32 env s with
      | err e t => exact ⟨rfl, fun x txt t h => by simp at h⟩
      | ub u => exact ⟨rfl, fun x txt t h => by simp at h⟩
      | ok w t =>
        refine ⟨rfl, fun x txt t h => ?_⟩
        simp only [resbind_ok, pure_apply] at h
        cases h
        exact ⟨seg_head s sr _ _ (SumIs.disp s w), readInstr_keeps (by decide) hr2⟩
    · rw [if_neg h5, if_neg h5]
      obtain ⟨g1, g2, g3, g4⟩ := nameD_facts s mmm
      cases mod0 with
      | true =>
        refine ⟨rfl, fun x txt t h => ?_⟩
        simp only [if_true, pure_apply] at h
        cases h
        exact ⟨seg_head s sr _ _ (.single g1 g4), s.dec.ipOffset, rfl⟩
      | false =>
        refine ⟨rfl, fun x txt t h => ?_⟩
        simp only [Bool.false_eq_true, if_false, pure_apply] at h
        cases h
        exact ⟨seg_head' s sr (nameD mmm ++ '+' :: ("0x".toList ++ hexText disp.toNat)) _ _ (by simp) (.add g1 g4 hd), s.dec.ipOffset, rfl⟩

theorem getMMM_says (m : ModRM) : Says MemText (getMMMT m) (getMMM m) := by
  have key : ∀ ovr : Bool, Says MemText
      (if ovr then
        if m.mod = 0 then doFunc32T m.mmm true 0
        else if m.mod = 1 then do
          let ofs ← readInstr8S 16
          doFunc32T m.mmm false (ofs.setWidth 32)
        else if m.mod = 2 then do
          let ofs ← readInstr 32
          doFunc32T m.mmm false ((ofs.setWidth 16).setWidth 32)
        else throwE .bug
      else
        if m.mod = 0 then doFuncT m.mmm true 0
        else if m.mod = 1 then do
          let ofs ← readInstr8S 16
          doFuncT m.mmm false ofs
        else if m.mod = 2 then do
          let ofs ← readInstr 16
          doFuncT m.mmm false ofs
        else throwE .bug)
      (if ovr then
        if m.mod = 0 then doFunc32 m.mmm true 0
        else if m.mod = 1 then do
          let ofs ← readInstr8S 16
          doFunc32 m.mmm false (ofs.setWidth 32)
        else if m.mod = 2 then do
          let ofs ← readInstr 32
          doFunc32 m.mmm false ((ofs.setWidth 16).setWidth 32)
        else throwE .bug
      else
        if m.mod = 0 then doFunc m.mmm true 0
        else if m.mod = 1 then do
          let ofs ← readInstr8S 16
          doFunc m.mmm false ofs
        else if m.mod = 2 then do
          let ofs ← readInstr 16
          doFunc m.mmm false ofs
        else throwE .bug) := by
    intro ovr
    cases ovr
    · simp only [Bool.false_eq_true, if_false]
      split; · exact doFunc_says _ _ _
      split; · exact Says.read8S MemText.regsOnly fun v => doFunc_says _ _ _
      split; · exact Says.read MemText.regsOnly (by decide) fun v => doFunc_says _ _ _
      exact Says.throw _
    · simp only [if_true]
      split; · exact doFunc32_says _ _ _
      split; · exact Says.read8S MemText.regsOnly fun v => doFunc32_says _ _ _
      split; · exact Says.read MemText.regsOnly (by decide) fun v => doFunc32_says _ _ _
      exact Says.throw _
  intro env s
  have := key s.dec.ovrAddr env s
  simp only [getMMMT, getMMM, bind_apply, getDec_apply, resbind_ok]
  exact this

/-! ### C91 -/

/-- C91: whatever the addressing form (16- and 32-bit, SIB, displacement, segment override), the memory operand printed in the trace, read with the registers
of the machine, is the segment and the offset the instruction uses; the outcome does not depend on printing. -/
theorem C91_memory_operand (m : ModRM) (env : Env) (s : State) :
    ((getMMMT m env s).bind fun x t => .ok x.1 t) = getMMM m env s ∧
    ∀ seg ofs text t, getMMMT m env s = .ok ((seg, ofs), text) t → readMemText s text = some (seg, ofs) :=
  ⟨(getMMM_says m env s).1, fun seg ofs text t h => ((getMMM_says m env s).2 (seg, ofs) text t h).1⟩

/-- Bits `lo`..`lo + w - 1` of register `r`. -/
def regBits (s : State) (r : BitVec 3) (lo w : Nat) : BitVec w := (s.gpr r >>> lo).setWidth w

/-- The text names the location `l`, read with width `w`: a register of this width, which is what reading `l` gives, or a memory operand whose address gives `l`. -/
def Names (w : Nat) (env : Env) (s : State) (text : List Char) (l : Loc) : Prop :=
  (∃ name r lo, text = ' ' :: name ∧ regByName name = some (r, lo, w) ∧ ∀ u : State, readLoc w l env u = .ok (regBits u r lo w) u) ∨
  ∃ seg ofs p, readMemText s text = some (seg, ofs) ∧ getPtr seg ofs env s = .ok p s ∧ l = .mem p

theorem highByte (u : State) (r : BitVec 3) : u.regH 8 r = regBits u r 8 8 := by
  apply BitVec.eq_of_getLsbD_eq
  intro i hi
  simp [State.regH, State.pair, regBits]
  rw [BitVec.getLsbD_append]
  simp [show 8 + i < 32 by omega]

theorem regB_names (env : Env) (s : State) (r : BitVec 3) : Names 8 env s (" ".toList ++ nameB r) (regB r) := by
  refine Or.inl ?_
  rcases bv3_cases r with rfl | rfl | rfl | rfl | rfl | rfl | rfl | rfl
  · exact ⟨_, 0, 0, rfl, by decide, fun u => rfl⟩
  · exact ⟨_, 1, 0, rfl, by decide, fun u => rfl⟩
  · exact ⟨_, 2, 0, rfl, by decide, fun u => rfl⟩
  · exact ⟨_, 3, 0, rfl, by decide, fun u => rfl⟩
  · exact ⟨_, 0, 8, rfl, by decide, fun u => congrArg (fun x => Res.ok x u) (highByte u 0)⟩
  · exact ⟨_, 1, 8, rfl, by decide, fun u => congrArg (fun x => Res.ok x u) (highByte u 1)⟩
  · exact ⟨_, 2, 8, rfl, by decide, fun u => congrArg (fun x => Res.ok x u) (highByte u 2)⟩
  · exact ⟨_, 3, 8, rfl, by decide, fun u => congrArg (fun x => Res.ok x u) (highByte u 3)⟩

theorem regX_names (env : Env) (s : State) (ovr : Bool) (r : BitVec 3) : Names (if ovr then 32 else 16) env s (" ".toList ++ nameX ovr r) (regW r) := by
  refine Or.inl ?_
  cases ovr <;> rcases bv3_cases r with rfl | rfl | rfl | rfl | rfl | rfl | rfl | rfl
  all_goals first
    | exact ⟨_, 0, 0, rfl, by decide, fun u => rfl⟩ | exact ⟨_, 1, 0, rfl, by decide, fun u => rfl⟩ | exact ⟨_, 2, 0, rfl, by decide, fun u => rfl⟩
    | exact ⟨_, 3, 0, rfl, by decide, fun u => rfl⟩ | exact ⟨_, 4, 0, rfl, by decide, fun u => rfl⟩ | exact ⟨_, 5, 0, rfl, by decide, fun u => rfl⟩
    | exact ⟨_, 6, 0, rfl, by decide, fun u => rfl⟩ | exact ⟨_, 7, 0, rfl, by decide, fun u => rfl⟩

theorem getPtr_state {seg : BitVec 16} {ofs : BitVec 32} {env : Env} {s t : State} {p : Nat} (d : Nat) (h : getPtr seg ofs env { s with dec := { s.dec with ipOffset := d } } = .ok p t) :
    t = { s with dec := { s.dec with ipOffset := d } } ∧ getPtr seg ofs env s = .ok p s := by
  unfold getPtr at *
  dsimp only at *
  split at h
  · split at h
    · rename_i h1 _ b h2
      cases h
      rw [if_pos h1]
      exact ⟨rfl, rfl⟩
    · split at h <;> cases h
  · cases h

theorem mem_says {m : ModRM} {env : Env} {s : State} {w : Nat} (g : BitVec 16 × BitVec 32 → M Unit) (hg : ∀ x env s, g x env s = .ok () s ∨ ∃ e, g x env s = .err e s) :
    (((do
        let ((seg, ofs), text) ← getMMMT m
        g (seg, ofs)
        let p ← getPtr seg ofs
        pure (Loc.mem p, text)) env s).bind fun x t => .ok x.1 t) = (do
        let (seg, ofs) ← getMMM m
        g (seg, ofs)
        let p ← getPtr seg ofs
        pure (Loc.mem p)) env s ∧
    ∀ l text t, (do
        let ((seg, ofs), text) ← getMMMT m
        g (seg, ofs)
        let p ← getPtr seg ofs
        pure (Loc.mem p, text)) env s = .ok (l, text) t → Names w env s text l ∧ ∃ d, t = { s with dec := { s.dec with ipOffset := d } } := by
  have hs := getMMM_says m env s
  simp only [bind_apply]
  rw [← hs.1]
  cases h : getMMMT m env s with
  | err e t => exact ⟨rfl, fun x txt t h => by simp at h⟩
  | ub u => exact ⟨rfl, fun x txt t h => by simp at h⟩
  | ok x t =>
    obtain ⟨⟨seg, ofs⟩, text⟩ := x
    simp only [resbind_ok]
    obtain ⟨hr, d, ht⟩ := hs.2 _ _ _ h
    subst ht
    rcases hg (seg, ofs) env { s with dec := { s.dec with ipOffset := d } } with h1 | ⟨e, h1⟩
    · rw [h1]
      simp only [resbind_ok]
      cases hp : getPtr seg ofs env { s with dec := { s.dec with ipOffset := d } } with
      | err e t => exact ⟨rfl, fun x txt t h => by simp at h⟩
      | ub u => exact ⟨rfl, fun x txt t h => by simp at h⟩
      | ok p u =>
        obtain ⟨h1, h2⟩ := getPtr_state d hp
        subst h1
        refine ⟨rfl, fun l txt t' h' => ?_⟩
        simp only [resbind_ok, pure_apply] at h'
        cases h'
        exact ⟨Or.inr ⟨seg, ofs, p, hr, h2, rfl⟩, d, rfl⟩
    · rw [h1]
      exact ⟨rfl, fun x txt t h => by simp at h⟩

theorem decodeModM_says (m : ModRM) (env : Env) (s : State) : ((decodeModMT m env s).bind fun x t => .ok x.1 t) = decodeModM m env s ∧
    ∀ l text t, decodeModMT m env s = .ok (l, text) t → Names 8 env s text l ∧ ∃ d, t = { s with dec := { s.dec with ipOffset := d } } := by
  unfold decodeModMT decodeModM
  split
  · exact ⟨rfl, fun l text t h => by cases h; exact ⟨regB_names env s m.mmm, s.dec.ipOffset, rfl⟩⟩
  · exact mem_says (g := fun _ => pure ()) fun x env s => Or.inl rfl

theorem decodeModMX_says (m : ModRM) (env : Env) (s : State) : ((decodeModMXT m env s).bind fun x t => .ok x.1 t) = decodeModMX m env s ∧
    ∀ l text t, decodeModMXT m env s = .ok (l, text) t → Names (if s.dec.ovrOper then 32 else 16) env s text l ∧ ∃ d, t = { s with dec := { s.dec with ipOffset := d } } := by
  unfold decodeModMXT decodeModMX
  split
  · exact ⟨rfl, fun l text t h => by cases h; exact ⟨regX_names env s s.dec.ovrOper m.mmm, s.dec.ipOffset, rfl⟩⟩
  · exact mem_says (g := fun x => guardE ((x.1.setWidth 32 * 16 + x.2).toNat % blockSize == blockSize - 1) .badmem) fun x env s => by
      rw [guardE_apply]; split
      · exact Or.inr ⟨_, rfl⟩
      · exact Or.inl rfl

theorem getModRM_keeps {env : Env} {s t : State} {m : ModRM} (h : getModRM env s = .ok m t) : ∃ d, t = { s with dec := { s.dec with ipOffset := d } } := by
  simp only [getModRM, bind_apply] at h
  cases hr : readInstr 8 env s with
  | err e t => rw [hr] at h; simp at h
  | ub u => rw [hr] at h; simp at h
  | ok v t =>
    rw [hr] at h; simp at h
    obtain ⟨d, hd⟩ := readInstr_keeps (by decide) hr
    exact ⟨d, by rw [← h.2, hd]⟩

theorem readMemText_dec (s : State) (d : Nat) (text : List Char) : readMemText { s with dec := { s.dec with ipOffset := d } } text = readMemText s text := by
  unfold readMemText
  split
  · simp only [splitName (s := { s with dec := { s.dec with ipOffset := d } }) (t := s) rfl]
  · rfl

theorem Names.back {w : Nat} {env : Env} {s : State} {d : Nat} {text : List Char} {l : Loc} (h : Names w env { s with dec := { s.dec with ipOffset := d } } text l) :
    Names w env s text l := by
  rcases h with h | ⟨seg, ofs, p, h1, h2, h3⟩
  · exact Or.inl h
  · exact Or.inr ⟨seg, ofs, p, by rw [← readMemText_dec s d]; exact h1, (getPtr_state d h2).2, h3⟩

/-- C91: the text of the operands of a byte instruction with a ModR/M byte consists of two parts, one naming the register operand, the other the register or
memory operand (the order depends on the direction of the instruction); the outcome does not depend on printing. -/
theorem C91_operands8 (rev : Bool) (env : Env) (s : State) :
    ((parseModRMT rev env s).bind fun x t => .ok x.1 t) = parseModRM env s ∧
    ∀ r l text t, parseModRMT rev env s = .ok ((r, l), text) t →
      ∃ a b, text = (if rev then b ++ a else a ++ b) ∧ Names 8 env s a r ∧ Names 8 env s b l := by
  simp only [parseModRMT, parseModRM, bind_apply]
  cases h : getModRM env s with
  | err e t => exact ⟨rfl, fun r l txt t h => by simp at h⟩
  | ub u => exact ⟨rfl, fun r l txt t h => by simp at h⟩
  | ok m t =>
    obtain ⟨d, hd⟩ := getModRM_keeps h
    subst hd
    simp only [resbind_ok]
    generalize hu : ({ s with dec := { s.dec with ipOffset := d } } : State) = u
    have hs := decodeModM_says m env u
    rw [← hs.1]
    cases h2 : decodeModMT m env u with
    | err e t => exact ⟨rfl, fun r l txt t h => by simp at h⟩
    | ub u => exact ⟨rfl, fun r l txt t h => by simp at h⟩
    | ok x t =>
      obtain ⟨l, text⟩ := x
      refine ⟨rfl, fun r l' txt t' h' => ?_⟩
      simp only [resbind_ok, pure_apply] at h'
      cases h'
      have hn := (hs.2 l text t h2).1
      rw [← hu] at hn
      exact ⟨_, text, rfl, regB_names env s m.rrr, hn.back⟩

/-- C91: the same for word and doubleword instructions; the width of the register names is the operand size in force. -/
theorem C91_operands (rev : Bool) (env : Env) (s : State) :
    ((parseModRMXT rev env s).bind fun x t => .ok x.1 t) = parseModRMX env s ∧
    ∀ r l text t, parseModRMXT rev env s = .ok ((r, l), text) t →
      ∃ a b, text = (if rev then b ++ a else a ++ b) ∧ Names (if s.dec.ovrOper then 32 else 16) env s a r ∧ Names (if s.dec.ovrOper then 32 else 16) env s b l := by
  simp only [parseModRMXT, parseModRMX, bind_apply]
  cases h : getModRM env s with
  | err e t => exact ⟨rfl, fun r l txt t h => by simp at h⟩
  | ub u => exact ⟨rfl, fun r l txt t h => by simp at h⟩
  | ok m t =>
    obtain ⟨d, hd⟩ := getModRM_keeps h
    subst hd
    simp only [resbind_ok]
    generalize hu : ({ s with dec := { s.dec with ipOffset := d } } : State) = u
    have ho : u.dec.ovrOper = s.dec.ovrOper := by rw [← hu]
    have hs := decodeModMX_says m env u
    rw [← hs.1]
    cases h2 : decodeModMXT m env u with
    | err e t => exact ⟨rfl, fun r l txt t h => by simp at h⟩
    | ub u => exact ⟨rfl, fun r l txt t h => by simp at h⟩
    | ok x t =>
      obtain ⟨l, text⟩ := x
      refine ⟨rfl, fun r l' txt t' h' => ?_⟩
      simp only [resbind_ok, pure_apply, getDec_apply] at h'
      cases h'
      obtain ⟨hn, k, hk⟩ := hs.2 l text t h2
      rw [ho, ← hu] at hn
      have ht : t.dec.ovrOper = s.dec.ovrOper := by rw [hk]; exact ho
      refine ⟨_, text, rfl, ?_, hn.back⟩
      rw [ht]
      exact regX_names env s s.dec.ovrOper m.rrr

/-- The text of an operand decoded without error. -/
def operandText {α : Type} (m : M (α × List Char)) (env : Env) (s : State) : Option (α × List Char) :=
  match m env s with
  | .ok x _ => some x
  | _ => none

/-- `ES:[BP+DI-2]` (mod 1, rm 3): what is printed and what it reads as. -/
example : operandText (getMMMT ⟨1, 0, 3⟩) demoEnv { demo [0xFE] with dec := { decReset with ovrSeg := some .es } } =
      some ((0x4000, 0xAFE), " ES:[BP+DI+0xfffffffe]".toList) ∧
    readMemText (demo [0xFE]) " ES:[BP+DI+0xfffffffe]".toList = some (0x4000, 0xAFE) := by decide +kernel

/-- `[EAX*4+EBX+0x1234]` (prefix 67, mod 2, rm 4, SIB 83h). -/
example : operandText (getMMMT ⟨2, 0, 4⟩) demoEnv { demo [0x34, 0x12, 0, 0, 0x83] with dec := { decReset with ovrAddr := true } } =
      some ((0x3000, 0x44881398), " DS:[EAX*4+EBX+0x1234]".toList) ∧
    readMemText (demo []) " DS:[EAX*4+EBX+0x1234]".toList = some (0x3000, 0x44881398) := by decide +kernel

/-- The operands of `ADD [BX+SI],CH` (ModR/M 28h) and of `ADD AX,DX` with and without 66. -/
example : operandText (parseModRMT true) demoEnv (demo [0x28]) = some ((.regH 1, .mem 0x30210), " DS:[BX+SI] CH".toList) ∧
    operandText (parseModRMXT false) demoEnv (demo [0xC2]) = some ((.reg 0, .reg 2), " AX DX".toList) ∧
    operandText (parseModRMXT false) demoEnv { demo [0xC2] with dec := { decReset with ovrOper := true } } = some ((.reg 0, .reg 2), " EAX EDX".toList) := by
  decide +kernel

end RME
