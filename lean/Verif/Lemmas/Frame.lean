import Verif.Lemmas.Ready
import Verif.Lemmas.Bytes
import Verif.Spec.Effects
set_option autoImplicit false
/-
A logic for "nothing but these parts of the state changes".
-/
set_option linter.unusedSectionVars false
namespace RME

/-- What may change. -/
structure Eff where
  regs : BitVec 3 → Bool
  mem : Bool
  flags : Bool
  /-- there is no repeat prefix -/
  norep : Bool

/-- Only what `E` allows differs. -/
structure Within (E : Eff) (s t : State) : Prop where
  regs : ∀ r, E.regs r = false → t.gpr r = s.gpr r
  mem : E.mem = false → t.host = s.host
  flags : E.flags = false → t.flags = s.flags
  norep : E.norep = true → s.dec.rep = .none → t.dec.rep = .none

theorem Within.refl (E : Eff) (s : State) : Within E s s := ⟨fun _ _ => rfl, fun _ => rfl, fun _ => rfl, fun _ h => h⟩
theorem Within.trans {E : Eff} {s t u : State} (h1 : Within E s t) (h2 : Within E t u) : Within E s u :=
  ⟨fun r h => (h2.regs r h).trans (h1.regs r h), fun h => (h2.mem h).trans (h1.mem h), fun h => (h2.flags h).trans (h1.flags h),
    fun h h3 => h2.norep h (h1.norep h h3)⟩

/-- Precondition. -/
def Eff.pre (E : Eff) (s : State) : Prop := E.norep = true → s.dec.rep = .none

/-- The outcome `r` differs from `s` only in what `E` allows. -/
def WithinRes {α : Type} (E : Eff) (s : State) : Res α → Prop
  | .ok _ t => Within E s t
  | .err _ t => Within E s t
  | .ub _ => True

/-- `m` changes only what `E` allows. -/
def Fr {α : Type} (E : Eff) (m : M α) : Prop := ∀ env s, E.pre s → WithinRes E s (m env s)

namespace Fr
variable {E : Eff} {α β : Type}

theorem bindAt {env : Env} {s : State} (hs : E.pre s) {m : M α} {f : α → M β} (hm : WithinRes E s (m env s))
    (hf : ∀ a t, m env s = .ok a t → E.pre t → WithinRes E t (f a env t)) : WithinRes E s ((m >>= f) env s) := by
  simp only [bind_apply]
  cases h : m env s with
  | ok a t =>
    rw [h] at hm
    have ht : E.pre t := fun h1 => hm.norep h1 (hs h1)
    have := hf a t h ht
    simp only [resbind_ok]
    cases h2 : f a env t with
    | ok b u => rw [h2] at this; exact hm.trans this
    | err e u => rw [h2] at this; exact hm.trans this
    | ub u => trivial
  | err e t => rw [h] at hm; exact hm
  | ub u => trivial

theorem bind {m : M α} {f : α → M β} (hm : Fr E m) (hf : ∀ a, Fr E (f a)) : Fr E (m >>= f) :=
  fun env s hs => bindAt hs (hm env s hs) fun a t _ ht => hf a env t ht

/-- with a property of the value -/
theorem bindV {V : α → Prop} {m : M α} {f : α → M β} (hm : Fr E m) (hv : ∀ env s a t, E.pre s → m env s = .ok a t → V a) (hf : ∀ a, V a → Fr E (f a)) :
    Fr E (m >>= f) :=
  fun env s hs => bindAt hs (hm env s hs) fun a t h ht => hf a (hv env s a t hs h) env t ht

theorem pure (a : α) : Fr E (Pure.pure a) := fun _ s _ => Within.refl E s
theorem gets (f : State → α) : Fr E (RME.gets f) := fun _ s _ => Within.refl E s
theorem getReg (n r) : Fr E (RME.getReg n r) := fun _ s _ => Within.refl E s
theorem getSreg (r) : Fr E (RME.getSreg r) := fun _ s _ => Within.refl E s
theorem getIP : Fr E RME.getIP := fun _ s _ => Within.refl E s
theorem nextIP : Fr E RME.nextIP := fun _ s _ => Within.refl E s
theorem getFlags : Fr E RME.getFlags := fun _ s _ => Within.refl E s
theorem getDec : Fr E RME.getDec := fun _ s _ => Within.refl E s
theorem getSegment (r) : Fr E (RME.getSegment r) := fun _ s _ => Within.refl E s
theorem throwE (e : Err) : Fr E (RME.throwE e : M α) := fun _ s _ => Within.refl E s
theorem ubE (u : UB) : Fr E (RME.ubE u : M α) := fun _ _ _ => trivial
theorem liftUB (x : Except UB α) : Fr E (RME.liftUB x) := by cases x; exact ubE _; exact pure _
theorem guardE (c : Bool) (e : Err) : Fr E (RME.guardE c e) := by cases c; exact pure _; exact throwE _
theorem ite {p : Prop} [Decidable p] {a b : M α} (ha : p → Fr E a) (hb : ¬p → Fr E b) : Fr E (if p then a else b) := by
  split <;> simp_all
theorem setReg (n r v) (h : E.regs r = true) : Fr E (RME.setReg n r v) := fun _ s _ =>
  ⟨fun x hx => by show (if x = r then _ else s.gpr x) = _; rw [if_neg]; rintro rfl; simp [h] at hx, fun _ => rfl, fun _ => rfl, fun _ h => h⟩
theorem setGpr (r) (v : State → BitVec 32) (h : E.regs r = true) : Fr E (RME.modify fun s => s.setGpr r (v s)) := fun _ s _ =>
  ⟨fun x hx => by show (if x = r then _ else s.gpr x) = _; rw [if_neg]; rintro rfl; simp [h] at hx, fun _ => rfl, fun _ => rfl, fun _ h => h⟩

theorem setRegH8_gpr (s : State) (r v) (x : BitVec 3) (hx : x ≠ r) : (s.setRegH 8 r v).gpr x = s.gpr x := by
  show (if x = r + 1 then _ else if x = r then _ else s.gpr x) = _
  rw [if_neg hx]
  split
  · rename_i h
    subst h
    ext i hi
    simp only [putByte1, State.pair]
    have h64 : (s.gpr (r + 1) ++ s.gpr r).getLsbD (32 + i) = (s.gpr (r + 1)).getLsbD i := by
      rw [BitVec.getLsbD_append]; simp
    have hc : (18446744073709486335#64).getLsbD (32 + i) = true := by
      have : ∀ j : Fin 32, (18446744073709486335#64).getLsbD (32 + j.val) = true := by decide
      exact this ⟨i, hi⟩
    have hv : v.getLsbD (32 + i - 8) = false := BitVec.getLsbD_of_ge _ _ (by omega)
    have hg : (s.gpr (r + 1)).getLsbD i = (s.gpr (r + 1))[i] := by simp [hi]
    simp [hc, hv]; exact h64.trans hg
  · rfl
theorem setRegH (r v) (h : E.regs r = true) : Fr E (RME.modify (·.setRegH 8 r v)) := fun _ s _ =>
  ⟨fun x hx => setRegH8_gpr s r v x (by rintro rfl; simp [h] at hx), fun _ => rfl, fun _ => rfl, fun _ h => h⟩
theorem setSreg (r v) : Fr E (RME.setSreg r v) := fun _ s _ => ⟨fun _ _ => rfl, fun _ => rfl, fun _ => rfl, fun _ h => h⟩
theorem setIP (v) : Fr E (RME.setIP v) := fun _ s _ => ⟨fun _ _ => rfl, fun _ => rfl, fun _ => rfl, fun _ h => h⟩
theorem setFlags (v) (h : E.flags = true) : Fr E (RME.setFlags v) := fun _ s _ =>
  ⟨fun _ _ => rfl, fun _ => rfl, fun h2 => by simp [h] at h2, fun _ h => h⟩
theorem modDec (f : Decoder → Decoder) (h : ∀ d, d.rep = .none → (f d).rep = .none) : Fr E (RME.modDec f) := fun _ s _ =>
  ⟨fun _ _ => rfl, fun _ => rfl, fun _ => rfl, fun _ h2 => h _ h2⟩
theorem setDontChangeIP : Fr E RME.setDontChangeIP := modDec _ fun _ h => h
theorem setLN (b) : Fr E (RME.modify (fun s => { s with lastNull := b })) := fun _ s _ =>
  ⟨fun _ _ => rfl, fun _ => rfl, fun _ => rfl, fun _ h => h⟩
theorem loadM (n h) : Fr E (RME.loadM n h) := fun env s _ => by
  unfold RME.loadM; split
  · exact Within.refl E s
  · trivial
theorem storeM (n h v) (hm : E.mem = true) : Fr E (RME.storeM n h v) := fun env s _ => by
  unfold RME.storeM; split
  · exact ⟨fun _ _ => rfl, fun h2 => by simp [hm] at h2, fun _ => rfl, fun _ h => h⟩
  · trivial
theorem getPtr (a b) : Fr E (RME.getPtr a b) := fun env s _ => by
  unfold RME.getPtr; dsimp only
  repeat' split
  all_goals first | exact Within.refl E s | trivial
theorem readMem (n a b) : Fr E (RME.readMem n a b) := bind (getPtr _ _) fun _ => loadM _ _
theorem writeMem (n a b v) (h : E.mem = true) : Fr E (RME.writeMem n a b v) := bind (getPtr _ _) fun _ => storeM _ _ _ h
theorem readInstr (n) : Fr E (RME.readInstr n) :=
  bind (getSreg _) fun _ => bind nextIP fun _ => bind (readMem _ _ _) fun _ => bind (modDec _ fun _ h => h) fun _ => pure _
theorem readInstr8S (n) : Fr E (RME.readInstr8S n) := bind (readInstr _) fun _ => pure _
theorem pushM {v : M (BitVec 16)} (hv : Fr E v) (h4 : E.regs 4 = true) (hm : E.mem = true) : Fr E (RME.pushM v) :=
  bind (getReg _ _) fun _ => bind (setReg _ _ _ h4) fun _ => bind (getSreg _) fun _ => bind (getReg _ _) fun _ => bind hv fun _ => writeMem _ _ _ _ hm
theorem push (v) (h4 : E.regs 4 = true) (hm : E.mem = true) : Fr E (RME.push v) := pushM (pure _) h4 hm
theorem pop (h4 : E.regs 4 = true) : Fr E RME.pop :=
  bind (getSreg _) fun _ => bind (getReg _ _) fun _ => bind (readMem _ _ _) fun _ => bind (getReg _ _) fun _ => bind (setReg _ _ _ h4) fun _ => pure _

/-- Writing `n` bits to the location is allowed. -/
def okLoc (E : Eff) (n : Nat) : Loc → Prop
  | .reg r => E.regs r = true
  | .regH r => (n = 8 ∧ E.regs r = true) ∨ ∀ x, E.regs x = true
  | .mem _ => E.mem = true

theorem readLoc (n l) : Fr E (RME.readLoc n l) := by
  cases l
  · exact getReg _ _
  · exact gets _
  · exact loadM _ _
theorem writeLoc (n l v) (h : okLoc E n l) : Fr E (RME.writeLoc n l v) := by
  cases l
  · exact setReg _ _ _ h
  · rcases h with ⟨rfl, h⟩ | h
    · exact setRegH _ _ h
    · exact fun _ s _ => ⟨fun x hx => by simp [h] at hx, fun _ => rfl, fun _ => rfl, fun _ h => h⟩
  · exact storeM _ _ _ h
theorem portOut (a b c) : Fr E (RME.portOut a b c) := fun _ s _ => ⟨fun _ _ => rfl, fun _ => rfl, fun _ => rfl, fun _ h => h⟩
theorem portIn (a b) : Fr E (RME.portIn a b) := fun _ s _ => ⟨fun _ _ => rfl, fun _ => rfl, fun _ => rfl, fun _ h => h⟩
theorem withW {f : Nat → M α} (h : ∀ n, Fr E (f n)) : Fr E (RME.withW f) := by
  refine bind getDec fun d => ?_
  split
  · exact h 32
  · exact h 16
theorem segOf (p) : Fr E (RME.segOf p) := by
  unfold RME.segOf
  repeat' split
  all_goals first | exact pure _ | exact ubE _

/-- Everything is allowed. -/
theorem any {m : M α} (h1 : ∀ r, E.regs r = true) (h2 : E.mem = true) (h3 : E.flags = true) (h4 : E.norep = false) : Fr E m := by
  intro env s _
  have : ∀ t, Within E s t := fun t => ⟨fun r h => by simp [h1] at h, fun h => by simp [h2] at h, fun h => by simp [h3] at h, fun h => by simp [h4] at h⟩
  cases m env s with
  | ok a t => exact this t
  | err a t => exact this t
  | ub a => trivial
end Fr

/-- finish side conditions -/
macro "frs" : tactic => `(tactic| first | assumption | rfl | (intro _ h; exact h))

macro "fr1" : tactic => `(tactic| first
  | with_reducible exact Fr.pure _ | with_reducible exact Fr.gets _ | with_reducible exact Fr.getReg _ _ | with_reducible exact Fr.getSreg _
  | with_reducible exact Fr.getIP | with_reducible exact Fr.nextIP | with_reducible exact Fr.getFlags | with_reducible exact Fr.getDec
  | with_reducible exact Fr.getSegment _ | with_reducible exact Fr.throwE _ | with_reducible exact Fr.ubE _ | with_reducible exact Fr.liftUB _
  | with_reducible exact Fr.guardE _ _ | with_reducible exact Fr.setSreg _ _ | with_reducible exact Fr.setIP _ | with_reducible exact Fr.setDontChangeIP
  | with_reducible exact Fr.loadM _ _ | with_reducible exact Fr.getPtr _ _ | with_reducible exact Fr.readMem _ _ _ | with_reducible exact Fr.readInstr _
  | with_reducible exact Fr.readInstr8S _ | with_reducible exact Fr.readLoc _ _ | with_reducible exact Fr.portOut _ _ _ | with_reducible exact Fr.portIn _ _
  | with_reducible exact Fr.segOf _
  | (with_reducible refine Fr.setReg _ _ _ ?_; frs) | (with_reducible refine Fr.setGpr _ _ ?_; frs) | (with_reducible refine Fr.setRegH _ _ ?_; frs)
  | (with_reducible refine Fr.setFlags _ ?_; frs)
  | (with_reducible refine Fr.writeMem _ _ _ _ ?_; frs) | (with_reducible refine Fr.storeM _ _ _ ?_; frs)
  | (with_reducible refine Fr.push _ ?_ ?_ <;> frs) | (with_reducible refine Fr.pop ?_; frs)
  | with_reducible refine Fr.pushM ?_ (by frs) (by frs)
  | (with_reducible refine Fr.modDec _ ?_; frs))

end RME
