import Verif.Lemmas.FrameOps
import Verif.Lemmas.Reg
set_option autoImplicit false
/-
A relational logic for "the outcome does not depend on this part of the state": two runs from states that differ only in hidden parts.
-/
set_option linter.unusedSectionVars false
set_option linter.unusedVariables false
namespace RME

/-- What is hidden. -/
structure Hid where
  /-- of register `r` the low `vis r` bits are visible -/
  vis : BitVec 3 → Nat
  /-- hidden flag bits -/
  fl : BitVec 16
  /-- hidden segment registers -/
  seg : SReg → Bool
  /-- prefixes of the instruction -/
  p : Pfx

/-- Equal in the low `n` bits. -/
def LowEq (n : Nat) (a b : BitVec 32) : Prop := ∀ i, i < n → a.getLsbD i = b.getLsbD i
/-- Equal except for the bits of `q`. -/
def FEq (q f g : BitVec 16) : Prop := ∀ i, q.getLsbD i = false → f.getLsbD i = g.getLsbD i

/-- The states agree in everything visible. -/
structure Hid.Sim (H : Hid) (s t : State) : Prop where
  gpr : ∀ r, LowEq (H.vis r) (s.gpr r) (t.gpr r)
  flags : FEq H.fl s.flags t.flags
  sreg : ∀ r, H.seg r = false → s.sreg r = t.sreg r
  ip : s.ip = t.ip
  cpuType : s.cpuType = t.cpuType
  debugLevel : s.debugLevel = t.debugLevel
  map : s.map = t.map
  host : s.host = t.host
  valid : s.valid = t.valid
  instrNum : s.instrNum = t.instrNum
  lastNull : s.lastNull = t.lastNull
  dec : s.dec = t.dec
  io : s.io = t.io

/-- The decoder holds the prefixes. -/
structure Hid.Pre (H : Hid) (s : State) : Prop where
  seg : s.dec.ovrSeg = H.p.seg
  rep : s.dec.rep = H.p.rep
  oper : s.dec.ovrOper = H.p.oper
  addr : s.dec.ovrAddr = H.p.addr

def Hid.R (H : Hid) (s t : State) : Prop := H.Sim s t ∧ H.Pre s

/-- `n` bits of register `r` may be read. -/
def Hid.RegOk (H : Hid) (n : Nat) (r : BitVec 3) : Prop := n ≤ H.vis r
/-- The register may be read at the width of the instruction. -/
def Hid.RegX (H : Hid) (r : BitVec 3) : Prop := 32 ≤ H.vis r ∨ (16 ≤ H.vis r ∧ H.p.oper = false ∧ H.p.addr = false)
def Hid.SegOk (H : Hid) (r : SReg) : Prop := H.seg r = false
def Hid.Wid (H : Hid) (n : Nat) : Prop := n = if H.p.oper then 32 else 16

class Hid.CS (H : Hid) : Prop where
  cs : H.seg .cs = false

/-- Related outcomes. -/
def RrD {α β : Type} (H : Hid) (R' : State → State → Prop) (V : α → β → Prop) : Res α → Res β → Prop
  | .ok a s, .ok b t => R' s t ∧ V a b
  | .err e s, .err e' t => e = e' ∧ H.Sim s t
  | .ub u, .ub u' => u = u'
  | _, _ => False

/-- Related programs. -/
def Tw {α β : Type} (H : Hid) (env : Env) (R R' : State → State → Prop) (V : α → β → Prop) (m : M α) (m' : M β) : Prop :=
  ∀ s t, R s t → RrD H R' V (m env s) (m' env t)

abbrev Tm {α β : Type} (H : Hid) (env : Env) (V : α → β → Prop) (m : M α) (m' : M β) : Prop := Tw H env H.R H.R V m m'
abbrev Te {α : Type} (H : Hid) (env : Env) (m m' : M α) : Prop := Tm H env Eq m m'
/-- nothing about the decoder afterwards -/
abbrev Tz (H : Hid) (env : Env) (m m' : M Unit) : Prop := Tw H env H.R H.Sim Eq m m'

namespace LowEq
theorem refl {n} (a : BitVec 32) : LowEq n a a := fun _ _ => rfl
theorem mono {n m} {a b : BitVec 32} (h : LowEq n a b) (hm : m ≤ n) : LowEq m a b := fun i hi => h i (by omega)
theorem setWidth {n m} {a b : BitVec 32} (h : LowEq n a b) (hm : m ≤ n) : a.setWidth m = b.setWidth m := by
  apply BitVec.eq_of_getLsbD_eq
  intro i hi
  simp only [BitVec.getLsbD_setWidth]
  rw [h i (by omega)]
theorem eq {n} {a b : BitVec 32} (h : LowEq n a b) (hn : 32 ≤ n) : a = b := by
  have := h.setWidth (m := 32) hn
  simpa using this
theorem putLow {n k} {a b : BitVec 32} (h : LowEq n a b) (v : BitVec k) : LowEq n (RME.putLow k a v) (RME.putLow k b v) := by
  intro i hi
  by_cases h32 : i < 32
  · rw [putLow_bit _ _ _ h32, putLow_bit _ _ _ h32, h i hi]
  · rw [BitVec.getLsbD_of_ge _ _ (by omega), BitVec.getLsbD_of_ge _ _ (by omega)]
end LowEq

namespace FEq
variable {q f g : BitVec 16}
theorem refl (f : BitVec 16) : FEq q f f := fun _ _ => rfl
theorem and (h : FEq q f g) (c : BitVec 16) : FEq q (f &&& c) (g &&& c) := fun i hi => by simp [h i hi]
theorem or (h : FEq q f g) (c : BitVec 16) : FEq q (f ||| c) (g ||| c) := fun i hi => by simp [h i hi]
theorem xor (h : FEq q f g) (c : BitVec 16) : FEq q (f ^^^ c) (g ^^^ c) := fun i hi => by simp [h i hi]
theorem clr (h : FEq q f g) (c : BitVec 16) : FEq q (RME.clr f c) (RME.clr g c) := h.and _
theorem orIf (h : FEq q f g) (c : Bool) (b : BitVec 16) : FEq q (RME.orIf f c b) (RME.orIf g c b) := h.or _
theorem ite {f' g' : BitVec 16} {p : Prop} [Decidable p] (h : FEq q f g) (h' : FEq q f' g') : FEq q (if p then f else f') (if p then g else g') := by
  split
  · exact h
  · exact h'
theorem comm {n : Nat} (h : FEq q f g) (v : BitVec n) : FEq q (setCommFlags f v) (setCommFlags g v) :=
  (((h.clr _).orIf _ _).orIf _ _).orIf _ _
theorem cfof (h : FEq q f g) (c : Bool) : FEq q (setCFOF f c) (setCFOF g c) := by
  cases c
  · exact h.clr _
  · exact h.or _
theorem mask (h : FEq q f g) {m : BitVec 16} (hm : q &&& m = 0) : f &&& m = g &&& m := by
  apply BitVec.eq_of_getLsbD_eq
  intro i hi
  simp only [BitVec.getLsbD_and]
  by_cases hc : q.getLsbD i = true
  · have := congrArg (fun x => BitVec.getLsbD x i) hm
    simp [hc] at this
    simp [this]
  · rw [h i (by simpa using hc)]
theorem tst (h : FEq q f g) {m : BitVec 16} (hm : q &&& m = 0) : RME.tst f m = RME.tst g m := by
  unfold RME.tst; rw [h.mask hm]
theorem eq (h : FEq q f g) (hq : q = 0) : f = g := by
  subst hq
  apply BitVec.eq_of_getLsbD_eq
  intro i hi
  exact h i (by simp)
theorem setWidth8 (h : FEq q f g) (hm : q &&& 0xFF = 0) : f.setWidth 8 = g.setWidth 8 := by
  have := congrArg (fun x => BitVec.setWidth 8 x) (h.mask hm)
  have e : ∀ x : BitVec 16, (x &&& 0xFF).setWidth 8 = x.setWidth 8 := by
    intro x
    apply BitVec.eq_of_toNat_eq
    simp only [BitVec.toNat_setWidth, BitVec.toNat_and]
    have : (255#16).toNat = 2 ^ 8 - 1 := rfl
    rw [show ((0xFF : BitVec 16)).toNat = 2 ^ 8 - 1 from rfl, Nat.and_two_pow_sub_one_eq_mod]
    simp
  simpa only [e] using this

theorem sub {m : BitVec 16} (h : q &&& m = 0) {k : BitVec 16} (hk : m &&& k = k) : q &&& k = 0 := by
  rw [← hk, ← BitVec.and_assoc, h]; simp
end FEq

namespace Hid
variable {H : Hid}
theorem RegX.ok16 {r} (h : H.RegX r) : H.RegOk 16 r := by
  unfold RegX at h; unfold RegOk; omega
theorem RegX.ok8 {r} (h : H.RegX r) : H.RegOk 8 r := by
  unfold RegX at h; unfold RegOk; omega
theorem RegX.okW {r n} (h : H.RegX r) (hn : H.Wid n) : H.RegOk n r := by
  unfold RegX at h; unfold RegOk; unfold Wid at hn
  rcases h with h | ⟨h, ho, _⟩
  · subst hn; split <;> omega
  · rw [ho] at hn; subst hn; exact h
theorem RegX.ok32 {r} (h : H.RegX r) (ho : H.p.oper = true ∨ H.p.addr = true) : H.RegOk 32 r := by
  unfold RegX at h; unfold RegOk
  rcases h with h | ⟨_, h1, h2⟩
  · exact h
  · rw [h1, h2] at ho; simp at ho

theorem Sim.reg {s t : State} (h : H.Sim s t) {n r} (hr : H.RegOk n r) : s.reg n r = t.reg n r := (h.gpr r).setWidth hr
theorem Sim.setGpr {s t : State} (h : H.Sim s t) {r a b} (hv : LowEq (H.vis r) a b) : H.Sim (s.setGpr r a) (t.setGpr r b) :=
  have hg : ∀ x, LowEq (H.vis x) (if x = r then a else s.gpr x) (if x = r then b else t.gpr x) := fun x => by
    split
    · rename_i hx; subst hx; exact hv
    · exact h.gpr x
  { h with gpr := hg }
theorem Sim.setReg {s t : State} (h : H.Sim s t) {n r v} : H.Sim (s.setReg n r v) (t.setReg n r v) :=
  h.setGpr ((h.gpr r).putLow v)

theorem pair_bit {s t : State} (h : H.Sim s t) (r : BitVec 3) : ∀ j, j < 32 → j < H.vis r → (s.pair r).getLsbD j = (t.pair r).getLsbD j := by
  intro j hj hv
  simp only [State.pair, BitVec.getLsbD_append, hj, if_true]
  exact h.gpr r j hv
theorem pair_bitH {s t : State} (h : H.Sim s t) (r : BitVec 3) : ∀ j, j < H.vis (r + 1) → (s.pair r).getLsbD (32 + j) = (t.pair r).getLsbD (32 + j) := by
  intro j hv
  simp only [State.pair, BitVec.getLsbD_append]
  rw [if_neg (by omega), if_neg (by omega), Nat.add_sub_cancel_left]
  exact h.gpr (r + 1) j hv
theorem Sim.regH8 {s t : State} (h : H.Sim s t) {r} (hr : H.RegOk 16 r) : s.regH 8 r = t.regH 8 r := by
  apply BitVec.eq_of_getLsbD_eq
  intro i hi
  unfold RegOk at hr
  simp only [State.regH, BitVec.getLsbD_setWidth, BitVec.getLsbD_ushiftRight]
  rw [pair_bit h r (8 + i) (by omega) (by omega)]
theorem Sim.regHall {s t : State} (h : H.Sim s t) {n r} (hr : ∀ x, H.RegOk 32 x) : s.regH n r = t.regH n r := by
  have : s.gpr = t.gpr := funext fun x => (h.gpr x).eq (hr x)
  simp only [State.regH, State.pair, this]
theorem Sim.setRegH8 {s t : State} (h : H.Sim s t) {r v} : H.Sim (s.setRegH 8 r v) (t.setRegH 8 r v) := by
  unfold State.setRegH
  refine Sim.setGpr (Sim.setGpr h ?_) ?_
  · intro i hi
    by_cases h32 : i < 32
    · simp only [BitVec.getLsbD_setWidth]
      rw [putByte1_bit _ _ _ (by omega), putByte1_bit _ _ _ (by omega), pair_bit h r i h32 hi]
    · rw [BitVec.getLsbD_of_ge _ _ (by omega), BitVec.getLsbD_of_ge _ _ (by omega)]
  · intro i hi
    by_cases h32 : i < 32
    · simp only [BitVec.getLsbD_setWidth, BitVec.getLsbD_ushiftRight]
      rw [putByte1_bit _ _ _ (by omega), putByte1_bit _ _ _ (by omega), pair_bitH h r i hi]
    · rw [BitVec.getLsbD_of_ge _ _ (by omega), BitVec.getLsbD_of_ge _ _ (by omega)]
theorem Sim.setRegHall {s t : State} (h : H.Sim s t) {n r v} (hr : ∀ x, H.RegOk 32 x) : H.Sim (s.setRegH n r v) (t.setRegH n r v) := by
  have : s.gpr = t.gpr := funext fun x => (h.gpr x).eq (hr x)
  unfold State.setRegH
  simp only [State.pair, this]
  exact Sim.setGpr (Sim.setGpr h (LowEq.refl _)) (LowEq.refl _)
end Hid

namespace Tw
variable {H : Hid} {env : Env} {α β α' β' γ γ' : Type} {R R1 R' : State → State → Prop}

theorem bind {V : α → α' → Prop} {V' : β → β' → Prop} {m m'} {f : α → M β} {f' : α' → M β'} (hm : Tw H env R R1 V m m')
    (hf : ∀ a a', V a a' → Tw H env R1 R' V' (f a) (f' a')) : Tw H env R R' V' (m >>= f) (m' >>= f') := by
  intro s t hs
  have := hm s t hs
  simp only [bind_apply]
  cases h : m env s <;> cases h' : m' env t <;> rw [h, h'] at this <;> try exact this.elim
  · exact hf _ _ this.2 _ _ this.1
  · exact this
  · exact this
theorem bindE {V' : β → β' → Prop} {m m' : M α} {f : α → M β} {f' : α → M β'} (hm : Tw H env R R1 Eq m m')
    (hf : ∀ a, Tw H env R1 R' V' (f a) (f' a)) : Tw H env R R' V' (m >>= f) (m' >>= f') :=
  bind hm fun a a' h => h ▸ hf a
theorem post {V : α → α' → Prop} {m m'} (h : Tw H env R R1 V m m') (hp : ∀ s t, R1 s t → R' s t) : Tw H env R R' V m m' := by
  intro s t hs
  have := h s t hs
  cases h1 : m env s <;> cases h2 : m' env t <;> rw [h1, h2] at this <;> try exact this.elim
  · exact ⟨hp _ _ this.1, this.2⟩
  · exact this
  · exact this
theorem pre {V : α → α' → Prop} {m m'} (h : Tw H env R1 R' V m m') (hp : ∀ s t, R s t → R1 s t) : Tw H env R R' V m m' :=
  fun s t hs => h s t (hp s t hs)
theorem weak {m m' : M Unit} (h : Te H env m m') : Tz H env m m' := post h fun _ _ h => h.1

theorem pure {V : α → α' → Prop} {a a'} (h : V a a') : Tw H env R R V (Pure.pure a) (Pure.pure a') := fun _ _ hs => ⟨hs, h⟩
theorem pureE {a : α} : Tw H env R R Eq (Pure.pure a) (Pure.pure a) := pure rfl
theorem ubE {V : α → α' → Prop} {u} : Tw H env R R' V (RME.ubE u) (RME.ubE u) := fun _ _ _ => rfl
theorem throwE {V : α → α' → Prop} {e} (hR : ∀ s t, R s t → H.Sim s t) : Tw H env R R' V (RME.throwE e) (RME.throwE e) := fun _ _ hs => ⟨rfl, hR _ _ hs⟩
theorem throw {V : α → α' → Prop} {e} : Tw H env H.R R' V (RME.throwE e) (RME.throwE e) := throwE fun _ _ h => h.1
theorem guardR {x e} (hR : ∀ s t, R s t → H.Sim s t) : Tw H env R R Eq (RME.guardE x e) (RME.guardE x e) := by
  intro s t hs
  cases x
  · exact ⟨hs, rfl⟩
  · exact ⟨rfl, hR _ _ hs⟩
theorem guardE {x e} : Te H env (RME.guardE x e) (RME.guardE x e) := guardR fun _ _ h => h.1
theorem liftUB {x : Except UB α} : Tw H env R R Eq (RME.liftUB x) (RME.liftUB x) := by
  cases x with
  | ok a => exact pureE
  | error u => exact ubE
theorem ite {V : α → α' → Prop} {p : Prop} [Decidable p] {a b : M α} {a' b' : M α'} (ha : p → Tw H env R R' V a a') (hb : ¬p → Tw H env R R' V b b') :
    Tw H env R R' V (if p then a else b) (if p then a' else b') := by split <;> simp_all

/-! ### State access -/
theorem getsR {V : α → α' → Prop} {f : State → α} {f' : State → α'} (h : ∀ s t, R s t → V (f s) (f' t)) : Tw H env R R V (RME.gets f) (RME.gets f') :=
  fun s t hs => ⟨hs, h s t hs⟩
theorem modify {f f' : State → State} (h : ∀ s t, H.Sim s t → H.Sim (f s) (f' t)) (hd : ∀ s, (f s).dec = s.dec) : Te H env (RME.modify f) (RME.modify f') :=
  fun s t hs => ⟨⟨h s t hs.1, by rw [hd]; exact hs.2.1, by rw [hd]; exact hs.2.2, by rw [hd]; exact hs.2.3, by rw [hd]; exact hs.2.4⟩, rfl⟩
theorem getReg {n r} (hr : H.RegOk n r) : Te H env (RME.getReg n r) (RME.getReg n r) := getsR fun s t h => h.1.reg hr
theorem getRegR {n r} (hR : ∀ s t, R s t → H.Sim s t) (hr : H.RegOk n r) : Tw H env R R Eq (RME.getReg n r) (RME.getReg n r) := getsR fun s t h => (hR _ _ h).reg hr
/-- a value that is not used -/
theorem dead {f : State → α} : Tw H env R R (fun _ _ => True) (RME.gets f) (RME.gets f) := getsR fun _ _ _ => trivial
theorem deadReg {n r} : Tw H env R R (fun _ _ => True) (RME.getReg n r) (RME.getReg n r) := dead
theorem getRegH {r} (hr : H.RegOk 16 r) : Te H env (RME.gets (·.regH 8 r)) (RME.gets (·.regH 8 r)) := getsR fun s t h => h.1.regH8 hr
theorem getSreg {r} (hr : H.SegOk r) : Te H env (RME.getSreg r) (RME.getSreg r) := getsR fun s t h => h.1.sreg r hr
theorem getIP : Te H env RME.getIP RME.getIP := getsR fun s t h => h.1.ip
theorem getFlags : Tm H env (FEq H.fl) RME.getFlags RME.getFlags := getsR fun s t h => h.1.flags
theorem getFlagsE (h : H.fl = 0) : Te H env RME.getFlags RME.getFlags := getsR fun s t hs => hs.1.flags.eq h

def DecOk (H : Hid) (d d' : Decoder) : Prop := d = d' ∧ d.ovrSeg = H.p.seg ∧ d.rep = H.p.rep ∧ d.ovrOper = H.p.oper ∧ d.ovrAddr = H.p.addr
theorem getDecR (hR : ∀ s t, R s t → H.R s t) : Tw H env R R (DecOk H) RME.getDec RME.getDec :=
  getsR fun s t h => ⟨(hR _ _ h).1.dec, (hR _ _ h).2.1, (hR _ _ h).2.2, (hR _ _ h).2.3, (hR _ _ h).2.4⟩
theorem getDec : Tm H env (DecOk H) RME.getDec RME.getDec := getDecR fun _ _ h => h
/-- read the decoder -/
theorem bindDec {V : β → β' → Prop} {f : Decoder → M β} {f' : Decoder → M β'}
    (h : ∀ d, d.ovrSeg = H.p.seg → d.rep = H.p.rep → d.ovrOper = H.p.oper → d.ovrAddr = H.p.addr → Tw H env H.R R' V (f d) (f' d)) :
    Tw H env H.R R' V (RME.getDec >>= f) (RME.getDec >>= f') :=
  bind getDec fun d d' hd => by obtain ⟨rfl, h1, h2, h3, h4⟩ := hd; exact h d h1 h2 h3 h4
theorem nextIP : Te H env RME.nextIP RME.nextIP := getsR fun s t h => by rw [h.1.ip, h.1.dec]
theorem getSegment {r} (hr : H.SegOk (H.p.seg.getD r)) : Te H env (RME.getSegment r) (RME.getSegment r) :=
  bindDec fun d h1 _ _ _ => by rw [h1]; exact getSreg hr
theorem getSegmentD {r} : Tm H env (fun _ _ => True) (RME.getSegment r) (RME.getSegment r) :=
  bindDec fun d _ _ _ _ => dead
theorem setReg {n r v} : Te H env (RME.setReg n r v) (RME.setReg n r v) := modify (fun s t h => h.setReg) fun _ => rfl
theorem setRegH {r v} : Te H env (RME.modify (·.setRegH 8 r v)) (RME.modify (·.setRegH 8 r v)) := modify (fun s t h => h.setRegH8) fun _ => rfl
theorem setRegHi {r v} : Te H env (RME.setRegHi r v) (RME.setRegHi r v) := modify (fun s t h => h.setGpr fun i hi => by
  have := h.gpr r i hi
  simp only [BitVec.getLsbD_append, BitVec.getLsbD_setWidth]
  rw [this]) fun _ => rfl
theorem setSreg {r v} : Te H env (RME.setSreg r v) (RME.setSreg r v) := modify (fun s t h =>
  have hg : ∀ x, H.seg x = false → (if x = r then v else s.sreg x) = (if x = r then v else t.sreg x) := fun x hx => by rw [h.sreg x hx]
  { h with sreg := hg }) fun _ => rfl
theorem setIP {v} : Te H env (RME.setIP v) (RME.setIP v) := modify (fun s t h => { h with ip := rfl }) fun _ => rfl
theorem setFlags {v v'} (hv : FEq H.fl v v') : Te H env (RME.setFlags v) (RME.setFlags v') := modify (fun s t h => { h with flags := hv }) fun _ => rfl
theorem modDec {f : Decoder → Decoder} (h1 : ∀ d, (f d).ovrSeg = d.ovrSeg) (h2 : ∀ d, (f d).rep = d.rep) (h3 : ∀ d, (f d).ovrOper = d.ovrOper)
    (h4 : ∀ d, (f d).ovrAddr = d.ovrAddr) : Te H env (RME.modDec f) (RME.modDec f) := fun s t h =>
  ⟨⟨{ h.1 with dec := congrArg f h.1.dec }, ⟨(h1 _).trans h.2.1, (h2 _).trans h.2.2, (h3 _).trans h.2.3, (h4 _).trans h.2.4⟩⟩, rfl⟩
theorem setDontChangeIP : Te H env RME.setDontChangeIP RME.setDontChangeIP := modDec (fun _ => rfl) (fun _ => rfl) (fun _ => rfl) (fun _ => rfl)
theorem clearRep : Tz H env RME.clearRep RME.clearRep := fun s t h => ⟨{ h.1 with dec := congrArg (fun d : Decoder => { d with rep := .none }) h.1.dec }, rfl⟩
theorem addIP {v} : Te H env (RME.addIP v) (RME.addIP v) := bindE getIP fun _ => setIP
theorem segOf {p} : Te H env (RME.segOf p) (RME.segOf p) := by
  unfold RME.segOf
  repeat' (first | exact pureE | exact ubE | (refine ite (fun _ => ?_) (fun _ => ?_)))
theorem withW {V : α → α' → Prop} {f : Nat → M α} {f' : Nat → M α'} (h : ∀ n, H.Wid n → Tw H env H.R R' V (f n) (f' n)) :
    Tw H env H.R R' V (RME.withW f) (RME.withW f') :=
  bindDec fun d _ _ h3 _ => by
    rw [h3]
    exact ite (fun ho => h 32 (by rw [Hid.Wid, if_pos ho])) (fun ho => h 16 (by rw [Hid.Wid, if_neg ho]))
theorem portOut {n p v} : Te H env (RME.portOut n p v) (RME.portOut n p v) :=
  modify (fun s t h => { h with io := by show s.io ++ _ = t.io ++ _; rw [h.io] }) fun _ => rfl
theorem portIn {n p} : Te H env (RME.portIn n p) (RME.portIn n p) := by
  intro s t h
  simp only [RME.portIn, h.1.io]
  exact ⟨⟨{ h.1 with io := rfl }, h.2.1, h.2.2, h.2.3, h.2.4⟩, rfl⟩

/-! ### Memory -/
theorem getPtr {seg ofs} : Te H env (RME.getPtr seg ofs) (RME.getPtr seg ofs) := by
  intro s t h
  simp only [RME.getPtr, ← h.1.map]
  split
  · split
    · exact ⟨h, rfl⟩
    · split
      · exact ⟨rfl, h.1⟩
      · rfl
  · rfl
theorem loadM {n p} : Te H env (RME.loadM n p) (RME.loadM n p) := by
  intro s t h
  simp only [RME.loadM, ← h.1.valid, ← h.1.host]
  split
  · exact ⟨h, rfl⟩
  · rfl
theorem storeM {n p v} : Te H env (RME.storeM n p v) (RME.storeM n p v) := by
  intro s t h
  rw [RME.storeM, RME.storeM, show t.valid = s.valid from h.1.valid.symm]
  split
  · exact ⟨⟨{ h.1 with host := by show storeLE s.host _ _ _ = storeLE t.host _ _ _; rw [h.1.host], valid := rfl }, h.2.1, h.2.2, h.2.3, h.2.4⟩, rfl⟩
  · rfl
theorem readMem {n seg ofs} : Te H env (RME.readMem n seg ofs) (RME.readMem n seg ofs) := bindE getPtr fun _ => loadM
theorem writeMem {n seg ofs v} : Te H env (RME.writeMem n seg ofs v) (RME.writeMem n seg ofs v) := bindE getPtr fun _ => storeM

/-- The location may be read at width `n`. -/
def RdOk (H : Hid) (n : Nat) : Loc → Prop
  | .reg r => H.RegOk n r
  | .regH r => (n = 8 ∧ H.RegOk 16 r) ∨ ∀ x, H.RegOk 32 x
  | .mem _ => True
/-- The location may be written at width `n`. -/
def WrOk (H : Hid) (n : Nat) : Loc → Prop
  | .reg _ => True
  | .regH _ => n = 8 ∨ ∀ x, H.RegOk 32 x
  | .mem _ => True
theorem readLoc {n l} (h : RdOk H n l) : Te H env (RME.readLoc n l) (RME.readLoc n l) := by
  cases l
  · exact getReg h
  · rcases h with ⟨rfl, h⟩ | h
    · exact getRegH h
    · exact getsR fun s t hs => hs.1.regHall h
  · exact loadM
theorem writeLoc {n l v} (h : WrOk H n l) : Te H env (RME.writeLoc n l v) (RME.writeLoc n l v) := by
  cases l
  · exact setReg
  · rcases h with rfl | h
    · exact setRegH
    · exact modify (fun s t hs => hs.setRegHall h) fun _ => rfl
  · exact storeM
theorem wrReg {n r} : WrOk H n (.reg r) := trivial
theorem wrMem {n p} : WrOk H n (.mem p) := trivial
theorem wrRegB {r} : WrOk H 8 (regB r) := by unfold regB; split <;> first | trivial | exact Or.inl rfl
theorem wrRegW {n r} : WrOk H n (regW r) := trivial

section
variable [k : H.CS]
theorem readInstr {n} : Te H env (RME.readInstr n) (RME.readInstr n) :=
  bindE (getSreg k.cs) fun _ => bindE nextIP fun _ => bindE readMem fun _ =>
    bindE (modDec (fun _ => rfl) (fun _ => rfl) (fun _ => rfl) (fun _ => rfl)) fun _ => pureE
theorem readInstr8S {n} : Te H env (RME.readInstr8S n) (RME.readInstr8S n) := bindE readInstr fun _ => pureE
end

/-- The stack may be used. -/
def StkOk (H : Hid) : Prop := H.RegX 4 ∧ H.SegOk .ss
theorem pushM {m m' : M (BitVec 16)} (h4 : H.RegX 4) (hs : H.SegOk .ss) (h : Te H env m m') : Te H env (RME.pushM m) (RME.pushM m') :=
  bindE (getReg h4.ok16) fun _ => bindE setReg fun _ => bindE (getSreg hs) fun _ => bindE (getReg h4.ok16) fun _ => bindE h fun _ => writeMem
theorem push {v} (h4 : H.RegX 4) (hs : H.SegOk .ss) : Te H env (RME.push v) (RME.push v) := pushM h4 hs pureE
theorem pop (h4 : H.RegX 4) (hs : H.SegOk .ss) : Te H env RME.pop RME.pop :=
  bindE (getSreg hs) fun _ => bindE (getReg h4.ok16) fun _ => bindE readMem fun _ => bindE (getReg h4.ok16) fun _ => bindE setReg fun _ => pureE
theorem popReg {r} (h4 : H.RegX 4) (hs : H.SegOk .ss) : Te H env (RME.popReg r) (RME.popReg r) := bindE (pop h4 hs) fun _ => setReg

end Tw
end RME
