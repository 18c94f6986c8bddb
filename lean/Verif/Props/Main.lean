import Verif.Spec.Main
import Verif.Props.DosExe
import Verif.Props.Config
set_option autoImplicit false
/-
C74: the change report, the memory dump and the exit status of the native tester.
C75: its command line.
-/
namespace RME.Native
open RME

/-- Word `w` of the memories appears in the report: it changed and the word below does not appear. -/
def Rep (old new : Nat → BitVec 8) : Nat → Prop
  | 0 => Differs old new 0
  | w + 1 => Differs old new (2 * (w + 1)) ∧ ¬ Rep old new w

/-- The word below `w` appears. -/
def RepBelow (old new : Nat → BitVec 8) (w : Nat) : Prop := ∃ v, w = v + 1 ∧ Rep old new v

theorem rep_iff (old new : Nat → BitVec 8) (w : Nat) : Rep old new w ↔ Differs old new (2 * w) ∧ ¬ RepBelow old new w := by
  cases w with
  | zero => exact ⟨fun h => ⟨h, by rintro ⟨v, hv, -⟩; omega⟩, fun h => h.1⟩
  | succ w => exact ⟨fun h => ⟨h.1, by rintro ⟨v, hv, hr⟩; rw [show v = w by omega] at hr; exact h.2 hr⟩, fun h => ⟨h.1, fun hr => h.2 ⟨w, rfl, hr⟩⟩⟩

/-- The item for word `w`. -/
def itemOf (old new : Nat → BitVec 8) (w : Nat) : Item := .mem (2 * w) (memWord old (2 * w)) (memWord new (2 * w))

theorem memScan_spec {cur old : Nat → BitVec 8} (k w : Nat) (hw : 2 * (w + k) = MEMSZ) {prev : Nat → BitVec 8}
    (hb : RepBelow old cur w → prev (2 * w) = cur (2 * w) ∧ prev (2 * w + 1) = cur (2 * w + 1))
    (hn : ¬ RepBelow old cur w → prev (2 * w) = old (2 * w) ∧ prev (2 * w + 1) = old (2 * w + 1)) (hge : ∀ a, 2 * w + 2 ≤ a → prev a = old a) :
    (∀ l p, memScan cur k (2 * w) prev = some (l, p) → (∀ a, 2 * w ≤ a → a < MEMSZ → p a = cur a) ∧ (∀ a, a < 2 * w → p a = prev a) ∧
      (∀ x, x ∈ l ↔ ∃ v, w ≤ v ∧ v < w + k ∧ Rep old cur v ∧ x = itemOf old cur v)) ∧
    (memScan cur k (2 * w) prev = none ↔ 0 < k ∧ Rep old cur (w + k - 1)) := by
  induction k generalizing w prev with
  | zero =>
    refine ⟨?_, ?_⟩
    · intro l p h
      cases h
      refine ⟨fun a h1 h2 => by omega, fun a _ => rfl, fun x => ⟨fun hx => (by cases hx), ?_⟩⟩
      rintro ⟨v, h1, h2, -⟩; omega
    · exact ⟨fun h => (by cases h), fun h => by omega⟩
  | succ k ih =>
    have hd : (prev (2 * w) ≠ cur (2 * w) ∨ prev (2 * w + 1) ≠ cur (2 * w + 1)) ↔ Rep old cur w := by
      rw [rep_iff]
      by_cases h : RepBelow old cur w
      · have := hb h
        exact ⟨fun hc => by rcases hc with hc | hc; exact absurd this.1 hc; exact absurd this.2 hc, fun hc => absurd h hc.2⟩
      · have := hn h
        rw [this.1, this.2]
        exact ⟨fun hc => ⟨hc, h⟩, fun hc => hc.1⟩
    rw [memScan]
    by_cases hr : Rep old cur w
    · rw [if_pos (hd.mpr hr)]
      have hnb := ((rep_iff old cur w).mp hr).2
      have hbe : RepBelow old cur (w + 1) := ⟨w, rfl, hr⟩
      by_cases hl : MEMSZ < 2 * w + 4
      · rw [if_pos hl]
        refine ⟨fun l p h => (by cases h), fun _ => ⟨by omega, ?_⟩, fun _ => rfl⟩
        have : k = 0 := by omega
        subst this
        exact hr
      · rw [if_neg hl]
        have ih' := ih (w + 1) (by omega) (prev := fun a => if 2 * w ≤ a ∧ a < 2 * w + 4 then cur a else prev a)
          (fun _ => ⟨if_pos (by omega), if_pos (by omega)⟩) (fun h => absurd hbe h)
          (fun a ha => by
            show (if 2 * w ≤ a ∧ a < 2 * w + 4 then cur a else prev a) = old a
            rw [if_neg (by omega)]; exact hge a (by omega))
        rw [show 2 * (w + 1) = 2 * w + 2 by omega] at ih'
        obtain ⟨i1, i2⟩ := ih'
        cases hs : memScan cur k (2 * w + 2) (fun a => if 2 * w ≤ a ∧ a < 2 * w + 4 then cur a else prev a) with
        | none =>
          rw [hs] at i2
          have := i2.mp rfl
          refine ⟨fun l p h => (by cases h), fun _ => ⟨by omega, ?_⟩, fun _ => rfl⟩
          rw [show w + (k + 1) - 1 = w + 1 + k - 1 by omega]
          exact this.2
        | some r =>
          obtain ⟨l0, p0⟩ := r
          obtain ⟨j1, j2, j3⟩ := i1 l0 p0 hs
          refine ⟨?_, ?_⟩
          · intro l p h
            cases h
            refine ⟨?_, ?_, ?_⟩
            · intro a h1 h2
              by_cases ha : a < 2 * w + 2
              · rw [j2 a ha]; exact if_pos (by omega)
              · exact j1 a (by omega) h2
            · intro a ha
              rw [j2 a (by omega)]; exact if_neg (by omega)
            · intro x
              rw [List.mem_cons, j3]
              constructor
              · rintro (rfl | ⟨v, h1, h2, h3, h4⟩)
                · refine ⟨w, Nat.le_refl _, by omega, hr, ?_⟩
                  simp only [itemOf, memWord, (hn hnb).1, (hn hnb).2]
                · exact ⟨v, by omega, by omega, h3, h4⟩
              · rintro ⟨v, h1, h2, h3, h4⟩
                by_cases hv : v = w
                · subst hv
                  left
                  rw [h4]
                  simp only [itemOf, memWord, (hn hnb).1, (hn hnb).2]
                · right
                  exact ⟨v, by omega, by omega, h3, h4⟩
          · refine ⟨fun h => (by cases h), fun h => ?_⟩
            exfalso
            rw [show w + (k + 1) - 1 = w + k by omega] at h
            have hk : 0 < k := by omega
            have := i2.mpr ⟨hk, by rw [show w + 1 + k - 1 = w + k by omega]; exact h.2⟩
            rw [hs] at this; cases this
    · rw [if_neg (fun hc => hr (hd.mp hc))]
      have hnb : ¬ RepBelow old cur (w + 1) := by
        rintro ⟨v, hv, h⟩
        rw [show v = w by omega] at h
        exact hr h
      have heq : prev (2 * w) = cur (2 * w) ∧ prev (2 * w + 1) = cur (2 * w + 1) := by
        refine ⟨?_, ?_⟩
        · exact Classical.byContradiction fun hc => hr (hd.mp (.inl hc))
        · exact Classical.byContradiction fun hc => hr (hd.mp (.inr hc))
      have ih' := ih (w + 1) (by omega) (prev := prev) (fun h => absurd h hnb)
        (fun _ => ⟨hge _ (by omega), hge _ (by omega)⟩) (fun a ha => hge a (by omega))
      rw [show 2 * (w + 1) = 2 * w + 2 by omega] at ih'
      obtain ⟨i1, i2⟩ := ih'
      refine ⟨?_, ?_⟩
      · intro l p h
        obtain ⟨j1, j2, j3⟩ := i1 l p h
        refine ⟨?_, ?_, ?_⟩
        · intro a h1 h2
          by_cases ha : a < 2 * w + 2
          · rw [j2 a ha]
            have : a = 2 * w ∨ a = 2 * w + 1 := by omega
            rcases this with rfl | rfl
            · exact heq.1
            · exact heq.2
          · exact j1 a (by omega) h2
        · intro a ha; exact j2 a (by omega)
        · intro x
          rw [j3]
          constructor
          · rintro ⟨v, h1, h2, h3, h4⟩; exact ⟨v, by omega, by omega, h3, h4⟩
          · rintro ⟨v, h1, h2, h3, h4⟩
            have : v ≠ w := fun hc => hr (hc ▸ h3)
            exact ⟨v, by omega, by omega, h3, h4⟩
      · rw [i2, show w + (k + 1) - 1 = w + k by omega]
        constructor
        · rintro ⟨h1, h2⟩
          rw [show w + 1 + k - 1 = w + k by omega] at h2
          exact ⟨by omega, h2⟩
        · rintro ⟨-, h2⟩
          by_cases hk : k = 0
          · subst hk; exact absurd h2 hr
          · exact ⟨by omega, by rw [show w + 1 + k - 1 = w + k by omega]; exact h2⟩

theorem memScan_full (cur old : Nat → BitVec 8) :
    (∀ l p, memScan cur (MEMSZ / 2) 0 old = some (l, p) → (∀ a, a < MEMSZ → p a = cur a) ∧ (∀ x, x ∈ l ↔ ∃ v, v < MEMSZ / 2 ∧ Rep old cur v ∧ x = itemOf old cur v)) ∧
    (memScan cur (MEMSZ / 2) 0 old = none ↔ Rep old cur (MEMSZ / 2 - 1)) := by
  have h := memScan_spec (cur := cur) (old := old) (MEMSZ / 2) 0 (by decide) (prev := old) (by rintro ⟨v, hv, -⟩; omega) (fun _ => ⟨rfl, rfl⟩) (fun _ _ => rfl)
  simp only [Nat.mul_zero, Nat.zero_add] at h
  refine ⟨fun l p hs => ?_, ?_⟩
  · obtain ⟨h1, -, h3⟩ := h.1 l p hs
    refine ⟨fun a ha => h1 a (by omega) ha, fun x => ?_⟩
    rw [h3]
    constructor
    · rintro ⟨v, -, a, b, c⟩; exact ⟨v, a, b, c⟩
    · rintro ⟨v, a, b, c⟩; exact ⟨v, Nat.zero_le _, a, b, c⟩
  · rw [h.2]; exact ⟨fun h => h.2, fun h => ⟨by decide, h⟩⟩

/-- What the tester remembers is the machine's registers (CS and IP apart) and memory. -/
structure Snap (ga : Nat) (p : Prev) (s : State) : Prop where
  gpr : ∀ r, p.gpr r = s.gpr r
  seg : ∀ r, r ≠ .cs → p.seg r = s.sreg r
  flags : p.flags = s.flags
  mem : ∀ a, a < 0x110000 → p.mem a = memOf ga s a

/-- The items of a report are changes between the remembered values and the machine's: the register part is exactly the set of changed
registers, the memory part consists of changed words, and a changed word is missing only if the word before it appears. -/
structure Honest (ga : Nat) (p : Prev) (s : State) (l : List Item) : Prop where
  gpr : ∀ r o n, Item.gpr r o n ∈ l ↔ (p.gpr r ≠ s.gpr r ∧ o = p.gpr r ∧ n = s.gpr r)
  seg : ∀ r o n, Item.seg r o n ∈ l ↔ (r ≠ .cs ∧ p.seg r ≠ s.sreg r ∧ o = p.seg r ∧ n = s.sreg r)
  flags : ∀ o n, Item.flags o n ∈ l ↔ (p.flags ≠ s.flags ∧ o = p.flags ∧ n = s.flags)
  mem : ∀ a o n, Item.mem a o n ∈ l → a % 2 = 0 ∧ a + 1 < 0x110000 ∧ Differs p.mem (memOf ga s) a ∧
    o = p.mem (a + 1) ++ p.mem a ∧ n = memOf ga s (a + 1) ++ memOf ga s a
  complete : ∀ a, a % 2 = 0 → a + 1 < 0x110000 → Differs p.mem (memOf ga s) a →
    (∃ o n, Item.mem a o n ∈ l) ∨ (∃ b o n, a = b + 2 ∧ Item.mem b o n ∈ l)
  /-- never two adjacent words -/
  gap : ∀ a o n o' n', Item.mem a o n ∈ l → Item.mem (a + 2) o' n' ∈ l → False

theorem mem_checkRegs {p : Prev} {s : State} (x : Item) : x ∈ checkRegs p s ↔
    (∃ r, p.gpr r ≠ s.gpr r ∧ x = .gpr r (p.gpr r) (s.gpr r)) ∨ (∃ r, r ≠ .cs ∧ p.seg r ≠ s.sreg r ∧ x = .seg r (p.seg r) (s.sreg r)) ∨
    (p.flags ≠ s.flags ∧ x = .flags p.flags s.flags) := by
  have hall : ∀ r : BitVec 3, r ∈ ([0, 1, 2, 3, 4, 5, 6, 7] : List (BitVec 3)) := by decide
  have hseg : ∀ r : SReg, r ∈ [SReg.ss, .ds, .es, .fs, .gs] ↔ r ≠ .cs := by intro r; cases r <;> simp
  simp only [checkRegs, List.mem_append, List.mem_flatten, List.mem_map]
  constructor
  · rintro ((⟨l, ⟨r, -, rfl⟩, hx⟩ | ⟨l, ⟨r, hr, rfl⟩, hx⟩) | hx)
    · left
      simp only [checkGpr] at hx
      split at hx
      · rename_i h; exact ⟨r, h, by simpa using hx⟩
      · cases hx
    · right; left
      simp only [checkSeg] at hx
      split at hx
      · rename_i h; exact ⟨r, (hseg r).mp hr, h, by simpa using hx⟩
      · cases hx
    · right; right
      split at hx
      · rename_i h; exact ⟨h, by simpa using hx⟩
      · cases hx
  · rintro (⟨r, h, rfl⟩ | ⟨r, h1, h, rfl⟩ | ⟨h, rfl⟩)
    · left; left
      exact ⟨_, ⟨r, hall r, rfl⟩, by rw [checkGpr, if_pos h]; simp⟩
    · left; right
      exact ⟨_, ⟨r, (hseg r).mpr h1, rfl⟩, by rw [checkSeg, if_pos h]; simp⟩
    · right
      rw [if_pos h]; simp

/-- C74: the report after an instruction at debug level 1 or more is honest, and leaves a snapshot of the machine behind. -/
theorem C74_report_partial {ga : Nat} {p p' : Prev} {s : State} {l : List Item} (hd : 1 ≤ s.debugLevel) (h : report ga p s = some (l, p')) :
    Honest ga p s l ∧ Snap ga p' s := by
  rw [report, if_neg (by omega)] at h
  obtain ⟨h1, -⟩ := memScan_full (fun i => s.host (ga + i)) p.mem
  cases hs : memScan (fun i => s.host (ga + i)) (MEMSZ / 2) 0 p.mem with
  | none => rw [hs] at h; cases h
  | some r =>
    obtain ⟨lm, m⟩ := r
    rw [hs] at h
    obtain ⟨k1, k2⟩ := h1 lm m hs
    cases h
    have hno : ∀ x, x ∈ lm → ∃ a o n, x = .mem a o n := fun x hx => by
      obtain ⟨v, -, -, rfl⟩ := (k2 x).mp hx
      exact ⟨_, _, _, rfl⟩
    have hreg : ∀ a o n, Item.mem a o n ∉ checkRegs p s := by
      intro a o n hc
      rcases (mem_checkRegs _).mp hc with ⟨r, -, h⟩ | ⟨r, -, -, h⟩ | ⟨-, h⟩ <;> cases h
    have hmem : ∀ a o n, Item.mem a o n ∈ checkRegs p s ++ lm ↔ ∃ v, v < MEMSZ / 2 ∧ Rep p.mem (memOf ga s) v ∧ Item.mem a o n = itemOf p.mem (memOf ga s) v := by
      intro a o n
      rw [List.mem_append, k2]
      exact ⟨fun h => h.resolve_left (hreg a o n), .inr⟩
    refine ⟨⟨?_, ?_, ?_, ?_, ?_, ?_⟩, ⟨fun _ => rfl, fun r hr => if_neg hr, rfl, fun a ha => k1 a ha⟩⟩
    · intro r o n
      rw [List.mem_append, mem_checkRegs]
      constructor
      · rintro ((⟨r', h, e⟩ | ⟨r', -, -, e⟩ | ⟨-, e⟩) | hx)
        · cases e; exact ⟨h, rfl, rfl⟩
        · cases e
        · cases e
        · obtain ⟨_, _, _, e⟩ := hno _ hx; cases e
      · rintro ⟨h, rfl, rfl⟩
        exact .inl (.inl ⟨r, h, rfl⟩)
    · intro r o n
      rw [List.mem_append, mem_checkRegs]
      constructor
      · rintro ((⟨r', h, e⟩ | ⟨r', h0, h, e⟩ | ⟨-, e⟩) | hx)
        · cases e
        · cases e; exact ⟨h0, h, rfl, rfl⟩
        · cases e
        · obtain ⟨_, _, _, e⟩ := hno _ hx; cases e
      · rintro ⟨h0, h, rfl, rfl⟩
        exact .inl (.inr (.inl ⟨r, h0, h, rfl⟩))
    · intro o n
      rw [List.mem_append, mem_checkRegs]
      constructor
      · rintro ((⟨r', h, e⟩ | ⟨r', -, -, e⟩ | ⟨h, e⟩) | hx)
        · cases e
        · cases e
        · cases e; exact ⟨h, rfl, rfl⟩
        · obtain ⟨_, _, _, e⟩ := hno _ hx; cases e
      · rintro ⟨h, rfl, rfl⟩
        exact .inl (.inr (.inr ⟨h, rfl⟩))
    · intro a o n hx
      obtain ⟨v, hv, hr, e⟩ := (hmem a o n).mp hx
      simp only [itemOf, Item.mem.injEq] at e
      obtain ⟨rfl, rfl, rfl⟩ := e
      have hv' : v < 0x88000 := hv
      exact ⟨by omega, by omega, ((rep_iff _ _ _).mp hr).1, rfl, rfl⟩
    · intro a h0 h1 hdif
      obtain ⟨v, rfl⟩ : ∃ v, a = 2 * v := ⟨a / 2, by omega⟩
      have hv : v < MEMSZ / 2 := by show v < 0x88000; omega
      by_cases hb : RepBelow p.mem (memOf ga s) v
      · right
        obtain ⟨u, rfl, hu⟩ := hb
        exact ⟨2 * u, _, _, by omega, (hmem _ _ _).mpr ⟨u, by omega, hu, rfl⟩⟩
      · left
        exact ⟨_, _, (hmem _ _ _).mpr ⟨v, hv, (rep_iff _ _ _).mpr ⟨hdif, hb⟩, rfl⟩⟩
    · intro a o n o' n' ha hb
      obtain ⟨v, -, hr, e⟩ := (hmem a o n).mp ha
      obtain ⟨u, -, hr', e'⟩ := (hmem _ _ _).mp hb
      simp only [itemOf, Item.mem.injEq] at e e'
      have : u = v + 1 := by omega
      subst this
      exact hr'.2 hr

/-- C74: if no two adjacent words changed, the memory part is exactly the changed words, with their old and new values. -/
theorem C74_exact {ga : Nat} {p : Prev} {s : State} {l : List Item} (h : Honest ga p s l)
    (hiso : ∀ a, Differs p.mem (memOf ga s) a → a % 2 = 0 → Differs p.mem (memOf ga s) (a + 2) → False) (a : Nat) (h0 : a % 2 = 0) (h1 : a + 1 < 0x110000) :
    Item.mem a (p.mem (a + 1) ++ p.mem a) (memOf ga s (a + 1) ++ memOf ga s a) ∈ l ↔ Differs p.mem (memOf ga s) a := by
  constructor
  · intro hx; exact (h.mem _ _ _ hx).2.2.1
  · intro hd
    rcases h.complete a h0 h1 hd with ⟨o, n, hx⟩ | ⟨b, o, n, rfl, hx⟩
    · obtain ⟨-, -, -, rfl, rfl⟩ := h.mem _ _ _ hx
      exact hx
    · obtain ⟨hb, -, hdb, -, -⟩ := h.mem _ _ _ hx
      exact absurd hd (fun hc => hiso b hdb hb hc)

/-- C74 violated: of two adjacent words that both changed (the one below them did not) the second is never reported. -/
theorem C74_violated_adjacent {ga : Nat} {p : Prev} {s : State} {l : List Item} (h : Honest ga p s l) {a : Nat} (h0 : a % 2 = 0) (h1 : a + 5 < 0x110000)
    (hb : ¬ Differs p.mem (memOf ga s) a) (hd : Differs p.mem (memOf ga s) (a + 2)) : ∀ o n, Item.mem (a + 4) o n ∉ l := by
  intro o n hx
  rcases h.complete (a + 2) (by omega) (by omega) hd with ⟨o', n', hy⟩ | ⟨b, o', n', e, hy⟩
  · exact h.gap _ _ _ _ _ hy hx
  · have : b = a := by omega
    subst this
    exact hb (h.mem _ _ _ hy).2.2.1

/-- C74 violated: when the last word of the memory array (10FFFEh) changed and its neighbour did not, the report writes beyond the array
(undefined behaviour); and this is the only undefined behaviour of the report. -/
theorem C74_violated_last {ga : Nat} {p : Prev} {s : State} (hd : 1 ≤ s.debugLevel) (hl : Differs p.mem (memOf ga s) 0x10FFFE)
    (hb : ¬ Differs p.mem (memOf ga s) 0x10FFFC) : report ga p s = none := by
  rw [report, if_neg (by omega), ((memScan_full (fun i => s.host (ga + i)) p.mem).2).mpr]
  show Rep p.mem (memOf ga s) (0x87FFE + 1)
  refine ⟨hl, fun hr => hb ?_⟩
  exact ((rep_iff _ _ _).mp hr).1

/-- C74: if the last word did not change, the report has no undefined behaviour. -/
theorem C74_no_ub {ga : Nat} {p : Prev} {s : State} (hl : ¬ Differs p.mem (memOf ga s) 0x10FFFE) : ∃ r, report ga p s = some r := by
  rw [report]
  by_cases hd : s.debugLevel < 1
  · rw [if_pos hd]; exact ⟨_, rfl⟩
  · rw [if_neg hd]
    cases hs : memScan (fun i => s.host (ga + i)) (MEMSZ / 2) 0 p.mem with
    | none =>
      have := ((memScan_full (fun i => s.host (ga + i)) p.mem).2).mp hs
      exact absurd ((rep_iff _ _ _).mp this).1 hl
    | some r => exact ⟨_, rfl⟩

/-- `n` consecutive changed words end with word `v`: these changed, and the word below them (if there is one) did not. -/
def ChangedRun (old new : Nat → BitVec 8) (v n : Nat) : Prop :=
  n ≤ v + 1 ∧ (∀ i, i < n → Differs old new (2 * (v - i))) ∧ (n ≤ v → ¬ Differs old new (2 * (v - n)))

theorem rep_run {old new : Nat → BitVec 8} : ∀ n v, ChangedRun old new v n → (Rep old new v ↔ n % 2 = 1) := by
  intro n
  induction n with
  | zero =>
    rintro v ⟨-, -, h⟩
    have h := h (Nat.zero_le _)
    rw [rep_iff]
    exact ⟨fun hr => absurd hr.1 h, fun hr => by omega⟩
  | succ n ih =>
    rintro v ⟨h1, h2, h3⟩
    have hd : Differs old new (2 * v) := h2 0 (by omega)
    cases v with
    | zero =>
      have : n = 0 := by omega
      subst this
      exact ⟨fun _ => rfl, fun _ => hd⟩
    | succ v =>
      have := ih v ⟨by omega, fun i hi => by have := h2 (i + 1) (by omega); rwa [show v + 1 - (i + 1) = v - i by omega] at this,
        fun hn => by have := h3 (by omega); rwa [show v + 1 - (n + 1) = v - n by omega] at this⟩
      show Differs old new (2 * (v + 1)) ∧ ¬ Rep old new v ↔ _
      rw [this]
      constructor
      · rintro ⟨-, h⟩; omega
      · intro h; exact ⟨hd, by omega⟩

theorem run_exists (old new : Nat → BitVec 8) : ∀ v, ∃ n, ChangedRun old new v n := by
  intro v
  induction v with
  | zero =>
    by_cases h : Differs old new 0
    · exact ⟨1, by omega, fun i _ => by rwa [show 0 - i = 0 by omega], fun h => by omega⟩
    · exact ⟨0, by omega, fun i hi => by omega, fun _ => h⟩
  | succ v ih =>
    obtain ⟨n, h1, h2, h3⟩ := ih
    by_cases h : Differs old new (2 * (v + 1))
    · refine ⟨n + 1, by omega, fun i hi => ?_, fun hn => ?_⟩
      · by_cases hi0 : i = 0
        · subst hi0; exact h
        · have := h2 (i - 1) (by omega)
          rwa [show v - (i - 1) = v + 1 - i by omega] at this
      · have := h3 (by omega)
        rwa [show v - n = v + 1 - (n + 1) by omega] at this
    · exact ⟨0, by omega, fun i hi => by omega, fun _ => h⟩

/-- C74: exactly which words appear in the report, whatever changed: of every run of consecutive changed words the first, third, fifth … (`n` is the number of
changed words that end with word `v`; there always is such a number). -/
theorem C74_exact_runs {ga : Nat} {p p' : Prev} {s : State} {l : List Item} (hd : 1 ≤ s.debugLevel) (h : report ga p s = some (l, p')) (v : Nat) (hv : 2 * v + 1 < 0x110000) :
    (∃ n, ChangedRun p.mem (memOf ga s) v n) ∧
    ∀ n, ChangedRun p.mem (memOf ga s) v n →
      (Item.mem (2 * v) (p.mem (2 * v + 1) ++ p.mem (2 * v)) (memOf ga s (2 * v + 1) ++ memOf ga s (2 * v)) ∈ l ↔ n % 2 = 1) := by
  refine ⟨run_exists _ _ v, fun n hn => ?_⟩
  rw [report, if_neg (by omega)] at h
  obtain ⟨h1, -⟩ := memScan_full (fun i => s.host (ga + i)) p.mem
  cases hs : memScan (fun i => s.host (ga + i)) (MEMSZ / 2) 0 p.mem with
  | none => rw [hs] at h; cases h
  | some r =>
    obtain ⟨lm, m⟩ := r
    rw [hs] at h
    obtain ⟨-, k2⟩ := h1 lm m hs
    cases h
    rw [← rep_run n v hn, List.mem_append, k2]
    constructor
    · rintro (hx | ⟨u, -, hr, e⟩)
      · rcases (mem_checkRegs _).mp hx with ⟨r, -, h⟩ | ⟨r, -, -, h⟩ | ⟨-, h⟩ <;> cases h
      · simp only [itemOf, Item.mem.injEq] at e
        have : u = v := by omega
        subst this
        exact hr
    · intro hr
      exact .inr ⟨v, by show v < 0x88000; omega, hr, rfl⟩

/-- C74 violated, exactly: the report is undefined behaviour iff an odd number of consecutive changed words ends with the last word of the memory array. -/
theorem C74_violated_last_exact {ga : Nat} {p : Prev} {s : State} (hd : 1 ≤ s.debugLevel) (n : Nat) (hn : ChangedRun p.mem (memOf ga s) 0x87FFF n) :
    report ga p s = none ↔ n % 2 = 1 := by
  rw [report, if_neg (by omega), ← rep_run n _ hn]
  have h2 := (memScan_full (fun i => s.host (ga + i)) p.mem).2
  show _ ↔ Rep p.mem (memOf ga s) (MEMSZ / 2 - 1)
  constructor
  · intro h
    refine h2.mp ?_
    cases hs : memScan (fun i => s.host (ga + i)) (MEMSZ / 2) 0 p.mem with
    | none => rfl
    | some r => rw [hs] at h; cases h
  · intro h
    rw [h2.mpr h]

/-- Three changed words in a row: run lengths 1, 2, 3. -/
example : let old : Nat → BitVec 8 := fun i => if 0x500 ≤ i ∧ i < 0x506 then 1 else 0
    ChangedRun old (fun _ => 0) 0x280 1 ∧ ChangedRun old (fun _ => 0) 0x281 2 ∧ ChangedRun old (fun _ => 0) 0x282 3 ∧ ChangedRun old (fun _ => 0) 0x283 0 := by
  unfold ChangedRun Differs
  decide

/-! ### Whole runs -/

/-- The services of the tester leave the configuration alone. -/
theorem native_keeps (w : World) : CallbacksKeep (nativeEnv w) SameConfig := by
  intro n f s hf
  simp only [nativeEnv, Option.map_eq_some_iff] at hf
  obtain ⟨g, hg, rfl⟩ := hf
  show SameConfig s ((g w s).after s)
  cases hx : g w s with
  | ok w' t =>
    have h := C67_frame hg hx
    exact ⟨h.map, h.valid, h.cpu, h.dbg⟩
  | exit c => exact SameConfig.rfl' s
  | blocked => exact SameConfig.rfl' s
  | ub u => exact SameConfig.rfl' s

/-- The reports `log` are honest about the states `l` the machine went through, the first compared with what `p` remembers. -/
def HonestLog (ga : Nat) : Prev → List State → List (List Item) → Prop
  | _, [], [] => True
  | p, s :: l, x :: log => Honest ga p s x ∧ ∃ p', Snap ga p' s ∧ HonestLog ga p' l log
  | _, _, _ => False

theorem mainLoop_runs {ga : Nat} {envs : Nat → Env} (hcb : ∀ i, CallbacksKeep (envs i) SameConfig) (fuel i : Nat) (p : Prev) (s : State) (log : List (List Item)) {e : Err} {t : State}
    {out : List (List Item)} (h : mainLoop ga envs fuel i p s log = .ended e t out) :
    ∃ l new, RunsTo envs i s l e t ∧ out = log ++ new ∧ (1 ≤ s.debugLevel → HonestLog ga p l new) ∧ (s.debugLevel < 1 → ∀ x ∈ new, x = []) ∧ new.length = l.length := by
  induction fuel generalizing i p s log with
  | zero => cases h
  | succ fuel ih =>
    rw [mainLoop] at h
    cases hro : runOne (envs i) s with
    | ub u => rw [hro] at h; cases h
    | err e' t' =>
      rw [hro] at h
      cases h
      exact ⟨[], [], .stop hro, by simp, fun _ => trivial, fun _ => by simp, rfl⟩
    | ok u t' =>
      rw [hro] at h
      simp only [] at h
      have hsc := C76_step (envs i) (hcb i) s t' (.inl hro)
      cases hrep : report ga p t' with
      | none => rw [hrep] at h; cases h
      | some r =>
        obtain ⟨x, p'⟩ := r
        rw [hrep] at h
        obtain ⟨l, new, h1, h2, h3, h4, h5⟩ := ih (i + 1) p' t' (log ++ [x]) h
        refine ⟨t' :: l, x :: new, .step hro h1, by rw [h2]; simp, ?_, ?_, by simp [h5]⟩
        · intro hd
          have hd' : 1 ≤ t'.debugLevel := by rw [hsc.2.2.2]; exact hd
          obtain ⟨k1, k2⟩ := C74_report_partial hd' hrep
          exact ⟨k1, p', k2, h3 hd'⟩
        · intro hd
          have hd' : t'.debugLevel < 1 := by rw [hsc.2.2.2]; exact hd
          rw [report, if_pos hd'] at hrep
          cases hrep
          intro y hy
          rcases List.mem_cons.mp hy with rfl | hy
          · rfl
          · exact h4 hd' y hy

/-- C74: every finished run of the tester: the machine executed instructions until one ended with a code; one honest report per completed
instruction at debug level 1 or more (the first compares registers with 0), none below; status 0 exactly for HLT and breakpoint; the dump is the
first MiB of guest memory at the end. -/
theorem C74_run_partial {ga : Nat} {ws : Nat → World} {dumpTo : Bool} {fuel : Nat} {s : State} {f : Finish}
    (h : runMain ga (fun i => nativeEnv (ws i)) dumpTo fuel s = some f) :
    ∃ l e t, RunsTo (fun i => nativeEnv (ws i)) 0 s l e t ∧ (1 ≤ s.debugLevel → HonestLog ga (prev0 ga s) l f.log) ∧ (s.debugLevel < 1 → ∀ x ∈ f.log, x = []) ∧
      f.log.length = l.length ∧ (f.status = 0 ↔ e = .halt ∨ e = .breakpoint) ∧
      f.dump.isSome = dumpTo ∧ (∀ d, f.dump = some d → d.length = 0x100000 ∧ ∀ i < 0x100000, d[i]? = some (memOf ga t i)) := by
  rw [runMain] at h
  split at h
  · rename_i e t log hl
    cases h
    obtain ⟨l, new, h1, h2, h3, h4, h5⟩ := mainLoop_runs (fun i => native_keeps (ws i)) fuel 0 _ s [] hl
    rw [List.nil_append] at h2
    subst h2
    refine ⟨l, e, t, h1, h3, h4, h5, C68_status e, ?_, ?_⟩
    · cases dumpTo <;> rfl
    · intro d hd
      cases dumpTo with
      | false => cases hd
      | true =>
        simp only [if_true, Option.some.injEq] at hd
        subst hd
        refine ⟨by simp, fun i hi => ?_⟩
        rw [List.getElem?_map, List.getElem?_range hi]
        rfl
  · cases h

/-- C74 violated: the first report compares the registers with 0, not with their values at the start: every register that is not 0 after the first
instruction is reported although the instruction may not have touched it. -/
theorem C74_violated_first {ga : Nat} {s t : State} {x : List Item} {l : List State} {log : List (List Item)} (h : HonestLog ga (prev0 ga s) (t :: l) (x :: log)) (r : BitVec 3)
    (hr : t.gpr r ≠ 0) : Item.gpr r 0 (t.gpr r) ∈ x :=
  (h.1.gpr r 0 (t.gpr r)).mpr ⟨fun hc => hr hc.symm, rfl, rfl⟩

/-- C74 violated: memory from 100000h on (which the guest can write) is not in the dump. -/
theorem C74_violated_dump {ga : Nat} {ws : Nat → World} {fuel : Nat} {s : State} {f : Finish} {d : List (BitVec 8)}
    (h : runMain ga (fun i => nativeEnv (ws i)) true fuel s = some f) (hd : f.dump = some d) : d[0x100000]? = none := by
  obtain ⟨-, -, t, -, -, -, -, -, -, hx⟩ := C74_run_partial h
  rw [List.getElem?_eq_none]
  rw [(hx d hd).1]; exact Nat.le_refl _

/-- A machine at debug level 1 (host memory all 0, guest memory at `ga`), and what the tester remembers after an instruction that wrote the word 500h
(and nothing else): the report exists and says so. -/
def demoPrev : Prev := { gpr := fun _ => 0, seg := fun _ => 0, flags := 0, mem := fun i => if i = 0x500 then 1 else 0 }
def demoSt : State := { demo [] with debugLevel := 1, host := fun _ => 0 }
example (ga : Nat) : ∃ l p', report ga demoPrev demoSt = some (l, p') ∧ Item.mem 0x500 1 0 ∈ l := by
  have hx : ∀ a, Differs demoPrev.mem (memOf ga demoSt) a ↔ a = 0x500 ∨ a + 1 = 0x500 := by
    intro a
    simp only [Differs, demoPrev, demoSt, memOf]
    by_cases h1 : a = 0x500
    · simp [h1]
    · by_cases h2 : a + 1 = 0x500
      · simp [h2]
      · simp [h1, h2]
  obtain ⟨⟨l, p'⟩, hr⟩ := C74_no_ub (ga := ga) (p := demoPrev) (s := demoSt) (fun h => absurd ((hx _).mp h) (by omega))
  refine ⟨l, p', hr, ?_⟩
  have h := (C74_report_partial (by decide) hr).1
  have hm := (C74_exact h (fun a ha h0 hb => by rw [hx] at ha hb; omega) 0x500 (by omega) (by omega)).mpr ((hx _).mpr (.inl rfl))
  rw [show demoPrev.mem (0x500 + 1) ++ demoPrev.mem 0x500 = (1 : BitVec 16) from rfl] at hm
  have h0 : memOf ga demoSt (0x500 + 1) ++ memOf ga demoSt 0x500 = (0 : BitVec 16) := by
    simp only [memOf, demoSt]; decide
  rw [h0] at hm
  exact hm
/-- Adjacent changes and a change in the last word exist. -/
example (ga : Nat) : let p : Prev := { demoPrev with mem := fun i => if 0x502 ≤ i ∧ i < 0x506 then 1 else 0 }
    ¬ Differs p.mem (memOf ga demoSt) 0x500 ∧ Differs p.mem (memOf ga demoSt) 0x502 := by
  refine ⟨?_, .inl ?_⟩
  · rintro (h | h) <;> exact h rfl
  · show (if 0x502 ≤ 0x502 ∧ 0x502 < 0x506 then (1 : BitVec 8) else 0) ≠ 0
    decide
example (ga : Nat) : let p : Prev := { demoPrev with mem := fun i => if i = 0x10FFFE then 1 else 0 }
    Differs p.mem (memOf ga demoSt) 0x10FFFE ∧ ¬ Differs p.mem (memOf ga demoSt) 0x10FFFC := by
  refine ⟨.inl ?_, ?_⟩
  · show (if 0x10FFFE = 0x10FFFE then (1 : BitVec 8) else 0) ≠ 0
    decide
  · rintro (h | h)
    · exact h (if_neg (by omega))
    · exact h (if_neg (by omega))
/-- A finished run: no medium, one breakpoint. -/
example (ga : Nat) (host : Nat → BitVec 8) (ws : Nat → World) : ∃ s f, setup ga host 1 .i386 .none = .run s ∧ runMain ga (fun i => nativeEnv (ws i)) true 1 s = some f ∧ f.status = 0 := by
  obtain ⟨s, t, h1, -, -, h4⟩ := C68_no_media ga host 1 .i386 (nativeEnv (ws 0))
  refine ⟨s, ⟨exitStatus .breakpoint, some ((List.range (1024 * 1024)).map fun i => t.host (ga + i)), []⟩, h1, ?_, ?_⟩
  · rw [runMain, mainLoop, h4]
    rfl
  · rfl

/-! ### C75: the command line -/

/-- The images an option list names. -/
def images (l : List Arg) : List (List Char) := l.filterMap Arg.imageName

/-- The last value given, or the default. -/
def lastOr {α : Type} (l : List α) (d : α) : α := l.getLast?.getD d

theorem lastOr_cons {α : Type} (a : α) (l : List α) (d : α) : lastOr (a :: l) d = lastOr l a := by
  cases l with
  | nil => rfl
  | cons b l => simp only [lastOr, List.getLast?_cons_cons, List.getLast?_eq_some_getLast (List.cons_ne_nil b l), Option.getD_some]

/-- The option values `o` after reading `l` with `o0` before. -/
structure Reads (l : List Arg) (o0 o : Opts) : Prop where
  binary : o.binary = lastOr ((l.filterMap Arg.binaryName).map some) o0.binary
  dosExe : o.dosExe = lastOr ((l.filterMap Arg.dosName).map some) o0.dosExe
  dump : o.dump = lastOr ((l.filterMap Arg.dumpName).map some) o0.dump
  cpu : o.cpu = lastOr (l.filterMap Arg.cpuName) o0.cpu
  debug : o.debug = lastOr ((l.filterMap Arg.level).map strtol10) o0.debug

theorem act_image (n : List Char) (hn : n.head? ≠ some '-') : argAct false n = .image := by
  simp only [argAct, Bool.false_eq_true, if_false]
  split
  · simp at hn
  · rfl

theorem image_step (n : List Char) (hn : n.head? ≠ some '-') (rest : List (List Char)) (k : Nat) (hk : k < 4) (o : Opts) :
    parseArgs (n :: rest) k false o = parseArgs rest (k + 1) false { o with fdds := o.fdds.set k (some n) } := by
  rw [parseArgs, act_image n hn]
  exact if_pos hk

theorem parse_reads (l : List Arg) (hp : ∀ a ∈ l, a.proper) (rest : List (List Char)) (k : Nat) (o : Opts) (hk : k + (images l).length ≤ 4) (hf : o.fdds.length = 4) :
    ∃ o', parseArgs (l.flatMap Arg.words ++ rest) k false o = parseArgs rest (k + (images l).length) false o' ∧ Reads l o o' ∧ o'.fdds.length = 4 ∧
      (∀ i (h : i < (images l).length), o'.fdds[k + i]? = some (some (images l)[i])) ∧ (∀ i, (i < k ∨ k + (images l).length ≤ i) → o'.fdds[i]? = o.fdds[i]?) := by
  induction l generalizing k o with
  | nil => exact ⟨o, rfl, ⟨rfl, rfl, rfl, rfl, rfl⟩, hf, fun i h => absurd h (by simp [images]), fun _ _ => rfl⟩
  | cons a l ih =>
    have hp' : ∀ a ∈ l, a.proper := fun a h => hp a (by simp [h])
    cases a with
    | image n =>
      have hn := hp (.image n) (by simp)
      have hi : images (.image n :: l) = n :: images l := rfl
      rw [hi, List.length_cons] at hk
      obtain ⟨o', h1, h2, h3, h4, h5⟩ := ih hp' (k + 1) { o with fdds := o.fdds.set k (some n) } (by omega) (by simpa using hf)
      refine ⟨o', ?_, ⟨h2.binary, h2.dosExe, h2.dump, h2.cpu, h2.debug⟩, h3, ?_, ?_⟩
      · show parseArgs (n :: (l.flatMap Arg.words ++ rest)) k false o = _
        rw [image_step n hn _ k (by omega), h1, hi, List.length_cons, show k + 1 + (images l).length = k + ((images l).length + 1) by omega]
      · intro i h
        cases i with
        | zero =>
          rw [Nat.add_zero, h5 k (by omega)]
          show (o.fdds.set k (some n))[k]? = _
          rw [List.getElem?_set_self (by omega)]
          rfl
        | succ i =>
          rw [show k + (i + 1) = k + 1 + i by omega, h4 i (by rw [hi] at h; simpa using h)]
          rfl
      · intro i h
        rw [hi, List.length_cons] at h
        rw [h5 i (by omega)]
        show (o.fdds.set k (some n))[i]? = _
        rw [List.getElem?_set_ne (by omega)]
    | binary n =>
      obtain ⟨o', h1, h2, h3, h4, h5⟩ := ih hp' k { o with binary := some n } hk hf
      exact ⟨o', h1, ⟨h2.binary.trans (lastOr_cons _ _ _).symm, h2.dosExe, h2.dump, h2.cpu, h2.debug⟩, h3, h4, h5⟩
    | dosExe n =>
      obtain ⟨o', h1, h2, h3, h4, h5⟩ := ih hp' k { o with dosExe := some n } hk hf
      exact ⟨o', h1, ⟨h2.binary, h2.dosExe.trans (lastOr_cons _ _ _).symm, h2.dump, h2.cpu, h2.debug⟩, h3, h4, h5⟩
    | dump n =>
      obtain ⟨o', h1, h2, h3, h4, h5⟩ := ih hp' k { o with dump := some n } hk hf
      exact ⟨o', h1, ⟨h2.binary, h2.dosExe, h2.dump.trans (lastOr_cons _ _ _).symm, h2.cpu, h2.debug⟩, h3, h4, h5⟩
    | nogui =>
      obtain ⟨o', h1, h2, h3, h4, h5⟩ := ih hp' k { o with nogui := true } hk hf
      exact ⟨o', h1, ⟨h2.binary, h2.dosExe, h2.dump, h2.cpu, h2.debug⟩, h3, h4, h5⟩
    | cpu n =>
      obtain ⟨o', h1, h2, h3, h4, h5⟩ := ih hp' k { o with cpu := n } hk hf
      exact ⟨o', h1, ⟨h2.binary, h2.dosExe, h2.dump, h2.cpu.trans (lastOr_cons _ _ _).symm, h2.debug⟩, h3, h4, h5⟩
    | debug n =>
      obtain ⟨o', h1, h2, h3, h4, h5⟩ := ih hp' k { o with debug := strtol10 n } hk hf
      exact ⟨o', h1, ⟨h2.binary, h2.dosExe, h2.dump, h2.cpu, h2.debug.trans (lastOr_cons _ _ _).symm⟩, h3, h4, h5⟩

/-- C75: a command line of proper options with at most four images is accepted; every option has the value given last (its default if never given),
and the images are the drives in the order given (drives not named keep their default). -/
theorem C75_options (l : List Arg) (hp : ∀ a ∈ l, a.proper) (hn : (l.filterMap Arg.imageName).length ≤ 4) :
    ∃ o, parseArgs (l.flatMap Arg.words) 0 false {} = .ok o ∧
      o.binary = lastOr ((l.filterMap Arg.binaryName).map some) none ∧ o.dosExe = lastOr ((l.filterMap Arg.dosName).map some) none ∧
      o.dump = lastOr ((l.filterMap Arg.dumpName).map some) none ∧ o.cpu = lastOr (l.filterMap Arg.cpuName) "80286".toList ∧
      o.debug = lastOr ((l.filterMap Arg.level).map strtol10) 1 ∧
      (∀ i (h : i < (l.filterMap Arg.imageName).length), o.fdds[i]? = some (some (l.filterMap Arg.imageName)[i])) ∧
      (∀ i, (l.filterMap Arg.imageName).length ≤ i → i < 4 → o.fdds[i]? = some (if i = 0 then some "fdd.img".toList else none)) := by
  obtain ⟨o, h1, h2, -, h4, h5⟩ := parse_reads l hp [] 0 {} (by simpa [images] using hn) rfl
  rw [List.append_nil] at h1
  refine ⟨o, h1, h2.binary, h2.dosExe, h2.dump, h2.cpu, h2.debug, fun i h => ?_, fun i h h' => ?_⟩
  · have := h4 i h
    rw [Nat.zero_add] at this
    exact this
  · rw [h5 i (.inr (by rw [Nat.zero_add]; exact h))]
    match i, h' with
    | 0, _ => rfl
    | 1, _ => rfl
    | 2, _ => rfl
    | 3, _ => rfl

/-- C75: a fifth image is refused with status 1. -/
theorem C75_five_images (l : List Arg) (hp : ∀ a ∈ l, a.proper) (hn : (l.filterMap Arg.imageName).length = 4) (n : List Char) (hh : n.head? ≠ some '-') (rest : List (List Char)) :
    parseArgs (l.flatMap Arg.words ++ n :: rest) 0 false {} = .exit 1 := by
  obtain ⟨o, h1, -⟩ := parse_reads l hp (n :: rest) 0 {} (by simp [images, hn]) rfl
  rw [h1, show 0 + (images l).length = 4 by rw [Nat.zero_add]; exact hn, parseArgs, act_image n hh]
  exact if_neg (by omega)

/-- C75: after any proper options, an unknown option or a lone `-` is refused with status 1; `-h…` and `--help` end with status 0. -/
theorem C75_refused (l : List Arg) (hp : ∀ a ∈ l, a.proper) (hn : (l.filterMap Arg.imageName).length ≤ 4) (rest : List (List Char)) :
    parseArgs (l.flatMap Arg.words ++ ['-'] :: rest) 0 false {} = .exit 1 ∧
    (∀ c tl, c ≠ '-' → c ≠ 'h' → c ≠ 'b' → c ≠ 'O' → c ≠ 'd' → parseArgs (l.flatMap Arg.words ++ ('-' :: c :: tl) :: rest) 0 false {} = .exit 1) ∧
    (∀ c tl, let a := '-' :: '-' :: c :: tl; a ≠ "--help".toList → a ≠ "--nogui".toList → a ≠ "--cpu".toList → a ≠ "--debug-level".toList →
      parseArgs (l.flatMap Arg.words ++ a :: rest) 0 false {} = .exit 1) ∧
    (∀ tl, parseArgs (l.flatMap Arg.words ++ ('-' :: 'h' :: tl) :: rest) 0 false {} = .exit 0) ∧
    parseArgs (l.flatMap Arg.words ++ "--help".toList :: rest) 0 false {} = .exit 0 := by
  have hk : 0 + (images l).length ≤ 4 := by simpa [images] using hn
  refine ⟨?_, ?_, ?_, ?_, ?_⟩
  · obtain ⟨o, h1, -⟩ := parse_reads l hp (['-'] :: rest) 0 {} hk rfl
    rw [h1]; rfl
  · intro c tl h0 h1 h2 h3 h4
    obtain ⟨o, h, -⟩ := parse_reads l hp (('-' :: c :: tl) :: rest) 0 {} hk rfl
    rw [h, parseArgs]
    simp only [argAct, h0, h1, h2, h3, h4, ne_eq, not_false_eq_true, if_true, if_false, Bool.false_eq_true]
  · intro c tl a h1 h2 h3 h4
    obtain ⟨o, h, -⟩ := parse_reads l hp (a :: rest) 0 {} hk rfl
    rw [h, parseArgs]
    simp only [a, argAct, ne_eq, not_true_eq_false, if_false, Bool.false_eq_true]
    rw [if_neg h1, if_neg h2, if_neg h3, if_neg h4]
  · intro tl
    obtain ⟨o, h, -⟩ := parse_reads l hp (('-' :: 'h' :: tl) :: rest) 0 {} hk rfl
    rw [h]; rfl
  · obtain ⟨o, h, -⟩ := parse_reads l hp ("--help".toList :: rest) 0 {} hk rfl
    rw [h]; rfl

/-- C75: after `--` every word is an image name, also one that begins with `-`. -/
theorem C75_all_free (names : List (List Char)) (o : Opts) (k : Nat) (hk : k + names.length ≤ 4) :
    ∃ o', parseArgs (['-', '-'] :: names) k false o = .ok o' ∧ ∀ i (h : i < names.length), k + i < o.fdds.length → o'.fdds[k + i]? = some (some names[i]) := by
  have hs : parseArgs (['-', '-'] :: names) k false o = parseArgs names k true o := rfl
  rw [hs]
  suffices ∀ (names : List (List Char)) (o : Opts) (k : Nat), k + names.length ≤ 4 → ∃ o', parseArgs names k true o = .ok o' ∧
      (∀ i (h : i < names.length), k + i < o.fdds.length → o'.fdds[k + i]? = some (some names[i])) ∧ (∀ i, i < k → o'.fdds[i]? = o.fdds[i]?) by
    obtain ⟨o', h1, h2, -⟩ := this names o k hk
    exact ⟨o', h1, h2⟩
  intro names
  induction names with
  | nil => intro o k _; exact ⟨o, rfl, fun i h => absurd h (by simp), fun _ _ => rfl⟩
  | cons n names ih =>
    intro o k hk
    rw [List.length_cons] at hk
    obtain ⟨o', h1, h2, h3⟩ := ih { o with fdds := o.fdds.set k (some n) } (k + 1) (by omega)
    refine ⟨o', ?_, ?_, ?_⟩
    · rw [parseArgs, show argAct true n = .image from rfl]
      exact (if_pos (show k < 4 by omega)).trans h1
    · intro i h hi
      cases i with
      | zero =>
        rw [Nat.add_zero, h3 k (by omega)]
        show (o.fdds.set k (some n))[k]? = _
        rw [List.getElem?_set_self (by omega)]; rfl
      | succ i =>
        rw [show k + (i + 1) = k + 1 + i by omega, h2 i (by simpa using h) (by show k + 1 + i < (o.fdds.set k (some n)).length; rw [List.length_set]; omega)]
        rfl
    · intro i hi
      rw [h3 i (by omega)]
      show (o.fdds.set k (some n))[i]? = _
      rw [List.getElem?_set_ne (by omega)]

/-- C75 violated: `-b`, `-d` or `-O` as the last word lacks its value but is accepted as if it were not there (a value given before is even forgotten). -/
theorem C75_violated_missing_value (l : List Arg) (hp : ∀ a ∈ l, a.proper) (hn : (l.filterMap Arg.imageName).length ≤ 4) :
    (∃ o, parseArgs (l.flatMap Arg.words ++ [['-', 'b']]) 0 false {} = .ok o ∧ o.binary = none) ∧
    (∃ o, parseArgs (l.flatMap Arg.words ++ [['-', 'd']]) 0 false {} = .ok o ∧ o.dosExe = none) ∧
    (∃ o, parseArgs (l.flatMap Arg.words ++ [['-', 'O']]) 0 false {} = .ok o ∧ o.dump = none) := by
  have hk : 0 + (images l).length ≤ 4 := by simpa [images] using hn
  refine ⟨?_, ?_, ?_⟩
  · obtain ⟨o, h, -⟩ := parse_reads l hp [['-', 'b']] 0 {} hk rfl
    exact ⟨_, h, rfl⟩
  · obtain ⟨o, h, -⟩ := parse_reads l hp [['-', 'd']] 0 {} hk rfl
    exact ⟨_, h, rfl⟩
  · obtain ⟨o, h, -⟩ := parse_reads l hp [['-', 'O']] 0 {} hk rfl
    exact ⟨_, h, rfl⟩

/-- C75: `--cpu` or `--debug-level` as the last word aborts the program (in a build with assertions). -/
theorem C75_missing_long (l : List Arg) (hp : ∀ a ∈ l, a.proper) (hn : (l.filterMap Arg.imageName).length ≤ 4) :
    parseArgs (l.flatMap Arg.words ++ ["--cpu".toList]) 0 false {} = .abort ∧ parseArgs (l.flatMap Arg.words ++ ["--debug-level".toList]) 0 false {} = .abort := by
  have hk : 0 + (images l).length ≤ 4 := by simpa [images] using hn
  refine ⟨?_, ?_⟩
  · obtain ⟨o, h, -⟩ := parse_reads l hp ["--cpu".toList] 0 {} hk rfl
    rw [h]; rfl
  · obtain ⟨o, h, -⟩ := parse_reads l hp ["--debug-level".toList] 0 {} hk rfl
    rw [h]; rfl

/-- C75: which medium is used: `-d` before `-b` before the first image; an image that cannot be opened (or an empty name) means no medium. -/
theorem C75_medium (fs : List Char → Option (List (BitVec 8))) (ga : Nat) (host : Nat → BitVec 8) (o : Opts) (cpu : CPUType) (hc : cpuOf o.cpu = some cpu) :
    mainSetup fs ga host o =
      match o.dosExe, o.binary, o.fdds[0]? with
      | some f, _, _ => setupExe ga host o.debug cpu (fs f)
      | none, some f, _ => setup ga host o.debug cpu (.bios (fs f))
      | none, none, some (some (c :: f)) => setup ga host o.debug cpu (match fs (c :: f) with | some img => .floppy img | none => .none)
      | none, none, _ => setup ga host o.debug cpu .none := by
  simp only [mainSetup, hc]
  cases o.dosExe with
  | some f => rfl
  | none =>
    cases o.binary with
    | some f => rfl
    | none =>
      rcases o.fdds[0]? with _ | _ | _ | ⟨c, f⟩
      · rfl
      · rfl
      · rfl
      · simp only []
        cases fs (c :: f) <;> rfl

/-- C75: the CPU names are i8086, 80286 and 386, each meaning that CPU. -/
theorem C75_cpu (name : List Char) (c : CPUType) : cpuOf name = some c ↔ name = cpuWord c := by
  simp only [cpuOf]
  by_cases h1 : name = "i8086".toList
  · rw [if_pos h1, h1]; cases c <;> decide
  · by_cases h2 : name = "80286".toList
    · rw [if_neg h1, if_pos h2, h2]; cases c <;> decide
    · by_cases h3 : name = "386".toList
      · rw [if_neg h1, if_neg h2, if_pos h3, h3]; cases c <;> decide
      · rw [if_neg h1, if_neg h2, if_neg h3]
        constructor
        · intro h; cases h
        · intro h; cases c
          · exact absurd h h1
          · exact absurd h h2
          · exact absurd h h3

theorem setup_cpu {ga : Nat} {host : Nat → BitVec 8} {dbg : Int} {cpu : CPUType} {m : Media} {s : State} (h : setup ga host dbg cpu m = .run s) :
    s.cpuType = cpu ∧ s.debugLevel = dbg := by
  cases m with
  | bios f =>
    cases f with
    | none => cases h
    | some file =>
      simp only [setup] at h
      split at h
      · cases h
      · cases h; exact ⟨rfl, rfl⟩
  | floppy file =>
    simp only [setup] at h
    split at h
    · cases h
    · split at h
      · cases h
      · cases h; exact ⟨rfl, rfl⟩
  | none => cases h; exact ⟨rfl, rfl⟩

theorem copyLoop_dbg {buf : Nat → BitVec 8} {size : Nat} (k i : Nat) {s t : State} (h : copyLoop buf size k i s = some t) : t.debugLevel = s.debugLevel := by
  induction k generalizing i s with
  | zero => cases h; rfl
  | succ k ih =>
    simp only [copyLoop] at h
    split at h
    · cases h
    · split at h
      · cases h
      · split at h
        · exact (ih _ h).trans rfl
        · cases h

theorem setupExe_cpu {ga : Nat} {host : Nat → BitVec 8} {dbg : Int} {cpu : CPUType} {f : Option (List (BitVec 8))} {s : State}
    (h : setupExe ga host dbg cpu f = .run s) : s.cpuType = cpu ∧ s.debugLevel = dbg := by
  rw [setupExe] at h
  cases hl : loadDosExe (newMachine ga biosMem host dbg) f with
  | fail => rw [hl] at h; cases h
  | exit c => rw [hl] at h; cases h
  | ub => rw [hl] at h; cases h
  | ok cs ip ss sp t =>
    rw [hl] at h
    have ht : t.debugLevel = dbg := by
      cases f with
      | none => cases hl
      | some file =>
        simp only [loadDosExe] at hl
        repeat' split at hl
        all_goals first | cases hl | skip
        rename_i hx
        exact copyLoop_dbg _ _ hx
    simp only [] at h
    split at h
    · cases h
    · cases h; exact ⟨rfl, ht⟩

/-- C75: a machine that gets to run is of the CPU type that was named and has the debug level that was given. -/
theorem C75_machine (fs : List Char → Option (List (BitVec 8))) (ga : Nat) (host : Nat → BitVec 8) (o : Opts) (s : State) (h : mainSetup fs ga host o = .run s) :
    o.cpu = cpuWord s.cpuType ∧ s.debugLevel = o.debug := by
  cases hc : cpuOf o.cpu with
  | none =>
    simp only [mainSetup, hc] at h
    split at h
    · cases h
    · rename_i hx; exact absurd h (hx s)
  | some cpu =>
    rw [(C75_cpu o.cpu cpu).mp hc]
    have key : s.cpuType = cpu ∧ s.debugLevel = o.debug := by
      rw [C75_medium fs ga host o cpu hc] at h
      split at h
      · exact setupExe_cpu h
      · exact setup_cpu h
      · exact setup_cpu h
      · exact setup_cpu h
    rw [key.1]
    exact ⟨rfl, key.2⟩

/-- C75 violated: an unknown CPU name ends the program before anything is run, with status 0 (success) whenever the medium could be loaded. -/
theorem C75_violated_cpu_status (fs : List Char → Option (List (BitVec 8))) (ga : Nat) (host : Nat → BitVec 8) (o : Opts) (hc : cpuOf o.cpu = none) :
    (∀ s, mainSetup fs ga host o ≠ .run s) ∧ (o.dosExe = none → o.binary = none → mainSetup fs ga host o = .ret 0) := by
  constructor
  · intro s h
    simp only [mainSetup, hc] at h
    split at h
    · cases h
    · rename_i hx; exact hx s h
  · intro h1 h2
    simp only [mainSetup, hc, h1, h2]
    rcases o.fdds[0]? with _ | _ | _ | ⟨c, f⟩
    · rfl
    · rfl
    · rfl
    · simp only []
      cases fs (c :: f) with
      | none => rfl
      | some img =>
        simp only [setup]
        by_cases hl : img.length < 512
        · rw [if_pos hl]
        · rw [if_neg hl]
          by_cases hs : img.getD 510 0 = 0x55 ∧ img.getD 511 0 = 0xAA
          · rw [if_neg (not_not_intro hs)]
          · rw [if_pos hs]

/-- C75: decimal numbers that fit an `int` are read as themselves. -/
theorem C75_debug_level (d : List (Fin 10)) (hv : d.foldl (fun n x => n * 10 + x.val) (0 : Nat) < 2 ^ 31) :
    strtol10 (d.map fun x => Char.ofNat (48 + x.val)) = ((d.foldl (fun n x => n * 10 + x.val) (0 : Nat) : Nat) : Int) := by
  have hdig : ∀ x : Fin 10, ('0' ≤ Char.ofNat (48 + x.val) ∧ Char.ofNat (48 + x.val) ≤ '9') ∧ (Char.ofNat (48 + x.val)).toNat - '0'.toNat = x.val ∧
      ¬ (Char.ofNat (48 + x.val) = ' ' ∨ ('\t' ≤ Char.ofNat (48 + x.val) ∧ Char.ofNat (48 + x.val) ≤ '\r')) ∧ Char.ofNat (48 + x.val) ≠ '-' ∧ Char.ofNat (48 + x.val) ≠ '+' := by decide
  have htake : (d.map fun x => Char.ofNat (48 + x.val)).takeWhile (fun c => decide ('0' ≤ c ∧ c ≤ '9')) = d.map fun x => Char.ofNat (48 + x.val) := by
    clear hv
    induction d with
    | nil => rfl
    | cons x d ih => rw [List.map_cons, List.takeWhile_cons, if_pos (decide_eq_true (hdig x).1), ih]
  have hfold : ∀ (d : List (Fin 10)) (a : Nat), (d.map fun x => Char.ofNat (48 + x.val)).foldl (fun n c => n * 10 + (c.toNat - '0'.toNat)) a = d.foldl (fun n x => n * 10 + x.val) a := by
    intro d
    induction d with
    | nil => intro a; rfl
    | cons x d ih => intro a; simp only [List.map_cons, List.foldl_cons, (hdig x).2.1]; exact ih _
  have hdrop : (d.map fun x => Char.ofNat (48 + x.val)).dropWhile (fun c => decide (c = ' ' ∨ ('\t' ≤ c ∧ c ≤ '\r'))) = d.map fun x => Char.ofNat (48 + x.val) := by
    cases d with
    | nil => rfl
    | cons x d => rw [List.map_cons, List.dropWhile_cons, if_neg (by simpa using (hdig x).2.2.1)]
  have hsign : ∀ l : List Char, l.head? ≠ some '-' → l.head? ≠ some '+' → signOf l = (false, l) := by
    intro l h1 h2
    rw [signOf]
    · intro s h; rw [h] at h1; simp at h1
    · intro s h; rw [h] at h2; simp at h2
  have hs1 : (d.map fun x => Char.ofNat (48 + x.val)).head? ≠ some '-' ∧ (d.map fun x => Char.ofNat (48 + x.val)).head? ≠ some '+' := by
    cases d with
    | nil => simp
    | cons x d => simpa using (hdig x).2.2.2
  simp only [strtol10]
  rw [hdrop, hsign _ hs1.1 hs1.2]
  simp only [Bool.false_eq_true, if_false]
  rw [htake, hfold]
  generalize d.foldl (fun n x => n * 10 + x.val) 0 = v at hv
  rw [show min (v : Int) (2 ^ 63 - 1) = v by omega, BitVec.toInt_ofInt]
  rw [Int.bmod_eq_of_le (by omega) (by omega)]

/-- `-O dump --cpu 386 a.img b.img`. -/
example : let l := [Arg.dump ['x'], .cpu "386".toList, .image ['a'], .image ['b']]
    (∀ a ∈ l, a.proper) ∧ (l.filterMap Arg.imageName).length ≤ 4 ∧ l.flatMap Arg.words = [['-', 'O'], ['x'], "--cpu".toList, "386".toList, ['a'], ['b']] := by
  refine ⟨?_, by decide, rfl⟩
  intro a ha
  simp only [List.mem_cons, List.not_mem_nil, or_false] at ha
  rcases ha with rfl | rfl | rfl | rfl <;> simp [Arg.proper]
example : strtol10 ['2'] = 2 ∧ strtol10 ['-', '1', 'x'] = -1 := by decide

end RME.Native
