import Verif.Model.KernPrint
import Verif.Spec.Printf
import Verif.Props.Support
set_option autoImplicit false
/-
Lemmas about the test kernel's printf: numerals, width parsing, conversions.
-/
namespace RME.Testkern
open Spec

theorem putsLoop_eq : ∀ (s : List Char) (o : Out), putsLoop s o = ⟨o.text ++ s, o.num + s.length⟩ := by
  intro s
  induction s with
  | nil => intro o; simp [putsLoop]
  | cons c cs ih =>
    intro o
    rw [putsLoop, ih]
    simp only [Out.put, List.append_assoc, List.singleton_append, List.length_cons]
    congr 1; omega

theorem hexChar_digit (i : Nat) (h : i < 16) : hexChar i = some (digit i) := by
  have : ∀ j : Fin 16, hexChar j.val = some (digit j.val) := by decide
  exact this ⟨i, h⟩

theorem digit_toNat (d : Nat) (h : d < 10) : (digit d).toNat = 48 + d ∧ IsDigit (digit d) ∧
    (d ≠ 0 → '1' ≤ digit d ∧ digit d ≤ '9') ∧ (digit d = '0' → d = 0) := by
  have : ∀ j : Fin 10, (digit j.val).toNat = 48 + j.val ∧ IsDigit (digit j.val) ∧
    (j.val ≠ 0 → '1' ≤ digit j.val ∧ digit j.val ≤ '9') ∧ (digit j.val = '0' → j.val = 0) := by decide
  exact this ⟨d, h⟩

theorem isDigit_digit (c : Char) (h : IsDigit c) : ∃ d, d < 10 ∧ c = digit d := by
  obtain ⟨h1, h2⟩ := h
  have h1' : 48 ≤ c.toNat := h1
  have h2' : c.toNat ≤ 57 := h2
  refine ⟨c.toNat - 48, by omega, ?_⟩
  obtain ⟨e, -⟩ := digit_toNat (c.toNat - 48) (by omega)
  apply Char.toNat_inj.1
  omega

theorem numeral_lt {b n : Nat} (h : n < b) : numeral b n = [digit n] := by
  rw [numeral, if_pos (Or.inl h)]

theorem numeral_ge {b n : Nat} (h : b ≤ n) (hb : 2 ≤ b) : numeral b n = numeral b (n / b) ++ [digit (n % b)] := by
  rw [numeral, if_neg (by omega)]

theorem numeral_ne (b n : Nat) : numeral b n ≠ [] := by
  rw [numeral]; split <;> simp

theorem numeral_length (b : Nat) (hb : 2 ≤ b) : ∀ (k n : Nat), n < 2 ^ k → (numeral b n).length ≤ k + 1 := by
  intro k
  induction k with
  | zero => intro n h; rw [numeral_lt (by omega)]; simp
  | succ k ih =>
    intro n h
    by_cases hn : n < b
    · rw [numeral_lt hn]; simp
    · rw [numeral_ge (by omega) hb]
      have : n / b < 2 ^ k := by
        rw [Nat.div_lt_iff_lt_mul (by omega)]
        calc n < 2 ^ k * 2 := by rw [← Nat.pow_succ]; exact h
          _ ≤ 2 ^ k * b := Nat.mul_le_mul_left _ hb
      have := ih _ this
      simp; omega

theorem itoaDigits_numeral (base : BitVec 64) (hb : 2 ≤ base.toNat) (hb' : base.toNat ≤ 16) :
    ∀ (fuel : Nat) (val : BitVec 64) (acc : List Char), exactFor val base → val.toNat < 2 ^ fuel →
      itoaDigits (fuel + 1) val base acc = some (acc ++ (numeral base.toNat val.toNat).reverse) := by
  intro fuel
  induction fuel with
  | zero =>
    intro val acc h hv
    have hv0 : val.toNat = 0 := by simpa using hv
    obtain ⟨hd, hm⟩ := exactFor_spec h hb hb'
    rw [hv0] at hd hm
    simp at hd hm
    rw [hv0, numeral_lt (by omega)]
    simp only [itoaDigits]
    simp [hm, hexChar_digit 0 (by omega), show udivdi3 val base = 0 from BitVec.eq_of_toNat_eq hd]
  | succ fuel ih =>
    intro val acc h hv
    obtain ⟨hd, hm⟩ := exactFor_spec h hb hb'
    have hml := Nat.mod_lt val.toNat (show 0 < base.toNat by omega)
    rw [itoaDigits]
    simp only [hm, hexChar_digit (val.toNat % base.toNat) (by omega)]
    by_cases hz : udivdi3 val base = 0
    · rw [if_pos hz]
      have hz' : val.toNat / base.toNat = 0 := by rw [← hd, hz]; rfl
      have hlt : val.toNat < base.toNat := by
        rcases Nat.div_eq_zero_iff.1 hz' with h | h <;> omega
      rw [numeral_lt hlt, Nat.mod_eq_of_lt hlt]; simp
    · rw [if_neg hz]
      have hge : base.toNat ≤ val.toNat := by
        apply Nat.le_of_not_lt
        intro hlt
        exact hz (BitVec.eq_of_toNat_eq (by rw [hd, Nat.div_eq_of_lt hlt]; rfl))
      have hlt : val.toNat / base.toNat < 2 ^ fuel := by
        rw [Nat.div_lt_iff_lt_mul (by omega)]
        calc val.toNat < 2 ^ fuel * 2 := by rw [← Nat.pow_succ]; exact hv
          _ ≤ 2 ^ fuel * base.toNat := Nat.mul_le_mul_left _ hb
      have hle := Nat.div_le_self val.toNat base.toNat
      rw [ih (udivdi3 val base) _ (by
            rcases h with h | h
            · exact Or.inl h
            · exact Or.inr (by omega)) (by omega), hd, numeral_ge hge hb]
      simp

/-- A 32-bit number in `printf`'s buffer. -/
theorem itoaBuf_eq (val : BitVec 32) (base : BitVec 64) (hb : 2 ≤ base.toNat) (hb' : base.toNat ≤ 16)
    (w : Nat) (pad : Char) :
    itoaBuf val base w pad =
      if w ≤ 64 then some (padTo pad w (numeral base.toNat val.toNat)) else none := by
  have hv : (val.setWidth 64).toNat = val.toNat := by
    rw [BitVec.toNat_setWidth]; have := val.isLt; omega
  have hlen := numeral_length base.toNat hb 32 val.toNat val.isLt
  have hd := itoaDigits_numeral base hb hb' 64 (val.setWidth 64) [] (Or.inr (by rw [hv]; exact val.isLt))
    (BitVec.isLt _)
  simp only [itoaBuf, itoa, hd, hv, List.nil_append, List.length_reverse]
  have hrev : ((numeral base.toNat val.toNat).reverse ++
      List.replicate (w - (numeral base.toNat val.toNat).length) pad).reverse =
      padTo pad w (numeral base.toNat val.toNat) := by
    simp [padTo]
  rw [hrev]
  have hpl : (padTo pad w (numeral base.toNat val.toNat)).length =
      w - (numeral base.toNat val.toNat).length + (numeral base.toNat val.toNat).length := by
    simp [padTo]
  by_cases h65 : w > 65
  · rw [if_pos ⟨by omega, h65⟩, if_neg (by omega)]
  · rw [if_neg (fun h => h65 h.2)]
    simp only [hpl]
    by_cases h64 : w ≤ 64
    · rw [if_pos (by omega), if_pos h64]
    · rw [if_neg (by omega), if_neg h64]

/-! ### Widths -/

theorem scanWidth_cons (m : Nat) (d : Nat) (hd : d < 10) (cs : List Char) :
    scanWidth m (digit d :: cs) =
      if 2 ^ 31 ≤ m * 10 + (48 + d) then none else scanWidth (m * 10 + d) cs := by
  obtain ⟨h1, h2, -⟩ := digit_toNat d hd
  simp only [scanWidth]
  rw [if_pos (show '0' ≤ digit d ∧ digit d ≤ '9' from h2), h1, show m * 10 + (48 + d) - '0'.toNat = m * 10 + d by
    rw [show '0'.toNat = 48 from rfl]; omega]

theorem scanWidth_numeral : ∀ (w m : Nat) (rest : List Char),
    (m * 10 ^ (numeral 10 w).length + w + 57 < 2 ^ 31 →
      scanWidth m (numeral 10 w ++ rest) = scanWidth (m * 10 ^ (numeral 10 w).length + w) rest) ∧
    (scanWidth m (numeral 10 w ++ rest) = none ∨
      scanWidth m (numeral 10 w ++ rest) = scanWidth (m * 10 ^ (numeral 10 w).length + w) rest) := by
  intro w
  induction w using Nat.strongRecOn with
  | _ w ih =>
    intro m rest
    by_cases hw : w < 10
    · rw [numeral_lt hw]
      simp only [List.singleton_append, List.length_singleton, Nat.pow_one]
      rw [scanWidth_cons m w hw]
      constructor
      · intro h; rw [if_neg (by omega)]
      · split
        · exact .inl rfl
        · exact .inr rfl
    · have hn := numeral_ge (b := 10) (n := w) (by omega) (by omega)
      obtain ⟨i1, i2⟩ := ih (w / 10) (by omega) m (digit (w % 10) :: rest)
      rw [hn]
      simp only [List.append_assoc, List.singleton_append, List.length_append, List.length_singleton,
        Nat.pow_succ]
      generalize hL : 10 ^ (numeral 10 (w / 10)).length = L at *
      rw [scanWidth_cons _ _ (Nat.mod_lt _ (by omega))] at i1 i2
      have hv : (m * L + w / 10) * 10 + w % 10 = m * (L * 10) + w := by
        rw [Nat.add_mul, Nat.mul_assoc]; omega
      rw [hv] at i1 i2
      constructor
      · intro h
        rw [i1 (by rw [← hv] at h; omega), if_neg (by rw [← hv] at h; omega)]
      · rcases i2 with i2 | i2
        · exact .inl i2
        · rw [i2]
          split
          · exact .inl rfl
          · exact .inr rfl

/-- The first digit of a non-zero decimal numeral is not zero. -/
theorem numeral_head : ∀ w, 0 < w → ∃ d cs, 0 < d ∧ d < 10 ∧ numeral 10 w = digit d :: cs := by
  intro w
  induction w using Nat.strongRecOn with
  | _ w ih =>
    intro h0
    by_cases hw : w < 10
    · exact ⟨w, [], h0, hw, numeral_lt hw⟩
    · obtain ⟨d, cs, h1, h2, h3⟩ := ih (w / 10) (by omega) (by omega)
      exact ⟨d, cs ++ [digit (w % 10)], h1, h2, by rw [numeral_ge (by omega) (by omega), h3]; rfl⟩

/-- A run of digits that does not start with 0 is a decimal numeral. -/
theorem digits_numeral : ∀ (n : Nat) (l : List Char), l.length = n → (∀ c ∈ l, IsDigit c) → l ≠ [] →
    l.head? ≠ some '0' → ∃ w, 0 < w ∧ l = numeral 10 w := by
  intro n
  induction n with
  | zero => intro l hl _ hne; exact absurd (List.length_eq_zero_iff.1 hl) hne
  | succ n ih =>
    intro l hl hd hne hh
    obtain ⟨l', c, rfl⟩ : ∃ l' c, l = l' ++ [c] := ⟨l.dropLast, l.getLast hne, (List.dropLast_concat_getLast hne).symm⟩
    obtain ⟨d, hd10, rfl⟩ := isDigit_digit c (hd c (by simp))
    cases l' with
    | nil =>
      have : d ≠ 0 := by rintro rfl; exact hh rfl
      exact ⟨d, by omega, by rw [numeral_lt hd10]; rfl⟩
    | cons a t =>
      obtain ⟨w, hw, he⟩ := ih (a :: t) (by simp at hl ⊢; omega) (fun c hc => hd c (by simp at hc ⊢; rcases hc with h | h <;> simp [h])) (by simp)
        (by simpa using hh)
      refine ⟨w * 10 + d, by omega, ?_⟩
      rw [numeral_ge (by omega) (by omega), he, show (w * 10 + d) / 10 = w by omega,
        show (w * 10 + d) % 10 = d by omega]

/-! ### Reading a conversion -/

/-- The text between `%` and the code. -/
def specText (z : Bool) (w : Nat) : List Char :=
  (if z then ['0'] else []) ++ (if w = 0 then [] else numeral 10 w)

theorem scanPad_spec (z : Bool) (w : Nat) (rest : List Char)
    (hr : z = false → w = 0 → ∀ c cs, rest = c :: cs → c ≠ '0') :
    scanPad (specText z w ++ rest) = (if z then '0' else ' ', (if w = 0 then [] else numeral 10 w) ++ rest) := by
  cases z with
  | true => simp [specText, scanPad]
  | false =>
    simp only [specText, Bool.false_eq_true, if_false, List.nil_append]
    by_cases hw : w = 0
    · simp only [hw, if_true, List.nil_append]
      cases rest with
      | nil => rfl
      | cons c cs => simp only [scanPad]; rw [if_neg (hr rfl hw c cs rfl)]
    · obtain ⟨d, cs, h1, h2, h3⟩ := numeral_head w (by omega)
      simp only [if_neg hw, h3, List.cons_append, scanPad]
      rw [if_neg (fun h => by have := (digit_toNat d h2).2.2.2 h; omega)]

theorem scanWidth_stop (m : Nat) (rest : List Char) (hr : ∀ c cs, rest = c :: cs → ¬ IsDigit c) :
    scanWidth m rest = some (m, rest) := by
  cases rest with
  | nil => rfl
  | cons c cs => simp only [scanWidth]; rw [if_neg (show ¬ ('0' ≤ c ∧ c ≤ '9') from hr c cs rfl)]

theorem scanMin_spec (w : Nat) (rest : List Char)
    (h0 : w = 0 → ∀ c cs, rest = c :: cs → ¬ ('1' ≤ c ∧ c ≤ '9'))
    (hr : w ≠ 0 → ∀ c cs, rest = c :: cs → ¬ IsDigit c) :
    (w + 57 < 2 ^ 31 → scanMin ((if w = 0 then [] else numeral 10 w) ++ rest) = some (w, rest)) ∧
    (scanMin ((if w = 0 then [] else numeral 10 w) ++ rest) = none ∨
      scanMin ((if w = 0 then [] else numeral 10 w) ++ rest) = some (w, rest)) := by
  by_cases hw : w = 0
  · have : scanMin ((if w = 0 then [] else numeral 10 w) ++ rest) = some (w, rest) := by
      simp only [hw, if_true, List.nil_append]
      cases rest with
      | nil => rfl
      | cons c cs => simp only [scanMin]; rw [if_neg (h0 hw c cs rfl)]
    exact ⟨fun _ => this, .inr this⟩
  · obtain ⟨d, cs, h1, h2, h3⟩ := numeral_head w (by omega)
    have e : scanMin (numeral 10 w ++ rest) = scanWidth 0 (numeral 10 w ++ rest) := by
      rw [h3, List.cons_append]
      simp only [scanMin]
      rw [if_pos ((digit_toNat d h2).2.2.1 (by omega))]
    obtain ⟨s1, s2⟩ := scanWidth_numeral w 0 rest
    rw [Nat.zero_mul, Nat.zero_add, scanWidth_stop w rest (hr hw)] at s1 s2
    rw [if_neg hw, e]
    exact ⟨s1, s2⟩

/-! ### Converting -/

theorem convert_eq (strs : BitVec 32 → Option (List Char)) (z : Bool) (w : Nat) (code : Char) (v : BitVec 32)
    (o : Out) :
    convert strs code (if z then '0' else ' ') w v o =
      if ConvReady strs w code v then
        some ⟨o.text ++ convText (fun a => (strs a).getD []) z w code v,
          o.num + (convText (fun a => (strs a).getD []) z w code v).length⟩
      else none := by
  have num : ∀ (b : BitVec 64), 2 ≤ b.toNat → b.toNat ≤ 16 → ∀ w pad,
      (itoaBuf v b w pad).map (fun s => putsLoop s o) =
        if w ≤ 64 then some ⟨o.text ++ padTo pad w (numeral b.toNat v.toNat),
          o.num + (padTo pad w (numeral b.toNat v.toNat)).length⟩ else none := by
    intro b h1 h2 w pad
    rw [itoaBuf_eq v b h1 h2]
    split <;> simp [putsLoop_eq]
  unfold convert
  by_cases ho : code = 'o'
  · subst ho
    rw [if_pos rfl, num 8 (by decide) (by decide)]
    simp [ConvReady, convText]
  by_cases hi : code = 'i'
  · subst hi
    rw [if_neg ho, if_pos rfl, num 10 (by decide) (by decide)]
    simp [ConvReady, convText]
  by_cases hx : code = 'x'
  · subst hx
    rw [if_neg ho, if_neg hi, if_pos rfl, num 16 (by decide) (by decide)]
    simp [ConvReady, convText]
  by_cases hp : code = 'p'
  · subst hp
    rw [if_neg ho, if_neg hi, if_neg hx, if_pos rfl, itoaBuf_eq v 16 (by decide) (by decide)]
    simp [ConvReady, convText, putsLoop_eq, Out.put]
    omega
  by_cases hs : code = 's'
  · subst hs
    rw [if_neg ho, if_neg hi, if_neg hx, if_neg hp, if_pos rfl]
    by_cases hv : v = 0
    · rw [if_pos hv]; simp [ConvReady, convText, putsLoop_eq, hv]
    · rw [if_neg hv]
      cases h : strs v with
      | none => simp [ConvReady, h]; exact hv
      | some s => simp only [ConvReady, convText, putsLoop_eq, hv, h]; simp
  · rw [if_neg ho, if_neg hi, if_neg hx, if_neg hp, if_neg hs]
    have hr : ConvReady strs w code v := by simp [ConvReady, ho, hi, hx, hs]
    have ht : convText (fun a => (strs a).getD []) z w code v = [] := by
      unfold convText; split <;> simp_all
    rw [if_pos hr, ht]; simp

end RME.Testkern
