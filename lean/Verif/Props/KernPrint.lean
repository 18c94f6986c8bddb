import Verif.Lemmas.KernPrint
set_option autoImplicit false
/-
C79: the test kernel's printf and puts (testkern/debug.c:65-173).
-/
namespace RME.Testkern
open Spec

theorem source_conv (z : Bool) (w : Nat) (code : Char) : (Item.conv z w code).source = '%' :: (specText z w ++ [code]) := by
  simp [Item.source, specText]

theorem wf_pad {z : Bool} {w : Nat} {code : Char} (h : (Item.conv z w code).WF) (rest : List Char) :
    z = false → w = 0 → ∀ c cs, code :: rest = c :: cs → c ≠ '0' := by
  intro hz _ c cs he hc
  injection he with he _
  have hd : IsDigit code := by rw [he, hc]; decide
  have := (h hd).2.1
  rw [hz] at this; cases this

theorem wf_min {z : Bool} {w : Nat} {code : Char} (h : (Item.conv z w code).WF) (rest : List Char) :
    (w = 0 → ∀ c cs, code :: rest = c :: cs → ¬ ('1' ≤ c ∧ c ≤ '9')) ∧
    (w ≠ 0 → ∀ c cs, code :: rest = c :: cs → ¬ IsDigit c) := by
  constructor
  · intro _ c cs he hc
    injection he with he _
    have hd : IsDigit code := by
      rw [he]; exact ⟨Nat.le_trans (show ('0').toNat ≤ ('1').toNat by decide) hc.1, hc.2⟩
    rw [← he, (h hd).1] at hc
    exact absurd hc (by decide)
  · intro hw c cs he hc
    injection he with he _
    rw [← he] at hc
    exact hw (h hc).2.2

/-- One conversion of `printf`'s loop. -/
theorem printfLoop_conv (strs : BitVec 32 → Option (List Char)) (z : Bool) (w : Nat) (code : Char)
    (rest : List Char) (args : List (BitVec 32)) (o : Out) (hwf : (Item.conv z w code).WF) :
    (w + 57 < 2 ^ 31 → printfLoop strs ((Item.conv z w code).source ++ rest) args o =
      match args with
      | [] => none
      | v :: vs => if ConvReady strs w code v then
          printfLoop strs rest vs ⟨o.text ++ convText (fun a => (strs a).getD []) z w code v,
            o.num + (convText (fun a => (strs a).getD []) z w code v).length⟩ else none) ∧
    (printfLoop strs ((Item.conv z w code).source ++ rest) args o = none ∨ w + 57 < 2 ^ 31 ∨ scanMin ((if w = 0 then [] else numeral 10 w) ++ code :: rest) = some (w, code :: rest)) := by
  have hpad := scanPad_spec z w (code :: rest) (wf_pad hwf rest)
  obtain ⟨m1, m2⟩ := scanMin_spec w (code :: rest) (wf_min hwf rest).1 (wf_min hwf rest).2
  have hsrc : (Item.conv z w code).source ++ rest = '%' :: (specText z w ++ code :: rest) := by
    rw [source_conv]; simp
  rw [hsrc, printfLoop]
  simp only [ne_eq, not_true_eq_false, if_false]
  constructor
  · intro hw
    have e := m1 hw
    rw [hpad]
    simp only
    split
    · rename_i minLen code' rest' hs
      rw [e] at hs
      injection hs with hs; injection hs with h1 h2; injection h2 with h2 h3
      subst h1 h2 h3
      cases args with
      | nil => rfl
      | cons v vs =>
        simp only
        rw [convert_eq]
        by_cases hr : ConvReady strs w code v
        · rw [if_pos hr, if_pos hr]
        · rw [if_neg hr, if_neg hr]
    · rename_i hne
      exact absurd e (hne w code rest)
  · by_cases hw : w + 57 < 2 ^ 31
    · exact .inr (.inl hw)
    · rcases m2 with m2 | m2
      · left
        rw [hpad]
        simp only
        split
        · rename_i hs; rw [m2] at hs; cases hs
        · rfl
      · exact .inr (.inr m2)

/-- The whole loop. -/
theorem printfLoop_source (strs : BitVec 32 → Option (List Char)) :
    ∀ (is : List Item) (args : List (BitVec 32)) (o : Out), (∀ i ∈ is, i.WF) → (∀ i ∈ is, i.Sane) →
      (Ready strs is args → printfLoop strs (source is) args o =
        some ⟨o.text ++ render (fun a => (strs a).getD []) is args,
          o.num + (render (fun a => (strs a).getD []) is args).length⟩) ∧
      (¬ Ready strs is args → printfLoop strs (source is) args o = none) := by
  intro is
  induction is with
  | nil => intro args o _ _; simp [source, printfLoop, render, Ready]
  | cons i is ih =>
    intro args o hwf hs
    have hsrc : source (i :: is) = i.source ++ source is := by simp [source]
    have hwf' : ∀ j ∈ is, j.WF := fun j hj => hwf j (by simp [hj])
    have hs' : ∀ j ∈ is, j.Sane := fun j hj => hs j (by simp [hj])
    cases i with
    | lit c =>
      have hc : c ≠ '%' := hwf (.lit c) (by simp)
      have e : printfLoop strs (source (.lit c :: is)) args o = printfLoop strs (source is) args (o.put c) := by
        rw [hsrc]
        show printfLoop strs (c :: source is) args o = _
        rw [printfLoop]; simp only [ne_eq, hc, not_false_eq_true, if_true]
      obtain ⟨i1, i2⟩ := ih args (o.put c) hwf' hs'
      rw [e]
      refine ⟨fun hr => ?_, i2⟩
      rw [i1 hr]
      simp only [Out.put, render, List.length_cons, List.append_assoc, List.singleton_append]
      congr 2; omega
    | conv z w code =>
      have hc := hwf (.conv z w code) (by simp)
      have e := (printfLoop_conv strs z w code (source is) args o hc).1 (hs (.conv z w code) (by simp))
      rw [hsrc, e]
      cases args with
      | nil => exact ⟨fun h => h.elim, fun _ => rfl⟩
      | cons v vs =>
        simp only [Ready, render]
        by_cases hr : ConvReady strs w code v
        · rw [if_pos hr]
          obtain ⟨i1, i2⟩ := ih vs ⟨o.text ++ convText (fun a => (strs a).getD []) z w code v,
            o.num + (convText (fun a => (strs a).getD []) z w code v).length⟩ hwf' hs'
          refine ⟨fun h => ?_, fun h => i2 (fun h2 => h ⟨hr, h2⟩)⟩
          rw [i1 h.2]
          simp only [List.append_assoc, List.length_append]
          congr 2; omega
        · rw [if_neg hr]
          exact ⟨fun h => absurd h.1 hr, fun _ => rfl⟩

/-- C79: for every format made of literal characters and conversions, every list of arguments and every
contents of memory: if each conversion has its argument, number widths are at most 64 and `%s` gets
the address of a string (or 0), `printf` prints exactly the literal text with, in place of each
conversion, the text of its argument, and returns the number of characters printed.  In every other
case its behaviour is undefined. -/
theorem C79_printf_partial (strs : BitVec 32 → Option (List Char)) (is : List Item) (args : List (BitVec 32))
    (hwf : ∀ i ∈ is, i.WF) (hs : ∀ i ∈ is, i.Sane) :
    (Ready strs is args → printf strs (source is) args =
      some (render (fun a => (strs a).getD []) is args, (render (fun a => (strs a).getD []) is args).length)) ∧
    (¬ Ready strs is args → printf strs (source is) args = none) := by
  obtain ⟨h1, h2⟩ := printfLoop_source strs is args ⟨[], 0⟩ hwf hs
  unfold printf
  refine ⟨fun h => by rw [h1 h]; simp, fun h => by rw [h2 h]; rfl⟩

/-- "AX=%04x\n" with 0x4F1A. -/
def fmtAX : List Item := [.lit 'A', .lit 'X', .lit '=', .conv true 4 'x', .lit '\n']

example : source fmtAX = "AX=%04x\n".toList := by
  simp [source, fmtAX, Item.source, numeral, digit]
example : ∀ i ∈ fmtAX, i.WF := by
  simp [fmtAX, Item.WF, IsDigit]
example : (∀ i ∈ fmtAX, i.Sane) ∧ Ready (fun _ => none) fmtAX [0x4F1A] := by
  simp [fmtAX, Item.Sane, Ready, ConvReady]
example : render (fun _ => []) fmtAX [0x4F1A] = "AX=4F1A\n".toList := by
  simp [fmtAX, render, convText, numeral, digit, padTo]
example : Ready (fun a => if a = 8 then some "ok".toList else none) [.conv false 0 's', .conv false 9 'i'] [8, 7] := by
  simp [Ready, ConvReady]

/-- Every format string is either such a format or ends in the middle of a conversion. -/
theorem C79_formats : ∀ (fmt : List Char),
    (∃ is, (∀ i ∈ is, Item.WF i) ∧ fmt = source is) ∨
    (∃ is, ∃ z : Bool, ∃ w, (∀ i ∈ is, Item.WF i) ∧
      fmt = source is ++ '%' :: ((if z then ['0'] else []) ++ (if w = 0 then [] else numeral 10 w))) := by
  intro fmt
  generalize hn : fmt.length = n
  induction n using Nat.strongRecOn generalizing fmt with
  | _ n ih =>
    -- a piece in front of a shorter format
    have extend : ∀ (i : Item) (rest : List Char), i.WF → fmt = i.source ++ rest → rest.length < n →
        (∃ is, (∀ i ∈ is, Item.WF i) ∧ fmt = source is) ∨
        (∃ is, ∃ z : Bool, ∃ w, (∀ i ∈ is, Item.WF i) ∧
          fmt = source is ++ '%' :: ((if z then ['0'] else []) ++ (if w = 0 then [] else numeral 10 w))) := by
      intro i rest hi he hl
      rcases ih rest.length hl rest rfl with ⟨is, h1, h2⟩ | ⟨is, z, w, h1, h2⟩
      · left
        exact ⟨i :: is, by simpa using ⟨hi, h1⟩, by rw [he, h2]; simp [source]⟩
      · right
        exact ⟨i :: is, z, w, by simpa using ⟨hi, h1⟩, by rw [he, h2]; simp [source]⟩
    cases fmt with
    | nil => left; exact ⟨[], by simp, rfl⟩
    | cons c cs =>
      by_cases hc : c = '%'
      · subst hc
        -- flag
        obtain ⟨z, f, hf, hz⟩ : ∃ (z : Bool) (f : List Char), cs = (if z then ['0'] else []) ++ f ∧
            (z = false → f.head? ≠ some '0') := by
          cases cs with
          | nil => exact ⟨false, [], by simp, by simp⟩
          | cons d ds =>
            by_cases hd : d = '0'
            · exact ⟨true, ds, by simp [hd], by simp⟩
            · exact ⟨false, d :: ds, by simp, by simp [hd]⟩
        -- width
        obtain ⟨w, g, hg, hw0, hw⟩ : ∃ (w : Nat) (g : List Char), f = (if w = 0 then [] else numeral 10 w) ++ g ∧
            (w = 0 → ∀ c cs, g = c :: cs → ¬ ('1' ≤ c ∧ c ≤ '9')) ∧
            (w ≠ 0 → ∀ c cs, g = c :: cs → ¬ IsDigit c) := by
          cases f with
          | nil => exact ⟨0, [], by simp, by simp, by simp⟩
          | cons d ds =>
            by_cases hd : '1' ≤ d ∧ d ≤ '9'
            · have hdd : IsDigit d := ⟨Nat.le_trans (show ('0').toNat ≤ ('1').toNat by decide) hd.1, hd.2⟩
              have hsplit := List.takeWhile_append_dropWhile (p := fun c => decide (IsDigit c)) (l := d :: ds)
              obtain ⟨w, hw1, hw2⟩ := digits_numeral _ ((d :: ds).takeWhile fun c => decide (IsDigit c)) rfl
                (fun c hc => by
                  have := List.all_takeWhile (p := fun c => decide (IsDigit c)) (l := d :: ds)
                  rw [List.all_eq_true] at this
                  simpa using this c hc)
                (by rw [List.takeWhile_cons, if_pos (by simpa using hdd)]; simp)
                (by rw [List.takeWhile_cons, if_pos (by simpa using hdd)]
                    simp only [List.head?_cons, ne_eq, Option.some.injEq]
                    intro h; rw [h] at hd; exact absurd hd (by decide))
              refine ⟨w, (d :: ds).dropWhile fun c => decide (IsDigit c), ?_, by omega, ?_⟩
              · rw [if_neg (by omega), ← hw2]; exact hsplit.symm
              · intro _ c cs' he hdig
                have hne : (d :: ds).dropWhile (fun c => decide (IsDigit c)) ≠ [] := by rw [he]; simp
                have := List.head_dropWhile_not (fun c => decide (IsDigit c)) (l := d :: ds) hne
                simp only [he, List.head_cons] at this
                simp [hdig] at this
            · exact ⟨0, d :: ds, by simp, fun _ c cs' he h => by injection he with he _; rw [← he] at h; exact hd h, by simp⟩
        cases g with
        | nil =>
          right
          exact ⟨[], z, w, by simp, by rw [hf, hg]; simp [source]⟩
        | cons code rest =>
          apply extend (.conv z w code) rest
          · intro hdig
            by_cases hw' : w = 0
            · have h0 : code = '0' := by
                obtain ⟨d, hd, rfl⟩ := isDigit_digit code hdig
                by_cases hd0 : d = 0
                · subst hd0; rfl
                · exact absurd ((digit_toNat d hd).2.2.1 hd0) (hw0 hw' _ _ rfl)
              refine ⟨h0, ?_, hw'⟩
              cases z with
              | true => rfl
              | false =>
                have := hz rfl
                rw [hg, hw', h0] at this
                simp at this
            · exact absurd hdig (hw hw' _ _ rfl)
          · rw [source_conv, hf, hg]; simp [specText]
          · rw [← hn, hf, hg]; simp; omega
      · exact extend (.lit c) cs hc rfl (by rw [← hn]; simp)

/-- Violation of C79: a format that ends inside a conversion ("100%") is read beyond its end, whatever
the arguments are. -/
theorem C79_violated_truncated (strs : BitVec 32 → Option (List Char)) (is : List Item) (z : Bool) (w : Nat)
    (args : List (BitVec 32)) (hwf : ∀ i ∈ is, i.WF) (hs : ∀ i ∈ is, i.Sane) :
    printf strs (source is ++ '%' :: ((if z then ['0'] else []) ++ (if w = 0 then [] else numeral 10 w))) args = none := by
  have key : ∀ (is : List Item) (args : List (BitVec 32)) (o : Out), (∀ i ∈ is, i.WF) → (∀ i ∈ is, i.Sane) →
      printfLoop strs (source is ++ '%' :: ((if z then ['0'] else []) ++ (if w = 0 then [] else numeral 10 w))) args o = none := by
    intro is
    induction is with
    | nil =>
      intro args o _ _
      have hpad := scanPad_spec z w [] (by simp)
      obtain ⟨-, m2⟩ := scanMin_spec w [] (by simp) (by simp)
      rw [List.append_nil] at hpad
      simp only [specText] at hpad
      show printfLoop strs ('%' :: _) args o = none
      rw [printfLoop]
      simp only [ne_eq, not_true_eq_false, if_false]
      rw [hpad]
      simp only
      split
      · rename_i hs
        rcases m2 with m2 | m2 <;> rw [m2] at hs <;> simp at hs
      · rfl
    | cons i is ih =>
      intro args o hwf hs
      have hsrc : source (i :: is) = i.source ++ source is := by simp [source]
      have hwf' : ∀ j ∈ is, j.WF := fun j hj => hwf j (by simp [hj])
      have hs' : ∀ j ∈ is, j.Sane := fun j hj => hs j (by simp [hj])
      rw [hsrc, List.append_assoc]
      cases i with
      | lit c =>
        have hc : c ≠ '%' := hwf (.lit c) (by simp)
        show printfLoop strs (c :: _) args o = _
        rw [printfLoop]; simp only [ne_eq, hc, not_false_eq_true, if_true]
        exact ih args _ hwf' hs'
      | conv z' w' code =>
        rw [(printfLoop_conv strs z' w' code _ args o (hwf (.conv z' w' code) (by simp))).1 (hs (.conv z' w' code) (by simp))]
        cases args with
        | nil => rfl
        | cons v vs =>
          simp only
          split
          · exact ih vs _ hwf' hs'
          · rfl
  unfold printf
  rw [key is args _ hwf hs]; rfl

example : source [.lit '5', .lit '0'] ++ '%' :: ((if false then ['0'] else []) ++ (if 0 = 0 then [] else numeral 10 0))
    = "50%".toList := by simp [source, Item.source]

/-- Violation of C79: a number wider than 64 characters overruns the 65-byte buffer on the stack. -/
theorem C79_violated_width (strs : BitVec 32 → Option (List Char)) (v : BitVec 32) :
    printf strs "%65x".toList [v] = none := by
  have h := (C79_printf_partial strs [.conv false 65 'x'] [v] (by simp [Item.WF, IsDigit]) (by simp [Item.Sane])).2
    (by simp [Ready, ConvReady])
  simpa [source, Item.source, numeral, digit] using h

/-- Violations of ISO C's `printf`: `%i` prints -1 as 4294967295, `%x` prints upper-case digits, a string is
not padded to the width, and `%d`, `%u`, `%c`, `%%` print nothing but take an argument. -/
theorem C79_violated_iso (strs : BitVec 32 → Option (List Char)) (v : BitVec 32) :
    printf strs "%i".toList [-1] = some ("4294967295".toList, 10) ∧
    printf strs "%x".toList [255] = some ("FF".toList, 2) ∧
    printf strs "%8s".toList [0] = some ("(null)".toList, 6) ∧
    (∀ code, code = 'd' ∨ code = 'u' ∨ code = 'c' ∨ code = '%' →
      printf strs ['%', code] [v] = some ([], 0) ∧ printf strs ['%', code] [] = none) := by
  refine ⟨?_, ?_, ?_, ?_⟩
  · have h := (C79_printf_partial strs [.conv false 0 'i'] [-1] (by simp [Item.WF, IsDigit]) (by simp [Item.Sane])).1
      (by simp [Ready, ConvReady])
    simpa [source, Item.source, render, convText, numeral, digit, padTo] using h
  · have h := (C79_printf_partial strs [.conv false 0 'x'] [255] (by simp [Item.WF, IsDigit]) (by simp [Item.Sane])).1
      (by simp [Ready, ConvReady])
    simpa [source, Item.source, render, convText, numeral, digit, padTo] using h
  · have h := (C79_printf_partial strs [.conv false 8 's'] [0] (by simp [Item.WF, IsDigit]) (by simp [Item.Sane])).1
      (by simp [Ready, ConvReady])
    simpa [source, Item.source, render, convText, numeral, digit, padTo] using h
  · intro code hc
    have hwf : (Item.conv false 0 code).WF := by
      rcases hc with h | h | h | h <;> subst h <;> simp [Item.WF, IsDigit]
    have h1 := (C79_printf_partial strs [.conv false 0 code] [v] (by simpa using hwf) (by simp [Item.Sane])).1
      (by rcases hc with h | h | h | h <;> subst h <;> simp [Ready, ConvReady])
    have h2 := (C79_printf_partial strs [.conv false 0 code] [] (by simpa using hwf) (by simp [Item.Sane])).2
      (by simp [Ready])
    refine ⟨?_, by simpa [source, Item.source] using h2⟩
    rcases hc with h | h | h | h <;> subst h <;> simpa [source, Item.source, render, convText] using h1

/-- C79: `puts` prints the string and a newline, and returns the length of the string. -/
theorem C79_puts (s : List Char) : puts s = (s ++ ['\n'], s.length) := by
  simp [puts, putsLoop_eq]

/-- C60, sharper: where the 64-bit helpers are exact, `itoa` writes the numeral of the value in the
base, padded on the left to the minimum length. -/
theorem C60_numeral_partial (val base : BitVec 64) (minLength : Nat) (pad : Char)
    (hb : 2 ≤ base.toNat) (hb' : base.toNat ≤ 16) (hmin : minLength ≤ 65)
    (hex : val.toNat < 2 ^ 32 ∨ base.toNat = 2 ∨ base.toNat = 4 ∨ base.toNat = 8 ∨ base.toNat = 16) :
    itoa val base minLength pad = some (padTo pad minLength (numeral base.toNat val.toNat)) := by
  have hex' : exactFor val base := by
    rcases hex with h | h | h | h | h
    · exact Or.inr h
    all_goals (left; rw [h]; decide)
  simp only [itoa, itoaDigits_numeral base hb hb' 64 val [] hex' val.isLt, List.nil_append]
  rw [if_neg (by omega)]
  simp [padTo]

example : numeral 16 0xDEADBEEF = "DEADBEEF".toList := by simp [numeral, digit]

end RME.Testkern
