import Verif.Model.Cmpmem
import Verif.Spec.Cmpmem
set_option autoImplicit false
/-
C77: the comparison tools of the native test suite accept a dump iff it meets the template.
-/
namespace RME.Cmp
open Spec

/-! ### cmpmembin -/

theorem binLoop_zero : ∀ (d t : List (BitVec 8)) (failed : Nat),
    binLoop d t failed = 0 ↔ failed = 0 ∧ NotContradicted (t.map some) d := by
  intro d
  induction d with
  | nil => intro t failed; simp [binLoop, NotContradicted]
  | cons h hs ih =>
    intro t failed
    cases t with
    | nil => simp [binLoop, NotContradicted]
    | cons w ws =>
      simp only [binLoop, ih]
      constructor
      · rintro ⟨h1, h2⟩
        by_cases hw : w = h
        · simp only [hw, ne_eq, not_true_eq_false, if_false] at h1
          refine ⟨h1, fun i b x hb hx => ?_⟩
          cases i with
          | zero => simp at hb hx; rw [← hb, ← hx, hw]
          | succ i => exact h2 i b x (by simpa using hb) (by simpa using hx)
        · simp [hw] at h1
      · rintro ⟨h1, h2⟩
        have hw : h = w := h2 0 w h (by simp) (by simp)
        refine ⟨by simp [hw, h1], fun i b x hb hx => h2 (i + 1) b x (by simpa using hb) (by simpa using hx)⟩

theorem meets_iff (tpl : List (Option (BitVec 8))) (dump : List (BitVec 8)) (h : tpl.length ≤ dump.length) :
    NotContradicted tpl dump ↔ Meets tpl dump := by
  constructor
  · intro hn i b hb
    obtain ⟨hi, -⟩ := List.getElem?_eq_some_iff.1 hb
    have hd : dump[i]? = some dump[i] := List.getElem?_eq_getElem (by omega)
    rw [hd, hn i b dump[i] hb hd]
  · intro hm i b x hb hx
    have := hm i b hb
    rw [hx] at this; exact Option.some.inj this

/-- C77, cmpmembin: exit status 0 exactly when no byte of the dump contradicts the template; hence, for
dumps at least as long as the template, exactly when the dump meets the template. -/
theorem C77_bin_partial (t d : List (BitVec 8)) :
    (cmpmembin 3 (some t) (some d) = .exit 0 ↔ NotContradicted (t.map some) d) ∧
    (t.length ≤ d.length → (cmpmembin 3 (some t) (some d) = .exit 0 ↔ Meets (t.map some) d)) := by
  have e : cmpmembin 3 (some t) (some d) = .exit 0 ↔ NotContradicted (t.map some) d := by
    simp only [cmpmembin, ne_eq, not_true_eq_false, if_false, Res.exit.injEq, binLoop_zero, true_and]
  refine ⟨e, fun h => ?_⟩
  rw [e, meets_iff]
  simpa using h

example : Meets ([1#8, 2].map some) [1, 2, 3] := by
  intro i b h
  match i, h with
  | 0, h => simpa using h
  | 1, h => simpa using h
  | i + 2, h => simp at h

/-- Violation of C77: a dump that breaks off (down to the empty file) is accepted. -/
theorem C77_violated_short_bin (t : List (BitVec 8)) (n : Nat) (hn : n < t.length) :
    cmpmembin 3 (some t) (some (t.take n)) = .exit 0 ∧ ¬ Meets (t.map some) (t.take n) := by
  refine ⟨(C77_bin_partial _ _).1.2 ?_, fun h => ?_⟩
  · intro i b x hb hx
    rw [List.getElem?_map] at hb
    rw [List.getElem?_take] at hx
    split at hx
    · rw [hx] at hb; simpa using hb
    · cases hx
  · have := h n t[n] (by simp [hn])
    rw [List.getElem?_take, if_neg (by omega)] at this
    cases this

example : 0 < [1#8].length := by decide

/-! ### Reading hexadecimal text -/

theorem hexVal_digit {c : Char} {v : Nat} (h : HexDigit c v) : hexVal c = some v ∧ isSpace c = false ∧ c ≠ 'X' ∧
    c ≠ 'x' ∧ c ≠ ' ' ∧ c ≠ '-' ∧ c ≠ '+' := by
  obtain ⟨hv, h⟩ := h
  have key : ∀ v : Fin 16, ∀ c, ("0123456789abcdef".toList[v.val]? = some c ∨ "0123456789ABCDEF".toList[v.val]? = some c) →
      hexVal c = some v.val ∧ isSpace c = false ∧ c ≠ 'X' ∧ c ≠ 'x' ∧ c ≠ ' ' ∧ c ≠ '-' ∧ c ≠ '+' := by
    intro v c h
    have : ∀ v : Fin 16, (∀ c ∈ "0123456789abcdef".toList[v.val]?, hexVal c = some v.val ∧ isSpace c = false ∧ c ≠ 'X' ∧ c ≠ 'x' ∧ c ≠ ' ' ∧ c ≠ '-' ∧ c ≠ '+') ∧
        (∀ c ∈ "0123456789ABCDEF".toList[v.val]?, hexVal c = some v.val ∧ isSpace c = false ∧ c ≠ 'X' ∧ c ≠ 'x' ∧ c ≠ ' ' ∧ c ≠ '-' ∧ c ≠ '+') := by
      decide
    rcases h with h | h
    · exact (this v).1 c h
    · exact (this v).2 c h
  exact key ⟨v, hv⟩ c h

theorem isSpace_blank {c : Char} (h : Blank c) : isSpace c = true ∧ hexVal c = none := by
  rcases h with h | h | h | h <;> subst h <;> decide

theorem dropBlank (ws : List Char) (h : ∀ c ∈ ws, Blank c) (t : List Char)
    (ht : ∀ c t', t = c :: t' → isSpace c = false) : (ws ++ t).dropWhile isSpace = t := by
  induction ws with
  | nil =>
    cases t with
    | nil => rfl
    | cons c t' => simp [ht c t' rfl]
  | cons w ws ih =>
    have hw := (isSpace_blank (h w (by simp))).1
    rw [List.cons_append, List.dropWhile_cons, if_pos hw]
    exact ih (fun c hc => h c (by simp [hc]))

theorem dropBlank_all (ws : List Char) (h : ∀ c ∈ ws, Blank c) : ws.dropWhile isSpace = [] := by
  have := dropBlank ws h [] (by simp)
  simpa using this

theorem hexLoop_cons (h : BitVec 8) (hs : List (BitVec 8)) (t : List Char) (failed : Nat) :
    hexLoop (h :: hs) t failed =
    match t.dropWhile isSpace with
    | [] => .exit failed
    | c :: r =>
      if c = 'X' then hexLoop hs (r.drop 1) failed
      else match scan2x (c :: r) with
        | none => .undef
        | some (v, r') => hexLoop hs r' (if v ≠ h.toNat then 1 else failed) := rfl

theorem hexLoop_zero {es : List (Option (BitVec 8))} {t : List Char} (ht : HexText es t) :
    ∀ (d : List (BitVec 8)) (failed : Nat), ∃ code, hexLoop d t failed = .exit code ∧
      (code = 0 ↔ failed = 0 ∧ NotContradicted es d) := by
  induction ht with
  | nil ws hws =>
    intro d failed
    refine ⟨failed, ?_, by simp [NotContradicted]⟩
    cases d with
    | nil => rfl
    | cons h hs => rw [hexLoop_cons, dropBlank_all ws hws]
  | any ws hws ht ih =>
    rename_i es t
    intro d failed
    cases d with
    | nil => exact ⟨failed, rfl, by simp [NotContradicted]⟩
    | cons h hs =>
      obtain ⟨code, h1, h2⟩ := ih hs failed
      refine ⟨code, ?_, ?_⟩
      · rw [hexLoop_cons, dropBlank ws hws _ (by
          intro c t' e; injection e with e _; subst e; decide)]
        simp only [if_true]
        exact h1
      · rw [h2]
        refine and_congr_right fun _ => ⟨fun hn i b x hb hx => ?_, fun hn i b x hb hx => ?_⟩
        · cases i with
          | zero => simp at hb
          | succ i => exact hn i b x (by simpa using hb) (by simpa using hx)
        · exact hn (i + 1) b x (by simpa using hb) (by simpa using hx)
  | byte ws c d' a b hws hc hd ht ih =>
    rename_i es t
    intro d failed
    cases d with
    | nil => exact ⟨failed, rfl, by simp [NotContradicted]⟩
    | cons h hs =>
      obtain ⟨c1, c2, c3, c4, -⟩ := hexVal_digit hc
      obtain ⟨d1, d2, d3, d4, -⟩ := hexVal_digit hd
      have ha := hc.1
      have hb := hd.1
      obtain ⟨code, h1, h2⟩ := ih hs (if 16 * a + b ≠ h.toNat then 1 else failed)
      refine ⟨code, ?_, ?_⟩
      · rw [hexLoop_cons, dropBlank ws hws _ (by
          intro c t' e; injection e with e _; subst e; exact c2)]
        simp only [if_neg c3, scan2x, c1, d1]
        rw [if_neg (by simp [d3, d4])]
        exact h1
      · rw [h2]
        have hv : 16 * a + b = h.toNat ↔ h = BitVec.ofNat 8 (16 * a + b) := by
          constructor
          · intro e; rw [e]; simp
          · intro e; rw [e, BitVec.toNat_ofNat]; omega
        constructor
        · rintro ⟨h3, h4⟩
          by_cases he : 16 * a + b = h.toNat
          · rw [if_neg (by simp [he])] at h3
            refine ⟨h3, fun i x y hx hy => ?_⟩
            cases i with
            | zero => simp at hx hy; rw [← hx, ← hy]; exact hv.1 he
            | succ i => exact h4 i x y (by simpa using hx) (by simpa using hy)
          · rw [if_pos he] at h3; cases h3
        · rintro ⟨h3, h4⟩
          have he := hv.2 (h4 0 _ h (by simp) (by simp))
          refine ⟨by rw [if_neg (by simp [he])]; exact h3, fun i x y hx hy => h4 (i + 1) x y (by simpa using hx) (by simpa using hy)⟩

/-- C77, cmpmem: for every template text (bytes as two hexadecimal digits or XX, arbitrary white space)
the tool exits; with status 0 exactly when no byte of the dump contradicts the template; hence, for
dumps at least as long as the template, exactly when the dump meets it. -/
theorem C77_hex_partial (es : List (Option (BitVec 8))) (t : List Char) (ht : HexText es t) (d : List (BitVec 8)) :
    (∃ code, cmpmem 3 (some t) (some d) = .exit code) ∧
    (cmpmem 3 (some t) (some d) = .exit 0 ↔ NotContradicted es d) ∧
    (es.length ≤ d.length → (cmpmem 3 (some t) (some d) = .exit 0 ↔ Meets es d)) := by
  obtain ⟨code, h1, h2⟩ := hexLoop_zero ht d 0
  have e : cmpmem 3 (some t) (some d) = .exit code := by simp [cmpmem, h1]
  have e2 : cmpmem 3 (some t) (some d) = .exit 0 ↔ NotContradicted es d := by
    rw [e]; simp only [Res.exit.injEq, h2, true_and]
  exact ⟨⟨code, e⟩, e2, fun h => by rw [e2, meets_iff _ _ h]⟩

/-- "1F XX\n07". -/
example : HexText [some 0x1F, none, some 7] "1F XX\n07".toList :=
  .byte [] '1' 'F' 1 15 (by simp) (by simp [HexDigit]) (by simp [HexDigit])
    (.any [' '] (by simp [Blank]) (.byte ['\n'] '0' '7' 0 7 (by simp [Blank]) (by simp [HexDigit]) (by simp [HexDigit])
      (.nil [] (by simp))))

/-- Violation of C77: cmpmem accepts the empty dump against every template, and a template with anything
but hexadecimal digits (here `zz`) is compared with an indeterminate value. -/
theorem C77_violated_hex (t : List Char) (h : BitVec 8) (hs : List (BitVec 8)) :
    cmpmem 3 (some t) (some []) = .exit 0 ∧ cmpmem 3 (some ['z', 'z']) (some (h :: hs)) = .undef := by
  constructor
  · rfl
  · simp [cmpmem, hexLoop, isSpace, scan2x, hexVal, List.dropWhile]

/-! ### cmpmemhex -/

theorem skip0x_two {c d : Char} {va vb : Nat} (hc : HexDigit c va) (hd : HexDigit d vb) (t : List Char) :
    skip0x (c :: d :: t) = c :: d :: t := by
  obtain ⟨-, -, d3, d4, -⟩ := hexVal_digit hd
  unfold skip0x
  split
  · rename_i x y r he
    simp only [List.cons.injEq] at he
    obtain ⟨h1, h2, h3⟩ := he
    subst h2
    rw [if_neg (by simp [d3, d4]), h1, h3]
  · rfl

theorem strtolByte_two {c d : Char} {va vb : Nat} (hc : HexDigit c va) (hd : HexDigit d vb) (t : List Char)
    (ht : t = [] ∨ ∃ s t', t = s :: t' ∧ Blank s) :
    strtolByte (c :: d :: t) = BitVec.ofNat 8 (16 * va + vb) := by
  obtain ⟨c1, -, -, -, -, c6, c7⟩ := hexVal_digit hc
  obtain ⟨d1, -⟩ := hexVal_digit hd
  have ha := hc.1
  have hb := hd.1
  have htw : (c :: d :: t).takeWhile isXDigit = [c, d] := by
    rw [List.takeWhile_cons, if_pos (by simp [isXDigit, c1]), List.takeWhile_cons, if_pos (by simp [isXDigit, d1])]
    rcases ht with rfl | ⟨s, t', rfl, hs⟩
    · rfl
    · rw [List.takeWhile_cons, if_neg (by simp [isXDigit, (isSpace_blank hs).2])]
  unfold strtolByte
  split
  · rename_i r he; injection he with he _; exact absurd he c6
  · rename_i r he; injection he with he _; exact absurd he c7
  · rw [skip0x_two hc hd, htw]
    simp only [runVal, List.foldl_cons, List.foldl_nil, c1, d1, Option.getD_some]
    congr 1
    omega

theorem columns_nil : ∀ n, columns n [] = some (List.replicate n none) := by
  intro n
  induction n with
  | zero => rfl
  | succ n ih =>
    simp only [columns, List.dropWhile_nil, ih, Option.map_some]
    rfl

theorem columns_row {es : List (Option (BitVec 8))} {t : List Char} (ht : RowText es t) :
    ∀ n, es.length ≤ n → columns n t = some (es ++ List.replicate (n - es.length) none) := by
  induction ht with
  | nil ws hws =>
    intro n _
    cases n with
    | zero => rfl
    | succ n =>
      simp only [columns, dropBlank_all ws hws, columns_nil, Option.map_some]
      rfl
  | any ws hws ht ih =>
    intro n hn
    cases n with
    | zero => simp at hn
    | succ n =>
      simp only [columns]
      rw [dropBlank ws hws _ (by intro c t' e; injection e with e _; subst e; decide)]
      simp only [step2, if_true]
      rw [ih n (by simpa using hn)]
      simp
  | byte ws c d a b hws hc hd hsep ht ih =>
    intro n hn
    cases n with
    | zero => simp at hn
    | succ n =>
      obtain ⟨c1, c2, c3, c4, -⟩ := hexVal_digit hc
      simp only [columns]
      rw [dropBlank ws hws _ (by intro c t' e; injection e with e _; subst e; exact c2)]
      simp only [step2, if_neg c3]
      rw [ih n (by simpa using hn), strtolByte_two hc hd _ hsep]
      simp

theorem differs_iff : ∀ (es : List (Option (BitVec 8))) (hs : List (BitVec 8)),
    differs es hs = false ↔ NotContradicted es hs := by
  intro es
  induction es with
  | nil => intro hs; simp [differs, NotContradicted]
  | cons e es ih =>
    intro hs
    cases hs with
    | nil => simp [differs, NotContradicted]
    | cons h hs =>
      simp only [differs, Bool.or_eq_false_iff, ih]
      constructor
      · rintro ⟨h1, h2⟩ i b x hb hx
        cases i with
        | zero =>
          simp at hb hx
          subst hb hx
          simpa using h1
        | succ i => exact h2 i b x (by simpa using hb) (by simpa using hx)
      · intro hn
        refine ⟨?_, fun i b x hb hx => hn (i + 1) b x (by simpa using hb) (by simpa using hx)⟩
        cases e with
        | none => rfl
        | some b => simpa using hn 0 b h (by simp) (by simp)

theorem haveBytes_get (dump : List (BitVec 8)) (i : Nat) (h : i < 16) :
    (haveBytes dump)[i]? = some (dump.getD i 0xFF) := by
  simp only [haveBytes, List.getElem?_map, List.getElem?_range h, Option.map_some]

theorem headerLine_facts {es : List (Option (BitVec 8))} {l : List Char} (h : HeaderLine es l) :
    isOther l = false ∧ ∃ t, header l = some t ∧ RowText es t ∧ es.length ≤ 16 := by
  obtain ⟨hl, a, b, va, vb, t, ha, hb, hr, he⟩ := h
  obtain ⟨a1, -, -, -, a5, -⟩ := hexVal_digit ha
  obtain ⟨b1, -⟩ := hexVal_digit hb
  have hx : isXDigit a = true ∧ isXDigit b = true := by simp [isXDigit, a1, b1]
  rcases he with rfl | rfl
  · refine ⟨?_, t, ?_, hr, hl⟩
    · unfold isOther; split
      · rename_i heq; simp only [List.cons.injEq] at heq; exact absurd heq.2.1 a5
      · rfl
      · rename_i h; exact absurd rfl (h _)
    · simp only [header]; rw [if_pos hx]
  · refine ⟨?_, t, ?_, hr, hl⟩
    · unfold isOther; split
      · rename_i heq; simp only [List.cons.injEq] at heq; exact absurd heq.2.1 a5
      · rfl
      · rename_i h; exact absurd rfl (h _)
    · simp only [header]; rw [if_pos hx]

theorem otherLine_facts {l : List Char} (h : OtherLine l) : isOther l = true := by
  rcases h with ⟨t, rfl⟩ | h
  · rfl
  · unfold isOther; split
    · rfl
    · exact absurd rfl (h _)
    · rfl

theorem lineLoop_zero {rows : List (List (Option (BitVec 8)))} {ls : List (List Char)} (hf : HeaderFile rows ls) :
    ∀ (d : List (BitVec 8)) (failed : Nat), ∃ code, lineLoop ls d failed = .exit code ∧
      (code = 0 ↔ failed = 0 ∧ ∀ (k i : Nat) (es : List (Option (BitVec 8))) (b : BitVec 8), rows[k]? = some es →
        es[i]? = some (some b) → d.getD (16 * k + i) 0xFF = b) := by
  induction hf with
  | nil => intro d failed; exact ⟨failed, rfl, by simp⟩
  | other l ls hl =>
    intro d failed
    exact ⟨failed, by simp [lineLoop, otherLine_facts hl], by simp⟩
  | row hl hf ih =>
    rename_i es l rows ls
    intro d failed
    obtain ⟨h1, t, h2, h3, h4⟩ := headerLine_facts hl
    have hcol := columns_row h3 16 h4
    obtain ⟨code, i1, i2⟩ := ih (d.drop 16)
      (if differs (es ++ List.replicate (16 - es.length) none) (haveBytes d) then 1 else failed)
    refine ⟨code, ?_, ?_⟩
    · simp only [lineLoop, h1, Bool.false_eq_true, if_false, h2, hcol]
      exact i1
    · rw [i2]
      have hd : differs (es ++ List.replicate (16 - es.length) none) (haveBytes d) = false ↔
          ∀ (i : Nat) (b : BitVec 8), es[i]? = some (some b) → d.getD i 0xFF = b := by
        rw [differs_iff]
        constructor
        · intro hn i b hb
          obtain ⟨hi, -⟩ := List.getElem?_eq_some_iff.1 hb
          exact hn i b _ (by rw [List.getElem?_append_left hi]; exact hb) (haveBytes_get d i (by omega))
        · intro hn i b x hb hx
          by_cases hi : i < es.length
          · rw [List.getElem?_append_left hi] at hb
            rw [haveBytes_get d i (by omega)] at hx
            injection hx with hx
            rw [← hx]; exact hn i b hb
          · rw [List.getElem?_append_right (by omega), List.getElem?_replicate] at hb
            split at hb <;> simp at hb
      have hshift : ∀ k i, (d.drop 16).getD (16 * k + i) 0xFF = d.getD (16 * (k + 1) + i) 0xFF := by
        intro k i
        simp only [List.getD_eq_getElem?_getD, List.getElem?_drop]
        rw [show 16 + (16 * k + i) = 16 * (k + 1) + i by omega]
      constructor
      · rintro ⟨j1, j2⟩
        by_cases hdf : differs (es ++ List.replicate (16 - es.length) none) (haveBytes d) = true
        · rw [if_pos hdf] at j1; cases j1
        · rw [if_neg hdf] at j1
          refine ⟨j1, fun k i es' b hk hi => ?_⟩
          cases k with
          | zero =>
            simp at hk; subst hk
            have := hd.1 (by simpa using hdf) i b hi
            simpa using this
          | succ k => rw [← hshift]; exact j2 k i es' b (by simpa using hk) hi
      · rintro ⟨j1, j2⟩
        have hdf := hd.2 (fun i b hi => by simpa using j2 0 i es b (by simp) hi)
        refine ⟨by simp [hdf, j1], fun k i es' b hk hi => ?_⟩
        rw [hshift]; exact j2 (k + 1) i es' b (by simpa using hk) hi

/-- C77, cmpmemhex: for every file of header lines the tool exits; with status 0 exactly when every byte
asked for equals the byte of the dump, FFh behind its end; hence, for dumps of at least 16 bytes per
line, exactly when the dump meets the header. -/
theorem C77_header_partial (rows : List (List (Option (BitVec 8)))) (ls : List (List Char))
    (hf : HeaderFile rows ls) (d : List (BitVec 8)) :
    (∃ code, cmpmemhex 3 (some ls) (some d) = .exit code) ∧
    (cmpmemhex 3 (some ls) (some d) = .exit 0 ↔
      ∀ (k i : Nat) (es : List (Option (BitVec 8))) (b : BitVec 8), rows[k]? = some es → es[i]? = some (some b) →
        (d[16 * k + i]?).getD 0xFF = b) ∧
    (16 * rows.length ≤ d.length → (cmpmemhex 3 (some ls) (some d) = .exit 0 ↔ RowsMeet rows d)) := by
  obtain ⟨code, h1, h2⟩ := lineLoop_zero hf d 0
  have e : cmpmemhex 3 (some ls) (some d) = .exit code := by simp [cmpmemhex, h1]
  have hlen : ∀ {rows ls}, HeaderFile rows ls → ∀ es ∈ rows, es.length ≤ 16 := by
    intro rows ls hf
    induction hf with
    | nil => simp
    | other => simp
    | row hl _ ih =>
      intro es hes
      rcases List.mem_cons.1 hes with rfl | hes
      · exact hl.1
      · exact ih es hes
  have e2 : cmpmemhex 3 (some ls) (some d) = .exit 0 ↔
      ∀ (k i : Nat) (es : List (Option (BitVec 8))) (b : BitVec 8), rows[k]? = some es → es[i]? = some (some b) →
        (d[16 * k + i]?).getD 0xFF = b := by
    rw [e]; simp only [Res.exit.injEq, h2, true_and, List.getD_eq_getElem?_getD]
  refine ⟨⟨code, e⟩, e2, fun hl => ?_⟩
  rw [e2]
  refine forall_congr' fun k => forall_congr' fun i => forall_congr' fun es => forall_congr' fun b =>
    forall_congr' fun hk => forall_congr' fun hi => ?_
  obtain ⟨hk', -⟩ := List.getElem?_eq_some_iff.1 hk
  obtain ⟨hi', -⟩ := List.getElem?_eq_some_iff.1 hi
  have := hlen hf es (List.mem_of_getElem? hk)
  rw [List.getElem?_eq_getElem (by omega)]
  simp

/-- ";00: 1F XX\n" followed by an ordinary line. -/
example : HeaderFile [[some 0x1F, none]] [";00: 1F XX\n".toList, "; comment".toList] :=
  .row ⟨by decide, '0', '0', 0, 0, " 1F XX\n".toList, by simp [HexDigit], by simp [HexDigit],
    .byte [' '] '1' 'F' 1 15 (by simp [Blank]) (by simp [HexDigit]) (by simp [HexDigit]) (.inr ⟨' ', _, rfl, by simp [Blank]⟩)
      (.any [' '] (by simp [Blank]) (.nil ['\n'] (by simp [Blank]))), .inl rfl⟩
    (.other _ _ (.inl ⟨_, rfl⟩))

/-- Violations of C77 by cmpmemhex: the address in the header line is not used; bytes asked for behind the
end of the dump pass if they are FF; digits without white space in between are read as one number, so
"1F2E" asks for 2E twice; columns beyond the 16th are ignored; and a file that does not begin with a
header line accepts every dump. -/
theorem C77_violated_header (d : List (BitVec 8)) :
    cmpmemhex 3 (some [";F0: 07\n".toList]) (some [7]) = .exit 0 ∧
    cmpmemhex 3 (some [";00: FF\n".toList]) (some []) = .exit 0 ∧
    cmpmemhex 3 (some [";00: 1F2E\n".toList]) (some [0x2E, 0x2E]) = .exit 0 ∧
    cmpmemhex 3 (some [";00: 1F2E\n".toList]) (some [0x1F, 0x2E]) = .exit 1 ∧
    cmpmemhex 3 (some [";00: 00 00 00 00 00 00 00 00 00 00 00 00 00 00 00 00 55\n".toList])
      (some (List.replicate 17 0)) = .exit 0 ∧
    cmpmemhex 3 (some ["mov ax, 1\n".toList, ";00: 07\n".toList]) (some d) = .exit 0 := by
  refine ⟨by decide, by decide, by decide, by decide, by decide, rfl⟩

/-- Violation of C77 by cmpmemhex: a column is read as a signed C number.  `-c` (one hexadecimal digit) asks for the byte `-c`, `+c` for `c`. -/
theorem C77_violated_signed {c : Char} {v : Nat} (hc : HexDigit c v) (b : BitVec 8) :
    (cmpmemhex 3 (some [";00: -".toList ++ [c, '\n']]) (some [b]) = .exit 0 ↔ b = - BitVec.ofNat 8 v) ∧
    (cmpmemhex 3 (some [";00: +".toList ++ [c, '\n']]) (some [b]) = .exit 0 ↔ b = BitVec.ofNat 8 v) := by
  have key : ∀ c ∈ "0123456789abcdefABCDEF".toList, ∀ b : BitVec 8,
      (cmpmemhex 3 (some [";00: -".toList ++ [c, '\n']]) (some [b]) = .exit 0 ↔ b = - BitVec.ofNat 8 ((hexVal c).getD 0)) ∧
      (cmpmemhex 3 (some [";00: +".toList ++ [c, '\n']]) (some [b]) = .exit 0 ↔ b = BitVec.ofNat 8 ((hexVal c).getD 0)) := by decide +kernel
  have hm : c ∈ "0123456789abcdefABCDEF".toList := by
    have : ∀ w, w < 16 → "0123456789abcdef".toList[w]? = some c ∨ "0123456789ABCDEF".toList[w]? = some c → c ∈ "0123456789abcdefABCDEF".toList := by
      intro w hw h
      have : w = 0 ∨ w = 1 ∨ w = 2 ∨ w = 3 ∨ w = 4 ∨ w = 5 ∨ w = 6 ∨ w = 7 ∨ w = 8 ∨ w = 9 ∨ w = 10 ∨ w = 11 ∨ w = 12 ∨ w = 13 ∨ w = 14 ∨ w = 15 := by omega
      rcases this with rfl | rfl | rfl | rfl | rfl | rfl | rfl | rfl | rfl | rfl | rfl | rfl | rfl | rfl | rfl | rfl <;>
        rcases h with h | h <;> cases h <;> decide
    exact this v hc.1 hc.2
  have := key c hm b
  rw [(hexVal_digit hc).1] at this
  exact this

/-- Violation of C77 by cmpmemhex: `0x1F` and `0X1F` ask for the byte 1F twice (in this column and the next). -/
theorem C77_violated_0x (a : BitVec 8) :
    (cmpmemhex 3 (some [";00: 0x1F\n".toList]) (some [a, 0x1F]) = .exit 0 ↔ a = 0x1F) ∧
    (cmpmemhex 3 (some [";00: 0x1F\n".toList]) (some [0x1F, a]) = .exit 0 ↔ a = 0x1F) ∧
    (cmpmemhex 3 (some [";00: 0X1F\n".toList]) (some [a, 0x1F]) = .exit 0 ↔ a = 0x1F) ∧
    (cmpmemhex 3 (some [";00: 0X1F\n".toList]) (some [0x1F, a]) = .exit 0 ↔ a = 0x1F) := by
  revert a
  decide +kernel

/-- C77: called with a wrong number of arguments, or with a file that cannot be opened, each tool exits
with status 1. -/
theorem C77_usage (argc : Nat) (tb db : Option (List (BitVec 8))) (t : Option (List Char))
    (ls : Option (List (List Char))) (h : argc ≠ 3 ∨ db = none ∨ (tb = none ∧ t = none ∧ ls = none)) :
    cmpmembin argc tb db = .exit 1 ∧ cmpmem argc t db = .exit 1 ∧ cmpmemhex argc ls db = .exit 1 := by
  by_cases ha : argc = 3
  · rcases h with h | h | ⟨h1, h2, h3⟩
    · exact absurd ha h
    · subst h; cases tb <;> cases t <;> cases ls <;> simp [cmpmembin, cmpmem, cmpmemhex]
    · subst h1 h2 h3; simp [cmpmembin, cmpmem, cmpmemhex]
  · simp [cmpmembin, cmpmem, cmpmemhex, ha]

example : (2 : Nat) ≠ 3 := by decide

end RME.Cmp
