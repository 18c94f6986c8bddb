import Verif.Spec.Mini
import Verif.Props.Main
set_option autoImplicit false
/-
C82: the small test program mini_test.c: command line, machine set-up, exit status.
-/
namespace RME.Native
open RME

/-! ### Command line -/

theorem miniAct_image (n : List Char) (hn : n.head? ≠ some '-') : miniAct false n = .image := by
  simp only [miniAct, Bool.false_eq_true, if_false]
  split
  · simp at hn
  · rfl

/-- The options `o` after reading `l` with `o0` before. -/
structure MReads (l : List MArg) (o0 o : MiniOpts) : Prop where
  binfile : o.binfile = ((l.filterMap MArg.imageName).head? <|> o0.binfile)
  dump : o.dump = lastOr ((l.filterMap MArg.dumpName).map some) o0.dump
  cpu : o.cpu = lastOr ((l.filterMap MArg.cpuName).map some) o0.cpu
  debug : o.debug = lastOr ((l.filterMap MArg.level).map strtol10) o0.debug

theorem mini_reads (l : List MArg) (hp : ∀ a ∈ l, a.proper) (rest : List (List Char)) (o : MiniOpts)
    (hk : (l.filterMap MArg.imageName).length + (if o.binfile.isSome then 1 else 0) ≤ 1) :
    ∃ o', miniParse (l.flatMap MArg.words ++ rest) false o = miniParse rest false o' ∧ MReads l o o' := by
  induction l generalizing o with
  | nil => exact ⟨o, rfl, rfl, rfl, rfl, rfl⟩
  | cons a l ih =>
    have hp' : ∀ a ∈ l, a.proper := fun a h => hp a (by simp [h])
    cases a with
    | image n =>
      have hn : n.head? ≠ some '-' := hp (.image n) (by simp)
      have hb : o.binfile = none := by
        cases hb : o.binfile with
        | none => rfl
        | some x =>
          rw [hb] at hk
          simp [MArg.imageName] at hk
      have hl : (l.filterMap MArg.imageName) = [] := by
        cases hl : l.filterMap MArg.imageName with
        | nil => rfl
        | cons x y =>
          rw [hb, show List.filterMap MArg.imageName (.image n :: l) = n :: List.filterMap MArg.imageName l from rfl, hl] at hk
          simp at hk
      obtain ⟨o', h1, h2⟩ := ih hp' { o with binfile := some n } (by rw [hl]; simp)
      refine ⟨o', ?_, ?_, h2.dump, h2.cpu, h2.debug⟩
      · show miniParse (n :: (l.flatMap MArg.words ++ rest)) false o = _
        rw [miniParse.eq_def]
        simp only [miniAct_image n hn]
        simp only [hb, Option.isNone_none, if_true]
        exact h1
      · rw [h2.binfile, hl, show List.filterMap MArg.imageName (.image n :: l) = n :: List.filterMap MArg.imageName l from rfl]
        rfl
    | dump n =>
      obtain ⟨o', h1, h2⟩ := ih hp' { o with dump := some n } hk
      exact ⟨o', h1, h2.binfile, h2.dump.trans (lastOr_cons _ _ _).symm, h2.cpu, h2.debug⟩
    | cpu n =>
      obtain ⟨o', h1, h2⟩ := ih hp' { o with cpu := some n } hk
      exact ⟨o', h1, h2.binfile, h2.dump, h2.cpu.trans (lastOr_cons _ _ _).symm, h2.debug⟩
    | debug n =>
      obtain ⟨o', h1, h2⟩ := ih hp' { o with debug := strtol10 n } hk
      exact ⟨o', h1, h2.binfile, h2.dump, h2.cpu, h2.debug.trans (lastOr_cons _ _ _).symm⟩

/-- C82: a command line of proper options with at most one image is accepted; every option has the value given last (none, or debug level 0, if never
given). -/
theorem C82_options (l : List MArg) (hp : ∀ a ∈ l, a.proper) (hn : (l.filterMap MArg.imageName).length ≤ 1) :
    ∃ o, miniParse (l.flatMap MArg.words) false {} = .ok o ∧ o.binfile = (l.filterMap MArg.imageName).head? ∧
      o.dump = (l.filterMap MArg.dumpName).getLast? ∧ o.cpu = (l.filterMap MArg.cpuName).getLast? ∧
      o.debug = ((l.filterMap MArg.level).getLast?.map strtol10).getD 0 := by
  obtain ⟨o, h1, h2⟩ := mini_reads l hp [] {} (by simpa using hn)
  rw [List.append_nil] at h1
  refine ⟨o, h1, ?_, ?_, ?_, ?_⟩
  · rw [h2.binfile]
    cases (l.filterMap MArg.imageName).head? <;> rfl
  · rw [h2.dump, lastOr, List.getLast?_map]
    cases (l.filterMap MArg.dumpName).getLast? <;> rfl
  · rw [h2.cpu, lastOr, List.getLast?_map]
    cases (l.filterMap MArg.cpuName).getLast? <;> rfl
  · rw [h2.debug, lastOr, List.getLast?_map]

/-- C82: after any proper options: a second image, a lone `-` or an unknown option is refused with status 1; `-h…` and `--help` end with status 0; a
missing value of `--cpu` or `--debug-level` aborts (in a build with assertions). -/
theorem C82_refused (l : List MArg) (hp : ∀ a ∈ l, a.proper) (hn : (l.filterMap MArg.imageName).length ≤ 1) (rest : List (List Char)) :
    ((l.filterMap MArg.imageName).length = 1 → ∀ n, n.head? ≠ some '-' → miniParse (l.flatMap MArg.words ++ n :: rest) false {} = .exit 1) ∧
    miniParse (l.flatMap MArg.words ++ ['-'] :: rest) false {} = .exit 1 ∧
    (∀ c tl, c ≠ '-' → c ≠ 'h' → c ≠ 'O' → miniParse (l.flatMap MArg.words ++ ('-' :: c :: tl) :: rest) false {} = .exit 1) ∧
    (∀ c tl, let a := '-' :: '-' :: c :: tl; a ≠ "--help".toList → a ≠ "--cpu".toList → a ≠ "--debug-level".toList →
      miniParse (l.flatMap MArg.words ++ a :: rest) false {} = .exit 1) ∧
    (∀ tl, miniParse (l.flatMap MArg.words ++ ('-' :: 'h' :: tl) :: rest) false {} = .exit 0) ∧
    miniParse (l.flatMap MArg.words ++ "--help".toList :: rest) false {} = .exit 0 ∧
    miniParse (l.flatMap MArg.words ++ ["--cpu".toList]) false {} = .abort ∧ miniParse (l.flatMap MArg.words ++ ["--debug-level".toList]) false {} = .abort := by
  have hr := fun rest => mini_reads l hp rest {} (by simpa using hn)
  refine ⟨?_, ?_, ?_, ?_, ?_, ?_, ?_, ?_⟩
  · intro h1 n hh
    obtain ⟨o, h, h2⟩ := hr (n :: rest)
    have hb : o.binfile.isNone = false := by
      rw [h2.binfile]
      cases hl : l.filterMap MArg.imageName with
      | nil => rw [hl] at h1; simp at h1
      | cons x y => rfl
    rw [h, miniParse.eq_def]
    simp [miniAct_image n hh, hb]
  · obtain ⟨o, h, -⟩ := hr (['-'] :: rest)
    rw [h]; rfl
  · intro c tl h0 h1 h2
    obtain ⟨o, h, -⟩ := hr (('-' :: c :: tl) :: rest)
    rw [h, miniParse.eq_def]
    simp only [miniAct, h0, h1, h2, ne_eq, not_false_eq_true, if_true, if_false, Bool.false_eq_true]
  · intro c tl a h1 h2 h3
    obtain ⟨o, h, -⟩ := hr (a :: rest)
    rw [h, miniParse.eq_def]
    simp only [a, miniAct, ne_eq, not_true_eq_false, if_false, Bool.false_eq_true]
    rw [if_neg h1, if_neg h2, if_neg h3]
  · intro tl
    obtain ⟨o, h, -⟩ := hr (('-' :: 'h' :: tl) :: rest)
    rw [h]; rfl
  · obtain ⟨o, h, -⟩ := hr ("--help".toList :: rest)
    rw [h]; rfl
  · obtain ⟨o, h, -⟩ := hr ["--cpu".toList]
    rw [h]; rfl
  · obtain ⟨o, h, -⟩ := hr ["--debug-level".toList]
    rw [h]; rfl

/-- C82: after `--` every word is an image name, also one that begins with `-`: one (and none before) is taken, with the options before `--` in force;
more than one in all is refused. -/
theorem C82_all_free (l : List MArg) (hp : ∀ a ∈ l, a.proper) (hn : (l.filterMap MArg.imageName).length ≤ 1) (n : List Char) :
    (l.filterMap MArg.imageName = [] → ∃ o, miniParse (l.flatMap MArg.words ++ [['-', '-'], n]) false {} = .ok o ∧ o.binfile = some n ∧
      o.dump = (l.filterMap MArg.dumpName).getLast? ∧ o.cpu = (l.filterMap MArg.cpuName).getLast? ∧
      o.debug = ((l.filterMap MArg.level).getLast?.map strtol10).getD 0) ∧
    (∀ m rest, miniParse (l.flatMap MArg.words ++ ['-', '-'] :: n :: m :: rest) false {} = .exit 1) ∧
    (l.filterMap MArg.imageName ≠ [] → ∀ rest, miniParse (l.flatMap MArg.words ++ ['-', '-'] :: n :: rest) false {} = .exit 1) := by
  have hr := fun rest => mini_reads l hp rest {} (by simpa using hn)
  have hfree : ∀ (w : List Char), miniAct true w = .image := fun w => rfl
  refine ⟨fun hl => ?_, fun m rest => ?_, fun hl rest => ?_⟩
  · obtain ⟨o, h1, h2⟩ := hr [['-', '-'], n]
    have hb : o.binfile = none := by rw [h2.binfile, hl]; rfl
    refine ⟨{ o with binfile := some n }, ?_, rfl, ?_, ?_, ?_⟩
    · rw [h1]
      show miniParse [n] true o = _
      rw [miniParse.eq_def]
      simp only [hfree, hb, Option.isNone_none, if_true]
      rfl
    · show o.dump = _
      rw [h2.dump, lastOr, List.getLast?_map]
      cases (l.filterMap MArg.dumpName).getLast? <;> rfl
    · show o.cpu = _
      rw [h2.cpu, lastOr, List.getLast?_map]
      cases (l.filterMap MArg.cpuName).getLast? <;> rfl
    · show o.debug = _
      rw [h2.debug, lastOr, List.getLast?_map]
  · obtain ⟨o, h1, -⟩ := hr (['-', '-'] :: n :: m :: rest)
    rw [h1]
    show miniParse (n :: m :: rest) true o = _
    rw [miniParse.eq_def]
    simp only [hfree]
    split
    · rw [miniParse.eq_def]
      simp only [hfree]
      rfl
    · rfl
  · obtain ⟨o, h1, h2⟩ := hr (['-', '-'] :: n :: rest)
    rw [h1]
    show miniParse (n :: rest) true o = _
    have hb : o.binfile.isNone = false := by
      rw [h2.binfile]
      cases hh : l.filterMap MArg.imageName with
      | nil => exact absurd hh hl
      | cons x y => rfl
    rw [miniParse.eq_def]
    simp only [hfree, hb]
    rfl

/-- C82 violated: `-O` as the last word lacks its value but is accepted, and forgets a name given before: no dump is written. -/
theorem C82_violated_missing_value (l : List MArg) (hp : ∀ a ∈ l, a.proper) (hn : (l.filterMap MArg.imageName).length ≤ 1) :
    ∃ o, miniParse (l.flatMap MArg.words ++ [['-', 'O']]) false {} = .ok o ∧ o.dump = none := by
  obtain ⟨o, h, -⟩ := mini_reads l hp [['-', 'O']] {} (by simpa using hn)
  exact ⟨_, h, rfl⟩

/-! ### Set-up -/

/-- The CPU type in force: the one named, or the one of `RME_CreateState`. -/
def miniCpu : Option (List Char) → Option CPUType
  | none => some .i8086
  | some name => cpuOf name

theorem miniFinish_run {ga : Nat} {cpu : Option (List Char)} {s : State} {c : CPUType} (h : miniCpu cpu = some c) (hs : s.cpuType = .i8086) :
    miniFinish ga cpu s = .run (finishSetup ga c s) := by
  cases cpu with
  | none =>
    simp only [miniCpu, Option.some.injEq] at h
    rw [miniFinish, hs, h]
  | some name =>
    simp only [miniCpu] at h
    simp only [miniFinish, h]

/-- C82: a machine that gets to run is of the CPU type that was named last, an 8086 if none was, and has the debug level that was given. -/
theorem C82_machine (fs : List Char → Option (List (BitVec 8))) (ga : Nat) (host : Nat → BitVec 8) (o : MiniOpts) (s : State) (h : miniSetup fs ga host o = .run s) :
    (o.cpu = none ∧ s.cpuType = .i8086 ∨ o.cpu = some (cpuWord s.cpuType)) ∧ s.debugLevel = o.debug := by
  have key : ∀ t : State, t.cpuType = .i8086 → t.debugLevel = o.debug → miniFinish ga o.cpu t = .run s →
      (o.cpu = none ∧ s.cpuType = .i8086 ∨ o.cpu = some (cpuWord s.cpuType)) ∧ s.debugLevel = o.debug := by
    intro t h1 h2 h3
    cases hc : o.cpu with
    | none =>
      rw [hc, miniFinish] at h3
      cases h3
      exact ⟨.inl ⟨rfl, h1⟩, h2⟩
    | some name =>
      rw [hc] at h3
      simp only [miniFinish] at h3
      cases hn : cpuOf name with
      | none => rw [hn] at h3; cases h3
      | some c =>
        rw [hn] at h3
        cases h3
        exact ⟨.inr (by rw [(C75_cpu name c).mp hn]; rfl), h2⟩
  simp only [miniSetup] at h
  split at h
  · exact key _ rfl rfl h
  · split at h
    · cases h
    · split at h
      · cases h
      · exact key _ rfl rfl h

theorem mini_started (ga : Nat) (host : Nat → BitVec 8) (dbg : Int) (c : CPUType) (mem : Nat → BitVec 8) :
    let s := finishSetup ga c { (newMachine ga mem host dbg).setSreg .cs 0xF000 with ip := 0xFFF0 }
    Started ga host s 0xF000 0xFFF0 ∧ ∀ i < 0x110000, s.host (ga + i) = lastWord mem i :=
  started_of (ga := ga) (host := host) (dbg := dbg) (cpu := c) (cs := 0xF000) (ip := 0xFFF0) (g := fun _ => 0) (mem := mem) (fun _ => rfl)

/-- C82: an image whose length is a positive multiple of 16 up to 64 KiB is loaded so that its last byte is at FFFFF; the machine starts with its last
16 bytes as the instructions at CS:IP = F000:FFF0, all interrupt vectors are 0000:0000, the word at 9FFFE is FFFF and every other byte outside the
image is F1 (a breakpoint), except 67 C9 at F0000 if the image does not reach that far down. -/
theorem C82_bios {fs : List Char → Option (List (BitVec 8))} {ga : Nat} {host : Nat → BitVec 8} {o : MiniOpts} {f : List Char} {file : List (BitVec 8)} {c : CPUType}
    (hb : o.binfile = some f) (hf : fs f = some file) (hc : miniCpu o.cpu = some c) (h16 : file.length % 16 = 0) (h0 : 0 < file.length) (h1 : file.length ≤ 0x10000) :
    ∃ s, miniSetup fs ga host o = .run s ∧ Started ga host s 0xF000 0xFFF0 ∧ s.cpuType = c ∧ s.debugLevel = o.debug ∧
      (∀ i (hi : i < file.length), s.host (ga + (0x100000 - file.length + i)) = file[i]) ∧
      CodeAt s (ga + 0xFFFF0) (file.drop (file.length - 16)) ∧ (∀ n, Vector s n 0 0) ∧
      (∀ i, 0x400 ≤ i → i < 0x110000 → (i < 0x100000 - file.length ∨ 0x100000 ≤ i) →
        s.host (ga + i) = if i = 0x9FFFE ∨ i = 0x9FFFF then 0xFF else if i = 0xF0000 then 0x67 else if i = 0xF0001 then 0xC9 else 0xF1) := by
  refine ⟨_, by simp only [miniSetup, hb, hf]; rw [if_neg (by omega), miniFinish_run hc rfl], ?_⟩
  obtain ⟨k1, k2⟩ := mini_started ga host o.debug c (miniImage file)
  have hby : ∀ i (hi : i < file.length), _ = file[i] := fun i hi => by
    refine (k2 (0x100000 - file.length + i) (by omega)).trans ?_
    simp only [lastWord, miniImage]
    rw [if_neg (by omega), if_pos (by omega), show 0x100000 - file.length + i - (0x100000 - file.length) = i by omega,
      List.getD_eq_getElem?_getD, List.getElem?_eq_getElem hi]
    rfl
  refine ⟨k1, rfl, rfl, hby, ?_, ?_, ?_⟩
  · refine codeAt_flat k1.flat (by rw [k1.cs, k1.ip]; decide) ?_ ?_
    · rw [k1.ip]; simp; omega
    · intro i hi
      simp only [List.length_drop] at hi
      rw [List.getElem_drop, show 0xFFFF0 + i = 0x100000 - file.length + (file.length - 16 + i) by omega]
      exact hby _ (by omega)
  · intro n
    have hn := n.isLt
    have hz : ∀ i < 0x400, (finishSetup ga c { (newMachine ga (miniImage file) host o.debug).setSreg .cs 0xF000 with ip := 0xFFF0 }).host (ga + i) = 0 := by
      intro i hi
      rw [k2 i (by omega), lastWord, miniImage, if_neg (by omega), if_neg (by omega), if_pos hi]
    have e0 : linear 0 (n.setWidth 16 * 4) = n.toNat * 4 := by simp [linear]; omega
    have e2 : linear 0 (n.setWidth 16 * 4 + 2) = n.toNat * 4 + 2 := by simp [linear]; omega
    refine ⟨holds16_flat k1.flat _ _ _ ?_ ?_, holds16_flat k1.flat _ _ _ ?_ ?_⟩
    · rw [e0, hz _ (by omega)]; rfl
    · rw [e0, hz _ (by omega)]; rfl
    · rw [e2, hz _ (by omega)]; rfl
    · rw [e2, hz _ (by omega)]; rfl
  · intro i h2 h3 h4
    refine (k2 i h3).trans ?_
    rw [lastWord, miniImage, miniMem]
    by_cases h : i = 0x9FFFE ∨ i = 0x9FFFF
    · rw [if_pos (by omega), if_pos h]
    · rw [if_neg (by omega), if_neg h, if_neg (by omega), if_neg (by omega), if_neg (by omega)]

theorem mini_bare (ga : Nat) (host : Nat → BitVec 8) (dbg : Int) :
    newMachine ga miniMem host dbg = { (newMachine ga miniMem host dbg).setSreg .cs 0xF000 with ip := 0xFFF0 } := by
  refine State.ext' rfl ?_ rfl rfl rfl rfl rfl rfl rfl rfl rfl rfl rfl
  funext r
  show (if r = .cs then (0xF000 : BitVec 16) else 0) = (if r = .cs then 0xF000 else if r = .cs then 0xF000 else 0)
  by_cases h : r = .cs <;> simp [h]

/-- C82: without an image the machine starts at F000:FFF0 too; the vector of interrupt `n` is B800:`n`, the trap segment of the emulator, 67 C9 is at
F0000, the word at 9FFFE is FFFF and every other byte is F1. -/
theorem C82_no_image {fs : List Char → Option (List (BitVec 8))} {ga : Nat} {host : Nat → BitVec 8} {o : MiniOpts} {c : CPUType}
    (hb : o.binfile = none) (hc : miniCpu o.cpu = some c) :
    ∃ s, miniSetup fs ga host o = .run s ∧ Started ga host s 0xF000 0xFFF0 ∧ s.cpuType = c ∧ s.debugLevel = o.debug ∧
      (∀ n, Vector s n 0xB800 (n.setWidth 16)) ∧
      (∀ i, 0x400 ≤ i → i < 0x110000 →
        s.host (ga + i) = if i = 0x9FFFE ∨ i = 0x9FFFF then 0xFF else if i = 0xF0000 then 0x67 else if i = 0xF0001 then 0xC9 else 0xF1) := by
  obtain ⟨k1, k2⟩ := mini_started ga host o.debug c miniMem
  rw [← mini_bare ga host o.debug] at k1 k2
  refine ⟨_, by simp only [miniSetup, hb]; rw [miniFinish_run hc rfl], k1, rfl, rfl, ?_, ?_⟩
  · intro n
    have hn := n.isLt
    have hz : ∀ i < 0x400, (finishSetup ga c (newMachine ga miniMem host o.debug)).host (ga + i) =
        (if i % 4 = 0 then BitVec.ofNat 8 (i / 4) else if i % 4 = 1 then 0 else if i % 4 = 2 then 0x00 else 0xB8) := by
      intro i hi
      rw [k2 i (by omega), lastWord, miniMem, if_neg (by omega), if_pos hi]
    have e0 : linear 0 (n.setWidth 16 * 4) = n.toNat * 4 := by simp [linear]; omega
    have e2 : linear 0 (n.setWidth 16 * 4 + 2) = n.toNat * 4 + 2 := by simp [linear]; omega
    refine ⟨holds16_flat k1.flat _ _ _ ?_ ?_, holds16_flat k1.flat _ _ _ ?_ ?_⟩
    · rw [e0, hz _ (by omega), if_pos (by omega)]; apply BitVec.eq_of_toNat_eq; simp
    · rw [e0, hz _ (by omega), if_neg (by omega), if_pos (by omega)]; apply BitVec.eq_of_toNat_eq; simp; omega
    · rw [e2, hz _ (by omega), if_neg (by omega), if_neg (by omega), if_pos (by omega)]; rfl
    · rw [e2, hz _ (by omega), if_neg (by omega), if_neg (by omega), if_neg (by omega)]; rfl
  · intro i h2 h3
    refine (k2 i h3).trans ?_
    rw [lastWord, miniMem]
    by_cases h : i = 0x9FFFE ∨ i = 0x9FFFF
    · rw [if_pos (by omega), if_pos h]
    · rw [if_neg (by omega), if_neg h, if_neg (by omega)]

/-- No options at all: the hypotheses of `C82_no_image` are met. -/
example : ({} : MiniOpts).binfile = none ∧ miniCpu ({} : MiniOpts).cpu = some .i8086 := ⟨rfl, rfl⟩

/-- C82: an image whose length is not a multiple of 16 is refused. -/
theorem C82_bios_refused {fs : List Char → Option (List (BitVec 8))} {ga : Nat} {host : Nat → BitVec 8} {o : MiniOpts} {f : List Char} {file : List (BitVec 8)}
    (hb : o.binfile = some f) (hf : fs f = some file) (h : file.length % 16 ≠ 0) : miniSetup fs ga host o = .ret (-1) := by
  simp only [miniSetup, hb, hf]
  rw [if_pos h]

/-- C82 violated: the name of an image that cannot be opened is undefined behaviour, whatever the other options are. -/
theorem C82_violated_missing_file {fs : List Char → Option (List (BitVec 8))} {ga : Nat} {host : Nat → BitVec 8} {o : MiniOpts} {f : List Char}
    (hb : o.binfile = some f) (hf : fs f = none) : miniSetup fs ga host o = .ub := by
  simp only [miniSetup, hb, hf]

/-- C82 violated: an unknown CPU name ends the program before anything is run, with status 0 (success). -/
theorem C82_violated_cpu_status {fs : List Char → Option (List (BitVec 8))} {ga : Nat} {host : Nat → BitVec 8} {o : MiniOpts}
    (hc : miniCpu o.cpu = none) (hb : ∀ f, o.binfile = some f → ∃ file, fs f = some file ∧ file.length % 16 = 0) : miniSetup fs ga host o = .ret 0 := by
  have hx : ∀ s, miniFinish ga o.cpu s = .ret 0 := by
    intro s
    cases hcp : o.cpu with
    | none => rw [hcp] at hc; cases hc
    | some n =>
      rw [hcp] at hc
      simp only [miniCpu] at hc
      simp only [miniFinish, hc]
  simp only [miniSetup]
  cases hf : o.binfile with
  | none => exact hx _
  | some f =>
    obtain ⟨file, h1, h2⟩ := hb f hf
    simp only [h1]
    rw [if_neg (by omega), hx]

/-! ### The whole program -/

theorem mini_keeps (pin : List IOEv → Nat → BitVec 16 → BitVec 32) : CallbacksKeep (miniEnv pin) SameConfig := by
  intro n f s hf; cases hf

/-- C82: every run of the program that gets to the machine ends as the machine does: it executed instructions until one ended with a code; the status is
0 exactly for HLT and the breakpoint; one report per completed instruction at debug level 1 or more, none below; the dump, written exactly if a name was
given, is the first MiB of guest memory at the end. -/
theorem C82_run {fs : List Char → Option (List (BitVec 8))} {ga : Nat} {host : Nat → BitVec 8} {pin : List IOEv → Nat → BitVec 16 → BitVec 32} {fuel : Nat}
    {argv : List (List Char)} {f : Finish} (h : miniMain fs ga host pin fuel argv = .ran f) :
    ∃ o s l e t, miniParse argv false {} = .ok o ∧ miniSetup fs ga host o = .run s ∧ RunsTo (fun _ => miniEnv pin) 0 s l e t ∧
      (1 ≤ s.debugLevel → HonestLog ga (prev0 ga s) l f.log) ∧ (s.debugLevel < 1 → ∀ x ∈ f.log, x = []) ∧ f.log.length = l.length ∧
      (f.status = 0 ↔ e = .halt ∨ e = .breakpoint) ∧ f.dump.isSome = o.dump.isSome ∧
      (∀ d, f.dump = some d → d.length = 0x100000 ∧ ∀ i < 0x100000, d[i]? = some (memOf ga t i)) := by
  simp only [miniMain] at h
  cases hp : miniParse argv false {} with
  | exit c => rw [hp] at h; cases h
  | abort => rw [hp] at h; cases h
  | ok o =>
    rw [hp] at h
    simp only [] at h
    cases hs : miniSetup fs ga host o with
    | ret c => rw [hs] at h; cases h
    | ub => rw [hs] at h; cases h
    | run s =>
      rw [hs] at h
      simp only [] at h
      cases hl : mainLoop ga (fun _ => miniEnv pin) fuel 0 (prev0 ga s) s [] with
      | running => rw [hl] at h; cases h
      | ub => rw [hl] at h; cases h
      | ended e t log =>
        rw [hl] at h
        cases h
        obtain ⟨l, new, h1, h2, h3, h4, h5⟩ := mainLoop_runs (fun _ => mini_keeps pin) fuel 0 _ s [] hl
        rw [List.nil_append] at h2
        subst h2
        refine ⟨o, s, l, e, t, rfl, hs, h1, h3, h4, h5, C68_status e, ?_, ?_⟩
        · generalize List.map _ _ = m
          cases o.dump <;> rfl
        · intro d hd
          cases hdd : o.dump with
          | none => simp [hdd] at hd
          | some nm =>
            simp only [hdd, Option.isSome_some, if_true, Option.some.injEq] at hd
            subst hd
            refine ⟨by simp, fun i hi => ?_⟩
            rw [List.getElem?_map, List.getElem?_range hi]
            rfl

theorem mini_stops {ga : Nat} {host : Nat → BitVec 8} {pin : List IOEv → Nat → BitVec 16 → BitVec 32} {s : State} (k : Started ga host s 0xF000 0xFFF0)
    (hb : s.host (ga + 0xFFFF0) = 0xF1) (fuel : Nat) : ∃ t, mainLoop ga (fun _ => miniEnv pin) (fuel + 1) 0 (prev0 ga s) s [] = .ended .breakpoint t [] := by
  obtain ⟨t, ht⟩ := stops_at_once k hb (miniEnv pin)
  exact ⟨t, by rw [mainLoop, ht]⟩

/-- C82 violated: without an image, or with an empty one or one of more than 64 KiB (which is not loaded), the program still starts the machine on a
breakpoint instruction and reports success (status 0) without having executed anything. -/
theorem C82_violated_nothing_loaded {fs : List Char → Option (List (BitVec 8))} {ga : Nat} {host : Nat → BitVec 8} {pin : List IOEv → Nat → BitVec 16 → BitVec 32}
    {argv : List (List Char)} {o : MiniOpts} {c : CPUType} (hp : miniParse argv false {} = .ok o) (hc : miniCpu o.cpu = some c)
    (hb : ∀ f, o.binfile = some f → ∃ file, fs f = some file ∧ file.length % 16 = 0 ∧ (0x10000 < file.length ∨ file.length = 0)) (fuel : Nat) :
    ∃ f, miniMain fs ga host pin (fuel + 1) argv = .ran f ∧ f.status = 0 ∧ f.log = [] := by
  have hs : ∃ s, miniSetup fs ga host o = .run s ∧ Started ga host s 0xF000 0xFFF0 ∧ s.host (ga + 0xFFFF0) = 0xF1 := by
    cases hf : o.binfile with
    | none =>
      obtain ⟨k1, k2⟩ := mini_started ga host o.debug c miniMem
      rw [← mini_bare ga host o.debug] at k1 k2
      refine ⟨_, by simp only [miniSetup, hf]; rw [miniFinish_run hc rfl], k1, ?_⟩
      refine (k2 _ (by omega)).trans ?_
      rw [lastWord, if_neg (by omega)]
      decide
    | some f =>
      obtain ⟨file, h1, h2, h3⟩ := hb f hf
      obtain ⟨k1, k2⟩ := mini_started ga host o.debug c (miniImage file)
      refine ⟨_, by simp only [miniSetup, hf, h1]; rw [if_neg (by omega), miniFinish_run hc rfl], k1, ?_⟩
      refine (k2 _ (by omega)).trans ?_
      rw [lastWord, if_neg (by omega), miniImage, if_neg (by omega), if_neg (by omega)]
      decide
  obtain ⟨s, h1, h2, h3⟩ := hs
  obtain ⟨t, ht⟩ := mini_stops (pin := pin) h2 h3 fuel
  simp only [miniMain, hp, h1, ht]
  exact ⟨_, rfl, rfl, rfl⟩

/-- `-O x --cpu 386 bios.bin` with a BIOS of 16 HLT instructions: the hypotheses of `C82_options` and `C82_bios` are met. -/
example : let l := [MArg.dump ['x'], .cpu "386".toList, .image ['b']]
    (∀ a ∈ l, a.proper) ∧ (l.filterMap MArg.imageName).length ≤ 1 ∧ l.flatMap MArg.words = [['-', 'O'], ['x'], "--cpu".toList, "386".toList, ['b']] ∧
    miniCpu (some "386".toList) = some .i386 ∧ (List.replicate 16 (0xF4 : BitVec 8)).length % 16 = 0 := by
  refine ⟨?_, by decide, rfl, by decide, by simp⟩
  intro a ha
  simp only [List.mem_cons, List.not_mem_nil, or_false] at ha
  rcases ha with rfl | rfl | rfl <;> simp [MArg.proper]

/-- C82: the status is the guest's doing: an image whose first instruction (16 bytes before its end) is HLT ends with status 0, one whose first
instruction is an opcode the emulator does not know ends with status 1. -/
theorem C82_first_instruction {fs : List Char → Option (List (BitVec 8))} {ga : Nat} {host : Nat → BitVec 8} {pin : List IOEv → Nat → BitVec 16 → BitVec 32}
    {argv : List (List Char)} {o : MiniOpts} {f : List Char} {file : List (BitVec 8)} {c : CPUType} (hp : miniParse argv false {} = .ok o)
    (hb : o.binfile = some f) (hf : fs f = some file) (hc : miniCpu o.cpu = some c) (h16 : file.length % 16 = 0) (h0 : 0 < file.length) (h1 : file.length ≤ 0x10000)
    (fuel : Nat) :
    (file[file.length - 16]? = some 0xF4 → ∃ r, miniMain fs ga host pin (fuel + 1) argv = .ran r ∧ r.status = 0 ∧ r.log = []) ∧
    (∀ op, noOpcode op → file[file.length - 16]? = some op → ∃ r, miniMain fs ga host pin (fuel + 1) argv = .ran r ∧ r.status = 1 ∧ r.log = []) := by
  obtain ⟨s, k1, k2, -, -, -, k6, -⟩ := C82_bios (ga := ga) (host := host) hb hf hc h16 h0 h1
  have hr : Ready s := k2.ready (by decide) (by decide)
  have hcode : ∀ op, file[file.length - 16]? = some op → CodeAt s (ga + 0xFFFF0) [op] := by
    intro op hop i hi
    have : i = 0 := by simpa using hi
    subst this
    rw [List.getElem?_eq_getElem (by omega), Option.some.injEq] at hop
    have := k6 0 (by rw [List.length_drop]; omega)
    simpa [hop] using this
  refine ⟨fun hop => ?_, fun op hno hop => ?_⟩
  · obtain ⟨d, hd⟩ := C55_hlt (p := {}) (len := 1) ⟨hr, [], rfl, hcode _ hop, rfl⟩ (miniEnv pin)
    simp only [miniMain, hp, k1, mainLoop, hd]
    exact ⟨_, rfl, rfl, rfl⟩
  · obtain ⟨d, hd⟩ := C37_undefined_opcode (miniEnv pin) s hr [] op ⟨by simp, by simp⟩ hno (by
      intro i hi
      have := hcode op hop i hi
      exact ⟨_, this⟩)
    simp only [miniMain, hp, k1, mainLoop, hd]
    exact ⟨_, rfl, rfl, rfl⟩

/-- A 32-byte image with an undefined opcode as first instruction. -/
example : let file : List (BitVec 8) := List.replicate 16 0x90 ++ 0xD6 :: List.replicate 15 0
    file.length % 16 = 0 ∧ 0 < file.length ∧ file.length ≤ 0x10000 ∧ file[file.length - 16]? = some 0xD6 ∧ noOpcode 0xD6 := by
  refine ⟨by decide, by decide, by decide, by decide, by simp [noOpcode]⟩

end RME.Native
