import Verif.Cmd.Lemmas

/-! # C96: command lines -/

namespace Cmd
open CmdSpec

/-! ## ptracer -/

/-- What an option does to the settings. -/
def tracerSet (k : Tracer) : TracerOpt → Tracer
  | .ascii f => { k with ascii := some f }
  | .qtrace f => { k with qtrace := some f }
  | .checkpoint d => { k with checkpoint := some d }
  | .pid n => { k with pid := n }
  | .insns n => { k with left := BitVec.ofNat 64 n }
  | .skip n => { k with skip := BitVec.ofNat 64 n }
  | .xlate => { k with xlate := true }
  | .regs => { k with regs := true }

theorem tracer_knows : Knows TracerOpt.face "a:q:p:fn:s:rxc:h".toList := by
  intro x; cases x <;> rfl

theorem tracer_round (k : Tracer) (s : TracerOpt) (h : s.Ok) : tracerRound k s.face.letter (s.face.value.getD []) = .run (tracerSet k s) [] := by
  cases s with
  | pid n =>
    show (match atoi (decimal n) with | some n => Start.run { k with pid := n } [] | none => .undefined) = _
    rw [atoi_decimal h]; rfl
  | insns n =>
    show Start.run { k with left := BitVec.ofInt 64 (strtol (decimal n)) } [] = _
    rw [strtol_decimal h, BitVec.ofInt_natCast]; rfl
  | skip n =>
    show Start.run { k with skip := BitVec.ofInt 64 (strtol (decimal n)) } [] = _
    rw [strtol_decimal h, BitVec.ofInt_natCast]; rfl
  | _ => rfl

theorem last_map {σ α β} (f : σ → Option α) (g : α → β) (ss : List σ) : last (fun s => (f s).map g) ss = (last f ss).map g := by
  unfold last
  rw [← List.getLast?_map, List.map_filterMap]

/-- A number that the last option about it decides. -/
theorem fold_num {σ κ} {n : Nat} {g : κ → σ → κ} (p : κ → BitVec n) (f : σ → Option Nat) (h : ∀ k s, p (g k s) = ((f s).map (BitVec.ofNat n)).getD (p k))
    (ss : List σ) (k : κ) (d : Nat) (hd : p k = BitVec.ofNat n d) : p (ss.foldl g k) = BitVec.ofNat n ((last f ss).getD d) := by
  rw [fold_last (f := fun s => (f s).map (BitVec.ofNat n)) h, hd, last_map]
  cases last f ss <;> rfl

theorem fold_int {σ κ} {g : κ → σ → κ} (p : κ → Int) (f : σ → Option Nat) (h : ∀ k s, p (g k s) = ((f s).map Int.ofNat).getD (p k))
    (ss : List σ) (k : κ) (hd : p k = 0) : p (ss.foldl g k) = ((last f ss).getD 0 : Nat) := by
  rw [fold_last (f := fun s => (f s).map Int.ofNat) h, hd, last_map]
  cases last f ss <;> rfl

/-- How often an option was given. -/
theorem fold_count {σ κ} {n : Nat} {g : κ → σ → κ} (p : κ → BitVec n) (q : σ → Bool) (h : ∀ k s, p (g k s) = if q s then p k + 1 else p k)
    (ss : List σ) (k : κ) : p (ss.foldl g k) = p k + BitVec.ofNat n (ss.countP q) := by
  induction ss generalizing k with
  | nil => simp
  | cons s ss ih =>
    rw [List.foldl_cons, ih, h, List.countP_cons]
    cases q s
    · simp
    · simp only [if_true, BitVec.add_assoc]
      congr 1
      rw [BitVec.ofNat_add, BitVec.add_comm]
      rfl

theorem tracer_fold (ss : List TracerOpt) : ss.foldl tracerSet {} = tracerWants ss := by
  apply Tracer.ext
  · exact (fold_or (f := TracerOpt.asAscii) (p := Tracer.ascii) (fun k s => by cases s <;> rfl) ss {}).trans (Option.or_none ..)
  · exact (fold_or (f := TracerOpt.asQtrace) (p := Tracer.qtrace) (fun k s => by cases s <;> rfl) ss {}).trans (Option.or_none ..)
  · exact fold_int Tracer.pid _ (fun k s => by cases s <;> rfl) ss {} rfl
  · exact fold_num Tracer.left _ (fun k s => by cases s <;> rfl) ss {} _ rfl
  · exact fold_num Tracer.skip _ (fun k s => by cases s <;> rfl) ss {} _ rfl
  · exact (fold_flag (q := (· == .regs)) (p := Tracer.regs) (fun k s => by cases s <;> rfl) ss {}).trans (Bool.or_false _)
  · exact (fold_flag (q := (· == .xlate)) (p := Tracer.xlate) (fun k s => by cases s <;> rfl) ss {}).trans (Bool.or_false _)
  · exact (fold_or (f := TracerOpt.asCheckpoint) (p := Tracer.checkpoint) (fun k s => by cases s <;> rfl) ss {}).trans (Option.or_none ..)

/-- **C96**, ptracer: however the options are written, the settings are those of the last option about each of them; everything from the name
of the program on is left to the program, whatever it looks like.  It ends with status 1 if there is both or neither of a process and a program. -/
theorem C96_ptracer {ss : List TracerOpt} {ops args : List Arg} (l : Line TracerOpt.face true ss ops args) (ok : ∀ s ∈ ss, s.Ok) :
    tracer args = if ((tracerWants ss).pid ≠ 0 ↔ ops ≠ []) then .exit 1 else .run (tracerWants ss) ops := by
  unfold tracer
  rw [getopt_line tracer_knows rfl l]
  dsimp only
  rw [rounds_fold (g := tracerSet) (fun k s hs => tracer_round k s (ok s hs)), tracer_fold]
  dsimp only
  generalize tracerWants ss = k
  cases ops <;> by_cases h : k.pid = 0 <;> simp [h]

/-- Where the output goes: to the files given; as text to the terminal if there are none. -/
theorem C96_ptracer_output (ss : List TracerOpt) : (tracerWants ss).text =
    match last TracerOpt.asAscii ss with
    | some f => .file f
    | none => if (last TracerOpt.asQtrace ss).isSome then .none else .stdout := by
  unfold Tracer.text tracerWants
  dsimp only
  cases last TracerOpt.asAscii ss <;> cases last TracerOpt.asQtrace ss <;> rfl

/-- `ptracer -rxq t.qt -n100 -n 5 ls -n -r`: five instructions of `ls -n -r`. -/
example : Line TracerOpt.face true [.regs, .xlate, .qtrace "t.qt".toList, .insns 100, .insns 5] ["ls".toList, "-n".toList, "-r".toList]
      ["-rxq".toList, "t.qt".toList, "-n100".toList, "-n".toList, "5".toList, "ls".toList, "-n".toList, "-r".toList] ∧
    tracer ["-rxq".toList, "t.qt".toList, "-n100".toList, "-n".toList, "5".toList, "ls".toList, "-n".toList, "-r".toList] =
      .run { qtrace := some "t.qt".toList, left := 5, regs := true, xlate := true } ["ls".toList, "-n".toList, "-r".toList] := by
  refine ⟨?_, by decide +kernel⟩
  refine .word (face := TracerOpt.face) (g := [.regs, .xlate, .qtrace "t.qt".toList]) (cs := "rxq".toList) (ex := ["t.qt".toList])
    (.flag (s := TracerOpt.regs) rfl (.flag (s := TracerOpt.xlate) rfl (.separate (s := TracerOpt.qtrace "t.qt".toList) rfl))) (by decide) ?_
  refine .word (face := TracerOpt.face) (g := [.insns 100]) (cs := "n100".toList) (ex := []) (.attached (s := TracerOpt.insns 100) (v := "100".toList) (by decide +kernel) (by decide))
    (by decide) ?_
  refine .word (face := TracerOpt.face) (g := [.insns 5]) (cs := "n".toList) (ex := ["5".toList]) (.separate (s := TracerOpt.insns 5) (v := "5".toList) (by decide +kernel))
    (by decide) ?_
  exact .stop _ rfl (.inl (by decide))

theorem number_junk (n : Nat) (c : Char) (l : List Char) (hc : c.isDigit = false) : number (decimal n ++ c :: l) = (false, n) := by
  have h1 := number_decimal n
  have hne : decimal n ≠ [] := by
    intro h
    have := digits_decimal n
    unfold decimal at h
    by_cases hn : n < 10
    · rw [Nat.toDigits_of_lt_base hn] at h; cases h
    · rw [Nat.toDigits_of_base_le (by omega) (by omega)] at h; simp at h
  have hd : digits 0 (decimal n ++ c :: l) = n := by
    rw [digits_append _ (fun c hc => (decimal_all _ c hc).1), digits_decimal, digits, if_neg (by simp [hc])]
  revert hd
  cases h : decimal n with
  | nil => exact absurd h hne
  | cons d r =>
    intro hd
    have := decimal_all n d (by rw [h]; exact List.mem_cons_self ..)
    have hw : (d :: r ++ c :: l).dropWhile isSpace = d :: (r ++ c :: l) := by
      rw [List.cons_append, List.dropWhile_cons, if_neg (by simp [this.2.1])]
    unfold number
    rw [hw]
    dsimp only
    rw [if_neg (by simpa using this.2.2.1), if_neg (by simpa using this.2.2.2)]
    rw [List.cons_append] at hd
    rw [hd]

/-- Numbers are not checked: what follows the digits is ignored, `-n 10k` is `-n 10`. -/
theorem C96_malformed (n : Nat) (hn : n < 2 ^ 63) (c : Char) (l : List Char) (hc : c.isDigit = false) (prog : Arg) (hp : Operand prog) (rest : List Arg) :
    tracer ("-n".toList :: (decimal n ++ c :: l) :: prog :: rest) = .run { left := BitVec.ofNat 64 n } (prog :: rest) := by
  have hg : getopt "a:q:p:fn:s:rxc:h".toList true none ("-n".toList :: (decimal n ++ c :: l) :: prog :: rest) =
      ⟨[('n', decimal n ++ c :: l)], false, prog :: rest⟩ := by
    have e : getopt "a:q:p:fn:s:rxc:h".toList true none (prog :: rest) = ⟨[], false, prog :: rest⟩ :=
      getopt_line (face := TracerOpt.face) tracer_knows rfl (.stop _ rfl hp)
    have e1 : getopt "a:q:p:fn:s:rxc:h".toList true none ("-n".toList :: (decimal n ++ c :: l) :: prog :: rest) =
        { getopt "a:q:p:fn:s:rxc:h".toList true (some 'n') ((decimal n ++ c :: l) :: prog :: rest) with
          opts := (getopt "a:q:p:fn:s:rxc:h".toList true (some 'n') ((decimal n ++ c :: l) :: prog :: rest)).opts } := rfl
    rw [e1, getopt, e]
  have hs : strtol (decimal n ++ c :: l) = n := by
    unfold strtol
    rw [number_junk n c l hc]
    simp only [Bool.false_eq_true, if_false]
    omega
  unfold tracer
  rw [hg]
  have hr : rounds tracerRound {} [('n', decimal n ++ c :: l)] = .run { left := BitVec.ofInt 64 (strtol (decimal n ++ c :: l)) } [] := rfl
  dsimp only
  rw [hr, hs, BitVec.ofInt_natCast]
  simp

/-- `ptracer -n 10k ls`. -/
example : Operand "ls".toList ∧ 'k'.isDigit = false := ⟨.inl (by decide), rfl⟩

/-! ## qtdis -/

/-- What an option does to the settings. -/
def listerSet (k : Lister) : ListerOpt → Lister
  | .elf f => { k with elf := k.elf ++ [f] }
  | .dump n => { k with dump := n }
  | .raw => { k with raw := true }
  | .verbose => { k with verbose := k.verbose + 1 }
  | .qtbuild => { k with qtbuild := true }
  | .stats => { k with stats := true }
  | .mix => { k with mix := true }
  | .blocks => { k with blocks := true }

theorem lister_knows : Knows ListerOpt.face "e:d:rvbsci".toList := by
  intro x; cases x <;> rfl

theorem lister_round (k : Lister) (s : ListerOpt) (h : s.Ok) : listerRound k s.face.letter (s.face.value.getD []) = .run (listerSet k s) [] := by
  cases s with
  | dump n =>
    show (match atoi (decimal n) with | some n => Start.run { k with dump := n } [] | none => .undefined) = _
    rw [atoi_decimal h]; rfl
  | _ => rfl

theorem lister_elf (ss : List ListerOpt) (k : Lister) : (ss.foldl listerSet k).elf = k.elf ++ ss.filterMap ListerOpt.asElf := by
  induction ss generalizing k with
  | nil => simp
  | cons s ss ih =>
    rw [List.foldl_cons, ih]
    cases s <;> simp [listerSet, ListerOpt.asElf, List.filterMap_cons]

theorem lister_fold (ss : List ListerOpt) : ss.foldl listerSet {} = listerWants ss := by
  apply Lister.ext
  · exact (lister_elf ss {}).trans (List.nil_append _)
  · exact (fold_flag (q := (· == .qtbuild)) (p := Lister.qtbuild) (fun k s => by cases s <;> rfl) ss {}).trans (Bool.or_false _)
  · exact fold_int Lister.dump _ (fun k s => by cases s <;> rfl) ss {} rfl
  · exact (fold_flag (q := (· == .raw)) (p := Lister.raw) (fun k s => by cases s <;> rfl) ss {}).trans (Bool.or_false _)
  · exact (fold_flag (q := (· == .stats)) (p := Lister.stats) (fun k s => by cases s <;> rfl) ss {}).trans (Bool.or_false _)
  · exact (fold_flag (q := (· == .mix)) (p := Lister.mix) (fun k s => by cases s <;> rfl) ss {}).trans (Bool.or_false _)
  · exact (fold_flag (q := (· == .blocks)) (p := Lister.blocks) (fun k s => by cases s <;> rfl) ss {}).trans (Bool.or_false _)
  · exact (fold_count Lister.verbose (· == .verbose) (fun k s => by cases s <;> rfl) ss {}).trans (BitVec.zero_add _)

/-- **C96**, qtdis: the options may also come behind the file.  It ends with status 1 unless there is exactly one file, and if numbers are asked
for together with a verbose listing or one with the words of the instructions. -/
theorem C96_qtdis_partial {ss : List ListerOpt} {ops args : List Arg} (l : Line ListerOpt.face false ss ops args) (ok : ∀ s ∈ ss, s.Ok)
    (hv : ss.length < 2 ^ 32) :
    lister args = if ops.length = 1 ∧ ¬ ((.stats ∈ ss ∨ .blocks ∈ ss ∨ .mix ∈ ss) ∧ (.verbose ∈ ss ∨ .raw ∈ ss)) then .run (listerWants ss) ops else .exit 1 := by
  unfold lister
  rw [getopt_line lister_knows rfl l]
  dsimp only
  rw [rounds_fold (g := listerSet) (fun k s hs => lister_round k s (ok s hs)), lister_fold]
  dsimp only
  have hm : ∀ x : ListerOpt, ss.any (· == x) = decide (x ∈ ss) := by
    intro x
    rw [Bool.eq_iff_iff]
    simp
  have hc : ((listerWants ss).verbose != 0) = decide (.verbose ∈ ss) := by
    have hle := List.countP_le_length (p := (· == ListerOpt.verbose)) (l := ss)
    rw [Bool.eq_iff_iff, bne_iff_ne, decide_eq_true_iff, ne_eq]
    have e : (listerWants ss).verbose = 0 ↔ ss.countP (· == ListerOpt.verbose) = 0 := by
      show BitVec.ofNat 32 _ = 0 ↔ _
      rw [← BitVec.toNat_inj, BitVec.toNat_ofNat, Nat.mod_eq_of_lt (by omega)]
      rfl
    rw [e, List.countP_eq_zero]
    simp
  rw [show (listerWants ss).stats = _ from hm _, show (listerWants ss).blocks = _ from hm _, show (listerWants ss).mix = _ from hm _, hc,
    show (listerWants ss).raw = _ from hm _]
  generalize listerWants ss = k
  by_cases h1 : ops.length = 1 <;> simp [h1]
  grind

/-- `qtdis -vr t.qt -e vmlinux`. -/
example : Line ListerOpt.face false [.verbose, .raw, .elf "vmlinux".toList] ["t.qt".toList] ["-vr".toList, "t.qt".toList, "-e".toList, "vmlinux".toList] := by
  refine .word (face := ListerOpt.face) (g := [.verbose, .raw]) (cs := "vr".toList) (ex := []) (.flag (s := ListerOpt.verbose) rfl (.flag (s := ListerOpt.raw) rfl .nil)) (by decide) ?_
  refine .operand rfl (.inl (by decide)) ?_
  exact .word (face := ListerOpt.face) (g := [.elf "vmlinux".toList]) (cs := "e".toList) (ex := ["vmlinux".toList]) (.separate (s := ListerOpt.elf "vmlinux".toList) rfl) (by decide) .nil

/-! ## htmdecode -/

/-- What an option does to the settings. -/
def decoderSet (k : Decoder) : DecoderOpt → Decoder
  | .out f => { k with out := some f }
  | .debug => { k with debug := true, detail := true }
  | .detail => { k with detail := true }
  | .stats => { k with stats := true }
  | .mix => { k with mix := true }
  | .blocks => { k with blocks := true }

theorem decoder_knows : Knows DecoderOpt.face "Ddo:sib".toList := by
  intro x; cases x <;> rfl

theorem decoder_fold (ss : List DecoderOpt) : ss.foldl decoderSet {} =
    { out := last DecoderOpt.asOut ss, debug := ss.any (· == .debug), detail := ss.any (fun s => s == .detail || s == .debug),
      stats := ss.any (· == .stats), mix := ss.any (· == .mix), blocks := ss.any (· == .blocks) } := by
  apply Decoder.ext
  · exact (fold_or (f := DecoderOpt.asOut) (p := Decoder.out) (fun k s => by cases s <;> rfl) ss {}).trans (Option.or_none ..)
  · exact (fold_flag (q := (· == .debug)) (p := Decoder.debug) (fun k s => by cases s <;> rfl) ss {}).trans (Bool.or_false _)
  · exact (fold_flag (q := fun s => s == .detail || s == .debug) (p := Decoder.detail) (fun k s => by cases s <;> rfl) ss {}).trans (Bool.or_false _)
  · exact (fold_flag (q := (· == .stats)) (p := Decoder.stats) (fun k s => by cases s <;> rfl) ss {}).trans (Bool.or_false _)
  · exact (fold_flag (q := (· == .mix)) (p := Decoder.mix) (fun k s => by cases s <;> rfl) ss {}).trans (Bool.or_false _)
  · exact (fold_flag (q := (· == .blocks)) (p := Decoder.blocks) (fun k s => by cases s <;> rfl) ss {}).trans (Bool.or_false _)

/-- **C96**, htmdecode: the first file is converted, to the file of the last `-o` or to the name of the dump with `.qt` appended; with `-s`, `-i` or
`-b` no file is written, and `-o` with one of them is refused. -/
theorem C96_htmdecode_partial {ss : List DecoderOpt} {input : Arg} {rest args : List Arg} (l : Line DecoderOpt.face false ss (input :: rest) args)
    (hi : input.length < 4093) (ho : ∀ f, .out f ∈ ss → f.length < 4096) :
    decoder args = if (last DecoderOpt.asOut ss).isSome ∧ (.stats ∈ ss ∨ .mix ∈ ss ∨ .blocks ∈ ss) then .exit 1 else
      .run { input := input
             output := if .stats ∈ ss ∨ .mix ∈ ss ∨ .blocks ∈ ss then none else some ((last DecoderOpt.asOut ss).getD (input ++ ".qt".toList))
             detail := decide (.detail ∈ ss ∨ .debug ∈ ss), debug := decide (.debug ∈ ss)
             stats := decide (.stats ∈ ss), mix := decide (.mix ∈ ss), blocks := decide (.blocks ∈ ss) } rest := by
  unfold decoder
  rw [getopt_line decoder_knows rfl l]
  dsimp only
  rw [rounds_fold (g := decoderSet) (fun k s hs => by cases s <;> rfl), decoder_fold]
  dsimp only
  have hm : ∀ x : DecoderOpt, ss.any (· == x) = decide (x ∈ ss) := by
    intro x
    rw [Bool.eq_iff_iff]
    simp
  have hd : ss.any (fun s => s == .detail || s == .debug) = decide (.detail ∈ ss ∨ .debug ∈ ss) := by
    rw [Bool.eq_iff_iff]
    simp
    grind
  have hp : ((last DecoderOpt.asOut ss).getD (input ++ ".qt".toList)).length < 4096 := by
    cases h : last DecoderOpt.asOut ss with
    | none => simp; omega
    | some f =>
      have := List.mem_of_getLast? h
      obtain ⟨x, hx, e⟩ := List.mem_filterMap.1 this
      cases x with
      | out g => cases e; exact ho _ hx
      | _ => cases e
  simp only [hm, hd]
  rw [if_neg (by simp)]
  rw [if_neg (show ¬ _ ≥ 4096 by omega)]
  by_cases h1 : DecoderOpt.stats ∈ ss <;> by_cases h2 : DecoderOpt.mix ∈ ss <;> by_cases h3 : DecoderOpt.blocks ∈ ss <;>
    by_cases h5 : DecoderOpt.debug ∈ ss <;> by_cases h6 : DecoderOpt.detail ∈ ss <;> simp [h1, h2, h3, h5, h6]

/-- The dump itself is never the trace that is written unless it is asked for. -/
theorem C96_htmdecode_input {ss : List DecoderOpt} {input : Arg} {rest args : List Arg} (l : Line DecoderOpt.face false ss (input :: rest) args)
    (hi : input.length < 4093) (ho : ∀ f, .out f ∈ ss → f.length < 4096 ∧ f ≠ input) {j : Job} {r : List Arg} (h : decoder args = .run j r) :
    j.output ≠ some input := by
  rw [C96_htmdecode_partial l hi fun f hf => (ho f hf).1] at h
  split at h
  · cases h
  · obtain ⟨rfl, -⟩ := Start.run.inj h
    dsimp only
    split
    · simp
    · cases hl : last DecoderOpt.asOut ss with
      | none =>
        intro e
        have := congrArg List.length (Option.some.inj e)
        simp at this
      | some f =>
        have := List.mem_of_getLast? hl
        obtain ⟨x, hx, e⟩ := List.mem_filterMap.1 this
        cases x with
        | out g => cases e; exact fun e => (ho _ hx).2 (Option.some.inj e)
        | _ => cases e

/-- `htmdecode dump -d -o t.qt`. -/
example : Line DecoderOpt.face false [.detail, .out "t.qt".toList] ["dump".toList] ["dump".toList, "-d".toList, "-o".toList, "t.qt".toList] := by
  refine .operand rfl (.inl (by decide)) ?_
  refine .word (face := DecoderOpt.face) (g := [.detail]) (cs := "d".toList) (ex := []) (.flag (s := DecoderOpt.detail) rfl .nil) (by decide) ?_
  exact .word (face := DecoderOpt.face) (g := [.out "t.qt".toList]) (cs := "o".toList) (ex := ["t.qt".toList]) (.separate (s := DecoderOpt.out "t.qt".toList) rfl) (by decide) .nil

/-! ## qtrace-bbv -/

/-- What an option does to the settings. -/
def bbvSet (k : Bbv) : BbvOpt → Bbv
  | .dimensions n => { k with dimensions := BitVec.ofNat 32 n }
  | .k n => { k with k := BitVec.ofNat 32 n }
  | .period n => { k with period := BitVec.ofNat 64 n }
  | .verbose => { k with verbose := k.verbose + 1 }

theorem bbv_knows : Knows BbvOpt.face "d:k:p:v".toList := by
  intro x; cases x <;> rfl

theorem bbv_round (k : Bbv) (s : BbvOpt) (h : s.Ok) : bbvRound k s.face.letter (s.face.value.getD []) = .run (bbvSet k s) [] := by
  have w : ∀ n : Nat, (BitVec.ofNat 64 n).setWidth 32 = BitVec.ofNat 32 n := by
    intro n
    apply BitVec.eq_of_toNat_eq
    simp only [BitVec.toNat_setWidth, BitVec.toNat_ofNat]
    omega
  cases s with
  | dimensions n =>
    have h : n < 2 ^ 32 := h
    show Start.run { k with dimensions := (strtoul (decimal n)).setWidth 32 } [] = _
    rw [strtoul_decimal (by omega), w]; rfl
  | k n =>
    have h : n < 2 ^ 32 := h
    show Start.run { k with k := (strtoul (decimal n)).setWidth 32 } [] = _
    rw [strtoul_decimal (by omega), w]; rfl
  | period n =>
    show Start.run { k with period := strtoul (decimal n) } [] = _
    rw [strtoul_decimal h]; rfl
  | verbose => rfl

/-- **C96**, qtrace-bbv. -/
theorem C96_bbv {ss : List BbvOpt} {ops args : List Arg} (l : Line BbvOpt.face false ss ops args) (ok : ∀ s ∈ ss, s.Ok) :
    bbv args = if ops.length = 1 then .run (bbvWants ss) ops else .exit 1 := by
  unfold bbv
  rw [getopt_line bbv_knows rfl l]
  dsimp only
  rw [rounds_fold (g := bbvSet) (fun k s hs => bbv_round k s (ok s hs))]
  have e : ss.foldl bbvSet { dimensions := 127, period := 10000000 } = bbvWants ss := by
    apply Bbv.ext
    · exact fold_num Bbv.dimensions _ (fun k s => by cases s <;> rfl) ss _ _ rfl
    · exact fold_num Bbv.k _ (fun k s => by cases s <;> rfl) ss _ _ rfl
    · exact fold_num Bbv.period _ (fun k s => by cases s <;> rfl) ss _ _ rfl
    · exact (fold_count Bbv.verbose (· == .verbose) (fun k s => by cases s <;> rfl) ss _).trans (BitVec.zero_add _)
  rw [e]
  by_cases h : ops.length = 1 <;> simp [h]

/-- `qtrace-bbv -k 3 -p 1000 t.qt`. -/
example : Line BbvOpt.face false [.k 3, .period 1000] ["t.qt".toList] ["-k".toList, "3".toList, "-p".toList, "1000".toList, "t.qt".toList] := by
  refine .word (face := BbvOpt.face) (g := [.k 3]) (cs := "k".toList) (ex := ["3".toList]) (.separate (s := BbvOpt.k 3) (v := "3".toList) (by decide +kernel)) (by decide) ?_
  refine .word (face := BbvOpt.face) (g := [.period 1000]) (cs := "p".toList) (ex := ["1000".toList]) (.separate (s := BbvOpt.period 1000) (v := "1000".toList) (by decide +kernel))
    (by decide) ?_
  exact .operand rfl (.inl (by decide)) .nil

end Cmd
