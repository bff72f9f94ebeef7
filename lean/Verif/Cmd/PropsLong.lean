import Verif.Cmd.Props
/-! Property C96 for command lines and names of any length. -/
namespace Cmd
open CmdSpec

/-- **C96**, qtdis, any number of options: the options `-v` are counted in 32 bits, so that they say nothing if there is a multiple of 2 ^ 32 of them. -/
theorem C96_qtdis_any {ss : List ListerOpt} {ops args : List Arg} (l : Line ListerOpt.face false ss ops args) (ok : ∀ s ∈ ss, s.Ok) :
    lister args = if ops.length = 1 ∧ ¬ ((.stats ∈ ss ∨ .blocks ∈ ss ∨ .mix ∈ ss) ∧ (ss.count .verbose % 2 ^ 32 ≠ 0 ∨ .raw ∈ ss)) then .run (listerWants ss) ops
      else .exit 1 := by
  unfold lister
  rw [getopt_line lister_knows rfl l]
  dsimp only
  rw [rounds_fold (g := listerSet) (fun k s hs => lister_round k s (ok s hs)), lister_fold]
  dsimp only
  have hm : ∀ x : ListerOpt, ss.any (· == x) = decide (x ∈ ss) := by
    intro x
    rw [Bool.eq_iff_iff]
    simp
  have hc : ((listerWants ss).verbose != 0) = decide (ss.count .verbose % 2 ^ 32 ≠ 0) := by
    rw [Bool.eq_iff_iff, bne_iff_ne, decide_eq_true_iff, ne_eq, ne_eq]
    have e : (listerWants ss).verbose = 0 ↔ ss.count .verbose % 2 ^ 32 = 0 := by
      show BitVec.ofNat 32 (ss.countP (· == ListerOpt.verbose)) = 0 ↔ _
      rw [← BitVec.toNat_inj, BitVec.toNat_ofNat]
      rfl
    rw [e]
  rw [show (listerWants ss).stats = _ from hm _, show (listerWants ss).blocks = _ from hm _, show (listerWants ss).mix = _ from hm _, hc,
    show (listerWants ss).raw = _ from hm _]
  generalize listerWants ss = k
  generalize ss.count .verbose % 2 ^ 32 = n
  by_cases h1 : ops.length = 1 <;> simp [h1]
  grind

/-- `qtdis -v ... -v -s t.qt`. -/
theorem manyLine (n : Nat) : Line ListerOpt.face false (List.replicate n .verbose ++ [.stats]) ["t.qt".toList] (List.replicate n "-v".toList ++ ["-s".toList, "t.qt".toList]) := by
  induction n with
  | zero =>
    refine .word (face := ListerOpt.face) (g := [.stats]) (cs := "s".toList) (ex := []) (.flag (s := ListerOpt.stats) rfl .nil) (by decide) ?_
    exact .operand rfl (.inl (by decide)) .nil
  | succ n ih => exact .word (face := ListerOpt.face) (g := [.verbose]) (cs := "v".toList) (ex := []) (.flag (s := ListerOpt.verbose) rfl .nil) (by decide) ih

/-- C96 fails of qtdis with very many options: numbers are printed although a verbose listing is asked for too, and the listing would not be verbose. -/
theorem C96_verbose_refuted : ∃ (ss : List ListerOpt) (ops args : List Arg), Line ListerOpt.face false ss ops args ∧ .verbose ∈ ss ∧ .stats ∈ ss ∧
    ∃ k, lister args = .run k ops ∧ k.verbose = 0 := by
  have h32 : 0 < 2 ^ 32 := by decide
  generalize hn : 2 ^ 32 = n at h32
  have hc : (List.replicate n ListerOpt.verbose ++ [ListerOpt.stats]).count ListerOpt.verbose = n := by
    rw [List.count_append, List.count_replicate_self]
    rfl
  refine ⟨_, _, _, manyLine n, ?_, by simp, listerWants (List.replicate n .verbose ++ [.stats]), ?_, ?_⟩
  · rw [List.mem_append, List.mem_replicate]
    exact .inl ⟨by omega, rfl⟩
  · rw [C96_qtdis_any (manyLine n) (by
      intro s hs
      rcases List.mem_append.1 hs with h | h
      · rw [(List.mem_replicate.1 h).2]; trivial
      · rw [List.mem_singleton.1 h]; trivial), hc, hn, if_pos]
    refine ⟨rfl, ?_⟩
    rintro ⟨-, h | h⟩
    · exact h (Nat.mod_self n)
    · rcases List.mem_append.1 h with h | h
      · cases (List.mem_replicate.1 h).2
      · cases List.mem_singleton.1 h
  · show BitVec.ofNat 32 (List.count ListerOpt.verbose _) = 0
    rw [hc, ← hn]
    rfl

/-- **C96**, htmdecode, names of any length: it ends with status 1 also if the name of the file that is written has 4096 bytes or more. -/
theorem C96_htmdecode_any {ss : List DecoderOpt} {input : Arg} {rest args : List Arg} (l : Line DecoderOpt.face false ss (input :: rest) args) :
    decoder args = if (last DecoderOpt.asOut ss).isSome ∧ (.stats ∈ ss ∨ .mix ∈ ss ∨ .blocks ∈ ss) ∨
        4096 ≤ ((last DecoderOpt.asOut ss).getD (input ++ ".qt".toList)).length then .exit 1 else
      .run { input := input
             output := if .stats ∈ ss ∨ .mix ∈ ss ∨ .blocks ∈ ss then none else some ((last DecoderOpt.asOut ss).getD (input ++ ".qt".toList))
             detail := decide (.detail ∈ ss ∨ .debug ∈ ss), debug := decide (.debug ∈ ss)
             stats := decide (.stats ∈ ss), mix := decide (.mix ∈ ss), blocks := decide (.blocks ∈ ss) } rest := by
  unfold decoder
  rw [getopt_line decoder_knows rfl l]
  dsimp only
  rw [rounds_fold (g := decoderSet) (fun k s hs => by cases s <;> rfl), decoder_fold]
  dsimp only
  have hm : ∀ x : DecoderOpt, ss.any (· == x) = decide (x ∈ ss) := by
    intro x
    rw [Bool.eq_iff_iff]
    simp
  have hd : ss.any (fun s => s == .detail || s == .debug) = decide (.detail ∈ ss ∨ .debug ∈ ss) := by
    rw [Bool.eq_iff_iff]
    simp
    grind
  simp only [hm, hd]
  rw [if_neg (by simp)]
  generalize (last DecoderOpt.asOut ss).getD (input ++ ".qt".toList) = path
  by_cases hp : 4096 ≤ path.length
  · rw [if_pos (show path.length ≥ 4096 from hp)]
    simp [hp]
  · rw [if_neg (show ¬ path.length ≥ 4096 from hp)]
    by_cases h1 : DecoderOpt.stats ∈ ss <;> by_cases h2 : DecoderOpt.mix ∈ ss <;> by_cases h3 : DecoderOpt.blocks ∈ ss <;>
      by_cases h5 : DecoderOpt.debug ∈ ss <;> by_cases h6 : DecoderOpt.detail ∈ ss <;> simp [h1, h2, h3, h5, h6, hp]

/-- C96 fails of htmdecode: a dump whose name can be opened, of 4095 bytes, is refused with `-s`, although nothing is written then. -/
theorem C96_name_refuted : ∃ (input : Arg) (args : List Arg), input.length < 4096 ∧ Line DecoderOpt.face false [.stats] [input] args ∧ decoder args = .exit 1 := by
  have hl : Line DecoderOpt.face false [.stats] [List.replicate 4095 'a'] ["-s".toList, List.replicate 4095 'a'] := by
    refine .word (face := DecoderOpt.face) (g := [.stats]) (cs := "s".toList) (ex := []) (.flag (s := DecoderOpt.stats) rfl .nil) (by decide) ?_
    exact .operand rfl (.inl (by rw [List.head?_replicate]; simp)) .nil
  refine ⟨_, _, by rw [List.length_replicate]; decide, hl, ?_⟩
  rw [C96_htmdecode_any hl, if_pos]
  right
  show 4096 ≤ (List.replicate 4095 'a' ++ ".qt".toList).length
  rw [List.length_append, List.length_replicate]
  decide

end Cmd
