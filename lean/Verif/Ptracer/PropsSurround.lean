import Verif.Ptracer.SpecSurround
import Verif.Ptracer.PropsCounters

/-!
# C118: the surroundings of a program that is started; C119: the signals of the tracer
-/

namespace Ptr.Sur
open Ptr Ptr.Cnt Ptr.Sur.Spec

variable {nrOpen n : Nat} {trace log : Option (Nat × Option Nat)} {p p' : Proc}

theorem prepare_some (h : prepare nrOpen n trace log p = some p') : ∃ l, raise nrOpen p.limit n = some l ∧
    p' = ⟨setAction p.actions sigChld ⟨.ignore, 0⟩, l, opened trace log ++ p.files⟩ := by
  unfold prepare at h
  rcases trace with _ | ⟨a, _ | b⟩ <;> rcases log with _ | ⟨c, _ | d⟩ <;> dsimp only [ignoreSigchld, openFile] at h <;>
    first
    | cases h; done
    | (cases hr : raise nrOpen p.limit n with
       | none => rw [hr] at h; cases h
       | some l =>
         rw [hr] at h
         simp only [Option.some.injEq] at h
         exact ⟨l, rfl, h.symm⟩)

/-- What a program started by the tracer finds: all signals but SIGCHLD as without the tracer, SIGCHLD ignored; the hard limit of open files as without it; the soft limit
that the tracer has set for itself; and all files as without it, with the trace and the log of the tracer. -/
theorem C118_exact_partial (h : prepare nrOpen n trace log p = some p') : ∃ l, raise nrOpen p.limit n = some l ∧
    (∀ i, i ≠ 17 → (exec p').actions i = (exec p).actions i) ∧ (exec p').actions 17 = ⟨.ignore, 0⟩ ∧ (exec p').limit = l ∧
    (exec p').files = opened trace log ++ (exec p).files := by
  obtain ⟨l, h1, rfl⟩ := prepare_some h
  refine ⟨l, h1, fun i hi => ?_, rfl, rfl, ?_⟩
  · unfold exec setAction sigChld
    dsimp only
    rw [if_neg hi]
  · unfold exec
    dsimp only
    rw [List.filter_append]
    congr 1
    rw [List.filter_eq_self]
    intro f hf
    unfold opened at hf
    rw [List.mem_append] at hf
    rcases hf with hf | hf <;> split at hf
    · rw [List.mem_singleton.1 hf]; rfl
    · cases hf
    · rw [List.mem_singleton.1 hf]; rfl
    · cases hf

/-- So the program finds what it would find without the tracer exactly if SIGCHLD was ignored before, the limit is not changed, and no file is opened. -/
theorem C118_same_partial (h : prepare nrOpen n trace log p = some p') :
    exec p' = exec p ↔ (p.actions 17).handler = .ignore ∧ raise nrOpen p.limit n = some p.limit ∧ opened trace log = [] := by
  obtain ⟨l, h1, h2, h3, h4, h5⟩ := C118_exact_partial h
  constructor
  · intro e
    rw [e] at h3 h4 h5
    refine ⟨?_, by rw [h1, ← h4]; rfl, ?_⟩
    · refine Classical.byContradiction fun hc => ?_
      have : (exec p).actions 17 = ⟨.default, 0⟩ := by
        unfold exec kept
        dsimp only
        rw [if_neg hc]
      rw [this] at h3
      cases h3
    · have := congrArg List.length h5
      rw [List.length_append] at this
      exact List.length_eq_zero_iff.1 (by omega)
  · rintro ⟨e1, e2, e3⟩
    have a : (exec p').actions = (exec p).actions := by
      funext i
      by_cases hi : i = 17
      · subst hi
        rw [h3]
        unfold exec kept
        dsimp only
        rw [if_pos e1]
      · exact h2 i hi
    have b : (exec p').limit = (exec p).limit := by
      rw [h4]
      rw [h1] at e2
      exact Option.some.inj e2
    have c : (exec p').files = (exec p).files := by rw [h5, e3, List.nil_append]
    cases hx : exec p'
    cases hy : exec p
    rw [hx] at a b c
    rw [hy] at a b c
    dsimp only at a b c
    rw [a, b, c]

/-- A shell: no signal is ignored, 1024 files of at most 4096. -/
def exShell : Proc := ⟨fun _ => ⟨.default, 0⟩, ⟨1024, 4096⟩, [⟨0, 0, false⟩, ⟨1, 1, false⟩, ⟨2, 2, false⟩, ⟨255, 9, true⟩]⟩

/-- An ordinary start: the program ignores SIGCHLD (so that its `wait` gives no status of its children), may open 4096 files instead of 1024, and has the trace file open. -/
theorem C118_refuted : ∃ p', prepare 1048576 16 (some (7, some 3)) none exShell = some p' ∧ ((exec p').actions 17).handler = .ignore ∧
    ((exec exShell).actions 17).handler = .default ∧ (exec p').limit.soft = 4096 ∧ (exec exShell).limit.soft = 1024 ∧
    (exec p').files.map (·.fd) = [3, 0, 1, 2] ∧ (exec exShell).files.map (·.fd) = [0, 1, 2] := by
  have h : raise 1048576 ⟨1024, 4096⟩ 16 = some ⟨4096, 4096⟩ := by decide +kernel
  refine ⟨⟨setAction exShell.actions sigChld ⟨.ignore, 0⟩, ⟨4096, 4096⟩, ⟨3, 7, false⟩ :: exShell.files⟩, ?_, rfl, rfl, rfl, rfl, rfl, rfl⟩
  unfold prepare
  dsimp only [openFile, ignoreSigchld, exShell]
  rw [h]

/-! ### C119 -/

variable {refuses : Nat → Bool}

theorem ignored_range (s : (Nat → Action) × (Nat → Action)) : ∀ m, (List.range m).foldl (fun (s : (Nat → Action) × (Nat → Action)) i => if i ≠ sigTrapNo ∧ refuses i = false then
      (setAction s.1 i ⟨.ignore, 0⟩, setAction s.2 i (s.1 i)) else s) s =
    (fun j => if j < m ∧ j ≠ sigTrapNo ∧ refuses j = false then ⟨.ignore, 0⟩ else s.1 j, fun j => if j < m ∧ j ≠ sigTrapNo ∧ refuses j = false then s.1 j else s.2 j) := by
  intro m
  induction m with
  | zero => simp
  | succ m ih =>
    rw [List.range_succ, List.foldl_append, ih, List.foldl_cons, List.foldl_nil]
    unfold setAction
    by_cases h : m ≠ sigTrapNo ∧ refuses m = false
    · rw [if_pos h]
      dsimp only
      congr 1
      · funext j
        by_cases hj : j = m
        · subst hj
          rw [if_pos rfl, if_pos ⟨Nat.lt_succ_self _, h⟩]
        · rw [if_neg hj]
          have : j < m ↔ j < m + 1 := by omega
          simp only [this]
      · funext j
        by_cases hj : j = m
        · subst hj
          rw [if_pos rfl, if_neg (fun k => Nat.lt_irrefl _ k.1), if_pos ⟨Nat.lt_succ_self _, h⟩]
        · rw [if_neg hj]
          have : j < m ↔ j < m + 1 := by omega
          simp only [this]
    · rw [if_neg h]
      have key : ∀ j, (j < m ∧ j ≠ sigTrapNo ∧ refuses j = false) ↔ (j < m + 1 ∧ j ≠ sigTrapNo ∧ refuses j = false) := by
        intro j
        constructor
        · exact fun k => ⟨by omega, k.2⟩
        · intro k
          refine ⟨?_, k.2⟩
          have : j ≠ m := by rintro rfl; exact h k.2
          omega
      simp only [key]

theorem restored_range (s : (Nat → Action) × (Nat → Action)) : ∀ m, (List.range m).foldl (fun (s : (Nat → Action) × (Nat → Action)) i => if i ≠ sigTrapNo ∧ refuses i = false then
      (setAction s.1 i (s.2 i), s.2) else s) s = (fun j => if j < m ∧ j ≠ sigTrapNo ∧ refuses j = false then s.2 j else s.1 j, s.2) := by
  intro m
  induction m with
  | zero => simp
  | succ m ih =>
    rw [List.range_succ, List.foldl_append, ih, List.foldl_cons, List.foldl_nil]
    unfold setAction
    by_cases h : m ≠ sigTrapNo ∧ refuses m = false
    · rw [if_pos h]
      dsimp only
      congr 1
      funext j
      by_cases hj : j = m
      · subst hj
        rw [if_pos rfl, if_pos ⟨Nat.lt_succ_self _, h⟩]
      · rw [if_neg hj]
        have : j < m ↔ j < m + 1 := by omega
        simp only [this]
    · rw [if_neg h]
      have key : ∀ j, (j < m ∧ j ≠ sigTrapNo ∧ refuses j = false) ↔ (j < m + 1 ∧ j ≠ sigTrapNo ∧ refuses j = false) := by
        intro j
        constructor
        · exact fun k => ⟨by omega, k.2⟩
        · intro k
          refine ⟨?_, k.2⟩
          have : j ≠ m := by rintro rfl; exact h k.2
          omega
      simp only [key]

/-- While an atomic sequence is stepped over, the tracer ignores every signal that can be ignored but SIGTRAP; afterwards all actions are what they were, whatever was
left in the array by an earlier sequence. -/
theorem C119_signals (before old : Nat → Action) :
    (∀ i, (ignoreSignals refuses (before, old)).1 i = if i < 65 ∧ i ≠ 5 ∧ refuses i = false then ⟨.ignore, 0⟩ else before i) ∧
    (restoreSignals refuses (ignoreSignals refuses (before, old))).1 = before := by
  unfold ignoreSignals restoreSignals
  rw [ignored_range, restored_range]
  refine ⟨fun i => rfl, ?_⟩
  funext j
  dsimp only
  by_cases h : j < nsig ∧ j ≠ sigTrapNo ∧ refuses j = false
  · rw [if_pos h, if_pos h]
  · rw [if_neg h, if_neg h]

/-- The interrupt from the keyboard is handled before and after, not during. -/
example : let r := fun i => i == 0 || i == 9 || i == 19 || i == 32 || i == 33
    let before : Nat → Action := fun i => if i = 2 then ⟨.function 4096, 4⟩ else ⟨.default, 0⟩
    (ignoreSignals r (before, fun _ => ⟨.default, 0⟩)).1 2 = ⟨.ignore, 0⟩ ∧ (ignoreSignals r (before, fun _ => ⟨.default, 0⟩)).1 9 = ⟨.default, 0⟩ ∧
    (restoreSignals r (ignoreSignals r (before, fun _ => ⟨.default, 0⟩))).1 2 = ⟨.function 4096, 4⟩ := by
  decide +kernel

end Ptr.Sur
