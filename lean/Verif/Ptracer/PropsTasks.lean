import Verif.Ptracer.Tasks
import Verif.Cmd.Lemmas

/-! # C85 and C97: process ids as text -/

namespace Ptr.Tasks
open Ptr.Attach Cmd CmdSpec

/-- What the kernel shows for the threads `ids`: their ids in decimal, and entries that begin with a dot. -/
def Lists (ids : List Pid) (names : List Arg) : Prop :=
  names.filter (fun d => d.head? != some '.') = ids.map fun p => decimal p.toNat

theorem decimal_ne (n : Nat) : decimal n ≠ [] := by
  intro h
  unfold decimal at h
  by_cases hn : n < 10
  · rw [Nat.toDigits_of_lt_base hn] at h; cases h
  · rw [Nat.toDigits_of_base_le (by omega) (by omega)] at h; simp at h

theorem tasks_of (cap : Nat) : ∀ (names : List Arg) (ids t : List Pid), Lists ids names → t.length < cap →
    tasks cap t names = ⟨(t ++ ids).take cap, decide ((t ++ ids).length ≥ cap)⟩
  | [], ids, t, h, ht => by
    have : ids = [] := by
      have : ([] : List Arg) = ids.map _ := h
      simpa using this.symm
    subst this
    simp only [tasks, List.append_nil]
    rw [List.take_of_length_le (by omega)]
    simp [ht]
  | d :: names, ids, t, h, ht => by
    unfold Lists at h
    by_cases hd : d.head? = some '.'
    · have e : tasks cap t (d :: names) = tasks cap t names := by
        rw [tasks, if_neg (by rw [hd]; decide)]
      rw [e]
      rw [List.filter_cons_of_neg (by simp [hd])] at h
      exact tasks_of cap names ids t h ht
    · rw [List.filter_cons_of_pos (by simpa using hd)] at h
      cases ids with
      | nil => cases h
      | cons p ids =>
        rw [List.map_cons] at h
        obtain ⟨rfl, h'⟩ := List.cons.inj h
        have hall : (decimal p.toNat).all Char.isDigit = true := List.all_eq_true.2 fun c hc => (decimal_all _ c hc).1
        have hfirst : ((decimal p.toNat).head?.map Char.isDigit) = some true := by
          cases hx : decimal p.toNat with
          | nil => exact absurd hx (decimal_ne _)
          | cons c l =>
            have := (decimal_all p.toNat c (by rw [hx]; exact List.mem_cons_self ..)).1
            simp [this]
        have hp : BitVec.ofNat 32 (digits 0 (decimal p.toNat)) = p := by rw [digits_decimal]; simp
        have hlt := p.isLt
        rw [tasks, if_pos hfirst, if_neg (by rw [digits_decimal, hall]; simp; omega), hp]
        by_cases hc : t.length + 1 ≥ cap
        · rw [if_pos hc]
          have e : t ++ p :: ids = (t ++ [p]) ++ ids := by simp
          rw [e, List.take_append_of_le_length (by simp; omega), List.take_of_length_le (by simp; omega)]
          simp
          omega
        · rw [if_neg hc, tasks_of cap names ids (t ++ [p]) h' (by simp; omega)]
          simp

/-- **C85**, the list of the threads: the tracer takes from the directory exactly the threads there are, in the order of the directory, and fails only
if there are 30000 or more; this is the step `.list` of the model of attaching. -/
theorem C85_tasks (names : List Arg) (ids : List Pid) (h : Lists ids names) :
    tasks maxPids [] names = ⟨ids.take maxPids, decide (ids.length ≥ maxPids)⟩ :=
  tasks_of maxPids names ids [] h (by simp [maxPids])

/-- The step `.list` of the model of attaching does what reading the directory does. -/
theorem C85_list (leader : Pid) (w : World) (hw : w.pc = .list) (names : List Arg) (h : Lists w.sys.ids names) :
    w.step leader =
      let r := tasks maxPids [] names
      if r.failed then ({ w with table := r.table } : World).fail else { w with table := r.table, pc := .seize r.table } := by
  rw [C85_tasks names _ h]
  unfold World.step
  rw [hw]
  by_cases hl : w.sys.ids.length ≥ maxPids <;> simp [hl]

/-- The directory of a process with two threads. -/
example : Lists [4711#32, 4713#32] [".".toList, "4711".toList, "..".toList, "4713".toList] := by
  unfold Lists
  decide +kernel

theorem decimal_snoc {n : Nat} (h : 10 ≤ n) : decimal n = decimal (n / 10) ++ [Nat.digitChar (n % 10)] := by
  unfold decimal
  rw [Nat.toDigits_of_base_le (by omega) (by omega)]

theorem decimal_length (k n : Nat) (h1 : 10 ^ k ≤ n) (h2 : n < 10 ^ (k + 1)) : (decimal n).length = k + 1 := by
  induction k generalizing n with
  | zero =>
    unfold decimal
    rw [Nat.toDigits_of_lt_base (by omega)]
    rfl
  | succ k ih =>
    have h3 : 10 ≤ n := by
      have : 1 ≤ 10 ^ k := Nat.one_le_pow _ _ (by omega)
      rw [Nat.pow_succ] at h1
      omega
    rw [decimal_snoc h3, List.length_append, ih (n / 10) (by rw [Nat.pow_succ] at h1; omega) (by rw [Nat.pow_succ 10 (k + 1)] at h2; omega)]
    rfl

theorem decimal_length_le (k n : Nat) (h : n < 10 ^ (k + 1)) : (decimal n).length ≤ k + 1 := by
  induction k generalizing n with
  | zero =>
    unfold decimal
    rw [Nat.toDigits_of_lt_base (by omega)]
    exact Nat.le_refl _
  | succ k ih =>
    by_cases h3 : 10 ≤ n
    · rw [decimal_snoc h3, List.length_append]
      have := ih (n / 10) (by rw [Nat.pow_succ 10 (k + 1)] at h; omega)
      simp only [List.length_cons, List.length_nil]
      omega
    · unfold decimal
      rw [Nat.toDigits_of_lt_base (by omega)]
      simp

/-- The arguments of a dump of the process `pid` to the directory `dir`. -/
def dumpOf (pid : Nat) (dir : Arg) : List Arg := ["sudo", "criu", "dump", "-j", "-s", "-t"].map String.toList ++ [decimal pid, "-D".toList, dir]

/-- **C97** The checkpoint is one of the process that was traced, which has been let go before, if its id has at most six digits. -/
theorem C97_partial (pid : Nat) (dir : Arg) (qtrace : Bool) (h : pid < 1000000) :
    checkpoint pid dir true true qtrace = [.detach pid, .exec (dumpOf pid dir)] := by
  have : pidText pid = decimal pid := List.take_of_length_le (decimal_length_le 5 pid (by omega))
  unfold checkpoint dumpOf
  rw [this]
  rfl

/-- Nothing is dumped if the process cannot be let go, and the status says so. -/
theorem C97_attached (pid : Nat) (dir : Arg) (starts qtrace : Bool) : (∀ args, Act.exec args ∉ checkpoint pid dir false starts qtrace) ∧
    ∃ code, Act.exit code ∈ checkpoint pid dir false starts qtrace ∧ ∀ n, Act.exit n ∈ checkpoint pid dir false starts qtrace → n ≠ 0 := by
  simp [checkpoint]

/-- **C97**: that the dump could not be started is not told by the status, which is that of success. -/
theorem C97_status_refuted (pid : Nat) (dir : Arg) (qtrace : Bool) : Act.exit 0 ∈ checkpoint pid dir true false qtrace ∧
    ∀ n, Act.exit n ∈ checkpoint pid dir true false qtrace → n = 0 := by
  cases qtrace <;> simp [checkpoint]

/-- **C97** fails for all processes with an id of seven digits, up to 4194304 on Linux: the process with the id without the last digit is dumped. -/
theorem C97_other_refuted (pid : Nat) (dir : Arg) (qtrace : Bool) (h1 : 1000000 ≤ pid) (h2 : pid < 10000000) :
    checkpoint pid dir true true qtrace = [.detach pid, .exec (dumpOf (pid / 10) dir)] ∧ dumpOf (pid / 10) dir ≠ dumpOf pid dir := by
  have hl := decimal_length 5 (pid / 10) (by omega) (by omega)
  have : pidText pid = decimal (pid / 10) := by
    show (decimal pid).take 6 = _
    rw [decimal_snoc (by omega), List.take_append_of_le_length (by omega), List.take_of_length_le (by omega)]
  refine ⟨?_, fun e => ?_⟩
  · unfold checkpoint dumpOf
    rw [this]
    rfl
  · have e := List.append_cancel_left e
    have e := congrArg List.length (List.cons.inj e).1
    rw [hl, decimal_length 6 pid (by omega) (by omega)] at e
    omega

example : checkpoint 1234567 "d".toList true true false =
    [.detach 1234567, .exec (["sudo", "criu", "dump", "-j", "-s", "-t", "123456", "-D", "d"].map String.toList)] := by decide +kernel

/-- The trace file is closed only if the checkpoint could not be started. -/
theorem C97_closed (pid : Nat) (dir : Arg) (detaches starts qtrace : Bool) :
    .close ∈ checkpoint pid dir detaches starts qtrace ↔ detaches = true ∧ starts = false ∧ qtrace = true := by
  cases detaches <;> cases starts <;> cases qtrace <;> simp [checkpoint]

end Ptr.Tasks
