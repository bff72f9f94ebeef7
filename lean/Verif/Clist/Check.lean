import Verif.Clist.Model

/-! # `list_check` with its counter and its report: qtrace-bbv/ccan/list/list.c -/

namespace Clist

/-- What `list_check_node` comes to. -/
inductive Verdict where
  /-- list.c:35: the node is returned. -/
  | sound
  /-- list.c:6-18 `corrupt` with this node and number. -/
  | corrupt (node : Addr) (count : Nat)
  /-- `count++` beyond INT_MAX: undefined behaviour. -/
  | overflow
  deriving DecidableEq

/-- list.c:26-33: the loop of `list_check_node` and the check of the head; `none` if the loop is still running after `fuel` nodes. -/
def checkFrom (m : Mem) (node : Addr) : Nat → Nat → Addr → Addr → Except Fault (Option Verdict)
  | fuel, count, p, n =>
    if n = node then do
      let np ← getPrev m node
      return some (if np ≠ p then .corrupt node 0 else .sound)
    else match fuel with
      | 0 => .ok none
      | fuel + 1 =>
        if count + 1 > 0x7fffffff then .ok (some .overflow)
        else do
          let np ← getPrev m n
          if np ≠ p then return some (.corrupt n (count + 1))
          else
            let nn ← getNext m n
            checkFrom m node fuel (count + 1) n nn

/-- list.c:20-36 `list_check_node`. -/
def checkNode (m : Mem) (node : Addr) (fuel : Nat) : Except Fault (Option Verdict) := do
  let n ← getNext m node
  checkFrom m node fuel 0 node n

/-- What the caller of `list_check` sees. -/
inductive Answer where
  | list
  | null
  /-- The node and the number in the message before `abort`. -/
  | aborted (node : Addr) (count : Nat)
  | overflow
  deriving DecidableEq

/-- list.c:6-18 and 38-43 `list_check`, with or without a text for the message. -/
def listCheck (m : Mem) (h : Addr) (message : Bool) (fuel : Nat) : Except Fault (Option Answer) := do
  match ← checkNode m h fuel with
  | none => return none
  | some .sound => return some .list
  | some (.corrupt n c) => return some (if message then .aborted n c else .null)
  | some .overflow => return some .overflow

end Clist
