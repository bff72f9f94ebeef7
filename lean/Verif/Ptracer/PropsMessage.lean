import Verif.Ptracer.EventMessage
/-!
Property C116: what happens when the system does not tell which thread is new.
-/
namespace Ptr.Cnt
open Ptr

/-- C116. When the system answers, the thread it names is the new one. -/
theorem C116_asked (period : BitVec 64) (t : Table) (s : Sys) (e : Stop) (a : Ans) (memory : Pid) :
    stepAsked period t s e a (some e.msg) memory = step period t s e a := by
  unfold stepAsked ask
  split
  · rfl
  · rfl

/-- C116. In the main loop nothing is added when the system does not answer. -/
theorem C116_main_asked (answer : Option Pid) (memory : Pid) : mainAsked answer memory = answer := by
  cases answer <;> rfl

/-- C116 is violated while instructions are skipped: when the system does not answer, whatever number was in memory is entered as a thread, if there is room and a counter
can be made for it. -/
theorem C116_message_refuted (period : BitVec 64) (t : Table) (s : Sys) (e : Stop) (a : Ans) (memory : Pid) (he : e.stopped = true) (hn : newThread e)
    (hl : t.length ≠ maxPids) (fd : Nat) (s' : Sys) (hs : setup s memory period a = some (fd, s')) :
    stepAsked period t s e a none memory = .go (t ++ [(memory, fd)]) s' := by
  unfold stepAsked
  rw [if_pos ⟨he, hn⟩, if_neg (show ¬(ask none memory).1 = 1 from (by decide : ¬((-1 : Int) = 1)))]
  unfold step
  dsimp only
  have e2 : (ask none memory).2 = memory := rfl
  rw [if_neg (by simp [he]), if_pos (show e.event = evClone ∨ e.event = evVfork ∨ e.event = evFork from hn), if_neg hl, e2, hs]

/-- Thread 7 reports a new thread and is killed; 4242 was in memory. -/
example : stepAsked 800 [(7, 3)] ⟨[0, 1, 2], [(3, ⟨7, 800, some 7, true⟩)]⟩ { pid := 7, stopped := true, event := evClone, sig := 5, msg := 8, at_ := ⟨0, 0⟩, trace := false, atomic := none } ⟨some 4, true, true⟩ none 4242 =
    .go [(7, 3), (4242, 4)] ⟨[0, 1, 2], [(4, ⟨4242, 800, some 4242, true⟩), (3, ⟨7, 800, some 7, true⟩)]⟩ := by
  refine (C116_message_refuted _ _ _ _ _ _ rfl (Or.inl rfl) (by decide) 4 _ rfl).trans ?_
  decide

end Ptr.Cnt
