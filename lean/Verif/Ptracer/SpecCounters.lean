import Verif.Ptracer.Counters

/-! What the system does with descriptors of counters, and what should be open while threads are skipped over. -/

namespace Ptr.Cnt.Spec
open Ptr Ptr.Cnt

/-- A new descriptor is one that is not in use. -/
def Unused (s : Sys) (a : Ans) : Prop := ∀ fd, a.fd = some fd → fd ∉ s.files ∧ fd ∉ s.counters.map (·.1)

/-- So it is for the first requests. -/
def FreshAll (period : BitVec 64) : Sys → List (Pid × Ans) → Prop
  | _, [] => True
  | s, (p, a) :: l => Unused s a ∧ ∀ fd s', setup s p period a = some (fd, s') → FreshAll period s' l

/-- And for those of the loop. -/
def FreshRun (period : BitVec 64) : Table → Sys → List (Stop × Ans) → Prop
  | _, _, [] => True
  | t, s, (e, a) :: l => Unused s a ∧ ∀ t' s', step period t s e a = .go t' s' → FreshRun period t' s' l

/-- The counter a thread should have: it counts that thread, and that thread gets the signal. -/
def wanted (period : BitVec 64) (p : Pid) : Counter := ⟨p, period, some p, true⟩

/-- The descriptors before the call are those of different files. -/
def Sane (s : Sys) : Prop := (s.counters.map (·.1)).Nodup

end Ptr.Cnt.Spec
