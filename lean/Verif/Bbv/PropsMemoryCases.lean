import Verif.Bbv.MemoryBridge
/-!
C123: examples, and where it is false.
-/
namespace Bbv

/-- Memory for everything, intervals of two instructions. -/
def roomy : Env := { heap := { grants := fun _ => true, junk := 7 }, walk := id, period := 2 }

/-- No memory for an object. -/
def noObject : Luck := { Luck.all with object := false }

/-- The table of blocks cannot grow. -/
def noInsert : Luck := { Luck.all with insert := false }

/-- Without memory for the block of the second branch, the program ends after the two lines about blocks. -/
example : summariseM true roomy Lucks.all [(⟨4, true⟩, Luck.all), (⟨8, true⟩, noObject), (⟨8, true⟩, Luck.all)] (fun _ => true) 0 1 =
    ("BB 0x4 length 1\nBB 0x8 length 1\n".toList, .exit) := by
  rfl

/-- That run meets the hypotheses of `C123_prefix_partial`. -/
example := C123_prefix_partial true roomy Lucks.all [(⟨4, true⟩, Luck.all), (⟨8, true⟩, noObject), (⟨8, true⟩, Luck.all)] (fun _ => true) 0 1 (by decide) (fun _ => rfl)

/-- Memory for everything is there in `roomy`, as `C123_verbose` and `C123_plain` ask. -/
example := C123_verbose (e := roomy) (fun _ => rfl) [⟨4, true⟩, ⟨4, true⟩] (fun _ => true) 0 1
example := C123_plain (e := roomy) (fun _ => rfl) [⟨4, true⟩, ⟨4, true⟩] (fun _ => true) 0 1

/-- The program, but starting with a matrix of `rows` and `cols` instead of 1000 and 10000 (which grows in the same way). -/
def startingWith (rows cols : BitVec 64) (v : Bool) (e : Env) (l : Lucks) (recs : List (Rec × Luck)) (coin : Nat → Bool) (dims k : BitVec 32) : List Char × Ending :=
  match startM e l rows cols with
  | .error x => ([], x.ending)
  | .ok s =>
    match recordsM v e s recs with
    | (t, .error x) => (t, x.ending)
    | (t, .ok s) => (t ++ (doPamM v e l s coin dims k).1, (doPamM v e l s coin dims k).2)

theorem startingWith_default (v : Bool) (e : Env) (l : Lucks) (recs : List (Rec × Luck)) (coin : Nat → Bool) (dims k : BitVec 32) :
    startingWith 1000 10000 v e l recs coin dims k = summariseM v e l recs coin dims k := by
  unfold startingWith summariseM parseM
  cases startM e l 1000 10000 <;> rfl

/-- **C123 is refuted when the table of blocks cannot grow**: the failure is not noticed.  The first execution of the block is lost, and the two intervals, which are the same,
are taken for different ones: with one medoid the cost is 1 instead of 0, and the status is 0.  (Shown for a program that starts with a matrix of 2 by 4 entries.) -/
theorem C123_lost_refuted :
    startingWith 2 4 false roomy Lucks.all [(⟨4, true⟩, noInsert), (⟨4, true⟩, Luck.all), (⟨4, true⟩, Luck.all), (⟨4, true⟩, Luck.all)] (fun _ => true) 0 1 =
      ("Testing K=1\nCost: 1\nMedoids:\n0-1\t2\n\n".toList, .done) ∧
    startingWith 2 4 false roomy Lucks.all [(⟨4, true⟩, Luck.all), (⟨4, true⟩, Luck.all), (⟨4, true⟩, Luck.all), (⟨4, true⟩, Luck.all)] (fun _ => true) 0 1 =
      ("Testing K=1\nCost: 0\nMedoids:\n0-1\t2\n\n".toList, .done) := by
  refine ⟨?_, ?_⟩ <;> decide +kernel

/-- **C123 is refuted when there is no memory for the table of weights**: the table is empty, and the status is 0. -/
theorem C123_table_refuted :
    clusteringsM false (fun _ => { PamLuck.all with table := false }) 4 [[9], [3], [4], [0]] 1 = ("Testing K=1\nCost: 10\nMedoids:\n\n".toList, .done) ∧
    clusteringsM false (fun _ => PamLuck.all) 4 [[9], [3], [4], [0]] 1 = ("Testing K=1\nCost: 10\nMedoids:\n4-7\t4\n\n".toList, .done) := by
  refine ⟨?_, ?_⟩ <;> decide +kernel

end Bbv
