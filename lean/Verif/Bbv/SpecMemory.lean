import Verif.Bbv.Memory
/-!
When memory is not lacking.
-/
namespace Bbv

/-- Every request while a record is processed succeeds. -/
def Luck.all : Luck := { object := true, insert := true, cols := fun _ => true, rows := fun _ => true }

/-- Every request for a clustering succeeds. -/
def PamLuck.all : PamLuck := { pam := true, points := true, medoids := true, table := true }

/-- Every other request succeeds. -/
def Lucks.all : Lucks :=
  { startDesc := true, startData := fun _ => true, startTable := true, last := fun _ => true, leftDesc := true, leftData := fun _ => true, rightDesc := true,
    rightData := fun _ => true, pam := fun _ => PamLuck.all }

/-- What the program prints, and how it ends, if memory is never lacking. -/
def unlimited (v : Bool) (e : Env) (recs : List Rec) (coin : Nat → Bool) (dims k : BitVec 32) : List Char × Ending :=
  summariseM v e Lucks.all (recs.map fun r => (r, Luck.all)) coin dims k

end Bbv
