import Verif.Opc.SpecForms
/-!
The entries of the main table that `ppcstats` knows, two by two.
-/
namespace Opc

/-- An earlier entry has no instruction in common with a later one, or is a form of it, or the pair is in the list. -/
def pairOk (a e : Opcode) : Bool :=
  !(Nat.beq (Nat.land a.opcode e.mask) (Nat.land e.opcode a.mask)) ||
  ((Nat.beq (Nat.land a.mask e.mask) e.mask && Nat.beq (Nat.land a.opcode e.mask) e.opcode) || decide ((a.name, e.name) ∈ crossing))

def allPairs : List Opcode → Bool
  | [] => true
  | a :: l => l.all (pairOk a) && allPairs l

def knownNat (e : Opcode) : Bool := !(Nat.beq (Nat.land e.flags 0x11018502909) 0)

/-- The entries of one major opcode. -/
def group (major : Nat) : List Opcode := mainTable.flatten.filter fun e => knownNat e && Nat.beq (Nat.div e.opcode 67108864) major

/-- The major opcodes with many entries. -/
def crowded : List Nat := [4, 16, 19, 31, 59, 60, 63]

/-- The entries of the other major opcodes. -/
def others : List Opcode := mainTable.flatten.filter fun e => knownNat e && crowded.all fun m => !(Nat.beq (Nat.div e.opcode 67108864) m)

theorem pairs4 : allPairs (group 4) = true := by decide +kernel
theorem pairs16 : allPairs (group 16) = true := by decide +kernel
theorem pairs19 : allPairs (group 19) = true := by decide +kernel
theorem pairs31 : allPairs (group 31) = true := by decide +kernel
theorem pairs59 : allPairs (group 59) = true := by decide +kernel
theorem pairs60 : allPairs (group 60) = true := by decide +kernel
theorem pairs63 : allPairs (group 63) = true := by decide +kernel
theorem pairs_others : allPairs others = true := by decide +kernel

theorem allPairs_iff : ∀ {l : List Opcode}, allPairs l = true ↔ l.Pairwise (fun a e => pairOk a e = true)
  | [] => by simp [allPairs]
  | a :: l => by simp [allPairs, allPairs_iff (l := l)]

theorem pairs_check (m : Nat) : allPairs (group m) = true := by
  by_cases h : m ∈ crowded
  · simp only [crowded, List.mem_cons, List.not_mem_nil, or_false] at h
    rcases h with rfl | rfl | rfl | rfl | rfl | rfl | rfl
    · exact pairs4
    · exact pairs16
    · exact pairs19
    · exact pairs31
    · exact pairs59
    · exact pairs60
    · exact pairs63
  · have : group m = others.filter fun e => Nat.beq (Nat.div e.opcode 67108864) m := by
      unfold group others
      rw [List.filter_filter]
      apply List.filter_congr
      intro e _
      cases hk : knownNat e with
      | false => simp
      | true =>
        cases hm : Nat.beq (Nat.div e.opcode 67108864) m with
        | false => simp
        | true =>
          have em := Nat.eq_of_beq_eq_true hm
          rw [em]
          have : (crowded.all fun x => !(Nat.beq m x)) = true := by
            rw [List.all_eq_true]
            intro x hx
            rw [Bool.not_eq_true', ← Bool.not_eq_true]
            intro c
            exact h (Nat.eq_of_beq_eq_true c ▸ hx)
          rw [this]
          rfl
    rw [this, allPairs_iff]
    exact (allPairs_iff.mp pairs_others).filter _

end Opc
