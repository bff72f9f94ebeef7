import Verif.Fmt.Model

/-! # Formatted text in new memory (C125) -/
namespace Fmt

/-- Memory that holds a text with its terminating zero, and not a byte more. -/
def Holds (b : Buffer) (t : List Byte) : Prop := b = (t ++ [0#8]).map some

/-- **C125** for texts shorter than INT_MAX: with memory the text, whole and terminated, in memory of just that size, and its length; without memory -1 and a null pointer. -/
theorem C125_text_partial (malloc : Nat → Bool) {t : List Byte} (ht : t.length < 2147483647) :
    (malloc (t.length + 1) = true → ∃ b, asprintf malloc (some t) = .ok t.length (.new b) ∧ Holds b t ∧ afmt malloc (some t) = some (.new b)) ∧
    (malloc (t.length + 1) = false → asprintf malloc (some t) = .ok (-1) .null ∧ afmt malloc (some t) = some .null) := by
  have hm : measure (some t) = t.length := by
    unfold measure
    exact if_pos (by unfold intMax; omega)
  have hn : (measure (some t) + 1).toNat = t.length + 1 := by rw [hm]; omega
  have key : vasprintf malloc (some t) = if malloc (t.length + 1) = false then .ok (-1) .null else .ok t.length (.new ((t ++ [0#8]).map some)) := by
    unfold vasprintf
    rw [if_neg (by omega), if_neg (by rw [hm]; unfold intMax; omega), hn]
    unfold store
    dsimp only
    rw [List.length_replicate, if_neg (Nat.lt_irrefl _), hm]
    simp
  unfold asprintf afmt
  rw [key]
  constructor
  · intro h
    rw [h, if_neg (by simp)]
    refine ⟨_, rfl, rfl, ?_⟩
    dsimp only
    rw [if_neg (by omega)]
  · intro h
    rw [h, if_pos rfl]
    exact ⟨rfl, rfl⟩

/-- A text that cannot be made, or is longer than INT_MAX: -1, and no memory is taken.  `afmt` returns a null pointer; `asprintf` leaves the pointer of the caller as it was. -/
theorem C125_fails (malloc : Nat → Bool) {text : Option (List Byte)} (h : ∀ t, text = some t → 2147483647 < t.length) :
    asprintf malloc text = .ok (-1) .before ∧ afmt malloc text = some .null := by
  have hm : measure text = -1 := by
    unfold measure
    cases text with
    | none => rfl
    | some t => exact if_neg (by have := h t rfl; unfold intMax; omega)
  have key : vasprintf malloc text = .ok (-1) .before := by
    unfold vasprintf
    rw [hm]
    rfl
  exact ⟨key, by unfold afmt; rw [key]; rfl⟩

/-- **C125 is refuted for every text of INT_MAX characters**: the addition of 1 to its length overflows. -/
theorem C125_long_refuted (malloc : Nat → Bool) {t : List Byte} (ht : t.length = 2147483647) : asprintf malloc (some t) = .undefined ∧ afmt malloc (some t) = none := by
  have hm : measure (some t) = 2147483647 := by
    unfold measure
    dsimp only
    rw [ht]
    exact if_pos (by unfold intMax; omega)
  have key : vasprintf malloc (some t) = .undefined := by
    unfold vasprintf
    rw [hm, if_neg (by omega), if_pos (by unfold intMax; omega)]
  exact ⟨key, by unfold afmt; rw [key]⟩

/-- There is such a text. -/
example : ∃ t : List Byte, t.length = 2147483647 := ⟨List.replicate _ 65#8, List.length_replicate⟩

/-- "ab", with and without memory. -/
example : asprintf (fun _ => true) (some [97, 98]) = .ok 2 (.new [some 97, some 98, some 0]) ∧ afmt (fun _ => false) (some [97, 98]) = some .null := by decide
example := C125_text_partial (fun n => n ≤ 3) (t := [97, 98]) (by decide)
example := C125_fails (fun _ => true) (text := none) (fun _ h => by cases h)

end Fmt
