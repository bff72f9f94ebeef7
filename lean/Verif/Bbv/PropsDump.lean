import Verif.Bbv.Listing
import Verif.Bbv.SpecDump
import Verif.Bbv.OutputLemmas
import Verif.Bbv.PropsWeights
import Verif.Bbv.WeightsLemmas
/-!
C121: the lists of points and medoids.
-/
namespace Bbv
open BbvText (split every whole numbers lists)

/-- The number that stands for a medoid. -/
def code : Option Nat → BitVec 64
  | none => 0xffffffffffffffff
  | some i => BitVec.ofNat 64 i

/-- The loop of `dump_pam` is that of `find_medoid`. -/
theorem dumpFrom_eq (point : Row) : ∀ (l : List Row) (i : Nat) (ret : Option Nat) (cost : BitVec 64),
    dumpFrom point l (BitVec.ofNat 64 i) (code ret) cost = (findFrom point l i ret cost).map fun r => code r.1
  | [], _, _, _ => rfl
  | m :: l, i, ret, cost => by
    unfold dumpFrom findFrom
    cases distance point m with
    | none => rfl
    | some s =>
      dsimp only
      have : (BitVec.ofNat 64 i + 1 : BitVec 64) = BitVec.ofNat 64 (i + 1) := by rw [BitVec.ofNat_add]; rfl
      rw [this]
      split
      · exact dumpFrom_eq point l (i + 1) (some i) s
      · exact dumpFrom_eq point l (i + 1) ret cost

theorem ld_blank (v : BitVec 64) : ∀ c ∈ ld v, c ≠ ' ' ∧ c ≠ '\n' := by
  intro c hc
  refine ⟨?_, (ld_inner v c hc).1⟩
  rcases ld_chars v c hc with h | h
  · rintro rfl; exact absurd h (by decide)
  · rw [h]; decide

theorem numbers_read (l : List (BitVec 64)) : numbers ((l.map fun v => ld v ++ [' ']).flatten) = some (l.map (·.toInt)) := by
  have hs : split ' ' [] ((l.map fun v => ld v ++ [' ']).flatten) = l.map ld := by
    induction l with
    | nil => rfl
    | cons v l ih =>
      rw [List.map_cons, List.flatten_cons, List.append_assoc, List.singleton_append, split_line _ fun x hx => (ld_blank v x hx).1, ih]
      rfl
  unfold numbers
  rw [hs]
  exact every_map whole ld (·.toInt) l fun v _ => whole_ld v

/-- **C121**: the medoids are printed with all their coordinates, as signed numbers of 64 bits, in their order. -/
theorem C121_medoids (p : Pam) : lists (rawMedoids p) = some (p.medoids.map fun m => m.map (·.toInt)) := by
  have hs : split '\n' [] (rawMedoids p) = p.medoids.map fun m => (m.map fun v => ld v ++ [' ']).flatten := by
    unfold rawMedoids
    induction p.medoids with
    | nil => rfl
    | cons m l ih =>
      rw [List.map_cons, List.flatten_cons]
      unfold pointText at ih ⊢
      rw [List.append_assoc, List.singleton_append, split_line _ ?_, ih]
      · rfl
      · intro c hc
        obtain ⟨x, hx, hc⟩ := List.mem_flatten.1 hc
        obtain ⟨v, -, rfl⟩ := List.mem_map.1 hx
        rcases List.mem_append.1 hc with h | h
        · exact (ld_blank v c h).2
        · rw [List.mem_singleton] at h; subst h; decide
  unfold lists
  rw [hs]
  exact every_map numbers _ _ p.medoids fun m _ => numbers_read m

theorem dumpPoints_eq {points : List Row} (ms : List Row) : (∀ q ∈ points, ∀ m ∈ ms, apart q m < 2 ^ 63) → ms ≠ [] →
    ∃ ns : List (BitVec 64), dumpPoints ms points = some ((ns.map fun v => ld v ++ [' ']).flatten) ∧ ns = points.map fun q => BitVec.ofNat 64 (assigned ms q) := by
  induction points with
  | nil => intro _ _; exact ⟨[], rfl, rfl⟩
  | cons q l ih =>
    intro h hne
    obtain ⟨ns, h1, h2⟩ := ih (fun x hx => h x (List.mem_cons_of_mem _ hx)) hne
    obtain ⟨j, c, m, h3, -⟩ := findMedoid_nearest hne (h q List.mem_cons_self)
    have h4 := findMedoid_assigned (h q List.mem_cons_self) h3 hne
    refine ⟨BitVec.ofNat 64 (assigned ms q) :: ns, ?_, by rw [h2]; rfl⟩
    unfold dumpPoints
    have h5 : dumpFrom q ms 0 0xffffffffffffffff 0xffffffffffffffff = some (BitVec.ofNat 64 (assigned ms q)) := by
      have := dumpFrom_eq q ms 0 none 0xffffffffffffffff
      unfold findMedoid at h3
      rw [h3, h4] at this
      exact this
    rw [h5, h1]
    simp

/-- **C121**: for a clustering of points whose distances fit, the list has the number of the nearest medoid for each point, the first one if there are several, and each
medoid is listed as often as the table of the weights says. -/
theorem C121_points_partial {points : List Row} (hsm : Small points) {k : Nat} (hk : 0 < k) (hk' : k < 2 ^ 63) {p : Pam} (hp : Clustering points k p) :
    ∃ t ws, dumpPam p = some t ∧ numbers t = some (points.map fun q => (assigned p.medoids q : Int)) ∧ weights p = some ws ∧
      ∀ (j : Nat) (w : Weight), ws[j]? = some w → w.count = (points.map (assigned p.medoids)).count j := by
  have hne := ne_nil_of_length hp.length hk
  have hb : ∀ q ∈ points, ∀ m ∈ p.medoids, apart q m < 2 ^ 63 := by
    obtain ⟨D, h1, h2⟩ := hsm.bound
    intro q hq m hm
    have := h1 q hq m (hp.input m hm)
    have : D ≤ D * (points.length + 1) := Nat.le_mul_of_pos_right _ (Nat.succ_pos _)
    omega
  obtain ⟨ns, h1, h2⟩ := dumpPoints_eq p.medoids hb hne
  obtain ⟨ws, h3, h4⟩ := weights_full hsm hk hp
  refine ⟨_, ws, by unfold dumpPam; rw [hp.pts]; exact h1, ?_, h3, ?_⟩
  · rw [numbers_read, h2, List.map_map]
    congr 1
    apply List.map_congr_left
    intro q hq
    have hlt : assigned p.medoids q < k := by
      obtain ⟨j, c, m, h5, h6, -⟩ := findMedoid_nearest hne (hb q hq)
      have := findMedoid_assigned (hb q hq) h5 hne
      rw [← hp.length, ← this]
      exact (List.getElem?_eq_some_iff.1 h6).1
    change (BitVec.ofNat 64 (assigned p.medoids q)).toInt = _
    rw [BitVec.toInt_eq_toNat_of_lt] <;> rw [BitVec.toNat_ofNat, Nat.mod_eq_of_lt (by omega)]
    omega
  · intro j w hw
    have hj : j < p.medoids.length := by rw [hp.length, ← h4.1]; exact (List.getElem?_eq_some_iff.1 hw).1
    rw [(h4.2.2 j w _ hw (List.getElem?_eq_getElem hj)).2]
    unfold members
    rw [List.count, List.countP_map, List.countP_eq_length_filter]
    rfl

/-- Three points and two medoids meet the hypotheses. -/
example : ∃ t ws, dumpPam { points := [[0], [9], [1]], medoids := [[9], [1]], cost := 1 } = some t ∧ numbers t = some [1, 0, 1] ∧
    weights { points := [[0], [9], [1]], medoids := [[9], [1]], cost := 1 } = some ws := by
  obtain ⟨t, ws, h1, h2, h3, -⟩ := C121_points_partial (points := [[0], [9], [1]]) (k := 2) (p := { points := [[0], [9], [1]], medoids := [[9], [1]], cost := 1 })
    ⟨⟨1, by decide⟩, ⟨9, by decide, by decide⟩⟩ (by decide) (by decide) ⟨rfl, rfl, by decide, by decide, by decide⟩
  exact ⟨t, ws, h1, h2, h3⟩

/-- Five points around two medoids. -/
example : ∃ t, dumpPam { points := [[1, 2], [10, 10], [2, 2], [1, 1], [9, 10]], medoids := [[1, 1], [10, 10]], cost := 4 } = some t ∧ t = "0 1 0 0 1 ".toList ∧
    numbers t = some [0, 1, 0, 0, 1] := ⟨_, rfl, by decide +kernel, by decide +kernel⟩

example : rawMedoids { points := [], medoids := [[1, 20], [3, 0xffffffffffffffff]], cost := 0 } = "1 20 \n3 -1 \n".toList := by decide +kernel

/-- **C121 is refuted without the bound**: if all distances are the greatest number, the point is listed with the medoid -1. -/
theorem C121_far_refuted : (dumpPam { points := [[0, 0, 0]], medoids := [[0x7fffffffffffffff, 0x7fffffffffffffff, 1]], cost := 0 }).bind numbers = some [-1] := by
  decide +kernel

/-- **C121 is refuted for great coordinates**: the coordinates are unsigned, and one of at least 2^63 is shown as a negative number. -/
theorem C121_great_refuted : lists (rawMedoids { points := [], medoids := [[0x8000000000000000]], cost := 0 }) = some [[-9223372036854775808]] := by decide +kernel

end Bbv
