import Verif.Bbv.OutputLemmas
import Verif.Bbv.PropsSweep
/-!
C111: the text that `qtrace-bbv` prints.
-/
namespace Bbv
open BbvText (Shown)

/-- **C111**: whatever clusterings are printed, the text is read back as these clusterings, in their order: the number of medoids, the cost, and for every line
of the table the first and the last instruction and the weight, as signed numbers of 64 bits. -/
theorem C111_reports (rs : List Report) :
    BbvText.clusterings (text rs) = some (rs.map fun r =>
      { k := (BitVec.ofNat 64 r.k).toInt, cost := r.cost.toInt,
        table := r.lines.map fun l => (l.first.toInt, l.last.toInt, (BitVec.ofNat 64 l.count).toInt) }) := text_read rs

/-- **C111**: the same for the output of the program, for all points, periods and numbers of medoids, also if it ends with status 1 in the middle: the
complete tables are read. -/
theorem C111_output (period : BitVec 64) (points : List Row) (k : BitVec 32) :
    BbvText.clusterings (printed k (clusterings period points k)) = some ((clusterings period points k).1.map fun r =>
      { k := (BitVec.ofNat 64 r.k).toInt, cost := r.cost.toInt,
        table := r.lines.map fun l => (l.first.toInt, l.last.toInt, (BitVec.ofNat 64 l.count).toInt) }) := by
  unfold printed
  split
  · exact text_read _
  · exact begun_read _ _

theorem small_toInt {v : BitVec 64} (h : v.toNat < 2 ^ 63) : v.toInt = v.toNat := by
  rw [BitVec.toInt_eq_toNat_of_lt]; omega

theorem ofNat_toInt {n : Nat} (h : n < 2 ^ 63) : (BitVec.ofNat 64 n).toInt = n := by
  have e : (BitVec.ofNat 64 n).toNat = n := Nat.mod_eq_of_lt (by omega)
  rw [small_toInt (by rw [e]; exact h), e]

/-- What a table shows for medoids `ms` of points in intervals of `P` instructions: the number of medoids, their cost, and for every medoid the interval of the first
point equal to it and the number of points nearest to it. -/
structure Shows (P : Nat) (points ms : List (List (BitVec 64))) (s : Shown) : Prop where
  k : s.k = ms.length
  cost : s.cost = spread points ms
  length : s.table.length = ms.length
  rows : ∀ (j : Nat) (m : List (BitVec 64)), ms[j]? = some m → ∃ o, FirstAt points m o ∧
    s.table[j]? = some (((o * P : Nat) : Int), ((o * P + (P - 1) : Nat) : Int), (members points ms j : Int))

theorem shown_shows {P : Nat} {points ms : List Row} {r : Report} (h : r.Describes P points ms) (hp : points.length * P < 2 ^ 63) (hP : 0 < P)
    (hc : spread points ms < 2 ^ 63) : Shows P points ms r.shown := by
  have hn : points.length < 2 ^ 63 := Nat.lt_of_le_of_lt (Nat.le_mul_of_pos_right _ hP) hp
  have hm : ms.length ≤ points.length := length_le_of_nodup ms points h.nodup h.input
  constructor
  · show (BitVec.ofNat 64 r.k).toInt = _
    rw [← h.k, ofNat_toInt (by omega)]
  · show r.cost.toInt = _
    rw [small_toInt (by rw [h.cost]; exact hc), h.cost]
  · show (r.lines.map _).length = _
    rw [List.length_map, h.length]
  · intro j m hj
    have hj' : j < r.lines.length := by rw [h.length]; exact (List.getElem?_eq_some_iff.mp hj).1
    obtain ⟨o, h1, h2, h3, h4⟩ := h.lines j _ m (List.getElem?_eq_getElem hj') hj
    refine ⟨o, h1, ?_⟩
    have ho : o < points.length := (List.getElem?_eq_some_iff.mp h1.1).1
    have ho' : (o + 1) * P ≤ points.length * P := Nat.mul_le_mul_right _ ho
    rw [Nat.add_mul, Nat.one_mul] at ho'
    have hcount : members points ms j ≤ points.length := List.length_filter_le _ _
    show (r.lines.map _)[j]? = _
    rw [List.getElem?_map, List.getElem?_eq_getElem hj', Option.map_some, small_toInt (by rw [h2]; omega), small_toInt (by rw [h3]; omega), h2, h3, h4,
      ofNat_toInt (by omega)]

theorem small_spread {points ms : List Row} (hsm : Small points) (hne : ms ≠ []) (hm : ∀ m ∈ ms, m ∈ points) : spread points ms < 2 ^ 63 := by
  obtain ⟨D, h1, h2⟩ := hsm.bound
  have : ∀ l : List Row, (∀ p ∈ l, p ∈ points) → (l.map (nearest ms)).sum ≤ D * l.length := by
    intro l
    induction l with
    | nil => intro _; simp
    | cons p l ih =>
      intro hl
      have hp := hl p List.mem_cons_self
      obtain ⟨m, hmm⟩ := List.exists_mem_of_ne_nil ms hne
      have h3 := (nearest_spec hne p).2 m hmm
      have h4 := h1 p hp m (hm m hmm)
      have h5 := ih fun x hx => hl x (List.mem_cons_of_mem _ hx)
      rw [List.map_cons, List.sum_cons, List.length_cons, Nat.mul_add, Nat.mul_one]
      omega
  have h3 := this points fun p hp => hp
  rw [Nat.mul_add, Nat.mul_one] at h2
  unfold spread
  omega

/-- **C111**: for a trace with at least one complete interval, and less than 2^63 instructions, the text that is printed without the option `-k` is read as one table
for one medoid, one for two, and so on up to the number of different points, or 32.  Every table shows optimal medoids of the points of the intervals: the numbers of the instructions,
the weights and the cost. -/
theorem C111_trace_partial {e : Env} (he : e.Good) {recs : List Rec} (hf : Fits e recs) (hp : e.period ≠ 0) (h1 : e.length ≤ recs.length) (hl : recs.length < 2 ^ 63)
    (coin : Nat → Bool) (dims : BitVec 32) (hs : Sized e recs dims.toNat) :
    ∃ points tables, IsPoints e.length recs (fun d j => coin (j * dims.toNat + d)) dims.toNat points ∧
      BbvText.clusterings (printed 0 (summarise e recs coin dims 0)) = some tables ∧ tables.length = min 32 (different points) ∧
      ∀ (i : Nat) (t : Shown), tables[i]? = some t → ∃ ms, ms.length = 1 + i ∧ ms.Nodup ∧ (∀ m ∈ ms, m ∈ points) ∧ Optimal points ms ∧ Shows e.length points ms t := by
  obtain ⟨s, m, b, h2, h3, h4, h5, h6⟩ := points_of_trace he hf coin dims hs
  have hn : 0 < (rowsOf b).length := by
    rw [h5.length]
    exact Nat.div_pos h1 e.length_pos
  have hfit : (rowsOf b).length * e.length < 2 ^ 63 := by
    rw [h5.length]
    exact Nat.lt_of_le_of_lt (Nat.div_mul_le_self _ _) hl
  obtain ⟨reports, h7, h8, h9⟩ := sweep_describes (length_period hp) e.length_pos h6 (intervals_fit hf h5.length) 32 1 (by omega) (different_pos hn)
  have h10 : summarise e recs coin dims 0 = (reports, .done) := by
    rw [summarise_eq h2 h3 h4]
    unfold clusterings
    rw [if_neg (fun h => h rfl)]
    exact h7
  refine ⟨rowsOf b, reports.map Report.shown, h5, ?_, by rw [List.length_map, h8]; omega, ?_⟩
  · rw [h10]
    unfold printed
    rw [if_pos rfl]
    exact text_read reports
  · intro i t ht
    rw [List.getElem?_map] at ht
    obtain ⟨r, hr, rfl⟩ := Option.map_eq_some_iff.mp ht
    obtain ⟨hk, ⟨ms, hd⟩, _⟩ := h9 i r hr
    have hne : ms ≠ [] := by
      intro h
      have := hd.k
      rw [h, List.length_nil] at this
      omega
    exact ⟨ms, by rw [hd.k, hk], hd.nodup, hd.input, hd.optimal, shown_shows hd hfit e.length_pos (small_spread h6 hne hd.input)⟩

/-- **C111**: with the option `-k`, one table is read if there are that many different points, and none if not. -/
theorem C111_chosen_partial {e : Env} (he : e.Good) {recs : List Rec} (hf : Fits e recs) (hp : e.period ≠ 0) (hl : recs.length < 2 ^ 63) (coin : Nat → Bool) (dims k : BitVec 32)
    (hk : k ≠ 0) (hs : Sized e recs dims.toNat) :
    ∃ points, IsPoints e.length recs (fun d j => coin (j * dims.toNat + d)) dims.toNat points ∧
      (k.toNat ≤ different points → ∃ t ms, BbvText.clusterings (printed k (summarise e recs coin dims k)) = some [t] ∧ ms.length = k.toNat ∧ ms.Nodup ∧ (∀ m ∈ ms, m ∈ points) ∧
        Optimal points ms ∧ Shows e.length points ms t) ∧
      (different points < k.toNat → BbvText.clusterings (printed k (summarise e recs coin dims k)) = some []) := by
  obtain ⟨s, m, b, h2, h3, h4, h5, h6⟩ := points_of_trace he hf coin dims hs
  have hk0 : 0 < k.toNat := Nat.pos_of_ne_zero fun h => hk (BitVec.eq_of_toNat_eq h)
  have hfit : (rowsOf b).length * e.length < 2 ^ 63 := by
    rw [h5.length]
    exact Nat.lt_of_le_of_lt (Nat.div_mul_le_self _ _) hl
  refine ⟨rowsOf b, h5, fun hd => ?_, fun hd => ?_⟩
  · obtain ⟨r, ms, h7, h8, h9, _⟩ := onePam_describes (length_period hp) e.length_pos h6 (intervals_fit hf h5.length) hk0 hd
    have hne : ms ≠ [] := by
      intro h
      have := h9.k
      rw [h, List.length_nil] at this
      omega
    refine ⟨r.shown, ms, ?_, by rw [h9.k, h8], h9.nodup, h9.input, h9.optimal, shown_shows h9 hfit e.length_pos (small_spread h6 hne h9.input)⟩
    have h10 : summarise e recs coin dims k = ([r], .done) := by
      rw [summarise_eq h2 h3 h4]
      unfold clusterings
      rw [if_pos hk, h7]
    rw [h10]
    unfold printed
    rw [if_pos rfl]
    exact text_read [r]
  · have h10 : summarise e recs coin dims k = ([], .exit) := by
      rw [summarise_eq h2 h3 h4]
      unfold clusterings
      rw [if_pos hk, onePam_fails h6 hd]
    rw [h10]
    unfold printed
    rw [if_neg (by decide)]
    exact begun_read [] _

/-- The trace of ten instructions in intervals of four. -/
example (coin : Nat → Bool) : ∃ tables, BbvText.clusterings (printed 0 (summarise (plenty 4) sample coin 0 0)) = some tables :=
  let ⟨_, t, _, h, _⟩ := C111_trace_partial (plenty_good 4) sample_fits (by decide) (by decide) (by decide) coin 0 (sample_sized 0 (by decide))
  ⟨t, h⟩

/-- The text of two tables. -/
example : String.ofList (printed 0 (clusterings 4 [[3, 1, 0, 0], [3, 0, 0, 0]] 0)) =
    "Testing K=1\nCost: 1\nMedoids:\n0-3\t2\n\nTesting K=2\nCost: 0\nMedoids:\n0-3\t1\n4-7\t1\n\n" := by decide +kernel

/-- A run that asks for more medoids than there are different points. -/
example : String.ofList (printed 3 (clusterings 4 [[3, 1], [3, 0]] 3)) = "Testing K=3\n" := by decide +kernel

/-- **C111 is refuted for numbers from 2^63 on**: they are shown as negative numbers.  With a period of 2^63, which the option `-p` takes, the last instruction of the first interval
is one less than 2^63, but the second interval would start at -9223372036854775808. -/
theorem C111_sign_refuted : String.ofList (printed 2 (clusterings (2 ^ 63) [[1], [2]] 2)) =
    "Testing K=2\nCost: 0\nMedoids:\n0-9223372036854775807\t1\n-9223372036854775808--1\t1\n\n" := by decide +kernel

/-- **C111**, matrices: the text of a matrix, as the option `-v` shows it, is read back as its rows, with the entries as signed numbers; nothing out of bounds is read. -/
theorem C111_matrix {m : Matrix} {R C : Nat} {f : Nat → Nat → BitVec 64} (h : Holds m R C f) :
    ∃ t, m.print = .ok t ∧ BbvText.matrix t = some ((List.range R).map fun r => (List.range C).map fun c => (f r c).toInt) :=
  ⟨_, print_holds h, sheet_read f R C⟩

/-- A matrix of two rows. -/
example : ((Matrix.print { rows := 2, cols := 3, data := [1, 2, 3, 40, 0, -1] }).toOption.map String.ofList) = some "1\t2\t3\t\n40\t0\t-1\t\n" := by decide +kernel

end Bbv
