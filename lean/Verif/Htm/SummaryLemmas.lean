import Verif.Htm.Summary
import Verif.Htm.SpecSummary
import Verif.Htm.Real9Loop
import Verif.Htm.PropsTime
/-! The summary of `htmdecode -d`: counters and lines. -/
namespace Htm
open Htm.Spec

/-! ### Counters -/

theorem bump_fold (k : Counter) : ∀ (l : List Ev) (n : BitVec 32), (l.foldl (bump k) n).toNat = (n.toNat + counted k l) % 2 ^ 32
  | [], n => (Nat.mod_eq_of_lt n.isLt).symm
  | e :: l, n => by
    rw [List.foldl_cons, bump_fold k l]
    unfold counted
    rw [List.countP_cons]
    cases e with
    | count c =>
      show ((if c = k then n + 1 else n).toNat + _) % _ = _
      by_cases h : c = k
      · rw [if_pos h, if_pos (by exact decide_eq_true h), BitVec.toNat_add, Nat.mod_add_mod]
        congr 1
        show n.toNat + 1 + _ = _
        omega
      · rw [if_neg h, if_neg (by exact fun g => h (of_decide_eq_true g))]; rfl
    | _ => rfl

theorem stat_counted (r : Rd) (k : Counter) : (r.stat k).toNat = counted k r.out % 2 ^ 32 := by
  unfold Rd.stat
  rw [bump_fold, show (0 : BitVec 32).toNat = 0 from rfl, Nat.zero_add]

theorem cycles_fold : ∀ (l : List Ev) (n : BitVec 32), (l.foldl addCycles n).toNat = (n.toNat + ((cycles l).map (·.toNat)).sum) % 2 ^ 32
  | [], n => (Nat.mod_eq_of_lt n.isLt).symm
  | e :: l, n => by
    rw [List.foldl_cons, cycles_fold l]
    cases e with
    | cycles m =>
      show ((n + m).toNat + _) % _ = (n.toNat + (m.toNat + ((cycles l).map (·.toNat)).sum)) % _
      rw [BitVec.toNat_add, Nat.mod_add_mod, Nat.add_assoc]
    | _ => rfl

theorem cycleStat_sum (r : Rd) : r.cycleStat.toNat = ((cycles r.out).map (·.toNat)).sum % 2 ^ 32 := by
  unfold Rd.cycleStat
  rw [cycles_fold, show (0 : BitVec 32).toNat = 0 from rfl, Nat.zero_add]

theorem counted_counters (k : Counter) (l : List Ev) : counted k l = (counters l).count k := by
  induction l with
  | nil => rfl
  | cons e l ih =>
    have e1 : counted k (e :: l) = counted k l + counted k [e] := by
      unfold counted; rw [List.countP_cons, List.countP_cons, List.countP_nil, Nat.zero_add]
    have e2 : (counters (e :: l)).count k = (counters l).count k + (counters [e]).count k := by
      rw [show counters (e :: l) = counters [e] ++ counters l from counters_append [e] l, List.count_append, Nat.add_comm]
    rw [e1, e2, ih]
    congr 1
    cases e with
    | count c =>
      show List.countP _ [Ev.count c] = List.count k [c]
      rw [List.countP_cons, List.count_cons]
      by_cases h : c = k
      · rw [if_pos (by exact decide_eq_true h), if_pos (by exact beq_iff_eq.2 h)]; rfl
      · rw [if_neg (by exact fun g => h (of_decide_eq_true g)), if_neg (by exact fun g => h (beq_iff_eq.1 g))]; rfl
    | _ => rfl

theorem counted_insnEvents {k : Counter} (hk : ofInsn (.count k) = true) (l : List Ev) : counted k (insnEvents l) = counted k l := by
  induction l with
  | nil => rfl
  | cons e l ih =>
    unfold counted insnEvents at ih ⊢
    rw [List.filter_cons]
    split
    · rw [List.countP_cons, List.countP_cons, ih]
    · rename_i h
      rw [List.countP_cons, ih]
      cases e with
      | count c =>
        rw [if_neg]; · rfl
        intro g
        have : c = k := of_decide_eq_true g
        exact h (this ▸ hk)
      | _ => rfl

/-! ### Records processed -/

def processing (r : Rd) : Nat × Nat :=
  (counted .recordsProcessed r.out + (pending r).countP isStamp, counted .instructionsScanned r.out)

theorem counted_append (k : Counter) (a b : List Ev) : counted k (a ++ b) = counted k a + counted k b := List.countP_append

theorem counted_other {k : Counter} {e : Ev} (h : ∀ c, e = .count c → c ≠ k) : counted k [e] = 0 := by
  unfold counted
  rw [List.countP_cons, List.countP_nil, if_neg]
  cases e with
  | count c => exact fun g => h c rfl (of_decide_eq_true g)
  | _ => exact fun g => by cases g

theorem kept_processing (cf : Conf) : Kept cf processing where
  plain ha h hv := by
    obtain ⟨_, _, _, _, _, hout, hp⟩ := fetchInternal_some ha h
    unfold processing
    rw [hp, hout, List.countP_cons, if_neg (by rw [hv]; decide)]
    rfl
  stamp {_ _ r r1 r2 v b} ha h hv h2 := by
    obtain ⟨_, _, _, _, _, hout, hp⟩ := fetchInternal_some ha h
    have key : ∃ es, r2.out = r1.out ++ es ∧ pending r2 = pending r1 ∧ counted .recordsProcessed es = 1 ∧ counted .instructionsScanned es = 0 := by
      unfold Htm.stamp at h2
      split at h2
      · cases h2
      · cases h2
        exact ⟨_, rfl, rfl, rfl, rfl⟩
      · rename_i s _
        have h3 : r2 = { r1 with out := r1.out ++ ([Ev.count .recordsProcessed] ++ timeEvents s ++ (if cf.fn then [.stamp s] else [])) } :=
          ((Prod.mk.inj (Except.ok.inj h2)).2).symm
        refine ⟨[Ev.count .recordsProcessed] ++ timeEvents s ++ (if cf.fn then [.stamp s] else []), by rw [h3], by rw [h3]; rfl, ?_, ?_⟩ <;>
        · rw [counted_append, counted_append]
          have h4 : counted .recordsProcessed (if cf.fn then [.stamp s] else []) = 0 ∧ counted .instructionsScanned (if cf.fn then [.stamp s] else []) = 0 := by
            cases cf.fn <;> exact ⟨rfl, rfl⟩
          have h5 : counted .recordsProcessed (timeEvents s) = 0 ∧ counted .instructionsScanned (timeEvents s) = 0 := by
            unfold timeEvents
            split
            · split <;> exact ⟨rfl, rfl⟩
            · exact ⟨rfl, rfl⟩
          first | rw [h4.1, h5.1]; rfl | rw [h4.2, h5.2]; rfl
    obtain ⟨es, k1, k2, k3, k4⟩ := key
    unfold processing
    rw [k1, k2, hp, hout, counted_append, counted_append, k3, k4, List.countP_cons, if_pos hv]
    exact Prod.ext (by dsimp only; omega) rfl
  tell {r e} h := by
    unfold processing
    rw [show pending (r.tell e) = pending r from rfl, show (r.tell e).out = r.out ++ [e] from rfl, counted_append, counted_append,
      counted_other, counted_other]
    · rfl
    · rintro c rfl hc; subst hc; cases h
    · rintro c rfl hc; subst hc; cases h
  back hv hout hp := by
    unfold processing
    rw [hout, hp, List.countP_cons, if_neg (by rw [hv]; decide)]
    rfl

theorem records_processed (c : Conf) (eof : Bool) (bytes : List (BitVec 8)) (failing : Bool) (fill phantom : BitVec 64) {s : Dec} {r : Rd}
    (h : decode c eof bytes failing fill phantom = .ok (s, r)) :
    counted .recordsProcessed r.out = ((stream bytes failing eof fill phantom).countP fun v => decide (fld v 0 19 = 0xaceff)) + counted .instructionsScanned r.out := by
  have h1 := decode_spec c eof bytes failing fill phantom
  rw [h] at h1
  have hst : (fun v : BitVec 64 => decide (fld v 0 19 = 0xaceff)) = isStamp := by
    funext v
    unfold isStamp
    rw [Bool.eq_iff_iff, decide_eq_true_eq, beq_iff_eq]
    exact (u32_eq (v := v) (a := 0) (b := 19) (by omega) (by omega) (by omega) 0xaceff).symm
  have h2 := kept_decodeLoop (kept_processing c) (Q := fun x => (processing x).1 = (stream bytes failing eof fill phantom).countP isStamp + (processing x).2)
    (fun h1 h2 => by rw [h1]; exact h2)
    (fun {r} h1 => by
      have e : processing r.head = ((processing r).1 + 1, (processing r).2 + 1) := by
        unfold processing Rd.head
        refine Prod.ext ?_ ?_
        · show counted _ ((r.out ++ [_]) ++ [_]) + (pending r).countP isStamp = counted _ _ + (pending r).countP isStamp + 1
          rw [counted_append, counted_append, show counted .recordsProcessed [Ev.count .recordsProcessed] = 1 from rfl,
            show counted .recordsProcessed [Ev.count .instructionsScanned] = 0 from rfl]
          omega
        · show counted _ ((r.out ++ [_]) ++ [_]) = counted _ _ + 1
          rw [counted_append, counted_append, show counted .instructionsScanned [Ev.count .recordsProcessed] = 0 from rfl,
            show counted .instructionsScanned [Ev.count .instructionsScanned] = 1 from rfl]
      rw [e]
      dsimp only
      omega)
    ((start eof bytes failing fill phantom).left + 1) (between_start eof bytes failing fill phantom)
    (by
      show counted .recordsProcessed [] + (pending (start eof bytes failing fill phantom)).countP isStamp = _ + counted .instructionsScanned []
      rw [show pending (start eof bytes failing fill phantom) = stream bytes failing eof fill phantom from rfl]
      show 0 + _ = _ + 0
      omega) h
  have h3 : (processing r).1 = counted .recordsProcessed r.out := by
    unfold processing
    rw [h1.2]; rfl
  rw [← h3, h2, hst]
  rfl

/-! ### Instructions -/

theorem counts9_eq (prev : BitVec 64) (left : Bool) (i : Item9r) (k : Counter) :
    (counts9 prev left i).count k = [Counter.recordsProcessed, .instructionsScanned, .instructionsProcessed].count k + (ira9Counts i.segmented i.ira).count k +
      (dra9Counts i.segmented i.dra).count k + (jump9Counts prev left i).count k := by
  unfold counts9
  rw [List.count_append, List.count_append, List.count_append]

/-- Counters that do not depend on the flow of control. -/
theorem allCounts9_each {k : Counter} {p : Item9r → Nat} (hj : k ≠ .branchesAfterNonbranches ∧ k ≠ .interrupts)
    (hp : ∀ i : Item9r, [Counter.recordsProcessed, .instructionsScanned, .instructionsProcessed].count k + (ira9Counts i.segmented i.ira).count k +
      (dra9Counts i.segmented i.dra).count k = p i) :
    ∀ (items : List Item9r) (prev : BitVec 64) (left : Bool), (allCounts9 prev left items).count k = (items.map p).sum
  | [], _, _ => rfl
  | i :: l, prev, left => by
    rw [allCounts9, List.count_append, allCounts9_each hj hp l, counts9_eq, hp i, List.map_cons, List.sum_cons]
    have : (jump9Counts prev left i).count k = 0 := by
      unfold jump9Counts
      split
      · split
        · rw [List.count_cons, List.count_nil, if_neg (by simpa using fun h => hj.1 h.symm)]
        · split
          · rw [List.count_cons, List.count_nil, if_neg (by simpa using fun h => hj.2 h.symm)]
          · rfl
      · rfl
    rw [this, Nat.add_zero]

theorem sum_ones {α : Type} (l : List α) : (l.map fun _ => 1).sum = l.length := by
  induction l with
  | nil => rfl
  | cons a l ih => rw [List.map_cons, List.sum_cons, ih, List.length_cons, Nat.add_comm]

theorem sum_zeros {α : Type} (l : List α) : (l.map fun _ => 0).sum = 0 := by
  induction l with
  | nil => rfl
  | cons a l ih => rw [List.map_cons, List.sum_cons, ih]

theorem sum_countP {α : Type} (q : α → Bool) (l : List α) : (l.map fun i => if q i then 1 else 0).sum = l.countP q := by
  induction l with
  | nil => rfl
  | cons a l ih => rw [List.map_cons, List.sum_cons, ih, List.countP_cons, Nat.add_comm]

theorem interrupts9_count : ∀ (items : List Item9r) (prev : BitVec 64) (left : Bool),
    (allCounts9 prev left items).count .interrupts = interrupts9 prev left items
  | [], _, _ => rfl
  | i :: l, prev, left => by
    rw [allCounts9, List.count_append, interrupts9_count l, interrupts9, counts9_eq]
    have h1 : (ira9Counts i.segmented i.ira).count .interrupts = 0 := by cases i.segmented <;> cases i.ira <;> rfl
    have h2 : (dra9Counts i.segmented i.dra).count .interrupts = 0 := by cases i.segmented <;> cases i.dra <;> rfl
    rw [h1, h2]
    congr 1
    unfold jump9Counts
    cases i.elsewhere prev <;> cases left <;> cases vector (i.addr prev) <;> rfl

theorem branches9_count : ∀ (items : List Item9r) (prev : BitVec 64) (left : Bool),
    (allCounts9 prev left items).count .branchesAfterNonbranches = branches9 prev left items
  | [], _, _ => rfl
  | i :: l, prev, left => by
    rw [allCounts9, List.count_append, branches9_count l, branches9, counts9_eq]
    have h1 : (ira9Counts i.segmented i.ira).count .branchesAfterNonbranches = 0 := by cases i.segmented <;> cases i.ira <;> rfl
    have h2 : (dra9Counts i.segmented i.dra).count .branchesAfterNonbranches = 0 := by cases i.segmented <;> cases i.dra <;> rfl
    rw [h1, h2]
    congr 1
    unfold jump9Counts
    cases i.elsewhere prev <;> cases left <;> cases vector (i.addr prev) <;> rfl

/-- Instructions with a page of this size. -/
theorem pages9_count (n : Nat) (items : List Item9r) (prev : BitVec 64) (left : Bool) :
    (allCounts9 prev left items).count (.insnPages n) = pageCount n items := by
  rw [allCounts9_each (p := fun i => if decide (i.ira.map irSize = some n) then 1 else 0) ⟨by simp, by simp⟩]
  · exact sum_countP _ _
  · intro i
    have h2 : (dra9Counts i.segmented i.dra).count (.insnPages n) = 0 := by cases i.segmented <;> cases i.dra <;> rfl
    rw [h2]
    cases i.ira with
    | none => rfl
    | some v =>
      show 0 + List.count _ [_, _, _] + 0 = _
      rw [List.count_cons]
      by_cases h : irSize v = n
      · subst h
        cases i.segmented <;> simp [List.count_cons]
      · cases i.segmented <;> simp [h]

/-- Instructions with a virtual segment of this size. -/
theorem segments9_count (n : Nat) (hn : n < 4) (items : List Item9r) (prev : BitVec 64) (left : Bool) :
    (allCounts9 prev left items).count (.segment (BitVec.ofNat 32 n)) = items.countP fun i => i.segmented && decide (i.dra.map (fun v => fld v 0 1) = some n) := by
  rw [allCounts9_each (p := fun i => if i.segmented && decide (i.dra.map (fun v => fld v 0 1) = some n) then 1 else 0) ⟨by simp, by simp⟩]
  · exact sum_countP _ _
  · intro i
    have h2 : (ira9Counts i.segmented i.ira).count (.segment (BitVec.ofNat 32 n)) = 0 := by cases i.segmented <;> cases i.ira <;> simp [ira9Counts]
    rw [h2]
    cases i.segmented with
    | false => cases i.dra <;> rfl
    | true =>
      cases i.dra with
      | none => rfl
      | some v =>
        show 0 + 0 + List.count _ [_, _] = _
        rw [List.count_cons]
        have hv : fld v 0 1 < 4 := fld_lt v 0 1
        by_cases h : fld v 0 1 = n
        · subst h
          simp
        · have : BitVec.ofNat 32 (fld v 0 1) ≠ BitVec.ofNat 32 n := by
            intro g
            have := congrArg BitVec.toNat g
            rw [BitVec.toNat_ofNat, BitVec.toNat_ofNat, Nat.mod_eq_of_lt (by omega), Nat.mod_eq_of_lt (by omega)] at this
            exact h this
          simp [h, this]

/-! ### Lines -/

theorem textLines_line (l rest : Text) (h : ∀ c ∈ l, c ≠ '\n') : textLines (l ++ '\n' :: rest) = l :: textLines rest := by
  induction l with
  | nil => rw [List.nil_append, textLines, if_pos rfl]
  | cons c l ih =>
    rw [List.cons_append, textLines, if_neg (h c List.mem_cons_self), ih fun x hx => h x (List.mem_cons_of_mem _ hx)]

theorem entryOf_line (n : Nat) (label value : Text) (hl : ∀ c ∈ label, c ≠ ':') (hh : ∀ c, label.head? = some c → c ≠ ' ') (hn : label ≠ []) :
    entryOf (List.replicate n ' ' ++ label ++ [' ', ':', ' '] ++ value) = (label, value) := by
  have e : List.replicate n ' ' ++ label ++ [' ', ':', ' '] ++ value = (List.replicate n ' ' ++ (label ++ [' '])) ++ (':' :: ' ' :: value) := by simp
  have hp : ∀ c ∈ List.replicate n ' ' ++ (label ++ [' ']), decide (c ≠ ':') = true := by
    intro c hc
    simp only [List.mem_append, List.mem_replicate, List.mem_singleton] at hc
    refine decide_eq_true ?_
    rcases hc with ⟨_, rfl⟩ | hc | rfl
    · decide
    · exact hl c hc
    · decide
  unfold entryOf
  rw [e, List.takeWhile_append_of_pos hp, List.dropWhile_append_of_pos hp]
  have h1 : (':' :: ' ' :: value).takeWhile (fun c => decide (c ≠ ':')) = [] := by rw [List.takeWhile_cons, if_neg (by decide)]
  have h2 : (':' :: ' ' :: value).dropWhile (fun c => decide (c ≠ ':')) = ':' :: ' ' :: value := by rw [List.dropWhile_cons, if_neg (by decide)]
  rw [h1, h2, List.append_nil, List.dropWhile_append_of_pos (by
    intro c hc
    exact decide_eq_true (List.mem_replicate.1 hc).2)]
  have h3 : (label ++ [' ']).dropWhile (fun c => decide (c = ' ')) = label ++ [' '] := by
    cases label with
    | nil => exact absurd rfl hn
    | cons c l => rw [List.cons_append, List.dropWhile_cons, if_neg (by
        have := hh c rfl
        simpa using this)]
  rw [h3, List.dropLast_concat]
  rfl

/-- A label that can be read back. -/
def goodLabel (s : String) : Bool :=
  s.toList.all (fun c => decide (c ≠ ':') && decide (c ≠ '\n')) && decide (s.toList ≠ []) && decide (s.toList.head? ≠ some ' ')

theorem entries_of (tlb : Text) : ∀ (rows : List (String × List Char)), (∀ p ∈ rows, goodLabel p.1 = true ∧ ∀ c ∈ p.2, c ≠ '\n') →
    ((textLines (rows.flatMap statLine ++ tlb)).take rows.length).map entryOf = rows.map fun p => (p.1.toList, p.2)
  | [], _ => rfl
  | p :: rows, h => by
    obtain ⟨h1, h2⟩ := h p List.mem_cons_self
    unfold goodLabel at h1
    simp only [Bool.and_eq_true, List.all_eq_true, decide_eq_true_eq] at h1
    obtain ⟨⟨h1, h3⟩, h4⟩ := h1
    have e : (p :: rows).flatMap statLine ++ tlb =
        (List.replicate (48 - p.1.toList.length) ' ' ++ p.1.toList ++ [' ', ':', ' '] ++ p.2) ++ '\n' :: (rows.flatMap statLine ++ tlb) := by
      rw [List.flatMap_cons]
      unfold statLine
      simp only [List.append_assoc, List.cons_append, List.nil_append]
    rw [e, textLines_line]
    · rw [List.length_cons, List.take_succ_cons, List.map_cons, List.map_cons, entries_of tlb rows fun q hq => h q (List.mem_cons_of_mem _ hq),
        entryOf_line _ _ _ (fun c hc => (h1 c hc).1) (fun c hc hc2 => h4 (by rw [hc, hc2])) h3]
    · intro c hc
      simp only [List.mem_append, List.mem_replicate, List.mem_cons, List.not_mem_nil, or_false] at hc
      rcases hc with ((⟨_, rfl⟩ | hc) | rfl | rfl | rfl) | hc
      · decide
      · exact (h1 c hc).2
      · decide
      · decide
      · decide
      · exact h2 c hc

end Htm
