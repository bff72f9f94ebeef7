import Verif.Dis.SpecSymbols

/-! # Properties of symbol lookup: C42, C66 -/

namespace Sym
open SymSpec

/-! ## Helper lemmas -/

theorem lt_of_lt_of_le' {a b c : BitVec 64} (h : a < b) (h' : b ≤ c) : a < c := by
  rw [BitVec.lt_def] at *; rw [BitVec.le_def] at h'; omega
theorem lt_of_le_of_lt' {a b c : BitVec 64} (h : a ≤ b) (h' : b < c) : a < c := by
  rw [BitVec.lt_def] at *; rw [BitVec.le_def] at h; omega

theorem sorted_le : ∀ (l : List Symbol), Sorted l → ∀ (i j : Nat) (a b : Symbol), i ≤ j → l[i]? = some a → l[j]? = some b →
    a.value ≤ b.value
  | [], _, _, _, _, _, _, h, _ => by simp at h
  | [x], _, i, j, a, b, _, ha, hb => by
    have hi : i = 0 := by
      by_cases h : i = 0
      · exact h
      · rw [List.getElem?_eq_none (by simp; omega)] at ha; cases ha
    have hj : j = 0 := by
      by_cases h : j = 0
      · exact h
      · rw [List.getElem?_eq_none (by simp; omega)] at hb; cases hb
    subst hi hj
    cases ha; cases hb
    exact BitVec.le_refl _
  | x :: y :: l, hs, i, j, a, b, hij, ha, hb => by
    cases j with
    | zero =>
      have : i = 0 := by omega
      subst this
      cases ha; cases hb
      exact BitVec.le_refl _
    | succ j =>
      cases i with
      | zero =>
        cases ha
        exact BitVec.le_trans hs.1 (sorted_le (y :: l) hs.2 0 j y b (by omega) rfl hb)
      | succ i => exact sorted_le (y :: l) hs.2 i j a b (by omega) ha hb

/-- The search keeps the symbol looked for between its bounds. -/
theorem search_ok (syms : List Symbol) (addr : BitVec 64) (hs : Sorted syms) : ∀ fuel left right (a : Symbol),
    right ≤ left + 1 + fuel → left < right → right ≤ syms.length → syms[left]? = some a → a.value ≤ addr →
    (∀ (j : Nat) (b : Symbol), right ≤ j → syms[j]? = some b → addr < b.value) ∨ (right = syms.length) →
    ∃ (i : Nat) (s : Symbol), search syms addr fuel left right = some i ∧ syms[i]? = some s ∧ s.value ≤ addr ∧
      ∀ (j : Nat) (b : Symbol), syms[j]? = some b → b.value ≤ addr → b.value ≤ s.value
  | 0, left, right, a, hf, hl, hr, ha, hle, hb => by
    refine ⟨left, a, rfl, ha, hle, fun j b hj hba => ?_⟩
    by_cases hjl : j ≤ left
    · exact sorted_le syms hs j left b a hjl hj ha
    · exfalso
      rcases hb with hb | hb
      · exact absurd hba (BitVec.not_le.mpr (hb j b (by omega) hj))
      · rw [List.getElem?_eq_none (by omega)] at hj; cases hj
  | fuel + 1, left, right, a, hf, hl, hr, ha, hle, hb => by
    rw [search]
    by_cases hc : left + 1 < right
    · rw [if_pos hc]
      have hm : (right + left) / 2 < syms.length := by omega
      obtain ⟨s, hsm⟩ : ∃ s, syms[(right + left) / 2]? = some s := ⟨_, List.getElem?_eq_getElem hm⟩
      rw [hsm]
      dsimp only
      by_cases h1 : s.value > addr
      · rw [if_pos h1]
        refine search_ok syms addr hs fuel left _ a (by omega) (by omega) (by omega) ha hle (Or.inl ?_)
        intro j b hj hjb
        exact lt_of_lt_of_le' h1 (sorted_le syms hs _ j s b hj hsm hjb)
      · rw [if_neg h1]
        by_cases h2 : s.value < addr
        · rw [if_pos h2]
          exact search_ok syms addr hs fuel _ right s (by omega) (by omega) hr hsm (BitVec.le_of_lt h2) hb
        · rw [if_neg h2]
          have e : s.value = addr := BitVec.le_antisymm (BitVec.not_lt.mp h1) (BitVec.not_lt.mp h2)
          exact ⟨_, s, rfl, hsm, e ▸ BitVec.le_refl _, fun j b _ h => e ▸ h⟩
    · rw [if_neg hc]
      refine ⟨left, a, rfl, ha, hle, fun j b hj hba => ?_⟩
      by_cases hjl : j ≤ left
      · exact sorted_le syms hs j left b a hjl hj ha
      · exfalso
        rcases hb with hb | hb
        · exact absurd hba (BitVec.not_le.mpr (hb j b (by omega) hj))
        · rw [List.getElem?_eq_none (by omega)] at hj; cases hj

theorem compact_inv (syms : List Symbol) : ∀ n, n ≤ syms.length →
    let x := (List.range n).foldl compactStep (syms, 0)
    x.2 ≤ n ∧ x.1.length = syms.length ∧ x.1.drop n = syms.drop n ∧
      x.1.take x.2 = (syms.take n).filter (fun s => decide (s.value ≥ kernelStart))
  | 0, _ => by simp
  | n + 1, hn => by
    obtain ⟨i1, i2, i3, i4⟩ := compact_inv syms n (by omega)
    rw [List.range_succ, List.foldl_append]
    generalize (List.range n).foldl compactStep (syms, 0) = x at i1 i2 i3 i4
    obtain ⟨a, d⟩ := x
    dsimp only at i1 i2 i3 i4
    have hat : a[n]? = syms[n]? := by
      have := congrArg (fun l => l[0]?) i3
      simpa using this
    have hlt : n < syms.length := by omega
    have hsome : syms[n]? = some syms[n] := List.getElem?_eq_getElem hlt
    have ht : syms.take (n + 1) = syms.take n ++ [syms[n]] := by rw [List.take_succ, hsome]; rfl
    have hdrop : ∀ l : List Symbol, l.drop (n + 1) = (l.drop n).drop 1 := by intro l; rw [List.drop_drop]
    show (compactStep (a, d) n).2 ≤ n + 1 ∧ (compactStep (a, d) n).1.length = syms.length ∧
      (compactStep (a, d) n).1.drop (n + 1) = syms.drop (n + 1) ∧
      (compactStep (a, d) n).1.take (compactStep (a, d) n).2 = (syms.take (n + 1)).filter _
    have hstep : compactStep (a, d) n = if syms[n].value ≥ kernelStart then (a.set d syms[n], d + 1) else (a, d) := by
      unfold compactStep
      dsimp only
      rw [hat, hsome]
    rw [hstep, ht, List.filter_append, ← i4]
    by_cases hk : syms[n].value ≥ kernelStart
    · rw [if_pos hk]
      dsimp only
      refine ⟨by omega, by simpa using i2, ?_, ?_⟩
      · rw [List.drop_set_of_lt (by omega), hdrop, i3, ← hdrop]
      · rw [List.filter_cons_of_pos (by simpa using hk), List.filter_nil]
        rw [List.take_succ, List.take_set_of_le (Nat.le_refl _), List.getElem?_set_self (by omega)]
        rfl
    · rw [if_neg hk]
      dsimp only
      refine ⟨by omega, i2, by rw [hdrop, i3, ← hdrop], ?_⟩
      rw [List.filter_cons_of_neg (by simpa using hk), List.filter_nil, List.append_nil]

theorem nearest_inv (addr : BitVec 64) : ∀ (ts : List Table) (best : Option Table),
    (∀ b, best = some b → b.base ≤ addr) →
    (ts.foldl (nearestStep addr) best = none ↔ best = none ∧ ∀ t ∈ ts, addr < t.base) ∧
    ∀ r, ts.foldl (nearestStep addr) best = some r →
      (r ∈ ts ∨ best = some r) ∧ r.base ≤ addr ∧ (∀ u ∈ ts, u.base ≤ addr → u.base ≤ r.base) ∧
      (∀ b, best = some b → b.base ≤ r.base)
  | [], best, hb => by
    refine ⟨by simp, fun r hr => ⟨Or.inr hr, hb r hr, by simp, fun b h => ?_⟩⟩
    rw [List.foldl_nil, h] at hr
    cases hr
    exact BitVec.le_refl _
  | t :: ts, best, hb => by
    rw [List.foldl_cons]
    by_cases h1 : t.base > addr
    · have e : nearestStep addr best t = best := by unfold nearestStep; rw [if_pos h1]
      rw [e]
      obtain ⟨i1, i2⟩ := nearest_inv addr ts best hb
      refine ⟨?_, fun r hr => ?_⟩
      · rw [i1]
        constructor
        · rintro ⟨a, b⟩
          refine ⟨a, fun u hu => ?_⟩
          rcases List.mem_cons.mp hu with rfl | hu
          · exact h1
          · exact b u hu
        · rintro ⟨a, b⟩
          exact ⟨a, fun u hu => b u (List.mem_cons_of_mem _ hu)⟩
      · obtain ⟨j1, j2, j3, j4⟩ := i2 r hr
        refine ⟨j1.imp (List.mem_cons_of_mem _) id, j2, fun u hu h => ?_, j4⟩
        rcases List.mem_cons.mp hu with rfl | hu
        · exact absurd h (BitVec.not_le.mpr h1)
        · exact j3 u hu h
    · have h1' : t.base ≤ addr := BitVec.not_lt.mp h1
      obtain ⟨b', e, hb1, hb2, hb3⟩ : ∃ b', nearestStep addr best t = some b' ∧ (b' = t ∨ best = some b') ∧
          t.base ≤ b'.base ∧ ∀ b, best = some b → b.base ≤ b'.base := by
        unfold nearestStep
        rw [if_neg h1]
        cases best with
        | none => exact ⟨t, rfl, Or.inl rfl, BitVec.le_refl _, fun b h => by cases h⟩
        | some b =>
          dsimp only
          by_cases h2 : t.base > b.base
          · rw [if_pos h2]
            exact ⟨t, rfl, Or.inl rfl, BitVec.le_refl _, fun b' h => by cases h; exact BitVec.le_of_lt h2⟩
          · rw [if_neg h2]
            exact ⟨b, rfl, Or.inr rfl, BitVec.not_lt.mp h2, fun b' h => by cases h; exact BitVec.le_refl _⟩
      have hb' : b'.base ≤ addr := by
        rcases hb1 with rfl | h
        · exact h1'
        · exact hb _ h
      rw [e]
      obtain ⟨i1, i2⟩ := nearest_inv addr ts (some b') (fun b h => by cases h; exact hb')
      refine ⟨?_, fun r hr => ?_⟩
      · rw [i1]
        constructor
        · rintro ⟨a, -⟩; cases a
        · rintro ⟨-, b⟩
          exact absurd h1' (BitVec.not_le.mpr (b t (by simp)))
      · obtain ⟨j1, j2, j3, j4⟩ := i2 r hr
        have j5 := j4 b' rfl
        refine ⟨?_, j2, fun u hu h => ?_, fun b h => BitVec.le_trans (hb3 b h) j5⟩
        · rcases j1 with h | h
          · exact Or.inl (List.mem_cons_of_mem _ h)
          · cases h
            rcases hb1 with rfl | h
            · exact Or.inl (by simp)
            · exact Or.inr h
        · rcases List.mem_cons.mp hu with rfl | hu
          · exact BitVec.le_trans hb2 j5
          · exact j3 u hu h

/-! ## C42 -/

/-- C42. In every sorted table and for every address, the lookup finds nothing exactly if the address is outside the range
of the symbols, and otherwise a symbol with the greatest address not above it; it never reads outside the table. -/
theorem C42_lookup (syms : List Symbol) (addr : BitVec 64) (hs : Sorted syms) :
    (Outside syms addr ∧ symfind syms addr = .none) ∨
    (¬ Outside syms addr ∧ ∃ s, symfind syms addr = .sym s ∧ Closest syms addr s) := by
  cases hf : syms.head? with
  | none =>
    have : syms = [] := by simpa using hf
    subst this
    exact Or.inl ⟨Or.inl (fun s h => by cases h), rfl⟩
  | some first =>
    have hne : syms ≠ [] := by intro h; rw [h] at hf; cases hf
    obtain ⟨last, hl⟩ : ∃ last, syms.getLast? = some last := ⟨_, List.getLast?_eq_some_getLast hne⟩
    have h0 : syms[0]? = some first := by rw [← List.head?_eq_getElem?]; exact hf
    have hn : syms[syms.length - 1]? = some last := by rw [← List.getLast?_eq_getElem?]; exact hl
    have hlen : 0 < syms.length := List.length_pos_iff.mpr hne
    have hmem : ∀ s ∈ syms, first.value ≤ s.value ∧ s.value ≤ last.value := by
      intro s h
      obtain ⟨i, hi⟩ := List.mem_iff_getElem?.mp h
      have hlt : i < syms.length := by
        by_cases h : i < syms.length
        · exact h
        · rw [List.getElem?_eq_none (by omega)] at hi; cases hi
      exact ⟨sorted_le syms hs 0 i _ _ (by omega) h0 hi, sorted_le syms hs i _ _ _ (by omega) hi hn⟩
    have hfm : first ∈ syms := List.mem_of_getElem? h0
    have hlm : last ∈ syms := List.mem_of_getElem? hn
    unfold symfind
    rw [hf, hl]
    dsimp only
    by_cases ho : addr < first.value ∨ addr > last.value
    · rw [if_pos ho]
      refine Or.inl ⟨?_, rfl⟩
      rcases ho with h | h
      · exact Or.inl fun s hs => lt_of_lt_of_le' h (hmem s hs).1
      · exact Or.inr fun s hs => lt_of_le_of_lt' (hmem s hs).2 h
    · rw [if_neg ho]
      have h1 : first.value ≤ addr := BitVec.not_lt.mp fun h => ho (Or.inl h)
      have h2 : addr ≤ last.value := BitVec.not_lt.mp fun h => ho (Or.inr h)
      obtain ⟨i, s, e1, e2, e3, e4⟩ := search_ok syms addr hs syms.length 0 syms.length first (by omega) hlen (Nat.le_refl _)
        h0 h1 (Or.inr rfl)
      rw [e1]
      dsimp only
      rw [e2]
      refine Or.inr ⟨?_, s, rfl, List.mem_of_getElem? e2, e3, fun t ht => ?_⟩
      · rintro (h | h)
        · exact absurd h1 (BitVec.not_le.mpr (h first hfm))
        · exact absurd h2 (BitVec.not_le.mpr (h last hlm))
      · obtain ⟨j, hj⟩ := List.mem_iff_getElem?.mp ht
        exact e4 j t hj

/-- C42, with the table of a kernel image: whatever sorts the symbols, only those of the kernel's address range are found,
the closest of them. -/
theorem C42_kernel (q : List Symbol → List Symbol) (hq : Sorts q) (syms : List Symbol) (addr : BitVec 64) :
    toSort kernelStart syms = syms.filter (fun s => decide (kernelStart ≤ s.value)) ∧
    ∀ s, symfind (q (toSort kernelStart syms)) addr = .sym s →
      Closest (syms.filter (fun s => decide (kernelStart ≤ s.value))) addr s := by
  have e : toSort kernelStart syms = syms.filter (fun s => decide (kernelStart ≤ s.value)) := by
    obtain ⟨-, -, -, h⟩ := compact_inv syms syms.length (Nat.le_refl _)
    unfold toSort compact
    rw [if_pos rfl]
    refine h.trans ?_
    rw [List.take_length]
  refine ⟨e, fun s h => ?_⟩
  rw [e] at h
  obtain ⟨hp, hs⟩ := hq (syms.filter (fun s => decide (kernelStart ≤ s.value)))
  rcases C42_lookup _ addr hs with ⟨-, h'⟩ | ⟨-, s', h', c⟩
  · rw [h] at h'; cases h'
  · rw [h] at h'
    cases h'
    exact ⟨hp.mem_iff.mp c.1, c.2.1, fun t ht => c.2.2 t (hp.mem_iff.mpr ht)⟩

/-- There is a function that sorts, and a table with symbols of modules below those of the kernel. -/
example : Sorted [⟨0xc000000000000000, "_start"⟩, ⟨0xc000000000000100, "a"⟩, ⟨0xc000000000000100, "b"⟩,
      ⟨0xc000000000000400, "c"⟩] ∧
    symfind [⟨0xc000000000000000, "_start"⟩, ⟨0xc000000000000100, "a"⟩, ⟨0xc000000000000100, "b"⟩,
      ⟨0xc000000000000400, "c"⟩] 0xc000000000000124 = .sym ⟨0xc000000000000100, "b"⟩ ∧
    toSort kernelStart [⟨0x1234, "crc"⟩, ⟨0xc000000000000100, "a"⟩, ⟨0x7777, "crc2"⟩, ⟨0xc000000000000000, "_start"⟩] =
      [⟨0xc000000000000100, "a"⟩, ⟨0xc000000000000000, "_start"⟩] := by
  refine ⟨⟨by decide, by decide, by decide, trivial⟩, by decide, by decide⟩

/-- The function given to `qsort` is not a comparison function: it never says "less", so what `qsort` does with it is
undefined by the language; that the table is sorted rests on how the C library happens to call it. -/
theorem C42_comparator_refuted : ¬ Comparison symcmp := by
  intro h
  have := (h ⟨1, "b"⟩ ⟨0, "a"⟩).mp (by decide)
  exact absurd this (by decide)

theorem sorted_of_pairwise : ∀ l : List Symbol, l.Pairwise (fun a b => a.value ≤ b.value) → Sorted l
  | [], _ => trivial
  | [_], _ => trivial
  | a :: b :: l, h => by
    rw [List.pairwise_cons] at h
    exact ⟨h.1 b (by simp), sorted_of_pairwise (b :: l) h.2⟩

theorem symcmp_le (a b : Symbol) : decide (symcmp a b ≤ 0) = true ↔ a.value ≤ b.value := by
  unfold symcmp
  by_cases h : a.value > b.value
  · rw [if_pos h]
    exact ⟨fun h' => absurd h' (by decide), fun h' => absurd h' (BitVec.not_le.mpr h)⟩
  · rw [if_neg h]
    exact ⟨fun _ => BitVec.not_lt.mp h, fun _ => by decide⟩

/-- C42, what can be said of the sort all the same: with a library whose `qsort` is a merge sort, which asks only whether an
element of the former half may stay before one of the latter half (the result is not positive), the table does get sorted by
address, and holds the same symbols. -/
theorem C42_merge_partial : Sorts (fun l => l.mergeSort (fun a b => decide (symcmp a b ≤ 0))) := by
  intro l
  refine ⟨List.mergeSort_perm l _, sorted_of_pairwise _ ?_⟩
  refine List.Pairwise.imp (fun {a b} h => (symcmp_le a b).mp h) (List.pairwise_mergeSort ?_ ?_ l)
  · intro a b c h1 h2
    exact (symcmp_le a c).mpr (BitVec.le_trans ((symcmp_le a b).mp h1) ((symcmp_le b c).mp h2))
  · intro a b
    rw [Bool.or_eq_true, symcmp_le, symcmp_le]
    exact BitVec.le_total _ _

/-- A table that is not sorted, and sorted. -/
example : ¬ Sorted [⟨0x200, "b"⟩, ⟨0x100, "a"⟩, ⟨0x200, "c"⟩] ∧
    (fun l => l.mergeSort (fun a b => decide (symcmp a b ≤ 0))) [⟨0x200, "b"⟩, ⟨0x100, "a"⟩, ⟨0x200, "c"⟩] =
      [⟨0x100, "a"⟩, ⟨0x200, "b"⟩, ⟨0x200, "c"⟩] := by
  refine ⟨fun h => absurd h.1 (by decide), by simp [List.mergeSort, List.MergeSort.Internal.splitInTwo, List.merge, symcmp]⟩

/-- An address in the body of the last function of the table is not found. -/
theorem C42_last_refuted : ∃ (syms : List Symbol) (addr : BitVec 64) (s : Symbol), Sorted syms ∧ Closest syms addr s ∧
    symfind syms addr = .none := by
  refine ⟨[⟨0x100, "first"⟩, ⟨0x200, "last"⟩], 0x204, ⟨0x200, "last"⟩, ⟨by decide, trivial⟩, ⟨by decide, by decide, ?_⟩,
    by decide⟩
  intro t ht _
  simp only [List.mem_cons, List.not_mem_nil, or_false] at ht
  rcases ht with rfl | rfl <;> decide

/-! ## C66 -/

/-- C66. For every list of symbol tables and every address, the name printed is that of a symbol of the table whose mapping
starts closest below the address, the closest one below the address in it, and the address is the start of the table's file
plus the symbol plus the distance printed. -/
theorem C66_attribution (tables : List Table) (addr : BitVec 64) (hs : ∀ t ∈ tables, Sorted t.syms) (name : String)
    (dist : BitVec 64) (h : printAddress tables addr = some (name, dist)) :
    ∃ t s, Nearest tables addr t ∧ Closest t.syms (addr - t.offset) s ∧ s.name = name ∧
      addr = t.offset + s.value + dist := by
  unfold printAddress symfindIn at h
  obtain ⟨-, i2⟩ := nearest_inv addr tables none (fun b h => by cases h)
  unfold nearest at h
  generalize tables.foldl (nearestStep addr) none = r at h i2
  cases r with
  | none => cases h
  | some t =>
    obtain ⟨j1, j2, j3, -⟩ := i2 t rfl
    have hm : t ∈ tables := by
      rcases j1 with h | h
      · exact h
      · cases h
    dsimp only at h
    rcases C42_lookup t.syms (addr - t.offset) (hs t hm) with ⟨-, e⟩ | ⟨-, s, e, c⟩
    · rw [e] at h; cases h
    · rw [e] at h
      dsimp only at h
      obtain ⟨rfl, rfl⟩ := Prod.mk.inj (Option.some.inj h)
      refine ⟨t, s, ⟨hm, j2, j3⟩, c, rfl, ?_⟩
      rw [BitVec.add_assoc, BitVec.add_comm s.value, BitVec.sub_add_cancel, BitVec.add_comm, BitVec.sub_add_cancel]

/-- Nothing is printed besides the address only if no table starts at or below it, or the address is outside the symbols of
that table. -/
theorem C66_nothing (tables : List Table) (addr : BitVec 64) (hs : ∀ t ∈ tables, Sorted t.syms)
    (h : printAddress tables addr = none) :
    (∀ t ∈ tables, addr < t.base) ∨ ∃ t, Nearest tables addr t ∧ Outside t.syms (addr - t.offset) := by
  unfold printAddress symfindIn at h
  obtain ⟨i1, i2⟩ := nearest_inv addr tables none (fun b h => by cases h)
  unfold nearest at h
  generalize tables.foldl (nearestStep addr) none = r at h i1 i2
  cases r with
  | none => exact Or.inl (i1.mp rfl).2
  | some t =>
    obtain ⟨j1, j2, j3, -⟩ := i2 t rfl
    have hm : t ∈ tables := by
      rcases j1 with h | h
      · exact h
      · cases h
    dsimp only at h
    rcases C42_lookup t.syms (addr - t.offset) (hs t hm) with ⟨o, -⟩ | ⟨-, s, e, -⟩
    · exact Or.inr ⟨t, ⟨hm, j2, j3⟩, o⟩
    · rw [e] at h; cases h

/-- Every table made from the memory map starts where an executable mapping starts, and is counted from there, except for
that of the first one. -/
theorem memMap_bases : ∀ (ms : List Mapping) (first : Bool) (ts ts' : List Table), memMap first ts ms = some ts' →
    ∀ t ∈ ts', t ∈ ts ∨ ∃ m ∈ ms, m.exec = true ∧ m.syms = some t.syms ∧ t.base = m.start ∧ (t.offset = 0 ∨ t.offset = m.start)
  | [], first, ts, ts', h, t, ht => by cases h; exact Or.inl ht
  | m :: ms, first, ts, ts', h, t, ht => by
    rw [memMap] at h
    split at h
    · rename_i he
      split at h
      · exact (memMap_bases ms _ _ _ h t ht).imp id fun ⟨m', hm, r⟩ => ⟨m', List.mem_cons_of_mem _ hm, r⟩
      · rename_i syms hsy
        split at h
        · rcases memMap_bases ms _ _ _ h t ht with hx | ⟨m', hm, r⟩
          · rcases List.mem_append.mp hx with hx | hx
            · exact Or.inl hx
            · rw [List.mem_singleton] at hx
              subst hx
              refine Or.inr ⟨m, by simp, he, hsy, rfl, ?_⟩
              cases first
              · exact Or.inr rfl
              · exact Or.inl rfl
          · exact Or.inr ⟨m', List.mem_cons_of_mem _ hm, r⟩
        · cases h
    · exact (memMap_bases ms _ _ _ h t ht).imp id fun ⟨m', hm, r⟩ => ⟨m', List.mem_cons_of_mem _ hm, r⟩

/-- C66, from the memory map on: a name is only printed for an address at or above the start of an executable mapping of a
file with that symbol. -/
theorem C66_mapped_partial (ms : List Mapping) (tables : List Table) (h : tablesOf ms = some tables)
    (hs : ∀ t ∈ tables, Sorted t.syms) (addr : BitVec 64) (name : String) (dist : BitVec 64)
    (hp : printAddress tables addr = some (name, dist)) :
    ∃ m ∈ ms, m.exec = true ∧ m.start ≤ addr ∧ ∃ syms, m.syms = some syms ∧ ∃ s ∈ syms, s.name = name := by
  obtain ⟨t, s, hn, hc, hname, -⟩ := C66_attribution tables addr hs name dist hp
  rcases memMap_bases ms true [] tables h t hn.1 with hx | ⟨m, hm, he, hsy, hb, -⟩
  · cases hx
  · exact ⟨m, hm, he, by rw [← hb]; exact hn.2.1, t.syms, hsy, s, hc.1, hname⟩

/-- A program, a library behind it, and a gap between them. -/
def maps : List Mapping :=
  [{ start := 0x10000000, stop := 0x10010000, exec := true, syms := some [⟨0x10000100, "main"⟩, ⟨0x10050000, "end"⟩] },
   { start := 0x10020000, stop := 0x10030000, exec := false, syms := some [⟨0x1, "data"⟩] },
   { start := 0x20000000, stop := 0x20010000, exec := true, syms := some [⟨0x100, "open"⟩, ⟨0x200, "close"⟩, ⟨0x30000, "fin"⟩] }]

/-- Addresses in both are attributed. -/
example : ∃ tables, tablesOf maps = some tables ∧ (∀ t ∈ tables, Sorted t.syms) ∧
    printAddress tables 0x10000180 = some ("main", 0x80) ∧ printAddress tables 0x20000204 = some ("close", 4) := by
  refine ⟨_, rfl, ?_, by decide, by decide⟩
  intro t ht
  simp only [List.nil_append, List.cons_append, List.mem_cons, List.not_mem_nil, or_false] at ht
  rcases ht with rfl | rfl
  · exact ⟨by decide, trivial⟩
  · exact ⟨by decide, by decide, trivial⟩

/-- C66, negated: the end of a mapping is not looked at, so an address behind the mapping is given the name of a symbol of the
file, here one in the data mapped behind the program and one behind the library. -/
theorem C66_refuted : ∃ tables, tablesOf maps = some tables ∧
    (∀ m ∈ maps, m.exec = true → ¬ (m.start ≤ 0x10020010#64 ∧ 0x10020010#64 < m.stop)) ∧
    printAddress tables 0x10020010 = some ("main", 0x1ff10) := by
  refine ⟨_, rfl, ?_, by decide⟩
  intro m hm he
  simp only [maps, List.mem_cons, List.not_mem_nil, or_false] at hm
  rcases hm with rfl | rfl | rfl
  · decide
  · cases he
  · decide

theorem memMap_full (ms : List Mapping) : ∀ (n : Nat) (ts : List Table), ts.length + n = maxTables →
    memMap false ts (List.replicate (n + 1) { start := 0, stop := 0, exec := true, syms := some [] } ++ ms) = none
  | 0, ts, h => by
    show memMap false ts ({ start := 0, stop := 0, exec := true, syms := some [] } :: ms) = none
    rw [memMap]
    simp only [if_true]
    rw [if_neg (by omega)]
  | n + 1, ts, h => by
    rw [List.replicate_succ, List.cons_append, memMap]
    simp only [if_true]
    rw [if_pos (by omega)]
    exact memMap_full ms n _ (by simp; omega)

/-- C66, negated: with more than 256 executable mappings of readable files the table is overrun. -/
theorem C66_overrun_refuted : ∃ ms : List Mapping, ms.length = 257 ∧ tablesOf ms = none := by
  refine ⟨List.replicate 257 { start := 0, stop := 0, exec := true, syms := some [] }, List.length_replicate, ?_⟩
  show memMap true [] ({ start := 0, stop := 0, exec := true, syms := some [] } :: List.replicate 256 _) = none
  rw [memMap]
  simp only [if_true]
  rw [if_pos (by decide)]
  have := memMap_full [] 255 [{ syms := [], base := 0, offset := 0 }] (by decide)
  rw [List.append_nil] at this
  exact this

end Sym
