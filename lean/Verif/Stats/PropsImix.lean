import Verif.Stats.SpecImix
import Verif.Stats.PropsStats
/-!
C28: the instruction mix counts every instruction under the first entry of the table that matches.
-/
namespace Stats
open Spec

/-- What the code relies on: every mask covers the major opcode and every opcode lies inside its mask. -/
structure Covered (tbl : List Entry) : Prop where
  major : ∀ e ∈ tbl, e.mask >>> 26 = 63
  inside : ∀ e ∈ tbl, e.opcode &&& e.mask = e.opcode

theorem opcodes_checked : (opcodes.all fun e => decide (e.2.1 / 2 ^ 26 = 63) && decide (e.1 < 2 ^ 32) && decide (e.2.1 < 2 ^ 32) && decide (Nat.land e.1 e.2.1 = e.1)) = true := by
  decide +kernel

theorem table_covered : Covered opcodeTable := by
  have key : ∀ e ∈ opcodeTable, e.mask >>> 26 = 63 ∧ e.opcode &&& e.mask = e.opcode := by
    intro e he
    obtain ⟨r, hr, rfl⟩ := List.mem_map.1 he
    have := List.all_eq_true.1 opcodes_checked r hr
    simp only [Bool.and_eq_true, decide_eq_true_eq] at this
    obtain ⟨⟨⟨h1, h2⟩, h3⟩, h4⟩ := this
    constructor
    · apply BitVec.eq_of_toNat_eq
      show (BitVec.ofNat 32 r.2.1 >>> 26).toNat = 63
      rw [BitVec.toNat_ushiftRight, BitVec.toNat_ofNat, Nat.mod_eq_of_lt h3, Nat.shiftRight_eq_div_pow, h1]
    · apply BitVec.eq_of_toNat_eq
      show (BitVec.ofNat 32 r.1 &&& BitVec.ofNat 32 r.2.1).toNat = (BitVec.ofNat 32 r.1).toNat
      rw [BitVec.toNat_and, BitVec.toNat_ofNat, BitVec.toNat_ofNat, Nat.mod_eq_of_lt h3, Nat.mod_eq_of_lt h2]
      exact h4
  exact ⟨fun e he => (key e he).1, fun e he => (key e he).2⟩

theorem and_eq_iff {w m o : BitVec 32} (h : o &&& m = o) : w &&& m = o ↔ ∀ j, m.getLsbD j = true → w.getLsbD j = o.getLsbD j := by
  constructor
  · intro h1 j hj
    rw [← h1, BitVec.getLsbD_and, hj, Bool.and_true]
  · intro h1
    apply BitVec.eq_of_getLsbD_eq
    intro j _
    rw [BitVec.getLsbD_and]
    cases hm : m.getLsbD j with
    | true => rw [h1 j hm, Bool.and_true]
    | false => rw [← h, BitVec.getLsbD_and, hm, Bool.and_false, Bool.and_false]

theorem ne_zero_iff {a b : BitVec 64} : (a &&& b != 0) = true ↔ ∃ j, a.getLsbD j = true ∧ b.getLsbD j = true := by
  rw [bne_iff_ne]
  constructor
  · intro h
    apply Classical.byContradiction
    intro h1
    apply h
    apply BitVec.eq_of_getLsbD_eq
    intro j _
    rw [BitVec.getLsbD_and]
    cases ha : a.getLsbD j <;> cases hb : b.getLsbD j <;> simp
    exact h1 ⟨j, ha, hb⟩
  · rintro ⟨j, ha, hb⟩ h
    have := congrArg (·.getLsbD j) h
    simp only [BitVec.getLsbD_and, ha, hb] at this
    simp at this

theorem fits_iff {e : Entry} (h : e.opcode &&& e.mask = e.opcode) (w : BitVec 32) : e.fits w = true ↔ Has e w := by
  unfold Entry.fits Has
  rw [Bool.and_eq_true, beq_iff_eq, and_eq_iff h, ne_zero_iff]

theorem kind_some {tbl : List Entry} (h : Covered tbl) (w : BitVec 32) (k : Nat) : kind tbl w = some k ↔ First tbl w k := by
  unfold kind First
  rw [List.findIdx?_eq_some_iff_getElem]
  constructor
  · rintro ⟨hk, h1, h2⟩
    refine ⟨⟨_, List.getElem?_eq_getElem hk, (fits_iff (h.inside _ (List.getElem_mem hk)) w).1 h1⟩, fun j e hj he hh => ?_⟩
    obtain ⟨hj', rfl⟩ := List.getElem?_eq_some_iff.1 he
    exact h2 j hj ((fits_iff (h.inside _ (List.getElem_mem hj')) w).2 hh)
  · rintro ⟨⟨e, he, h1⟩, h2⟩
    obtain ⟨hk, rfl⟩ := List.getElem?_eq_some_iff.1 he
    refine ⟨hk, (fits_iff (h.inside _ (List.getElem_mem hk)) w).2 h1, fun j hj hf => ?_⟩
    exact h2 j _ hj (List.getElem?_eq_getElem (by omega)) ((fits_iff (h.inside _ (List.getElem_mem _)) w).1 hf)

theorem kind_none {tbl : List Entry} (h : Covered tbl) (w : BitVec 32) : kind tbl w = none ↔ ∀ e ∈ tbl, ¬ Has e w := by
  unfold kind
  rw [List.findIdx?_eq_none_iff]
  constructor
  · intro h1 e he hh
    simpa [(fits_iff (h.inside e he) w).2 hh] using h1 e he
  · intro h1 e he
    rw [← Bool.not_eq_true]
    exact fun hf => h1 e he ((fits_iff (h.inside e he) w).1 hf)

/-! ### The index of major opcodes -/

theorem fits_major {e : Entry} (h : e.mask >>> 26 = 63) {w : BitVec 32} (hf : e.fits w = true) : majorOf e.opcode = majorOf w := by
  unfold Entry.fits at hf
  rw [Bool.and_eq_true, beq_iff_eq] at hf
  unfold majorOf
  rw [← hf.1]
  congr 1
  apply BitVec.eq_of_getLsbD_eq
  intro j hj
  rw [BitVec.getLsbD_ushiftRight, BitVec.getLsbD_ushiftRight, BitVec.getLsbD_and]
  by_cases h32 : 26 + j < 32
  · have h1 : e.mask.getLsbD (26 + j) = true := by
      rw [← BitVec.getLsbD_ushiftRight, h]
      have : j = 0 ∨ j = 1 ∨ j = 2 ∨ j = 3 ∨ j = 4 ∨ j = 5 := by omega
      rcases this with rfl | rfl | rfl | rfl | rfl | rfl <;> rfl
    rw [h1, Bool.and_true]
  · rw [BitVec.getLsbD_of_ge w _ (by omega), Bool.false_and]

/-- After `i` entries. -/
structure Indexed (tbl : List Entry) (i : Nat) (m : Nat → Major) : Prop where
  none : ∀ p, (m p).start = none → ∀ k e, k < i → tbl[k]? = some e → majorOf e.opcode ≠ p
  some : ∀ p st, (m p).start = some st → st ≤ (m p).stop ∧ (m p).stop < i ∧ ∀ k e, k < i → tbl[k]? = some e → majorOf e.opcode = p → st ≤ k ∧ k ≤ (m p).stop

theorem enter_indexed {tbl : List Entry} {i : Nat} {m : Nat → Major} (h : Indexed tbl i m) {e : Entry} (he : tbl[i]? = some e) : Indexed tbl (i + 1) (enter m i e) := by
  constructor
  · intro p hp k e' hk he'
    unfold enter at hp
    split at hp
    · cases hp
    · rename_i hne
      by_cases hki : k = i
      · subst hki; rw [he] at he'; cases he'; exact fun h => hne h.symm
      · exact h.none p hp k e' (by omega) he'
  · intro p st hp
    unfold enter at hp ⊢
    split at hp
    · rename_i heq
      rw [if_pos heq]
      simp only [Option.some.injEq] at hp
      cases hs : (m p).start with
      | none =>
        rw [hs] at hp
        subst hp
        refine ⟨Nat.le_refl _, Nat.lt_succ_self _, fun k e' hk he' hm => ?_⟩
        by_cases hki : k = i
        · subst hki; exact ⟨Nat.le_refl _, Nat.le_refl _⟩
        · exact absurd hm (h.none p hs k e' (by omega) he')
      | some st' =>
        rw [hs] at hp
        change st' = st at hp
        subst hp
        obtain ⟨h1, h2, h3⟩ := h.some p _ hs
        refine ⟨by show st' ≤ i; omega, Nat.lt_succ_self _, fun k e' hk he' hm => ?_⟩
        by_cases hki : k = i
        · subst hki; exact ⟨by omega, Nat.le_refl _⟩
        · have := h3 k e' (by omega) he' hm
          exact ⟨this.1, by show k ≤ i; omega⟩
    · rename_i hne
      rw [if_neg hne]
      obtain ⟨h1, h2, h3⟩ := h.some p _ hp
      refine ⟨h1, by omega, fun k e' hk he' hm => ?_⟩
      by_cases hki : k = i
      · subst hki; rw [he] at he'; cases he'; exact absurd hm.symm hne
      · exact h3 k e' (by omega) he' hm

theorem enterAll_indexed {tbl : List Entry} : ∀ (l : List Entry) (i : Nat) (m : Nat → Major), tbl.drop i = l → Indexed tbl i m → Indexed tbl (i + l.length) (enterAll l i m)
  | [], _, _, _, h => h
  | e :: l, i, m, hl, h => by
    have he : tbl[i]? = some e := by rw [← Nat.add_zero i, ← List.getElem?_drop, hl]; rfl
    have hd : tbl.drop (i + 1) = l := by rw [← List.drop_drop, hl]; rfl
    have := enterAll_indexed l (i + 1) _ hd (enter_indexed h he)
    rwa [List.length_cons, show i + (l.length + 1) = i + 1 + l.length by omega]

theorem majors_indexed (tbl : List Entry) : Indexed tbl.dropLast tbl.dropLast.length (majors tbl) := by
  have := enterAll_indexed (tbl := tbl.dropLast) tbl.dropLast 0 (fun _ => { start := none, stop := 0 }) rfl
    ⟨fun _ _ k _ hk => by omega, fun _ _ h => by cases h⟩
  rwa [Nat.zero_add] at this

theorem search_eq {tbl : List Entry} {w : BitVec 32} : ∀ (n i : Nat), i + n ≤ tbl.length →
    ∃ r, search tbl w n i = some r ∧
      (∀ k, r = some k → i ≤ k ∧ k < i + n ∧ (∃ e, tbl[k]? = some e ∧ e.fits w = true) ∧ ∀ j e, i ≤ j → j < k → tbl[j]? = some e → e.fits w = false) ∧
      (r = none → ∀ j e, i ≤ j → j < i + n → tbl[j]? = some e → e.fits w = false)
  | 0, i, _ => ⟨none, rfl, fun _ h => (by cases h), fun _ j _ h1 h2 => by omega⟩
  | n + 1, i, h => by
    have hi : tbl[i]? = some tbl[i] := List.getElem?_eq_getElem (by omega)
    unfold search
    rw [hi]
    by_cases hf : tbl[i].fits w = true
    · refine ⟨some i, ?_, ?_, fun h => by cases h⟩
      · show (if tbl[i].fits w = true then _ else _) = _
        rw [if_pos hf]
      · rintro k ⟨⟩
        exact ⟨Nat.le_refl _, by omega, ⟨_, hi, hf⟩, fun j _ h1 h2 => by omega⟩
    · obtain ⟨r, h1, h2, h3⟩ := search_eq (tbl := tbl) (w := w) n (i + 1) (by omega)
      refine ⟨r, ?_, fun k hk => ?_, fun hr j e hj1 hj2 he => ?_⟩
      · show (if tbl[i].fits w = true then _ else _) = _
        rw [if_neg hf, h1]
      · obtain ⟨h4, h5, h6, h7⟩ := h2 k hk
        refine ⟨by omega, by omega, h6, fun j e hj1 hj2 he => ?_⟩
        by_cases hji : j = i
        · subst hji; rw [hi] at he; cases he; exact Bool.eq_false_iff.2 hf
        · exact h7 j e (by omega) hj2 he
      · by_cases hji : j = i
        · subst hji; rw [hi] at he; cases he; exact Bool.eq_false_iff.2 hf
        · exact h3 hr j e (by omega) (by omega) he

theorem dropLast_get {tbl : List Entry} {k : Nat} (hk : k < tbl.dropLast.length) : tbl.dropLast[k]? = tbl[k]? := by
  rw [List.length_dropLast] at hk
  rw [List.getElem?_dropLast, if_pos hk]

/-- **C28**: the search over the entries of one major opcode finds what a search of the table without its last entry finds. -/
theorem C28_search_partial {tbl : List Entry} (h : Covered tbl) (w : BitVec 32) : classify tbl (majors tbl) w = some (kind tbl.dropLast w) := by
  have hidx := majors_indexed tbl
  have hlen : tbl.dropLast.length ≤ tbl.length := by rw [List.length_dropLast]; omega
  unfold classify
  cases hs : ((majors tbl) (majorOf w)).start with
  | none =>
    have hc : ((majors tbl) (majorOf w)).count = 0 := by unfold Major.count; rw [hs]
    rw [hc]
    show some none = _
    congr 1
    symm
    unfold kind
    rw [List.findIdx?_eq_none_iff]
    intro e he
    obtain ⟨k, hk, rfl⟩ := List.getElem_of_mem he
    rw [← Bool.not_eq_true]
    intro hf
    exact hidx.none _ hs k _ hk (List.getElem?_eq_getElem hk) (fits_major (h.major _ (List.dropLast_subset _ he)) hf)
  | some st =>
    obtain ⟨h1, h2, h3⟩ := hidx.some _ _ hs
    have hc : ((majors tbl) (majorOf w)).count = ((majors tbl) (majorOf w)).stop + 1 - st := by unfold Major.count; rw [hs]
    rw [hc]
    show search tbl w _ st = _
    obtain ⟨r, h4, h5, h6⟩ := search_eq (tbl := tbl) (w := w) (((majors tbl) (majorOf w)).stop + 1 - st) st (by omega)
    rw [h4]
    congr 1
    have outside : ∀ j (hj : j < tbl.dropLast.length), tbl.dropLast[j].fits w = true → st ≤ j ∧ j ≤ ((majors tbl) (majorOf w)).stop := fun j hj hf =>
      h3 j _ hj (List.getElem?_eq_getElem hj) (fits_major (h.major _ (List.dropLast_subset _ (List.getElem_mem hj))) hf)
    unfold kind
    symm
    cases r with
    | none =>
      rw [List.findIdx?_eq_none_iff]
      intro e he
      obtain ⟨k, hk, rfl⟩ := List.getElem_of_mem he
      rw [← Bool.not_eq_true]
      intro hf
      have := outside k hk hf
      have := h6 rfl k _ this.1 (by omega) (by rw [← dropLast_get hk]; exact List.getElem?_eq_getElem hk)
      rw [hf] at this; cases this
    | some k =>
      obtain ⟨h7, h8, ⟨e, he, hf⟩, h9⟩ := h5 k rfl
      have hk : k < tbl.dropLast.length := by omega
      rw [List.findIdx?_eq_some_iff_getElem]
      rw [← dropLast_get hk, List.getElem?_eq_getElem hk] at he
      cases he
      refine ⟨hk, hf, fun j hj hfj => ?_⟩
      have hj' : j < tbl.dropLast.length := by omega
      have := outside j hj' hfj
      have := h9 j _ this.1 hj (by rw [← dropLast_get hj']; exact List.getElem?_eq_getElem hj')
      rw [hfj] at this; cases this

/-! ### Counting -/

/-- What was counted after a trace. -/
structure Mixed (tbl : List Entry) (l : List (BitVec 32)) (s : Imix) : Prop where
  counts : s.counts = counters tbl.length fun k => (l.filter fun w => kind tbl.dropLast w == some k).length
  unknown : s.unknown = BitVec.ofNat 64 (l.filter fun w => kind tbl.dropLast w == none).length
  cache : ∀ w i, s.cache w = some i → kind tbl.dropLast w = some i
  lookups : s.hits + s.misses = BitVec.ofNat 64 l.length

theorem filter_bit {p : BitVec 32 → Bool} (l : List (BitVec 32)) (w : BitVec 32) : ((l ++ [w]).filter p).length = (l.filter p).length + bit (p w) := by
  rw [List.filter_append, List.length_append]
  cases hp : p w with
  | true => rw [List.filter_cons_of_pos hp]; rfl
  | false => rw [List.filter_cons_of_neg (by rw [hp]; decide)]; rfl

theorem kind_lt {tbl : List Entry} {w : BitVec 32} {i : Nat} (h : kind tbl.dropLast w = some i) : i < tbl.length := by
  unfold kind at h
  obtain ⟨h1, _⟩ := List.findIdx?_eq_some_iff_getElem.1 h
  rw [List.length_dropLast] at h1
  omega

theorem counted {tbl : List Entry} {l : List (BitVec 32)} {s : Imix} (hs : Mixed tbl l s) {w : BitVec 32} {i : Nat} (hw : kind tbl.dropLast w = some i) :
    incr s.counts i = some (counters tbl.length fun k => ((l ++ [w]).filter fun w => kind tbl.dropLast w == some k).length) ∧
      s.unknown = BitVec.ofNat 64 ((l ++ [w]).filter fun w => kind tbl.dropLast w == none).length := by
  constructor
  · rw [hs.counts, counters_incr (kind_lt hw) (p := fun k => kind tbl.dropLast w == some k)]
    · congr 1
      apply counters_congr
      intro k _
      rw [filter_bit]
    · intro k _
      rw [hw, beq_iff_eq, Option.some.injEq]
      exact eq_comm
  · rw [filter_bit, hs.unknown, hw]; rfl

theorem imix_log {tbl : List Entry} (h : Covered tbl) {l : List (BitVec 32)} {s : Imix} (hs : Mixed tbl l s) (w : BitVec 32) :
    ∃ s', s.log tbl (majors tbl) w = some s' ∧ Mixed tbl (l ++ [w]) s' := by
  have hlen : ∀ x y : BitVec 64, x + y = BitVec.ofNat 64 l.length → x + 1 + y = BitVec.ofNat 64 (l ++ [w]).length ∧ x + (y + 1) = BitVec.ofNat 64 (l ++ [w]).length := by
    intro x y hxy
    have h1 : BitVec.ofNat 64 (l ++ [w]).length = x + y + 1 := by rw [List.length_append, List.length_singleton, BitVec.ofNat_add, ← hxy]; rfl
    rw [h1]
    constructor
    · rw [BitVec.add_assoc, BitVec.add_comm 1 y, ← BitVec.add_assoc]
    · rw [BitVec.add_assoc]
  unfold Imix.log
  cases hc : s.cache w with
  | some i =>
    have hw := hs.cache w i hc
    obtain ⟨h1, h2⟩ := counted hs hw
    show ∃ s', s.hit i = some s' ∧ _
    unfold Imix.hit
    rw [h1]
    exact ⟨_, rfl, ⟨rfl, h2, hs.cache, (hlen _ _ hs.lookups).1⟩⟩
  | none =>
    show ∃ s', s.miss tbl (majors tbl) w = some s' ∧ _
    unfold Imix.miss
    rw [C28_search_partial h w]
    cases hw : kind tbl.dropLast w with
    | none =>
      refine ⟨_, rfl, ⟨?_, ?_, hs.cache, (hlen _ _ hs.lookups).2⟩⟩
      · show s.counts = _
        rw [hs.counts]
        apply counters_congr
        intro k _
        rw [filter_bit, hw]; rfl
      · show s.unknown + 1 = _
        rw [filter_bit, hw, hs.unknown, ← ofNat_bit]; rfl
    | some i =>
      obtain ⟨h1, h2⟩ := counted hs hw
      show ∃ s', (match incr s.counts i with | none => none | some c => _) = some s' ∧ _
      rw [h1]
      refine ⟨_, rfl, ⟨rfl, h2, ?_, (hlen _ _ hs.lookups).2⟩⟩
      intro v k hv
      change (if v = w then some i else s.cache v) = some k at hv
      split at hv
      · rename_i hvw; rw [hvw, hw, hv]
      · exact hs.cache v k hv

theorem imix_run {tbl : List Entry} (h : Covered tbl) : ∀ (l g : List (BitVec 32)) (s : Imix), Mixed tbl g s → ∃ s', s.run tbl (majors tbl) l = some s' ∧ Mixed tbl (g ++ l) s'
  | [], g, s, hs => ⟨s, rfl, by rwa [List.append_nil]⟩
  | w :: l, g, s, hs => by
    obtain ⟨s1, h1, h2⟩ := imix_log h hs w
    obtain ⟨s2, h3, h4⟩ := imix_run h l _ s1 h2
    refine ⟨s2, by rw [Imix.run, h1]; exact h3, ?_⟩
    rwa [List.append_assoc] at h4

/-- **C28**: for every table and every trace, no access is outside the table, and whatever is in the cache at the time, each instruction is counted under
the first entry that matches it; the last entry of the table is left out. -/
theorem C28_counts_partial {tbl : List Entry} (h : Covered tbl) (l : List (BitVec 32)) : ∃ s, (Imix.init tbl).run tbl (majors tbl) l = some s ∧ Mixed tbl l s := by
  refine imix_run h l [] _ ⟨?_, rfl, fun _ _ h => (by cases h), rfl⟩
  show List.replicate _ _ = _
  apply List.ext_getElem?
  intro k
  rw [counters_get, List.getElem?_replicate]; rfl

theorem filter_sum (n : Nat) (c : BitVec 32 → Option Nat) : ∀ l : List (BitVec 32), (∀ w ∈ l, ∀ i, c w = some i → i < n) →
    ((List.range n).map fun k => (l.filter fun w => c w == some k).length).sum + (l.filter fun w => c w == none).length = l.length
  | [], _ => by
    show ((List.range n).map fun _ => 0).sum + 0 = 0
    rw [sum_zero]
  | w :: l, h => by
    have ih := filter_sum n c l fun v hv => h v (List.mem_cons_of_mem _ hv)
    have hb : ∀ p : BitVec 32 → Bool, ((w :: l).filter p).length = (l.filter p).length + bit (p w) := by
      intro p
      cases hp : p w with
      | true => rw [List.filter_cons_of_pos hp]; rfl
      | false => rw [List.filter_cons_of_neg (by rw [hp]; decide)]; rfl
    have : ((List.range n).map fun k => ((w :: l).filter fun w => c w == some k).length) = (List.range n).map fun k => (l.filter fun w => c w == some k).length + bit (c w == some k) :=
      List.map_congr_left fun k _ => hb _
    rw [this, sum_add, hb, List.length_cons]
    cases hc : c w with
    | none =>
      have h0 : ((List.range n).map fun k => bit ((none : Option Nat) == some k)) = (List.range n).map fun _ => 0 := rfl
      rw [h0, sum_zero]
      show _ + 0 + (_ + 1) = _
      omega
    | some i =>
      rw [sum_one (h w List.mem_cons_self i hc) (p := fun k => some i == some k) (fun k _ => by rw [beq_iff_eq, Option.some.injEq]; exact eq_comm)]
      show _ + 1 + (_ + 0) = _
      omega

/-- **C28**: every instruction is counted exactly once. -/
theorem C28_once_partial {tbl : List Entry} (h : Covered tbl) (l : List (BitVec 32)) (hl : l.length < 2 ^ 64) :
    ∃ s, (Imix.init tbl).run tbl (majors tbl) l = some s ∧ (s.counts.map (·.toNat)).sum + s.unknown.toNat = l.length := by
  obtain ⟨s, h1, h2⟩ := C28_counts_partial h l
  refine ⟨s, h1, ?_⟩
  have hlt : ∀ p : BitVec 32 → Bool, (l.filter p).length < 2 ^ 64 := fun p => Nat.lt_of_le_of_lt (List.length_filter_le _ _) hl
  rw [h2.counts, h2.unknown, counters_sum (fun k => hlt _), BitVec.toNat_ofNat, Nat.mod_eq_of_lt (hlt _)]
  exact filter_sum _ _ l fun w _ i hi => kind_lt hi

/-- **C28**: with the cache in any state that a trace `g` can leave, an instruction is classified as with an empty cache. -/
theorem C28_cache_partial {tbl : List Entry} (h : Covered tbl) (g : List (BitVec 32)) (w : BitVec 32) :
    ∃ s s', (Imix.init tbl).run tbl (majors tbl) g = some s ∧ s.log tbl (majors tbl) w = some s' ∧
      (∀ k, k < tbl.length → ∃ a b, s.counts[k]? = some a ∧ s'.counts[k]? = some b ∧ b = if kind tbl.dropLast w = some k then a + 1 else a) ∧
      s'.unknown = if kind tbl.dropLast w = none then s.unknown + 1 else s.unknown := by
  obtain ⟨s, h1, h2⟩ := C28_counts_partial h g
  obtain ⟨s', h3, h4⟩ := imix_log h h2 w
  refine ⟨s, s', h1, h3, fun k hk => ?_, ?_⟩
  · refine ⟨_, _, by rw [h2.counts, counters_get, if_pos hk], by rw [h4.counts, counters_get, if_pos hk], ?_⟩
    rw [filter_bit]
    split
    · rename_i hw; rw [hw, beq_self_eq_true, ← ofNat_bit]; rfl
    · rename_i hw
      rw [show (kind tbl.dropLast w == some k) = false from beq_eq_false_iff_ne.2 hw, ← ofNat_bit, ofNat_zero]
  · rw [h4.unknown, h2.unknown, filter_bit]
    split
    · rename_i hw; rw [hw, ← ofNat_bit]; rfl
    · rename_i hw
      rw [show (kind tbl.dropLast w == none) = false from beq_eq_false_iff_ne.2 hw, ← ofNat_bit, ofNat_zero]

/-- With the table of the code: `addi`, `bl`, `addi` again (from the cache), and a word that is not an instruction. -/
example : ∃ s, (Imix.init opcodeTable).run opcodeTable (majors opcodeTable) [0x38600001, 0x48000005, 0x38600001, 0] = some s ∧
    (s.counts.map (·.toNat)).sum + s.unknown.toNat = 4 := C28_once_partial table_covered _ (by decide)

theorem last_checked : (opcodes.dropLast.all fun e => decide (Nat.land e.2.2 0x11018502909 = 0) || decide (Nat.land 0xfc00079d e.2.1 ≠ Nat.land e.1 0xfc1f07ff)) = true ∧
    (opcodes.all fun e => decide (e.1 < 2 ^ 32) && decide (e.2.1 < 2 ^ 32) && decide (e.2.2 < 2 ^ 64)) = true ∧
    opcodes[3407]? = some (0xfc00079d, 0xfc1f07ff, 0x30000000) ∧ opcodes.length = 3408 := by
  decide +kernel

/-- **C57** (an instruction of the table is counted under its entry) **is refuted**: `fcfidu.` is counted as unknown, whatever its operands. -/
theorem C57_refuted (w : BitVec 32) (hw : w &&& 0xfc1f07ff = 0xfc00079d) :
    kind opcodeTable w = some 3407 ∧ ∃ s, (Imix.init opcodeTable).run opcodeTable (majors opcodeTable) [w] = some s ∧ s.unknown = 1 := by
  obtain ⟨h1, h2, h3, h4⟩ := last_checked
  have hn : kind opcodeTable.dropLast w = none := by
    unfold kind
    rw [List.findIdx?_eq_none_iff]
    intro e he
    unfold opcodeTable at he
    rw [← List.map_dropLast] at he
    obtain ⟨r, hr, rfl⟩ := List.mem_map.1 he
    have hc := List.all_eq_true.1 h1 r hr
    have hb := List.all_eq_true.1 h2 r (List.dropLast_subset _ hr)
    simp only [Bool.or_eq_true, Bool.and_eq_true, decide_eq_true_eq] at hc hb
    rw [← Bool.not_eq_true]
    intro hf
    unfold Entry.fits at hf
    rw [Bool.and_eq_true, beq_iff_eq, bne_iff_ne] at hf
    obtain ⟨hf1, hf2⟩ := hf
    rcases hc with hc | hc
    · apply hf2
      apply BitVec.eq_of_toNat_eq
      show (BitVec.ofNat 64 r.2.2 &&& dialect).toNat = 0
      rw [BitVec.toNat_and, BitVec.toNat_ofNat, Nat.mod_eq_of_lt hb.2]
      exact hc
    · apply hc
      have : (0xfc00079d : BitVec 32) &&& (entry r).mask = (entry r).opcode &&& 0xfc1f07ff := by
        rw [← hf1, ← hw, BitVec.and_assoc, BitVec.and_assoc, BitVec.and_comm (entry r).mask]
      have := congrArg BitVec.toNat this
      rw [BitVec.toNat_and, BitVec.toNat_and] at this
      change Nat.land 0xfc00079d (BitVec.ofNat 32 r.2.1).toNat = Nat.land (BitVec.ofNat 32 r.1).toNat 0xfc1f07ff at this
      rw [BitVec.toNat_ofNat, BitVec.toNat_ofNat, Nat.mod_eq_of_lt hb.1.1, Nat.mod_eq_of_lt hb.1.2] at this
      exact this
  have hl : opcodeTable.length = 3408 := by unfold opcodeTable; rw [List.length_map, h4]
  have hg : opcodeTable[3407]? = some (entry (0xfc00079d, 0xfc1f07ff, 0x30000000)) := by unfold opcodeTable; rw [List.getElem?_map, h3]; rfl
  refine ⟨?_, ?_⟩
  · unfold kind at hn ⊢
    rw [List.findIdx?_eq_none_iff] at hn
    rw [List.findIdx?_eq_some_iff_getElem]
    generalize 3407 = n at hg hl
    obtain ⟨h5, h6⟩ := List.getElem?_eq_some_iff.1 hg
    refine ⟨h5, ?_, fun j hj hf => ?_⟩
    · rw [h6]
      unfold Entry.fits
      rw [Bool.and_eq_true, beq_iff_eq]
      exact ⟨hw, by decide⟩
    · have hm : opcodeTable[j] ∈ opcodeTable.dropLast := by
        have hj' : j < opcodeTable.dropLast.length := by rw [List.length_dropLast]; omega
        rw [← List.getElem_dropLast hj']
        exact List.getElem_mem hj'
      have := hn _ hm
      rw [this] at hf; cases hf
  · obtain ⟨s, h5, h6⟩ := C28_counts_partial table_covered [w]
    refine ⟨s, h5, ?_⟩
    rw [h6.unknown, List.filter_cons_of_pos (by rw [hn]; rfl)]; rfl

example : (0xfc60279d : BitVec 32) &&& 0xfc1f07ff = 0xfc00079d := by decide

/-- **C28, the exceptions**: the last entry of a table is never found, and neither is an entry whose mask leaves out the major opcode. -/
theorem C28_tables_refuted :
    (∃ (tbl : List Entry) (w : BitVec 32), Covered tbl ∧ kind tbl w = some 0 ∧ classify tbl (majors tbl) w = some none) ∧
    (∃ (tbl : List Entry) (w : BitVec 32), kind tbl.dropLast w = some 0 ∧ classify tbl (majors tbl) w = some none) := by
  refine ⟨⟨[⟨0x38000000, 0xfc000000, 1⟩], 0x38600001, ⟨?_, ?_⟩, by decide, by decide⟩, ⟨[⟨0, 1, 1⟩, ⟨0x38000000, 0xfc000000, 1⟩], 0x48000004, by decide, by decide⟩⟩
  · intro e he; obtain rfl := List.mem_singleton.1 he; decide
  · intro e he; obtain rfl := List.mem_singleton.1 he; decide

/-- C57 for all other instructions of the table. -/
theorem C57_counted_partial {tbl : List Entry} (h : Covered tbl) (w : BitVec 32) (k : Nat) (hk : kind tbl w = some k) (hlast : k + 1 < tbl.length) :
    ∃ s, (Imix.init tbl).run tbl (majors tbl) [w] = some s ∧ s.counts[k]? = some 1 ∧ s.unknown = 0 := by
  have hd : kind tbl.dropLast w = some k := by
    unfold kind at hk ⊢
    rw [List.findIdx?_eq_some_iff_getElem] at hk ⊢
    obtain ⟨h1, h2, h3⟩ := hk
    have hl : k < tbl.dropLast.length := by rw [List.length_dropLast]; omega
    refine ⟨hl, by rw [List.getElem_dropLast]; exact h2, fun j hj => by rw [List.getElem_dropLast]; exact h3 j hj⟩
  obtain ⟨s, h1, h2⟩ := C28_counts_partial h [w]
  refine ⟨s, h1, ?_, ?_⟩
  · rw [h2.counts, counters_get, if_pos (by omega), List.filter_cons_of_pos (by rw [hd]; exact beq_self_eq_true _)]; rfl
  · rw [h2.unknown, List.filter_cons_of_neg (by rw [hd]; exact fun h => by cases h)]; rfl

end Stats
