import Verif.Stats.PropsBbExact
/-!
C30: the printed blocks.
-/
namespace Bb
open Spec
open Stats (QSort Consistent)

theorem distance_eq {a b : BitVec 64} (ha : a.toNat < 2 ^ 31) (hb : b.toNat < 2 ^ 31) : ∃ d, distance a b = some d ∧ (d < 4 ↔ Close a b) := by
  have hd : ((a - b).setWidth 32).toInt = (a.toNat : Int) - b.toNat := by
    rw [BitVec.toInt_eq_toNat_bmod, BitVec.toNat_setWidth, BitVec.toNat_sub]
    have h : (2 ^ 64 - b.toNat + a.toNat) % 2 ^ 64 % 2 ^ 32 = if b.toNat ≤ a.toNat then a.toNat - b.toNat else 2 ^ 32 - (b.toNat - a.toNat) := by
      split <;> omega
    rw [h]
    unfold Int.bmod
    split <;> (dsimp only; split <;> omega)
  unfold distance
  dsimp only
  rw [hd, if_neg (by omega)]
  refine ⟨_, rfl, ?_⟩
  unfold Close
  omega

/-- The hypotheses about the entries. -/
structure Small (t : Bbe) : Prop where
  hit : t.hit.toNat < 2 ^ 31
  size : t.size = 1
  valid : t.valid = true

theorem run_head {g : List Bbe} (h : Run g) : ∃ t, g[0]? = some t := by
  obtain ⟨t, h, _⟩ := h
  exact ⟨t, h⟩

/-- A run can be extended exactly by the next address with a close counter. -/
theorem run_snoc {h : Bbe} {g : List Bbe} (hr : Run (h :: g)) {last : Bbe} (hl : (h :: g)[g.length]? = some last) (t : Bbe) :
    Run (h :: g ++ [t]) ↔ t.ea.toNat = last.ea.toNat + 4 ∧ Close t.hit h.hit := by
  obtain ⟨h', h0, hk⟩ := hr
  cases h0
  have hlast := (hk _ _ hl).1
  have hget : (h :: g ++ [t])[g.length + 1]? = some t := by
    rw [List.getElem?_append_right (by rw [List.length_cons]; exact Nat.le_refl _), List.length_cons, Nat.sub_self]; rfl
  constructor
  · rintro ⟨h'', h0', hk'⟩
    cases h0'
    have := hk' _ _ hget
    exact ⟨by omega, this.2⟩
  · rintro ⟨h1, h2⟩
    refine ⟨h, rfl, fun k u hu => ?_⟩
    by_cases hkl : k < (h :: g).length
    · rw [List.getElem?_append_left hkl] at hu
      exact hk k u hu
    · have hlt : k < (h :: g ++ [t]).length := (List.getElem?_eq_some_iff.1 hu).1
      rw [List.length_append, List.length_cons, List.length_singleton] at hlt
      rw [List.length_cons] at hkl
      have hkk : k = g.length + 1 := by omega
      subst hkk
      rw [hget] at hu
      cases hu
      exact ⟨by omega, h2⟩

theorem joins_eq {t head last : Bbe} (ht : Small t) (hh : head.hit.toNat < 2 ^ 31) (hlt : last.ea.toNat < t.ea.toNat) :
    ∃ b, joins t head last.ea = some b ∧ (b = true ↔ t.ea.toNat = last.ea.toNat + 4 ∧ Close t.hit head.hit) := by
  unfold joins
  have hiff : t.ea = last.ea + 4 ↔ t.ea.toNat = last.ea.toNat + 4 := by
    rw [← BitVec.toNat_inj, BitVec.toNat_add]
    show _ = (last.ea.toNat + 4) % 2 ^ 64 ↔ _
    have := t.ea.isLt
    have := last.ea.isLt
    omega
  by_cases h : t.ea = last.ea + 4
  · rw [if_pos h]
    obtain ⟨d, h1, h2⟩ := distance_eq ht.hit hh
    rw [h1]
    exact ⟨_, rfl, by rw [decide_eq_true_eq, h2]; exact ⟨fun hc => ⟨hiff.1 h, hc⟩, fun hc => hc.2⟩⟩
  · rw [if_neg h]
    exact ⟨false, rfl, ⟨fun hf => (by cases hf), fun hc => absurd (hiff.2 hc.1) h⟩⟩

theorem coalesceFrom_eq : ∀ (l : List Bbe) (h : Bbe) (g : List Bbe) (last : Bbe), (∀ t ∈ h :: g ++ l, Small t) →
    (h :: g ++ l).Pairwise (fun a b => a.ea.toNat < b.ea.toNat) → Run (h :: g) → (h :: g)[g.length]? = some last →
    ∃ h' r g1 groups, coalesceFrom { h with size := BitVec.ofNat 64 (g.length + 1) } last.ea l = some (h', r) ∧
      h :: g ++ l = (g1 :: groups).flatten ∧ (∃ m, g1 = h :: g ++ m) ∧ (∀ g ∈ g1 :: groups, Run g) ∧ Maximal (g1 :: groups) ∧
      h' :: r.filter (·.valid) = (g1 :: groups).map block ∧ h'.valid = true
  | [], h, g, last, hs, hp, hr, hl => by
    refine ⟨_, [], h :: g, [], rfl, by simp, ⟨[], by simp⟩, fun g' hg' => ?_, trivial, ?_, (hs h (by simp)).valid⟩
    · rw [List.mem_singleton] at hg'; rw [hg']; exact hr
    · show [_] = [_]
      have := (hs h (by simp)).valid
      unfold block
      rw [← this]
      rfl
  | t :: l, h, g, last, hs, hp, hr, hl => by
    have hst : Small t := hs t (by simp)
    have hmem : last ∈ h :: g := List.mem_of_getElem? hl
    have hlt : last.ea.toNat < t.ea.toNat := by
      rw [List.pairwise_append] at hp
      exact hp.2.2 last hmem t List.mem_cons_self
    obtain ⟨b, hj, hb⟩ := joins_eq (head := { h with size := BitVec.ofNat 64 (g.length + 1) }) hst (hs h (by simp)).hit hlt
    rw [coalesceFrom, hj]
    have heq : h :: g ++ t :: l = h :: (g ++ [t]) ++ l := by simp
    cases b with
    | true =>
      have hrun : Run (h :: (g ++ [t])) := by
        have := (run_snoc hr hl t).2 (hb.1 rfl)
        rwa [List.cons_append] at this
      obtain ⟨h', r, g1, groups, h1, h2, ⟨m, h3⟩, h4, h5, h6, h7⟩ := coalesceFrom_eq l h (g ++ [t]) t (by rw [← heq]; exact hs) (by rw [← heq]; exact hp) hrun
        (by rw [List.length_append, List.length_singleton, List.getElem?_cons_succ, List.getElem?_append_right (Nat.le_refl _), Nat.sub_self]; rfl)
      have hsz : ({ h with size := BitVec.ofNat 64 ((g ++ [t]).length + 1) } : Bbe) = { h with size := BitVec.ofNat 64 (g.length + 1) + 1 } := by
        rw [List.length_append, List.length_singleton, BitVec.ofNat_add (g.length + 1) 1]; rfl
      rw [hsz] at h1
      refine ⟨h', { t with valid := false } :: r, g1, groups, ?_, by rw [heq]; exact h2, ⟨t :: m, by rw [h3]; simp⟩, h4, h5, ?_, h7⟩
      · show (match coalesceFrom { h with size := BitVec.ofNat 64 (g.length + 1) + 1 } t.ea l with | none => none | some (h, r) => _) = _
        rw [h1]
      · rw [List.filter_cons_of_neg (by simp)]; exact h6
    | false =>
      have hnrun : ¬ Run (h :: g ++ [t]) := fun hc => by
        have := hb.2 ((run_snoc hr hl t).1 hc)
        cases this
      have hrt : Run (t :: ([] : List Bbe)) := by
        refine ⟨t, rfl, fun k u hu => ?_⟩
        have hk : k = 0 := by
          have := (List.getElem?_eq_some_iff.1 hu).1
          simp at this; exact this
        subst hk
        cases hu
        exact ⟨rfl, by unfold Close; omega⟩
      obtain ⟨h', r, g1, groups, h1, h2, ⟨m, h3⟩, h4, h5, h6, h7⟩ := coalesceFrom_eq l t [] t
        (fun u hu => hs u (by simp only [List.cons_append, List.nil_append, List.mem_append, List.mem_cons] at hu ⊢; exact Or.inr (Or.inr hu)))
        (by rw [List.pairwise_append] at hp; exact hp.2.1) hrt rfl
      have hsz : ({ t with size := BitVec.ofNat 64 (([] : List Bbe).length + 1) } : Bbe) = t := by
        have := hst.size
        show ({ t with size := 1 } : Bbe) = t
        rw [← this]
      rw [hsz] at h1
      refine ⟨{ h with size := BitVec.ofNat 64 (g.length + 1) }, h' :: r, h :: g, g1 :: groups, ?_, ?_, ⟨[], by simp⟩, ?_, ⟨?_, h5⟩, ?_, (hs h (by simp)).valid⟩
      · show (match coalesceFrom t t.ea l with | none => none | some (h', r) => _) = _
        rw [h1]
      · rw [List.flatten_cons, ← h2]; rfl
      · intro u hu
        rcases List.mem_cons.1 hu with rfl | hu
        · exact hr
        · exact h4 u hu
      · rw [h3]; exact hnrun
      · rw [List.filter_cons_of_pos (by exact h7), h6, List.map_cons (l := g1 :: groups)]
        congr 1
        have := (hs h (by simp)).valid
        unfold block
        rw [← this]
        rfl

/-! ### Sorting -/

theorem compareEa_le (a b : Bbe) : compareEa a b ≤ 0 ↔ a.ea.toNat < b.ea.toNat ∨ a.ea.toNat = b.ea.toNat ∧ a.size.toNat ≤ b.size.toNat := by
  unfold compareEa
  simp only [BitVec.lt_def, gt_iff_lt]
  repeat' split
  all_goals omega

theorem compareEa_lt (a b : Bbe) : compareEa a b < 0 ↔ a.ea.toNat < b.ea.toNat ∨ a.ea.toNat = b.ea.toNat ∧ a.size.toNat < b.size.toNat := by
  unfold compareEa
  simp only [BitVec.lt_def, gt_iff_lt]
  repeat' split
  all_goals omega

theorem compareEa_consistent (l : List Bbe) : Consistent compareEa l where
  trans a _ b _ c _ h1 h2 := by rw [compareEa_le] at *; omega
  anti a _ b _ := by
    have h : 0 < compareEa b a ↔ ¬ compareEa b a ≤ 0 := by omega
    rw [h, compareEa_lt, compareEa_le]
    omega

/-- The key of `bb_compare_num`: valid entries first. -/
def rank (a : Bbe) : Nat := if a.valid then 0 else 1

theorem compareNum_le (a b : Bbe) : compareNum a b ≤ 0 ↔ rank a < rank b ∨ rank a = rank b ∧ b.num.toNat ≤ a.num.toNat := by
  unfold compareNum rank
  simp only [BitVec.lt_def, gt_iff_lt]
  cases a.valid <;> cases b.valid <;> simp <;> (try (repeat' split)) <;> omega

theorem compareNum_lt (a b : Bbe) : compareNum a b < 0 ↔ rank a < rank b ∨ rank a = rank b ∧ b.num.toNat < a.num.toNat := by
  unfold compareNum rank
  simp only [BitVec.lt_def, gt_iff_lt]
  cases a.valid <;> cases b.valid <;> simp <;> (try (repeat' split)) <;> omega

theorem compareNum_consistent (l : List Bbe) : Consistent compareNum l where
  trans a _ b _ c _ h1 h2 := by rw [compareNum_le] at *; omega
  anti a _ b _ := by
    have h : 0 < compareNum b a ↔ ¬ compareNum b a ≤ 0 := by omega
    rw [h, compareNum_lt, compareNum_le]
    omega

theorem trim_eq {l : List Bbe} (h : l.Pairwise fun a b => rank a ≤ rank b) : trim l = l.filter (·.valid) := by
  unfold trim
  induction l with
  | nil => rfl
  | cons a l ih =>
    rw [List.pairwise_cons] at h
    by_cases ha : a.valid = true
    · rw [List.takeWhile_cons_of_pos (by exact ha), List.filter_cons_of_pos (by exact ha), ih h.2]
    · rw [List.takeWhile_cons_of_neg (by exact ha), List.filter_cons_of_neg (by exact ha), List.filter_eq_nil_iff.2]
      intro b hb hv
      have := h.1 b hb
      unfold rank at this
      rw [if_neg ha, if_pos hv] at this
      omega

theorem coalesce_eq {a : List Bbe} (hs : ∀ t ∈ a, Small t) (hp : a.Pairwise fun a b => a.ea.toNat < b.ea.toNat) :
    ∃ b groups, coalesce a = some b ∧ a = groups.flatten ∧ (∀ g ∈ groups, Run g) ∧ Maximal groups ∧ b.filter (·.valid) = groups.map block := by
  cases a with
  | nil => exact ⟨[], [], rfl, rfl, fun _ h => (by cases h), trivial, rfl⟩
  | cons t l =>
    have hrt : Run (t :: ([] : List Bbe)) := by
      refine ⟨t, rfl, fun k u hu => ?_⟩
      have hk : k = 0 := by
        have := (List.getElem?_eq_some_iff.1 hu).1
        simp at this; exact this
      subst hk
      cases hu
      exact ⟨rfl, by unfold Close; omega⟩
    obtain ⟨h', r, g1, groups, h1, h2, _, h4, h5, h6, h7⟩ := coalesceFrom_eq l t [] t hs hp hrt rfl
    have hsz : ({ t with size := BitVec.ofNat 64 (([] : List Bbe).length + 1) } : Bbe) = t := by
      have := (hs t List.mem_cons_self).size
      show ({ t with size := 1 } : Bbe) = t
      rw [← this]
    rw [hsz] at h1
    refine ⟨h' :: r, g1 :: groups, ?_, h2, h4, h5, ?_⟩
    · show (match coalesceFrom t t.ea l with | none => none | some (h, r) => some (h :: r)) = _
      rw [h1]
    · rw [List.filter_cons_of_pos (by exact h7)]; exact h6

/-- The printed blocks of entries with counters below 2^31. -/
theorem dump_eq {s : Cache} (hs : ∀ t ∈ s.entries, Small t) (hn : (s.entries.map (·.ea)).Nodup) :
    (∀ a, QSort compareEa s.entries a → ∃ b, coalesce a = some b) ∧
    ∀ out, Dumps s out → ∃ groups, Division s.entries groups ∧ out.Perm (groups.map block) ∧ out.Pairwise fun a b => b.num.toNat ≤ a.num.toNat := by
  have strict : ∀ a, QSort compareEa s.entries a → (∀ t ∈ a, Small t) ∧ a.Pairwise fun a b => a.ea.toNat < b.ea.toNat := by
    intro a ha
    refine ⟨fun t ht => hs t (ha.perm.mem_iff.1 ht), ?_⟩
    have h1 := ha.sorted (compareEa_consistent _)
    have h2 : (a.map (·.ea)).Nodup := (ha.perm.map _).nodup_iff.2 hn
    have h3 : a.Pairwise fun a b => a.ea ≠ b.ea := List.pairwise_map.1 h2
    refine (h1.and h3).imp fun {x y} h => ?_
    have h4 := (compareEa_le x y).1 h.1
    have h5 : x.ea.toNat ≠ y.ea.toNat := fun h' => h.2 (BitVec.eq_of_toNat_eq h')
    omega
  refine ⟨fun a ha => ?_, ?_⟩
  · obtain ⟨b, _, h, _⟩ := coalesce_eq (strict a ha).1 (strict a ha).2
    exact ⟨b, h⟩
  · rintro out ⟨a, b, c, ha, hb, hc, ho⟩
    obtain ⟨b', groups, h1, h2, h3, h4, h5⟩ := coalesce_eq (strict a ha).1 (strict a ha).2
    rw [hb] at h1
    cases h1
    have hcs := hc.sorted (compareNum_consistent _)
    have htrim : trim c = c.filter (·.valid) := trim_eq (hcs.imp fun {x y} h => by have := (compareNum_le x y).1 h; omega)
    have hperm : (trim c).Perm (groups.map block) := by
      rw [htrim, ← h5]
      exact hc.perm.filter _
    have hvalid : ∀ t ∈ out, t.valid = true := by
      intro t ht
      have := (ho.perm.trans hperm).mem_iff.1 ht
      obtain ⟨g, _, rfl⟩ := List.mem_map.1 this
      rfl
    refine ⟨groups, ⟨by rw [← h2]; exact ha.perm, by rw [← h2]; exact (strict a ha).2, h3, h4⟩, ho.perm.trans hperm, ?_⟩
    refine List.Pairwise.imp_of_mem (fun {x y} hx hy h => ?_) (ho.sorted (compareNum_consistent _))
    have := (compareNum_le x y).1 h
    unfold rank at this
    rw [if_pos (hvalid x hx), if_pos (hvalid y hy)] at this
    omega

theorem firsts_length (l : List (BitVec 64)) : (firsts l).length ≤ l.length := by
  induction l using snoc_ind with
  | h0 => exact Nat.le_refl _
  | h1 l x ih =>
    rw [firsts_snoc, List.length_append]
    split
    · omega
    · rw [List.length_append]; simp only [List.length_singleton]; omega

/-- **C30**, for traces of fewer than 2^31 instructions with at most 2^30 different addresses: printing has defined behaviour, and the printed blocks
stand for the maximal runs of consecutive addresses with close counters, the largest first. -/
theorem C30_blocks_partial (l : List (BitVec 64)) (hl : l.length < 2 ^ 31) (hf : (firsts l).length ≤ 2 ^ 30) : ∃ s, run init l = some s ∧
    (∀ a, QSort compareEa s.entries a → ∃ b, coalesce a = some b) ∧
    ∀ out, Dumps s out → ∃ groups, Division s.entries groups ∧ out.Perm (groups.map block) ∧ out.Pairwise fun a b => b.num.toNat ≤ a.num.toNat := by
  obtain ⟨s, h1, h2, h3, h4, h5⟩ := (C29_exact l).1 hf
  refine ⟨s, h1, dump_eq (fun t ht => ?_) h2⟩
  obtain ⟨h6, h7, h8⟩ := h4 t ht
  refine ⟨?_, h7, h8⟩
  have : l.count t.ea ≤ l.length := List.count_le_length
  rw [h6, BitVec.toNat_ofNat, Nat.mod_eq_of_lt (by omega)]
  omega

/-! ### How far the shares are off -/

/-- **C60**: the number of instructions that the printed block of a run accounts for differs from the true number by at most 3 for every address
after the first. -/
theorem C60_share_partial {g : List Bbe} (hr : Run g) (hl : g.length < 2 ^ 31) (hh : ∀ t ∈ g, t.hit.toNat < 2 ^ 31) :
    (block g).num.toNat ≤ (g.map (·.hit.toNat)).sum + 3 * (g.length - 1) ∧ (g.map (·.hit.toNat)).sum ≤ (block g).num.toNat + 3 * (g.length - 1) := by
  obtain ⟨h, h0, hk⟩ := hr
  cases g with
  | nil => cases h0
  | cons h' g =>
    cases h0
    have hnum : (block (h :: g)).num.toNat = (g.length + 1) * h.hit.toNat := by
      show (BitVec.ofNat 64 (g.length + 1) * h.hit).toNat = _
      rw [List.length_cons] at hl
      rw [BitVec.toNat_mul, BitVec.toNat_ofNat, Nat.mod_eq_of_lt (show g.length + 1 < 2 ^ 64 by omega)]
      apply Nat.mod_eq_of_lt
      have h1 := hh h List.mem_cons_self
      calc (g.length + 1) * h.hit.toNat ≤ 2 ^ 31 * 2 ^ 31 := Nat.mul_le_mul (by omega) (by omega)
        _ < 2 ^ 64 := by decide
    have hc : ∀ t ∈ g, Close t.hit h.hit := by
      intro t ht
      obtain ⟨k, hkl, rfl⟩ := List.getElem_of_mem ht
      exact (hk (k + 1) _ (by rw [List.getElem?_cons_succ]; exact List.getElem?_eq_getElem hkl)).2
    have key : ∀ g : List Bbe, (∀ t ∈ g, Close t.hit h.hit) →
        g.length * h.hit.toNat ≤ (g.map (·.hit.toNat)).sum + 3 * g.length ∧ (g.map (·.hit.toNat)).sum ≤ g.length * h.hit.toNat + 3 * g.length := by
      intro g
      induction g with
      | nil => intro _; simp
      | cons t g ih =>
        intro hc
        have h1 := ih fun u hu => hc u (List.mem_cons_of_mem _ hu)
        have h2 := hc t List.mem_cons_self
        unfold Close at h2
        rw [List.length_cons, List.map_cons, List.sum_cons, Nat.add_mul]
        omega
    have := key g hc
    rw [hnum, List.map_cons, List.sum_cons, List.length_cons, Nat.add_mul]
    omega

/-! ### Large counters -/

/-- One instruction at address 0 and then `n + 1` at address 4. -/
def two (n : Nat) : List (BitVec 64) := 0 :: List.replicate (n + 1) 4

theorem two_firsts : ∀ n, firsts (two n) = [0, 4]
  | 0 => by decide
  | n + 1 => by
    have h : two (n + 1) = two n ++ [4] := by
      unfold two
      rw [List.replicate_succ' (n := n + 1)]; rfl
    rw [h, firsts_snoc, two_firsts n]
    rfl

theorem two_entries (n : Nat) : ∃ s, run init (two n) = some s ∧
    s.entries = [{ ea := 0, size := 1, hit := 1, valid := true }, { ea := 4, size := 1, hit := BitVec.ofNat 64 (n + 1), valid := true }] := by
  obtain ⟨s, h1, h2⟩ := run_logged (two n) [] init init_logged (by rw [List.nil_append, two_firsts]; decide)
  rw [List.nil_append] at h2
  refine ⟨s, h1, ?_⟩
  rw [h2.entries, two_firsts]
  have h0 : (two n).count 0 = 1 := by
    unfold two
    rw [List.count_cons, List.count_replicate]; rfl
  have h4 : (two n).count 4 = n + 1 := by
    unfold two
    rw [List.count_cons, List.count_replicate]; rfl
  show [entryOf (two n) 0, entryOf (two n) 4] = _
  unfold entryOf
  rw [h0, h4]
  rfl

theorem two_sorted {x y : Bbe} (hne : x.ea.toNat < y.ea.toNat) {a : List Bbe} (ha : QSort compareEa [x, y] a) : a = [x, y] := by
  have hs := ha.sorted (compareEa_consistent _)
  have hlen := ha.perm.length_eq
  match a, hlen with
  | [p, q], _ =>
    have hp : p = x ∨ p = y := by simpa using ha.perm.mem_iff.1 (show p ∈ [p, q] by simp)
    have hq : q = x ∨ q = y := by simpa using ha.perm.mem_iff.1 (show q ∈ [p, q] by simp)
    have hx : x = p ∨ x = q := by simpa using ha.perm.mem_iff.2 (show x ∈ [x, y] by simp)
    have hy : y = p ∨ y = q := by simpa using ha.perm.mem_iff.2 (show y ∈ [x, y] by simp)
    have hle : compareEa p q ≤ 0 := by simpa using hs
    rw [compareEa_le] at hle
    rcases hp with rfl | rfl
    · rcases hy with rfl | rfl
      · omega
      · rfl
    · rcases hx with rfl | rfl
      · omega
      · omega

/-- **C30 is refuted** for large counters: an address executed once and the next one executed 2^32 + 1 times are printed as one block of two
instructions executed once; and with 2^31 + 1 executions the behaviour is undefined. -/
theorem C30_refuted :
    (∃ l s, run init l = some s ∧ l.count 0 = 1 ∧ l.count 4 = 2 ^ 32 + 1 ∧ Dumps s [{ ea := 0, size := 2, hit := 1, valid := true }]) ∧
    (∃ l s, run init l = some s ∧ l.count 0 = 1 ∧ l.count 4 = 2 ^ 31 + 1 ∧ ∀ out, ¬ Dumps s out) := by
  have hc : ∀ n, (two n).count 0 = 1 ∧ (two n).count 4 = n + 1 := by
    intro n
    unfold two
    rw [List.count_cons, List.count_replicate, List.count_cons, List.count_replicate]
    exact ⟨rfl, rfl⟩
  constructor
  · obtain ⟨s, h1, h2⟩ := two_entries (2 ^ 32)
    refine ⟨_, s, h1, (hc _).1, (hc _).2, ?_⟩
    refine ⟨_, [{ ea := 0, size := 2, hit := 1, valid := true }, { ea := 4, size := 1, hit := BitVec.ofNat 64 (2 ^ 32 + 1), valid := false }], _,
      ⟨List.Perm.refl _, fun _ => ?_⟩, ?_, ⟨List.Perm.refl _, fun _ => ?_⟩, ⟨List.Perm.refl _, fun _ => ?_⟩⟩
    · rw [h2]; decide +kernel
    · rw [h2]; decide +kernel
    · decide +kernel
    · decide +kernel
  · obtain ⟨s, h1, h2⟩ := two_entries (2 ^ 31)
    refine ⟨_, s, h1, (hc _).1, (hc _).2, ?_⟩
    rintro out ⟨a, b, c, ha, hb, _⟩
    rw [h2] at ha
    rw [two_sorted (by decide) ha] at hb
    have : coalesce [{ ea := 0, size := 1, hit := 1, valid := true }, { ea := 4, size := 1, hit := BitVec.ofNat 64 (2 ^ 31 + 1), valid := true }] = none := by decide +kernel
    rw [this] at hb
    cases hb

/-- **C60 is refuted**: of a loop of two instructions that is left in the middle, five instructions are executed and six are accounted for. -/
theorem C60_refuted : ∃ s, run init [0, 4, 0, 4, 0] = some s ∧ s.num = 5 ∧ Dumps s [{ ea := 0, size := 2, hit := 3, valid := true }] := by
  refine ⟨_, rfl, rfl, ?_⟩
  refine ⟨[{ ea := 0, size := 1, hit := 3, valid := true }, { ea := 4, size := 1, hit := 2, valid := true }],
    [{ ea := 0, size := 2, hit := 3, valid := true }, { ea := 4, size := 1, hit := 2, valid := false }], _,
    ⟨by decide, fun _ => by decide⟩, by decide, ⟨List.Perm.refl _, fun _ => by decide⟩, ⟨List.Perm.refl _, fun _ => by decide⟩⟩

/-- A loop at 0x100 and 0x104 executed 2 times, and 0x200 executed once. -/
example : ∃ s, run init [0x100, 0x104, 0x100, 0x104, 0x200] = some s ∧
    Dumps s [{ ea := 0x100, size := 2, hit := 2, valid := true }, { ea := 0x200, size := 1, hit := 1, valid := true }] := by
  refine ⟨_, rfl, ?_⟩
  refine ⟨_, [{ ea := 0x100, size := 2, hit := 2, valid := true }, { ea := 0x104, size := 1, hit := 2, valid := false }, { ea := 0x200, size := 1, hit := 1, valid := true }],
    [{ ea := 0x100, size := 2, hit := 2, valid := true }, { ea := 0x200, size := 1, hit := 1, valid := true }, { ea := 0x104, size := 1, hit := 2, valid := false }],
    ⟨List.Perm.refl _, fun _ => by decide⟩, by decide, ⟨by decide, fun _ => by decide⟩, ⟨List.Perm.refl _, fun _ => by decide⟩⟩

end Bb
