import Verif.Bbv.SpecVectors
import Verif.Bbv.PropsMatrix
/-!
The blocks of a trace, and the table of blocks.
-/
namespace Bbv
open Spec

/-! ### Blocks -/

theorem snocRec {α : Type} {P : List α → Prop} (nil : P []) (append_singleton : ∀ (l : List α) (a : α), P l → P (l ++ [a])) (l : List α) : P l := by
  have h : ∀ l : List α, P l.reverse := by
    intro l
    induction l with
    | nil => exact nil
    | cons a l ih => rw [List.reverse_cons]; exact append_singleton _ _ ih
  have := h l.reverse
  rwa [List.reverse_reverse] at this

theorem starts_add (l : List Block) (b : Block) : starts (l ++ [b]) = if b.start ∈ starts l then starts l else starts l ++ [b.start] := by
  unfold starts
  rw [List.foldl_append]
  rfl

theorem mem_starts {l : List Block} {a : BitVec 64} : a ∈ starts l ↔ ∃ b ∈ l, b.start = a := by
  induction l using snocRec with
  | nil => simp [starts]
  | append_singleton l b ih =>
    rw [starts_add]
    by_cases h : b.start ∈ starts l
    · rw [if_pos h, ih]
      constructor
      · rintro ⟨x, h1, h2⟩; exact ⟨x, List.mem_append_left _ h1, h2⟩
      · rintro ⟨x, h1, h2⟩
        rcases List.mem_append.1 h1 with h1 | h1
        · exact ⟨x, h1, h2⟩
        · cases List.mem_singleton.1 h1; rw [← h2]; exact ih.1 (h2 ▸ h) |>.imp fun y hy => ⟨hy.1, hy.2.trans h2.symm⟩
    · rw [if_neg h, List.mem_append, ih, List.mem_singleton]
      constructor
      · rintro (⟨x, h1, h2⟩ | h1)
        · exact ⟨x, List.mem_append_left _ h1, h2⟩
        · exact ⟨b, List.mem_append_right _ (List.mem_singleton.2 rfl), h1.symm⟩
      · rintro ⟨x, h1, h2⟩
        rcases List.mem_append.1 h1 with h1 | h1
        · exact .inl ⟨x, h1, h2⟩
        · cases List.mem_singleton.1 h1; exact .inr h2.symm

theorem starts_nodup (l : List Block) : (starts l).Nodup := by
  induction l using snocRec with
  | nil => exact List.nodup_nil
  | append_singleton l b ih =>
    rw [starts_add]
    by_cases h : b.start ∈ starts l
    · rw [if_pos h]; exact ih
    · rw [if_neg h, List.nodup_append]
      refine ⟨ih, (by simp), fun x hx y hy => ?_⟩
      cases List.mem_singleton.1 hy
      rintro rfl
      exact h hx

theorem executed_add (P : Nat) (l : List Block) (b : Block) (i : Nat) (a : BitVec 64) :
    executed P (l ++ [b]) i a = executed P l i a + if b.start = a ∧ b.last / P = i then b.length else 0 := by
  unfold executed
  rw [List.filter_append, List.map_append, List.sum_append]
  congr 1
  by_cases h : b.start = a ∧ b.last / P = i
  · rw [if_pos h, List.filter_cons_of_pos (by simp [h.1, h.2])]
    simp
  · rw [if_neg h, List.filter_cons_of_neg]
    · rfl
    · simp only [Bool.and_eq_true, beq_iff_eq]; exact h

theorem executed_none {P : Nat} {l : List Block} {i : Nat} {a : BitVec 64} (h : ∀ b ∈ l, b.start = a → b.last / P ≠ i) : executed P l i a = 0 := by
  unfold executed
  rw [List.filter_eq_nil_iff.2]
  · rfl
  · intro b hb
    simp only [Bool.and_eq_true, beq_iff_eq, not_and]
    exact h b hb

theorem vector_add {P : Nat} {l : List Block} {b : Block} {i j : Nat} (h : b.last / P ≠ i) : vector P (l ++ [b]) i j = vector P l i j := by
  unfold vector
  rw [starts_add]
  by_cases hs : b.start ∈ starts l
  · rw [if_pos hs]
    cases (starts l)[j]? with
    | none => rfl
    | some a => show executed .. = executed ..; rw [executed_add, if_neg (fun hx => h hx.2), Nat.add_zero]
  · rw [if_neg hs]
    by_cases hj : j < (starts l).length
    · rw [List.getElem?_append_left hj, List.getElem?_eq_getElem hj]
      show executed .. = executed ..
      rw [executed_add, if_neg (fun hx => h hx.2), Nat.add_zero]
    · rw [List.getElem?_eq_none (l := starts l) (by omega)]
      cases he : (starts l ++ [b.start])[j]? with
      | none => rfl
      | some a =>
        show executed .. = 0
        apply executed_none
        rw [List.getElem?_append_right (by omega)] at he
        have ha := List.mem_singleton.1 (List.mem_of_getElem? he)
        intro x hx hxa
        rcases List.mem_append.1 hx with hx | hx
        · exact absurd (mem_starts.2 ⟨x, hx, hxa.trans ha⟩) hs
        · cases List.mem_singleton.1 hx; exact h

theorem cut_succ {recs : List Rec} {n : Nat} {r : Rec} (h : recs[n]? = some r) : cut recs (n + 1) = (cut recs n).add n r := by rw [cut, h]

theorem cut_last {recs : List Rec} : ∀ (n : Nat) (b : Block), b ∈ (cut recs n).blocks → b.last < n
  | 0, b, h => by cases h
  | n + 1, b, h => by
    rw [cut] at h
    split at h
    · unfold Cut.add at h
      split at h
      · rcases List.mem_append.1 h with h | h
        · exact Nat.lt_succ_of_lt (cut_last n b h)
        · cases List.mem_singleton.1 h; exact Nat.lt_succ_self n
      · exact Nat.lt_succ_of_lt (cut_last n b h)
    · exact Nat.lt_succ_of_lt (cut_last n b h)

theorem cut_prefix (recs : List Rec) (n : Nat) : (cut recs n).blocks <+: (cut recs (n + 1)).blocks := by
  rw [cut]
  split
  · unfold Cut.add
    split
    · exact List.prefix_append _ _
    · exact List.prefix_rfl
  · exact List.prefix_rfl

theorem cut_mono (recs : List Rec) {n : Nat} : ∀ {m : Nat}, n ≤ m → (cut recs n).blocks <+: (cut recs m).blocks
  | 0, h => by rw [show n = 0 from by omega]; exact List.prefix_rfl
  | m + 1, h => by
    by_cases he : n = m + 1
    · rw [he]; exact List.prefix_rfl
    · exact (cut_mono recs (show n ≤ m by omega)).trans (cut_prefix recs m)

theorem starts_prefix {l l' : List Block} (h : l <+: l') : starts l <+: starts l' := by
  obtain ⟨t, rfl⟩ := h
  induction t using snocRec with
  | nil => rw [List.append_nil]; exact List.prefix_rfl
  | append_singleton t b ih =>
    rw [← List.append_assoc, starts_add]
    split
    · exact ih
    · exact ih.trans (List.prefix_append _ _)

/-- The blocks have all instructions but the rest. -/
theorem cut_length (recs : List Rec) : ∀ (n : Nat), n ≤ recs.length → ((cut recs n).blocks.map (·.length)).sum + (cut recs n).rest.length = n
  | 0, _ => rfl
  | n + 1, h => by
    have ih := cut_length recs n (by omega)
    rw [cut_succ (List.getElem?_eq_getElem (show n < recs.length by omega))]
    unfold Cut.add
    split
    · dsimp only
      rw [List.map_append, List.sum_append]
      simp only [List.map_cons, List.map_nil, List.sum_cons, List.sum_nil, List.length_nil]
      omega
    · dsimp only
      rw [List.length_append, List.length_singleton]
      omega

/-! ### The table -/

def objs (f : BitVec 64 → Nat) (as : List (BitVec 64)) : List Obj :=
  as.mapIdx fun j a => { addr := a, count := BitVec.ofNat 64 (f a), id := BitVec.ofNat 32 j }

theorem objs_mem {f : BitVec 64 → Nat} {as : List (BitVec 64)} {o : Obj} :
    o ∈ objs f as ↔ ∃ (j : Nat) (a : BitVec 64), as[j]? = some a ∧ o = { addr := a, count := BitVec.ofNat 64 (f a), id := BitVec.ofNat 32 j } := by
  unfold objs
  rw [List.mem_mapIdx]
  constructor
  · rintro ⟨j, h, rfl⟩; exact ⟨j, as[j], List.getElem?_eq_getElem h, rfl⟩
  · rintro ⟨j, a, h, rfl⟩
    obtain ⟨h1, h2⟩ := List.getElem?_eq_some_iff.1 h
    exact ⟨j, h1, by rw [h2]⟩

theorem objs_any {f : BitVec 64 → Nat} {as : List (BitVec 64)} {a : BitVec 64} : (objs f as).any (fun o => o.addr == a) = true ↔ a ∈ as := by
  rw [List.any_eq_true]
  constructor
  · rintro ⟨o, h1, h2⟩
    obtain ⟨j, b, h3, rfl⟩ := objs_mem.1 h1
    cases beq_iff_eq.1 h2
    exact List.mem_of_getElem? h3
  · intro h
    obtain ⟨j, hj, rfl⟩ := List.getElem_of_mem h
    exact ⟨_, objs_mem.2 ⟨j, as[j], List.getElem?_eq_getElem hj, rfl⟩, beq_self_eq_true _⟩

theorem objs_congr {f g : BitVec 64 → Nat} {as : List (BitVec 64)} (h : ∀ a ∈ as, BitVec.ofNat 64 (f a) = BitVec.ofNat 64 (g a)) : objs f as = objs g as := by
  unfold objs
  apply List.ext_getElem
  · simp
  · intro i h1 h2
    simp only [List.getElem_mapIdx]
    rw [h _ (List.getElem_mem _)]

theorem bump_map (addr : BitVec 64) (val : BitVec 32) : ∀ (l : List Obj), (l.map (·.addr)).Nodup →
    bump addr val l = l.map fun o => if o.addr = addr then { o with count := o.count + val.setWidth 64 } else o
  | [], _ => rfl
  | o :: l, h => by
    rw [List.map_cons, List.nodup_cons] at h
    rw [bump, List.map_cons]
    by_cases ho : o.addr = addr
    · rw [if_pos ho, if_pos ho]
      congr 1
      rw [List.map_congr_left (g := id), List.map_id]
      intro x hx
      rw [if_neg]; · rfl
      intro he
      exact h.1 (List.mem_map.2 ⟨x, hx, he.trans ho.symm⟩)
    · rw [if_neg ho, if_neg ho, bump_map addr val l h.2]

theorem objs_addr (f : BitVec 64 → Nat) (as : List (BitVec 64)) : (objs f as).map (·.addr) = as := by
  unfold objs
  apply List.ext_getElem
  · simp
  · intro i h1 h2; simp

theorem objs_bump {f : BitVec 64 → Nat} {as : List (BitVec 64)} (h : as.Nodup) (a : BitVec 64) (val : BitVec 32) :
    bump a val (objs f as) = objs (fun x => f x + if a = x then val.toNat else 0) as := by
  rw [bump_map _ _ _ (by rw [objs_addr]; exact h)]
  unfold objs
  apply List.ext_getElem
  · simp
  · intro i h1 h2
    simp only [List.getElem_map, List.getElem_mapIdx]
    split
    · rename_i he
      rw [if_pos he.symm]
      congr 1
      apply BitVec.eq_of_toNat_eq
      simp
    · rename_i he
      rw [if_neg (fun h => he h.symm), Nat.add_zero]

theorem objs_snoc (f : BitVec 64 → Nat) (as : List (BitVec 64)) (a : BitVec 64) :
    objs f (as ++ [a]) = objs f as ++ [{ addr := a, count := BitVec.ofNat 64 (f a), id := BitVec.ofNat 32 as.length }] := by
  unfold objs
  rw [List.mapIdx_append]
  simp

theorem objs_zero (f : BitVec 64 → Nat) (as : List (BitVec 64)) : ((objs f as).map fun o => { o with count := 0 }) = objs (fun _ => 0) as := by
  unfold objs
  apply List.ext_getElem
  · simp
  · intro i h1 h2
    simp only [List.getElem_map, List.getElem_mapIdx]
    rfl

/-! ### Storing the counts -/

theorem storeCounts {R C r : Nat} (hr : r < R) (v : Nat → BitVec 64) : ∀ (l : List Obj) (m : Matrix) (g : Nat → Nat → BitVec 64), Holds m R C g →
    (∀ o ∈ l, o.id.toNat < C ∧ v o.id.toNat = o.count) →
    ∃ m', l.foldlM (storeCount (BitVec.ofNat 64 r)) m = .ok m' ∧
      ∃ g', Holds m' R C g' ∧ (∀ r' c, r' ≠ r → g' r' c = g r' c) ∧
        (∀ c, (∃ o ∈ l, o.id.toNat = c ∧ o.count ≠ 0) → g' r c = v c) ∧
        (∀ c, (¬ ∃ o ∈ l, o.id.toNat = c ∧ o.count ≠ 0) → g' r c = g r c)
  | [], m, g, hm, _ => ⟨m, rfl, g, hm, fun _ _ _ => rfl, fun c ⟨o, h, _⟩ => (by cases h), fun _ _ => rfl⟩
  | o :: l, m, g, hm, hl => by
    rw [List.foldlM_cons]
    obtain ⟨h1, h2⟩ := hl o List.mem_cons_self
    by_cases hc : o.count ≠ 0
    · obtain ⟨m1, h3, h4⟩ := hm.store hr h1 o.count
      have h5 : storeCount (BitVec.ofNat 64 r) m o = .ok m1 := by
        unfold storeCount
        rw [if_pos hc, ← h3]
        congr 1
        apply BitVec.eq_of_toNat_eq
        rw [BitVec.toNat_setWidth, BitVec.toNat_ofNat]
      obtain ⟨m', h6, g', h7, h8, h9, h10⟩ := storeCounts hr v l m1 _ h4 (fun o ho => hl o (List.mem_cons_of_mem _ ho))
      refine ⟨m', by rw [h5]; exact h6, g', h7, fun r' c hr' => ?_, fun c hx => ?_, fun c hx => ?_⟩
      · rw [h8 r' c hr', if_neg (fun h => hr' h.1)]
      · by_cases hy : ∃ o ∈ l, o.id.toNat = c ∧ o.count ≠ 0
        · exact h9 c hy
        · rw [h10 c hy]
          obtain ⟨x, hx1, hx2, hx3⟩ := hx
          rcases List.mem_cons.1 hx1 with rfl | hx1
          · rw [if_pos ⟨rfl, hx2.symm⟩, ← h2, hx2]
          · exact absurd ⟨x, hx1, hx2, hx3⟩ hy
      · rw [h10 c (fun ⟨x, hx1, hx2⟩ => hx ⟨x, List.mem_cons_of_mem _ hx1, hx2⟩), if_neg]
        rintro ⟨_, rfl⟩
        exact hx ⟨o, List.mem_cons_self, rfl, hc⟩
    · have h5 : storeCount (BitVec.ofNat 64 r) m o = .ok m := by
        unfold storeCount
        rw [if_neg hc]
      obtain ⟨m', h6, g', h7, h8, h9, h10⟩ := storeCounts hr v l m g hm (fun o ho => hl o (List.mem_cons_of_mem _ ho))
      have hiff : ∀ c, (∃ x ∈ o :: l, x.id.toNat = c ∧ x.count ≠ 0) ↔ (∃ x ∈ l, x.id.toNat = c ∧ x.count ≠ 0) := by
        intro c
        constructor
        · rintro ⟨x, hx1, hx2, hx3⟩
          rcases List.mem_cons.1 hx1 with rfl | hx1
          · exact absurd hx3 hc
          · exact ⟨x, hx1, hx2, hx3⟩
        · rintro ⟨x, hx1, hx2⟩; exact ⟨x, List.mem_cons_of_mem _ hx1, hx2⟩
      exact ⟨m', by rw [h5]; exact h6, g', h7, h8, fun c hx => h9 c ((hiff c).1 hx), fun c hx => h10 c (fun h => hx ((hiff c).2 h))⟩

end Bbv
