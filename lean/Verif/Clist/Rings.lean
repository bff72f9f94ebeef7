import Verif.Clist.Lemmas

/-! # The rings under the heads -/

namespace Clist

/-- The elements under a head, around and back to it. -/
def Ring (m : Mem) (h : Addr) (xs : List Addr) : Prop := (h :: xs).Nodup ∧ Seg m h xs h

theorem link_comm (m : Mem) {a b c d : Addr} (h1 : a ≠ c) (h2 : b ≠ d) : (m.link a b).link c d = (m.link c d).link a b := by
  simp only [Mem.link]
  congr 1
  · funext x
    simp only [upd]
    by_cases e : x = c
    · subst e; simp [Ne.symm h1]
    · simp [e]
  · funext x
    simp only [upd]
    by_cases e : x = d
    · subst e; simp [Ne.symm h2]
    · simp [e]

/-- A link between nodes outside a ring leaves it. -/
theorem seg_outside {m : Mem} {a b k : Addr} {ys : List Addr} (h : Seg m k ys k) (ha : a ∉ k :: ys) (hb : b ∉ k :: ys) :
    Seg (m.link a b) k ys k :=
  seg_frame h ha (by simp only [List.mem_append, List.mem_cons, List.not_mem_nil, or_false, not_or] at hb ⊢; exact ⟨hb.2, hb.1⟩)

theorem ring_next {m : Mem} {h : Addr} {xs : List Addr} (r : Ring m h xs) : m.next h ∈ h :: xs := by
  have := seg_next r.2
  simp only [List.mem_append, List.mem_singleton] at this
  exact List.mem_cons.mpr this.symm

theorem ring_prev {m : Mem} {h : Addr} {xs : List Addr} (r : Ring m h xs) : m.prev h ∈ h :: xs := seg_prev r.2

theorem ring_live {m : Mem} {h : Addr} {xs : List Addr} (r : Ring m h xs) : ∀ a ∈ h :: xs, m.live a = true := by
  obtain ⟨h1, _, h3⟩ := seg_live r.2
  intro a ha
  rcases List.mem_cons.mp ha with rfl | ha
  · exact h1
  · exact h3 a ha

/-- The chains before and behind an element. -/
theorem ring_split {m : Mem} {h n : Addr} {as bs : List Addr} (r : Ring m h (as ++ n :: bs)) :
    Seg m h as n ∧ Seg m n bs h ∧ m.prev n ∈ h :: as ∧ m.next n ∈ bs ++ [h] ∧
      (h ≠ n ∧ h ∉ as ∧ h ∉ bs ∧ n ∉ as ∧ n ∉ bs ∧ as.Nodup ∧ bs.Nodup ∧ (∀ a ∈ as, a ∉ bs) ∧ (∀ b ∈ bs, b ∉ as)) := by
  obtain ⟨hd, hs⟩ := r
  rw [seg_append] at hs
  refine ⟨hs.1, hs.2, seg_prev hs.1, seg_next hs.2, ?_⟩
  rw [List.nodup_cons, List.nodup_append, List.nodup_cons] at hd
  simp only [List.mem_append, List.mem_cons, not_or, ne_eq] at hd
  obtain ⟨⟨h1, h2, h3⟩, h4, ⟨h5, h6⟩, h7⟩ := hd
  exact ⟨h2, h1, h3, fun e => h7 _ e _ (Or.inl rfl) rfl, h5, h4, h6, fun a ha hb => h7 _ ha _ (Or.inr hb) rfl,
    fun b hb ha => h7 _ ha _ (Or.inr hb) rfl⟩

theorem ring_live_split {m : Mem} {h n : Addr} {as bs : List Addr} (r : Ring m h (as ++ n :: bs)) :
    m.live h = true ∧ m.live n = true ∧ m.live (m.prev n) = true ∧ m.live (m.next n) = true ∧
      m.prev n ≠ n ∧ m.next n ≠ n := by
  obtain ⟨_, _, hp, hn, d⟩ := ring_split r
  have hl := ring_live r
  obtain ⟨d1, d2, d3, d4, d5, _⟩ := d
  refine ⟨hl _ (by simp), hl _ (by simp), hl _ ?_, hl _ ?_, ?_, ?_⟩
  · rcases List.mem_cons.mp hp with e | e
    · simp [e]
    · simp [e]
  · rcases List.mem_append.mp hn with e | e
    · simp [e]
    · rw [List.mem_singleton] at e; simp [e]
  · intro e
    rw [e] at hp
    rcases List.mem_cons.mp hp with e | e
    · exact d1 e.symm
    · exact d4 e
  · intro e
    rw [e] at hn
    rcases List.mem_append.mp hn with e | e
    · exact d5 e
    · rw [List.mem_singleton] at e; exact d1 e.symm

theorem ring_init {m : Mem} {h : Addr} (hl : m.live h = true) : Ring (m.link h h) h [] := ⟨by simp, seg_link hl hl⟩

theorem ring_add {m : Mem} {h n : Addr} {xs : List Addr} (r : Ring m h xs) (hn : m.live n = true) (hx : n ∉ h :: xs) :
    Ring ((m.link n (m.next h)).link h n) h (n :: xs) := by
  obtain ⟨hd, hs⟩ := r
  simp only [List.mem_cons, not_or] at hx
  rw [List.nodup_cons] at hd
  have h1 := seg_front hs hn hx.2 (by rw [List.nodup_append]; refine ⟨hd.2, by simp, fun a ha b hb e => ?_⟩; simp at hb; subst hb; subst e; exact hd.1 ha)
  refine ⟨?_, seg_link (seg_live hs).1 hn, seg_frame h1 ?_ ?_⟩
  · simp only [List.nodup_cons, List.mem_cons, not_or]
    exact ⟨⟨Ne.symm hx.1, hd.1⟩, hx.2, hd.2⟩
  · simp only [List.mem_cons, not_or]; exact ⟨Ne.symm hx.1, hd.1⟩
  · simp only [List.mem_append, List.mem_singleton, not_or]; exact ⟨hx.2, hx.1⟩

theorem ring_addTail {m : Mem} {h n : Addr} {xs : List Addr} (r : Ring m h xs) (hn : m.live n = true) (hx : n ∉ h :: xs) :
    Ring ((m.link n h).link (m.prev h) n) h (xs ++ [n]) := by
  have hl : m.prev h ≠ n := fun e => hx (e ▸ ring_prev r)
  obtain ⟨hd, hs⟩ := r
  have hx' := hx
  simp only [List.mem_cons, not_or] at hx
  rw [link_comm m (Ne.symm hl) (Ne.symm hx.1)]
  have h1 := seg_back hs hn hx.2 hd
  rw [List.nodup_cons] at hd
  refine ⟨?_, seg_append.mpr ⟨seg_frame h1 hx' ?_, seg_link hn (seg_live hs).1⟩⟩
  · rw [List.nodup_cons, List.nodup_append]
    refine ⟨by simp only [List.mem_append, List.mem_singleton, not_or]; exact ⟨hd.1, Ne.symm hx.1⟩, hd.2, by simp, ?_⟩
    intro a ha b hb e
    rw [List.mem_singleton] at hb
    subst hb; subst e; exact hx.2 ha
  · simp only [List.mem_append, List.mem_singleton, not_or]; exact ⟨hd.1, Ne.symm hx.1⟩

theorem nodup_ring {h n : Addr} {as bs : List Addr} : (h :: (as ++ n :: bs)).Nodup ↔
    h ≠ n ∧ h ∉ as ∧ h ∉ bs ∧ n ∉ as ∧ n ∉ bs ∧ as.Nodup ∧ bs.Nodup ∧ (∀ a ∈ as, a ∉ bs) := by
  rw [List.nodup_cons, List.nodup_append, List.nodup_cons]
  simp only [List.mem_append, List.mem_cons, not_or, ne_eq]
  constructor
  · rintro ⟨⟨h1, h2, h3⟩, h4, ⟨h5, h6⟩, h7⟩
    exact ⟨h2, h1, h3, fun e => h7 _ e _ (Or.inl rfl) rfl, h5, h4, h6, fun a ha hb => h7 _ ha _ (Or.inr hb) rfl⟩
  · rintro ⟨h2, h1, h3, h4, h5, h6, h7, h8⟩
    refine ⟨⟨h1, h2, h3⟩, h6, ⟨h5, h7⟩, ?_⟩
    rintro a ha b (rfl | hb) e
    · exact h4 (e ▸ ha)
    · exact h8 a ha (e ▸ hb)

theorem ring_addAfter {m : Mem} {h p n : Addr} {as bs : List Addr} (r : Ring m h (as ++ p :: bs)) (hn : m.live n = true)
    (hx : n ∉ h :: (as ++ p :: bs)) : Ring ((m.link n (m.next p)).link p n) h (as ++ p :: n :: bs) := by
  obtain ⟨s1, s2, hp, hs, d1, d2, d3, d4, d5, d6, d7, d8, d9⟩ := ring_split r
  simp only [List.mem_cons, List.mem_append, not_or] at hx hs
  obtain ⟨x1, x2, x3, x4⟩ := hx
  have h1 := seg_front s2 hn x4 (by rw [List.nodup_append]; refine ⟨d7, by simp, fun a ha b hb e => ?_⟩; simp at hb; subst hb; subst e; exact d3 ha)
  refine ⟨?_, seg_append.mpr ⟨seg_frame (seg_frame s1 ?_ ?_) ?_ ?_, seg_link (seg_live s2).1 hn, seg_frame h1 ?_ ?_⟩⟩
  · rw [nodup_ring]
    simp only [List.mem_cons, not_or, List.nodup_cons]
    exact ⟨d1, d2, ⟨Ne.symm x1, d3⟩, d4, ⟨Ne.symm x3, d5⟩, d6, ⟨x4, d7⟩, fun a ha => ⟨fun e => x2 (e ▸ ha), d8 a ha⟩⟩
  · simp only [List.mem_cons, not_or]; exact ⟨x1, x2⟩
  · simp only [List.mem_append, List.mem_singleton, not_or]
    rcases hs with e | e
    · exact ⟨d9 _ e, fun e' => d5 (e' ▸ e)⟩
    · simp only [List.not_mem_nil, or_false] at e
      rw [e]
      exact ⟨d2, d1⟩
  · simp only [List.mem_cons, not_or]; exact ⟨Ne.symm d1, d4⟩
  · simp only [List.mem_append, List.mem_singleton, not_or]; exact ⟨x2, x3⟩
  · simp only [List.mem_cons, not_or]; exact ⟨Ne.symm x3, d5⟩
  · simp only [List.mem_append, List.mem_singleton, not_or]; exact ⟨x4, x1⟩

theorem ring_addBefore {m : Mem} {h p n : Addr} {as bs : List Addr} (r : Ring m h (as ++ p :: bs)) (hn : m.live n = true)
    (hx : n ∉ h :: (as ++ p :: bs)) : Ring ((m.link n p).link (m.prev p) n) h (as ++ n :: p :: bs) := by
  obtain ⟨s1, s2, hp, hs, d1, d2, d3, d4, d5, d6, d7, d8, d9⟩ := ring_split r
  simp only [List.mem_cons, List.mem_append, not_or] at hx hp
  obtain ⟨x1, x2, x3, x4⟩ := hx
  have hl : m.prev p ≠ n := by
    intro e
    rw [e] at hp
    rcases hp with e | e
    · exact x1 e
    · exact x2 e
  rw [link_comm m (Ne.symm hl) (Ne.symm x3)]
  have h1 := seg_back s1 hn x2 (by rw [List.nodup_cons]; exact ⟨d2, d6⟩)
  refine ⟨?_, seg_append.mpr ⟨seg_frame h1 ?_ ?_, seg_link hn (seg_live s2).1, seg_frame (seg_frame s2 ?_ ?_) ?_ ?_⟩⟩
  · rw [nodup_ring]
    simp only [List.mem_cons, not_or, List.nodup_cons]
    exact ⟨Ne.symm x1, d2, ⟨d1, d3⟩, x2, ⟨x3, x4⟩, d6, ⟨d5, d7⟩, fun a ha => ⟨fun e => d4 (e ▸ ha), d8 a ha⟩⟩
  · simp only [List.mem_cons, not_or]; exact ⟨x1, x2⟩
  · simp only [List.mem_append, List.mem_singleton, not_or]; exact ⟨d4, Ne.symm x3⟩
  · simp only [List.mem_cons, not_or]
    rcases hp with e | e
    · rw [e]; exact ⟨d1, d3⟩
    · exact ⟨fun e' => d4 (e' ▸ e), d8 _ e⟩
  · simp only [List.mem_append, List.mem_singleton, not_or]; exact ⟨x4, x1⟩
  · simp only [List.mem_cons, not_or]; exact ⟨x3, x4⟩
  · simp only [List.mem_append, List.mem_singleton, not_or]; exact ⟨d5, Ne.symm d1⟩

theorem ring_del {m : Mem} {h n : Addr} {as bs : List Addr} (r : Ring m h (as ++ n :: bs)) :
    Ring (m.link (m.prev n) (m.next n)) h (as ++ bs) := by
  obtain ⟨s1, s2, hp, hs, d1, d2, d3, d4, d5, d6, d7, d8, d9⟩ := ring_split r
  refine ⟨?_, seg_cut s1 s2 ?_ ?_ ?_ d3⟩
  · rw [List.nodup_cons, List.nodup_append]
    exact ⟨by simp [d2, d3], d6, d7, fun a ha b hb e => d8 a ha (e ▸ hb)⟩
  · rw [List.nodup_cons]; exact ⟨d2, d6⟩
  · rw [List.nodup_append]
    refine ⟨d7, by simp, fun a ha b hb e => ?_⟩
    rw [List.mem_singleton] at hb
    subst hb; subst e; exact d3 ha
  · intro x hx
    simp only [List.mem_append, List.mem_singleton, not_or]
    exact ⟨d8 x hx, fun e => d2 (e ▸ hx)⟩

theorem ring_swap {m : Mem} {h o n : Addr} {as bs : List Addr} (r : Ring m h (as ++ o :: bs)) (hn : m.live n = true)
    (hx : n ∉ h :: (as ++ o :: bs)) : Ring ((m.link n (m.next o)).link (m.prev o) n) h (as ++ n :: bs) := by
  have hlv := ring_live_split r
  obtain ⟨s1, s2, hp, hs, d1, d2, d3, d4, d5, d6, d7, d8, d9⟩ := ring_split r
  simp only [List.mem_cons, List.mem_append, not_or, List.not_mem_nil, or_false] at hx hp hs
  obtain ⟨x1, x2, x3, x4⟩ := hx
  have h1 := seg_front s2 hn x4 (by rw [List.nodup_append]; refine ⟨d7, by simp, fun a ha b hb e => ?_⟩; simp at hb; subst hb; subst e; exact d3 ha)
  have h2 : Seg (m.link n (m.next o)) h as o := by
    refine seg_frame s1 (by simp only [List.mem_cons, not_or]; exact ⟨x1, x2⟩) ?_
    simp only [List.mem_append, List.mem_singleton, not_or]
    rcases hs with e | e
    · exact ⟨d9 _ e, fun e' => d5 (e' ▸ e)⟩
    · rw [e]; exact ⟨d2, d1⟩
  have h3 := seg_back h2 (n := n) hn x2 (by rw [List.nodup_cons]; exact ⟨d2, d6⟩)
  have e : (m.link n (m.next o)).prev o = m.prev o := by
    simp only [Mem.link]; exact upd_ne _ _ _ _ (Ne.symm hlv.2.2.2.2.2)
  rw [e] at h3
  refine ⟨?_, seg_append.mpr ⟨h3, seg_frame h1 ?_ ?_⟩⟩
  · rw [nodup_ring]
    exact ⟨Ne.symm x1, d2, d3, x2, x4, d6, d7, d8⟩
  · simp only [List.mem_cons, not_or]
    rcases hp with e | e
    · rw [e]; exact ⟨Ne.symm x1, d3⟩
    · exact ⟨fun e' => x2 (e' ▸ e), d8 _ e⟩
  · simp only [List.mem_append, List.mem_singleton, not_or]; exact ⟨x4, x1⟩

theorem nodup_two {t f : Addr} {xs ys : List Addr} (hx : (t :: xs).Nodup) (hy : (f :: ys).Nodup)
    (hd : ∀ a ∈ t :: xs, a ∉ f :: ys) : t ≠ f ∧ t ∉ xs ∧ t ∉ ys ∧ f ∉ xs ∧ f ∉ ys ∧ xs.Nodup ∧ ys.Nodup ∧
      (∀ a ∈ xs, a ∉ ys) ∧ (∀ a ∈ ys, a ∉ xs) := by
  rw [List.nodup_cons] at hx hy
  simp only [List.mem_cons, not_or] at hd
  have h1 := hd t (Or.inl rfl)
  exact ⟨h1.1, hx.1, h1.2, fun e => (hd f (Or.inr e)).1 rfl, hy.1, hx.2, hy.2, fun a ha => (hd a (Or.inr ha)).2,
    fun a ha hb => (hd a (Or.inr hb)).2 ha⟩

/-- The ring of `list_append_list_` before the head is taken out. -/
theorem ring_append {m : Mem} {t f : Addr} {xs ys : List Addr} (rt : Ring m t xs) (rf : Ring m f ys)
    (hd : ∀ a ∈ t :: xs, a ∉ f :: ys) : Ring ((m.link (m.prev f) t).link (m.prev t) f) t (xs ++ f :: ys) := by
  obtain ⟨d1, d2, d3, d4, d5, d6, d7, d8, d9⟩ := nodup_two rt.1 rf.1 hd
  have pt := ring_prev rt
  have pf := ring_prev rf
  have lt := (seg_live rt.2).1
  have lf := (seg_live rf.2).1
  have ne : m.prev f ≠ m.prev t := fun e => hd _ pt (e ▸ pf)
  have ft := seg_back rf.2 lt d3 rf.1
  have tf := seg_back rt.2 lf d4 rt.1
  refine ⟨nodup_ring.mpr ⟨d1, d2, d3, d4, d5, d6, d7, d8⟩, seg_append.mpr ⟨?_, ?_⟩⟩
  · rw [link_comm m ne d1]
    refine seg_frame tf (fun h => hd _ h pf) ?_
    simp only [List.mem_append, List.mem_singleton, not_or]; exact ⟨d2, d1⟩
  · refine seg_frame ft (hd _ pt) ?_
    simp only [List.mem_append, List.mem_singleton, not_or]; exact ⟨d5, Ne.symm d1⟩

/-- The ring of `list_prepend_list_` before the head is taken out. -/
theorem ring_prepend {m : Mem} {t f : Addr} {xs ys : List Addr} (rt : Ring m t xs) (rf : Ring m f ys)
    (hd : ∀ a ∈ t :: xs, a ∉ f :: ys) : Ring ((m.link t f).link (m.prev f) (m.next t)) t (f :: (ys ++ xs)) := by
  obtain ⟨d1, d2, d3, d4, d5, d6, d7, d8, d9⟩ := nodup_two rt.1 rf.1 hd
  have nt := ring_next rt
  have pf := ring_prev rf
  have lt := (seg_live rt.2).1
  have lf := (seg_live rf.2).1
  have n1 : t ≠ m.prev f := fun e => hd t (by simp) (e ▸ pf)
  have n2 : f ≠ m.next t := fun e => hd _ nt (by rw [← e]; simp)
  rw [link_comm m n1 n2]
  have hs : Seg (m.link (m.prev f) (m.next t)) f (ys ++ xs) t := by
    refine seg_cut rf.2 rt.2 rf.1 ?_ ?_ d4
    · rw [List.nodup_append]
      refine ⟨d6, by simp, fun a ha b hb e => ?_⟩
      rw [List.mem_singleton] at hb
      subst hb; subst e; exact d2 ha
    · intro x hx
      simp only [List.mem_append, List.mem_singleton, not_or]
      exact ⟨d9 x hx, fun e => d3 (e ▸ hx)⟩
  refine ⟨?_, seg_link lt lf, seg_frame hs ?_ ?_⟩
  · rw [List.nodup_cons, List.nodup_cons, List.nodup_append]
    simp only [List.mem_cons, List.mem_append, not_or]
    exact ⟨⟨d1, d3, d2⟩, ⟨d5, d4⟩, d7, d6, fun a ha b hb e => d9 a ha (e ▸ hb)⟩
  · simp only [List.mem_cons, List.mem_append, not_or]; exact ⟨d1, d3, d2⟩
  · simp only [List.mem_append, List.mem_singleton, not_or]; exact ⟨⟨d5, d4⟩, Ne.symm d1⟩

end Clist
