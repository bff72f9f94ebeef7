import Verif.Ptracer.SingleStep

/-! # Lemmas about inserting and removing breakpoints -/

namespace Ptr

theorem readInsn_some {m : Mem} {a : Addr} {w : Word} (h : readInsn m a = some w) : m a = some w := by
  unfold readInsn at h
  split at h
  · next w' v h1 h2 =>
    split at h
    · cases h
    · injection h with h; rw [h1, h]
  · cases h

theorem writeInsn_some {m m' : Mem} {a : Addr} {w : Word} (h : writeInsn m a w = some m') (x : Addr) :
    m' x = if x = a then some w else m x := by
  unfold writeInsn at h
  split at h
  · cases h
  · injection h with h; rw [← h]

/-- No address occurs twice, unused entries apart. -/
def Distinct : List Addr → Prop
  | [] => True
  | a :: t => (a ≠ noAddr → a ∉ t) ∧ Distinct t

theorem dropIfLater_eq (a : Addr) (later : List Addr) (h : a ≠ noAddr) :
    dropIfLater a later = if a ∈ later then noAddr else a := by
  unfold dropIfLater
  have hno : ∀ l : List Addr, l.foldl (fun cur b => if cur = b then noAddr else cur) noAddr = noAddr := by
    intro l
    induction l with
    | nil => rfl
    | cons b t ih =>
      rw [List.foldl_cons]
      have : (if noAddr = b then noAddr else noAddr) = noAddr := by split <;> rfl
      rw [this, ih]
  induction later with
  | nil => simp
  | cons b t ih =>
    rw [List.foldl_cons]
    by_cases hb : a = b
    · rw [if_pos hb, hno, if_pos (by rw [hb]; exact List.mem_cons_self)]
    · rw [if_neg hb, ih]
      by_cases ht : a ∈ t
      · rw [if_pos ht, if_pos (List.mem_cons_of_mem _ ht)]
      · rw [if_neg ht, if_neg (by simp [hb, ht])]

theorem dropIfLater_cases (a : Addr) (later : List Addr) :
    dropIfLater a later = noAddr ∨ (dropIfLater a later = a ∧ a ∉ later) := by
  by_cases h : a = noAddr
  · subst h
    left
    unfold dropIfLater
    have : ∀ l : List Addr, l.foldl (fun cur b => if cur = b then noAddr else cur) noAddr = noAddr := by
      intro l
      induction l with
      | nil => rfl
      | cons b t ih =>
        rw [List.foldl_cons]
        have : (if noAddr = b then noAddr else noAddr) = noAddr := by split <;> rfl
        rw [this, ih]
    exact this later
  · rw [dropIfLater_eq a later h]
    by_cases hm : a ∈ later
    · rw [if_pos hm]; exact .inl rfl
    · rw [if_neg hm]; exact .inr ⟨rfl, hm⟩

theorem mem_prune {s e x : Addr} {l : List Addr} (h : x ∈ prune s e l) :
    x = noAddr ∨ (x ∈ l ∧ ¬ (s ≤ x ∧ x < e)) := by
  induction l with
  | nil => cases h
  | cons a t ih =>
    unfold prune at h
    rcases List.mem_cons.1 h with h | h
    · split at h
      · exact .inl h
      · next hn =>
        rcases dropIfLater_cases a t with hd | ⟨hd, _⟩
        · exact .inl (h.trans hd)
        · rw [hd] at h; subst h
          exact .inr ⟨List.mem_cons_self, hn⟩
    · exact (ih h).imp id fun ⟨h1, h2⟩ => ⟨List.mem_cons_of_mem _ h1, h2⟩

theorem prune_mem {s e x : Addr} {l : List Addr} (hx : x ∈ l) (hn : x ≠ noAddr) (hr : ¬ (s ≤ x ∧ x < e)) :
    x ∈ prune s e l := by
  induction l with
  | nil => cases hx
  | cons a t ih =>
    unfold prune
    by_cases ht : x ∈ t
    · exact List.mem_cons_of_mem _ (ih ht)
    · rcases List.mem_cons.1 hx with h | h
      · subst h
        rw [if_neg hr, dropIfLater_eq x t hn, if_neg ht]
        exact List.mem_cons_self
      · exact absurd h ht

theorem prune_distinct (s e : Addr) (l : List Addr) : Distinct (prune s e l) := by
  induction l with
  | nil => trivial
  | cons a t ih =>
    unfold prune
    refine ⟨fun hne hm => ?_, ih⟩
    by_cases hr : s ≤ a ∧ a < e
    · rw [if_pos hr] at hne; exact hne rfl
    · rw [if_neg hr] at hne hm
      rcases dropIfLater_cases a t with hd | ⟨hd, hnt⟩
      · exact hne hd
      · rw [hd] at hne hm
        rcases mem_prune hm with h | ⟨h, _⟩
        · exact hne h
        · exact hnt h

theorem insertOne_some {m m' : Mem} {a : Addr} {w : Word} (h : insertOne m a = some (m', w)) :
    m a = some w ∧ ∀ x, m' x = if x = a then some brk else m x := by
  unfold insertOne at h
  split at h
  · cases h
  · next v hv =>
    split at h
    · cases h
    · next m1 hm =>
      injection h with h; injection h with h1 h2
      subst h1 h2
      exact ⟨readInsn_some hv, writeInsn_some hm⟩

/-- After a successful insertion exactly the used addresses hold the breakpoint word, and the saved words
are the original ones. -/
theorem insertAll_inr {l : List Addr} : ∀ {m m' : Mem} {s : List (Addr × Word)}, Distinct l →
    insertAll m l = .inr (m', s) →
    (∀ x, m' x = if x ∈ l ∧ x ≠ noAddr then some brk else m x) ∧ s.map Prod.fst = l ∧
    ∀ a w, (a, w) ∈ s → a ≠ noAddr → m a = some w := by
  induction l with
  | nil =>
    intro m m' s _ h
    unfold insertAll at h
    injection h with h; injection h with h1 h2
    subst h1 h2
    refine ⟨fun x => by simp, rfl, fun a w hm => by cases hm⟩
  | cons a t ih =>
    intro m m' s hd h
    unfold insertAll at h
    split at h
    · next ha =>
      split at h
      · cases h
      · next m1 s1 he =>
        injection h with h; injection h with h1 h2
        subst h1 h2
        obtain ⟨i1, i2, i3⟩ := ih hd.2 he
        refine ⟨fun x => ?_, by simp [i2], fun b w hm hb => ?_⟩
        · rw [i1 x]
          by_cases hx : x = noAddr
          · rw [if_neg (fun h => h.2 hx), if_neg (fun h => h.2 hx)]
          · have : (x ∈ a :: t ∧ x ≠ noAddr) ↔ (x ∈ t ∧ x ≠ noAddr) := by
              rw [List.mem_cons, ha]
              exact ⟨fun ⟨h, h'⟩ => ⟨h.resolve_left h', h'⟩, fun ⟨h, h'⟩ => ⟨.inr h, h'⟩⟩
            simp only [this]
        · rcases List.mem_cons.1 hm with e | e
          · injection e with e1 _
            exact absurd (e1.trans ha) hb
          · exact i3 b w e hb
    · next ha =>
      split at h
      · cases h
      · next m1 w1 ho =>
        obtain ⟨o1, o2⟩ := insertOne_some ho
        split at h
        · cases h
        · next m2 s1 he =>
          injection h with h; injection h with h1 h2
          subst h1 h2
          obtain ⟨i1, i2, i3⟩ := ih hd.2 he
          refine ⟨fun x => ?_, by simp [i2], fun b w hm hb => ?_⟩
          · rw [i1 x, o2 x]
            by_cases hx : x = a
            · rw [if_pos hx, if_pos (c := x ∈ a :: t ∧ x ≠ noAddr) ⟨by rw [hx]; exact List.mem_cons_self, by rw [hx]; exact ha⟩]
              split <;> rfl
            · rw [if_neg hx]
              have : (x ∈ a :: t ∧ x ≠ noAddr) ↔ (x ∈ t ∧ x ≠ noAddr) := by
                rw [List.mem_cons]
                exact ⟨fun ⟨h, h'⟩ => ⟨h.resolve_left hx, h'⟩, fun ⟨h, h'⟩ => ⟨.inr h, h'⟩⟩
              simp only [this]
          · rcases List.mem_cons.1 hm with e | e
            · injection e with e1 e2
              rw [e1, e2]; exact o1
            · have hba : b ≠ a := by
                intro hba
                have : b ∈ t := by rw [← i2]; exact List.mem_map.2 ⟨(b, w), e, rfl⟩
                exact hd.1 ha (hba ▸ this)
              have := i3 b w e hb
              rw [o2 b, if_neg hba] at this
              exact this

theorem removeOne_some {m m' : Mem} {a : Addr} {w : Word} (h : removeOne m a w = some m') :
    (∀ x, x ≠ a → m' x = m x) ∧ (m a = some brk → m' a = some w) := by
  unfold removeOne at h
  split at h
  · cases h
  · next v hv =>
    split at h
    · have hw := writeInsn_some h
      refine ⟨fun x hx => by rw [hw x, if_neg hx], fun _ => by rw [hw a, if_pos rfl]⟩
    · next hne =>
      injection h with h; subst h
      refine ⟨fun _ _ => rfl, fun hb => ?_⟩
      rw [readInsn_some hv] at hb
      injection hb with hb
      exact absurd hb hne

/-- Removal changes used addresses only, and puts the saved word back where the breakpoint word still is. -/
theorem removeAll_inr {s : List (Addr × Word)} : ∀ {m m' : Mem}, Distinct (s.map Prod.fst) → removeAll m s = .inr m' →
    (∀ x, (x ∈ s.map Prod.fst ∧ x ≠ noAddr → False) → m' x = m x) ∧
    ∀ a w, (a, w) ∈ s → a ≠ noAddr → m a = some brk → m' a = some w := by
  induction s with
  | nil =>
    intro m m' _ h
    unfold removeAll at h
    injection h with h; subst h
    exact ⟨fun _ _ => rfl, fun a w hm => by cases hm⟩
  | cons e t ih =>
    obtain ⟨a, w⟩ := e
    intro m m' hd h
    unfold removeAll at h
    split at h
    · next ha =>
      obtain ⟨i1, i2⟩ := ih hd.2 h
      refine ⟨fun x hx => i1 x fun ⟨h1, h2⟩ => hx ⟨List.mem_cons_of_mem _ h1, h2⟩, fun b v hm hb hk => ?_⟩
      rcases List.mem_cons.1 hm with e | e
      · injection e with e1 _
        exact absurd (e1.trans ha) hb
      · exact i2 b v e hb hk
    · next ha =>
      split at h
      · cases h
      · next m1 ho =>
        obtain ⟨o1, o2⟩ := removeOne_some ho
        obtain ⟨i1, i2⟩ := ih hd.2 h
        have hat : a ∉ t.map Prod.fst := hd.1 ha
        refine ⟨fun x hx => ?_, fun b v hm hb hk => ?_⟩
        · have hxa : x ≠ a := fun hxa => hx ⟨by rw [hxa]; exact List.mem_cons_self, by rw [hxa]; exact ha⟩
          rw [i1 x fun ⟨h1, h2⟩ => hx ⟨List.mem_cons_of_mem _ h1, h2⟩, o1 x hxa]
        · rcases List.mem_cons.1 hm with e | e
          · injection e with e1 e2
            subst e1 e2
            rw [i1 b fun ⟨h1, _⟩ => hat h1, o2 hk]
          · have hba : b ≠ a := fun hba => hat (hba ▸ List.mem_map.2 ⟨(b, v), e, rfl⟩)
            exact i2 b v e hb (by rw [o1 b hba]; exact hk)

/-- Inserting, running and removing puts back every word the process did not change itself. -/
theorem restore {m m1 m2 mr : Mem} {l : List Addr} {s : List (Addr × Word)} (hd : Distinct l)
    (hi : insertAll m l = .inr (m1, s)) (hr : removeAll mr s = .inr m2) {a : Addr} (ha : mr a = m1 a) : m2 a = m a := by
  obtain ⟨i1, i2, i3⟩ := insertAll_inr hd hi
  obtain ⟨r1, r2⟩ := removeAll_inr (by rw [i2]; exact hd) hr
  by_cases hu : a ∈ l ∧ a ≠ noAddr
  · have hm : a ∈ s.map Prod.fst := by rw [i2]; exact hu.1
    obtain ⟨⟨b, w⟩, hbw, rfl⟩ := List.mem_map.1 hm
    have h1 : mr b = some brk := by
      have := i1 b
      rw [if_pos hu] at this
      exact ha.trans this
    rw [r2 b w hbw hu.2 h1, i3 b w hbw hu.2]
  · rw [r1 a (by rw [i2]; exact fun h => hu h), ha, i1 a, if_neg hu]

/-- Every address is mapped and no word is all ones, so that no read fails. -/
def Plain (m : Mem) : Prop := ∀ a, ∃ w, m a = some w ∧ w ≠ 0xffffffff#32

theorem Plain.read {m : Mem} (h : Plain m) (a : Addr) : ∃ w, readInsn m a = some w ∧ w ≠ 0xffffffff#32 := by
  obtain ⟨w, h1, h2⟩ := h a
  obtain ⟨v, h3, _⟩ := h (a + 4#64)
  refine ⟨w, ?_, h2⟩
  unfold readInsn
  rw [h1, h3]
  dsimp only
  rw [if_neg (fun h => h2 h.1)]

theorem Plain.write {m : Mem} (h : Plain m) (a : Addr) {w : Word} (hw : w ≠ 0xffffffff#32) :
    ∃ m', writeInsn m a w = some m' ∧ Plain m' := by
  obtain ⟨v, h1, _⟩ := h.read a
  unfold writeInsn
  rw [h1]
  refine ⟨_, rfl, fun x => ?_⟩
  split
  · exact ⟨w, rfl, hw⟩
  · exact h x

theorem brk_ne : brk ≠ 0xffffffff#32 := by decide

theorem Plain.insertAll {l : List Addr} : ∀ {m : Mem}, Plain m →
    ∃ m1 s, insertAll m l = .inr (m1, s) ∧ Plain m1 ∧ ∀ a w, (a, w) ∈ s → w ≠ 0xffffffff#32 := by
  induction l with
  | nil => intro m h; exact ⟨m, [], rfl, h, fun _ _ hm => by cases hm⟩
  | cons a t ih =>
    intro m h
    unfold Ptr.insertAll
    by_cases ha : a = noAddr
    · obtain ⟨m1, s, e, hp, hs⟩ := ih h
      rw [if_pos ha, e]
      refine ⟨m1, _, rfl, hp, fun b w hm => ?_⟩
      rcases List.mem_cons.1 hm with q | q
      · injection q with _ q; rw [q]; decide
      · exact hs b w q
    · obtain ⟨w, hr, hw⟩ := h.read a
      obtain ⟨m0, hm0, hp0⟩ := h.write a brk_ne
      have ho : insertOne m a = some (m0, w) := by unfold insertOne; rw [hr]; dsimp only; rw [hm0]
      obtain ⟨m1, s, e, hp, hs⟩ := ih hp0
      rw [if_neg ha, ho]
      dsimp only
      rw [e]
      refine ⟨m1, _, rfl, hp, fun b v hm => ?_⟩
      rcases List.mem_cons.1 hm with q | q
      · injection q with _ q; rw [q]; exact hw
      · exact hs b v q

theorem Plain.removeAll {s : List (Addr × Word)} (hs : ∀ a w, (a, w) ∈ s → w ≠ 0xffffffff#32) :
    ∀ {m : Mem}, Plain m → ∃ m', removeAll m s = .inr m' := by
  induction s with
  | nil => intro m _; exact ⟨m, rfl⟩
  | cons e t ih =>
    obtain ⟨a, w⟩ := e
    intro m h
    have ih : ∀ {m : Mem}, Plain m → ∃ m', Ptr.removeAll m t = .inr m' :=
      ih (fun b v hm => hs b v (List.mem_cons_of_mem _ hm))
    unfold Ptr.removeAll
    by_cases ha : a = noAddr
    · rw [if_pos ha]; exact ih h
    · rw [if_neg ha]
      obtain ⟨v, hr, _⟩ := h.read a
      obtain ⟨m0, hm0, hp0⟩ := h.write a (hs a w List.mem_cons_self)
      unfold removeOne
      rw [hr]
      dsimp only
      by_cases hv : v = brk
      · rw [if_pos hv, hm0]; exact ih hp0
      · rw [if_neg hv]; exact ih h

end Ptr
