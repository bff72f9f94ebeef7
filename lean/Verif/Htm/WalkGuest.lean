import Verif.Htm.WalkDecode
/-!
Lemmas about decoding the levels of a guest's walk.
-/
namespace Htm.Mmu
open Htm Htm.Pwc Htm.Xl

/-- An entry of a lower level of the guest's tables. -/
def Lower (i : Nat) (w : Walk) : Prop := w.guestPte = true ∧ w.finalRa = false ∧ ∃ j, i < j ∧ j < 4 ∧ w.level = level j

theorem leafFrom_step {lv v : BitVec 32} (hv : v ≠ lv) (l : List (BitVec 32)) (s : PS) :
    processIsLeafFrom lv (v :: l) s = (scan (X_NO_FINAL_RA ||| X_GUEST_PTE ||| X_LEVEL v) >>= fun r =>
      match r with | some _ => pure false | none => processIsLeafFrom lv l) s := by
  have e : processIsLeafFrom lv (v :: l) = if v = lv then leafBelow lv 4 else
    (scan (X_NO_FINAL_RA ||| X_GUEST_PTE ||| X_LEVEL v) >>= fun r =>
      match r with | some _ => pure false | none => processIsLeafFrom lv l) := rfl
  rw [e, if_neg hv]

theorem leafFrom_hit {i j : Nat} (hj : j < 4) (hij : level j ≠ level i) {rs : List Walk} {w : Walk} (hw : w ∈ rs)
    (h1 : w.guestPte = true) (h2 : w.finalRa = false) (h3 : w.level = level j) (l : List (BitVec 32)) (c : Caches) :
    processIsLeafFrom (level i) (level j :: l) ⟨rs, c⟩ = .ok (some false, ⟨rs, c⟩) := by
  obtain ⟨w', e⟩ := scan_hit (flags := X_NO_FINAL_RA ||| X_GUEST_PTE ||| X_LEVEL (level j)) hw
    (by rw [check_lower hj, h1, h2, h3]; simp) c
  rw [leafFrom_step hij, bind_ok e]
  rfl

/-- A level without an entry is passed; with one the walk goes on there. -/
theorem leafFrom_next {i j : Nat} (hj : j < 4) (hij : level j ≠ level i) (rs : List Walk) (l : List (BitVec 32)) (c : Caches) :
    ((∃ w ∈ rs, w.guestPte = true ∧ w.finalRa = false ∧ w.level = level j) ∧
      processIsLeafFrom (level i) (level j :: l) ⟨rs, c⟩ = .ok (some false, ⟨rs, c⟩)) ∨
    ((∀ w ∈ rs, w.guestPte = true → w.finalRa = false → w.level ≠ level j) ∧
      processIsLeafFrom (level i) (level j :: l) ⟨rs, c⟩ = processIsLeafFrom (level i) l ⟨rs, c⟩) := by
  by_cases h : ∃ w ∈ rs, w.guestPte = true ∧ w.finalRa = false ∧ w.level = level j
  · obtain ⟨w, hw, h1, h2, h3⟩ := h
    exact Or.inl ⟨⟨w, hw, h1, h2, h3⟩, leafFrom_hit hj hij hw h1 h2 h3 l c⟩
  · refine Or.inr ⟨fun w hw h1 h2 h3 => h ⟨w, hw, h1, h2, h3⟩, ?_⟩
    have e := scan_miss (flags := X_NO_FINAL_RA ||| X_GUEST_PTE ||| X_LEVEL (level j)) (rs := rs) (by
      intro w hw
      rw [check_lower hj]
      cases h1 : w.guestPte <;> cases h2 : w.finalRa <;> simp
      intro h3
      exact h ⟨w, hw, h1, h2, h3.symm⟩) c
    rw [leafFrom_step hij, bind_ok e]

theorem leafFrom_stop {i : Nat} (hi : 2 ≤ i) (hi4 : i < 4) (l : List (BitVec 32)) (s : PS) :
    processIsLeafFrom (level i) (level i :: l) s = .ok (some true, s) := by
  have e : processIsLeafFrom (level i) (level i :: l) s = (if level i = level i then leafBelow (level i) 4 else
    (scan (X_NO_FINAL_RA ||| X_GUEST_PTE ||| X_LEVEL (level i)) >>= fun r =>
      match r with | some _ => pure false | none => processIsLeafFrom (level i) l)) s := rfl
  rw [e, if_pos rfl]
  unfold leafBelow
  have : i = 2 ∨ i = 3 := by omega
  rcases this with rfl | rfl <;> rw [if_pos (by decide)] <;> rfl

theorem processIsLeaf_true {i : Nat} (hi : 2 ≤ i) (hi4 : i < 4) {rs : List Walk} (h : ∀ w ∈ rs, ¬ Lower i w) (c : Caches) :
    processIsLeaf (level i) ⟨rs, c⟩ = .ok (some true, ⟨rs, c⟩) := by
  unfold processIsLeaf
  have : i = 2 ∨ i = 3 := by omega
  rcases this with rfl | rfl
  · rcases leafFrom_next (i := 2) (j := 3) (by decide) (by decide) rs [2, 4, 6] c with ⟨⟨w, hw, h1, h2, h3⟩, _⟩ | ⟨_, e⟩
    · exact absurd ⟨h1, h2, 3, by decide, by decide, h3⟩ (h w hw)
    · refine Eq.trans e ?_
      exact leafFrom_stop (i := 2) (by decide) (by decide) _ _
  · exact leafFrom_stop (i := 3) (by decide) (by decide) _ _

theorem processIsLeaf_false {i : Nat} {rs : List Walk} (h : ∃ w ∈ rs, Lower i w) (c : Caches) :
    processIsLeaf (level i) ⟨rs, c⟩ = .ok (some false, ⟨rs, c⟩) := by
  obtain ⟨w, hw, h1, h2, j, hij, hj, h3⟩ := h
  have hne : ∀ k, i < k → k < 4 → level k ≠ level i := fun k hk hk4 hl => by have := level_inj hk4 (by omega) hl; omega
  have hj' : j = 1 ∨ j = 2 ∨ j = 3 := by omega
  show processIsLeafFrom (level i) (level 3 :: level 2 :: level 1 :: [6]) ⟨rs, c⟩ = _
  rcases hj' with rfl | rfl | rfl
  · rcases leafFrom_next (i := i) (j := 3) (by decide) (hne 3 (by omega) (by omega)) rs (level 2 :: level 1 :: [6]) c with ⟨_, e⟩ | ⟨_, e⟩
    · exact e
    · rw [e]
      rcases leafFrom_next (i := i) (j := 2) (by decide) (hne 2 (by omega) (by omega)) rs (level 1 :: [6]) c with ⟨_, e⟩ | ⟨_, e⟩
      · exact e
      · rw [e]
        exact leafFrom_hit (by decide) (hne 1 hij (by omega)) hw h1 h2 h3 _ c
  · rcases leafFrom_next (i := i) (j := 3) (by decide) (hne 3 (by omega) (by omega)) rs (level 2 :: level 1 :: [6]) c with ⟨_, e⟩ | ⟨_, e⟩
    · exact e
    · rw [e]
      exact leafFrom_hit (by decide) (hne 2 hij (by omega)) hw h1 h2 h3 _ c
  · exact leafFrom_hit (by decide) (hne 3 hij (by omega)) hw h1 h2 h3 _ c

/-- What follows a level of the guest's walk tells whether its entry maps a page. -/
def LeafRest (G : Table) (a : BitVec 64) (i : Nat) (rs : List Walk) : Prop :=
  (G.leafAt i a = true → ∀ w ∈ rs, ¬ Lower i w) ∧ (G.leafAt i a = false → ∃ w ∈ rs, Lower i w)

theorem processIsLeaf_ok {G : Table} {a : BitVec 64} {i : Nat} (hd : G.depth a ≠ 2) (hi : i < G.depth a) {rs : List Walk}
    (h : LeafRest G a i rs) (c : Caches) : processIsLeaf (level i) ⟨rs, c⟩ = .ok (some (G.leafAt i a), ⟨rs, c⟩) := by
  have h2 := G.depth_le a
  cases hl : G.leafAt i a with
  | false => exact processIsLeaf_false (h.2 hl) c
  | true =>
    rw [Table.leafAt_eq hi] at hl
    have hl' : i + 1 = G.depth a := by simpa using hl
    exact processIsLeaf_true (by omega) (by omega) (h.1 (by rw [Table.leafAt_eq hi]; exact hl)) c

/-- The final address in the records tells the size of small guest pages. -/
def GuestSize (G : Table) (rs : List Walk) : Prop :=
  (∃ w ∈ rs, w.hostRa = false ∧ w.guestPte = true ∧ w.finalRa = true ∧ w.level = G.code) ∧
  ∀ w ∈ rs, w.hostRa = false → w.guestPte = true → w.finalRa = true → w.level = G.code

theorem pteSubtype_guest {T : Table} {rs : List Walk} (h : GuestSize T rs) (c : Caches) :
    pteSubtype PROCESS_RA_ADDR ⟨rs, c⟩ = .ok (some (T.lvl 3), ⟨rs, c⟩) := by
  obtain ⟨⟨w, hw, h1, h2, h3, h4⟩, hall⟩ := h
  unfold pteSubtype
  by_cases hs : T.small = 12
  · have hc : T.code = 0 := by simp [Table.code, hs]
    obtain ⟨w', e⟩ := scan_hit (flags := PROCESS_RA_ADDR ||| X_LEVEL 0) hw
      (by rw [check_processRa (Or.inl rfl), h1, h2, h3, h4, hc]; rfl) c
    rw [bind_ok e]
    show Except.ok _ = _
    simp [Table.lvl, hs]
  · have hc : T.code = 1 := by simp [Table.code, hs]
    have e0 := scan_miss (flags := PROCESS_RA_ADDR ||| X_LEVEL 0) (rs := rs) (by
      intro v hv
      rw [check_processRa (Or.inl rfl)]
      cases hh : v.hostRa <;> cases hg : v.guestPte <;> cases hf : v.finalRa <;> simp
      rw [hall v hv hh hg hf, hc]; decide) c
    obtain ⟨w', e⟩ := scan_hit (flags := PROCESS_RA_ADDR ||| X_LEVEL 1) hw
      (by rw [check_processRa (Or.inr rfl), h1, h2, h3, h4, hc]; rfl) c
    rw [bind_ok e0]
    show (scan (PROCESS_RA_ADDR ||| X_LEVEL 1) >>= _) _ = _
    rw [bind_ok e]
    show Except.ok _ = _
    simp [Table.lvl, hs]

theorem processSubtype_ok {G : Table} {i : Nat} (hi : i < 4) {rs : List Walk} (h : i = 3 → GuestSize G rs) (c : Caches) :
    processSubtype (Table.typ i) ⟨rs, c⟩ = .ok (some (G.lvl i), ⟨rs, c⟩) := by
  have : i = 0 ∨ i = 1 ∨ i = 2 ∨ i = 3 := by omega
  rcases this with rfl | rfl | rfl | rfl
  · rfl
  · rfl
  · rfl
  · exact pteSubtype_guest (h rfl) c

/-- An entry that is written. -/
theorem processPte_full {G : Table} {x : Addr} {a : BitVec 64} {i : Nat} (hd : G.depth a ≠ 2) (hi : i < G.depth a) {rs : List Walk}
    (hleaf : LeafRest G a i rs) (hsize : i = 3 → GuestSize G rs) (c : Caches) :
    processPte (Table.typ i) (at_ x a) ⟨guestEntry (level i) (G.entry i a) :: rs, c⟩ =
      .ok (some ⟨G.entry i a, pageSizes (G.lvl i), G.leafAt i a⟩, ⟨rs, ins c (G.lvl i) (at_ x a) (G.entry i a) (G.leafAt i a)⟩) := by
  have h4 : i < 4 := by have := G.depth_le a; omega
  unfold processPte
  rw [Table.htmLevel_typ h4, bind_ok (take_hit (by rw [check_process h4]; simp [guestEntry]) rs c)]
  have h1 : processTaken (Table.typ i) (at_ x a) (guestEntry (level i) (G.entry i a)) ⟨rs, c⟩ =
      .ok (some (G.lvl i), ⟨rs, ins c (G.lvl i) (at_ x a) (G.entry i a) (G.leafAt i a)⟩) := by
    unfold processTaken
    rw [Table.htmLevel_typ h4, bind_ok (processIsLeaf_ok hd hi hleaf c), bind_ok (processSubtype_ok h4 hsize c),
      bind_ok (xInsert_ok (Table.lvl_ne i) _ _ _ rs c)]
    rfl
  show (processTaken (Table.typ i) (at_ x a) (guestEntry (level i) (G.entry i a)) >>= fun subtype => finishPte subtype (at_ x a)) _ = _
  rw [bind_ok h1, finishPte_ok (get_ins (Table.lvl_ne i) c _ _ _)]

theorem processCached_hit {G : Table} {x : Addr} {a : BitVec 64} {i : Nat} {c c' : Caches} {rs : List Walk} (hi : i < 4)
    (ho : NoOther c G x)
    (hhit : ∀ l, processCached (level i) (at_ x a) (G.lvl i :: l) ⟨rs, c⟩ = .ok (some (some (G.lvl i)), ⟨rs, c'⟩)) :
    processCached (level i) (at_ x a) (subtypes (Table.typ i)) ⟨rs, c⟩ = .ok (some (some (G.lvl i)), ⟨rs, c'⟩) := by
  rcases lvl_subtypes G hi with ⟨_, h⟩ | ⟨_, _, h⟩ | ⟨_, _, h⟩
  · rw [h, hhit]
  · rw [h, hhit]
  · rw [h]
    unfold processCached
    rw [bind_ok (xGet_ok (ho a) _)]
    exact hhit []

theorem processPte_of_cached {G : Table} {x : Addr} {a : BitVec 64} {i : Nat} {c c' : Caches} {w : Walk} {rs : List Walk} (hi : i < 4)
    (hw : check w (PROCESS_PTE ||| X_LEVEL (level i)) = false)
    (h : processCached (level i) (at_ x a) (subtypes (Table.typ i)) ⟨w :: rs, c⟩ = .ok (some (some (G.lvl i)), ⟨w :: rs, c'⟩))
    (hk : Knows c' G x i a) :
    processPte (Table.typ i) (at_ x a) ⟨w :: rs, c⟩ =
      .ok (some ⟨G.entry i a, pageSizes (G.lvl i), G.leafAt i a⟩, ⟨w :: rs, c'⟩) := by
  unfold processPte
  rw [Table.htmLevel_typ hi, bind_ok (take_miss hw rs c)]
  have h1 : processMissing (Table.typ i) (at_ x a) ⟨w :: rs, c⟩ = .ok (some (G.lvl i), ⟨w :: rs, c'⟩) := by
    unfold processMissing
    rw [Table.htmLevel_typ hi, bind_ok h]
    rfl
  show (processMissing (Table.typ i) (at_ x a) >>= fun subtype => finishPte subtype (at_ x a)) _ = _
  rw [bind_ok h1, finishPte_ok hk]

/-- An entry that is known. -/
theorem processPte_known {G : Table} {x : Addr} {a : BitVec 64} {i : Nat} {c : Caches} {w : Walk} {rs : List Walk} (hi : i < 4)
    (hw : check w (PROCESS_PTE ||| X_LEVEL (level i)) = false) (hk : Knows c G x i a) (ho : NoOther c G x) :
    processPte (Table.typ i) (at_ x a) ⟨w :: rs, c⟩ =
      .ok (some ⟨G.entry i a, pageSizes (G.lvl i), G.leafAt i a⟩, ⟨w :: rs, c⟩) := by
  refine processPte_of_cached hi hw (processCached_hit hi ho ?_) hk
  intro l
  unfold processCached
  rw [bind_ok (xGet_ok hk _)]
  rfl

/-- An entry of a known table. -/
theorem processPte_short {G : Table} {x : Addr} {a r : BitVec 64} {i : Nat} {c : Caches} {rs : List Walk}
    (hd : G.depth a ≠ 2) (hi : i < G.depth a) (hleaf : LeafRest G a i (nestedEntry (level i) r :: rs))
    (hk : Pwc.get c (G.lvl i) (at_ x a) = some (some (G.entry i a, none)) ∨ Knows c G x i a) (ho : NoOther c G x) :
    ∃ c', processPte (Table.typ i) (at_ x a) ⟨nestedEntry (level i) r :: rs, c⟩ =
      .ok (some ⟨G.entry i a, pageSizes (G.lvl i), G.leafAt i a⟩, ⟨nestedEntry (level i) r :: rs, c'⟩) ∧
      (c' = c ∨ c' = ins c (G.lvl i) (at_ x a) (G.entry i a) (G.leafAt i a)) ∧ Knows c' G x i a := by
  have h4 : i < 4 := by have := G.depth_le a; omega
  have hw : check (nestedEntry (level i) r) (PROCESS_PTE ||| X_LEVEL (level i)) = false := by
    rw [check_process h4]; simp [nestedEntry]
  rcases hk with hk | hk
  · refine ⟨_, ?_, Or.inr rfl, get_ins (Table.lvl_ne i) c _ _ _⟩
    refine processPte_of_cached h4 hw (processCached_hit h4 ho ?_) (get_ins (Table.lvl_ne i) c _ _ _)
    intro l
    unfold processCached
    rw [bind_ok (xGet_ok hk _)]
    show (peek (NESTED_PTE ||| X_LEVEL (level i)) >>= _) _ = _
    rw [bind_ok (peek_hit (by rw [check_nested h4]; simp [nestedEntry]) rs c)]
    show (processNested (level i) (G.lvl i) (at_ x a) (G.entry i a) >>= _) _ = _
    have h1 : processNested (level i) (G.lvl i) (at_ x a) (G.entry i a) ⟨nestedEntry (level i) r :: rs, c⟩ =
        .ok (some (), ⟨nestedEntry (level i) r :: rs, ins c (G.lvl i) (at_ x a) (G.entry i a) (G.leafAt i a)⟩) := by
      unfold processNested
      rw [bind_ok (processIsLeaf_ok hd hi hleaf c), xInsert_ok (Table.lvl_ne i)]
    rw [bind_ok h1]
    rfl
  · exact ⟨c, processPte_known h4 hw hk ho, Or.inl rfl, hk⟩

/-- What is decoded of a level. -/
def levelOf (T G : Table) (a : BitVec 64) (i : Nat) : Pte × Row :=
  (⟨G.entry i a, pageSizes (G.lvl i), G.leafAt i a⟩,
   ⟨G.entry i a, ⟨T.real (G.entry i a), T.path (G.entry i a), T.size (G.entry i a)⟩⟩)

theorem real_frame {T : Table} (hT : T.Ok) (g : BitVec 64) : (T.real g).toNat / 2 ^ T.size g = T.frame g := by
  have h1 := hT.2 g
  have h2 := (Table.pageSize_size hT.1 g).lt
  have h3 : g.toNat % 2 ^ T.size g < 2 ^ T.size g := Nat.mod_lt _ (Nat.two_pow_pos _)
  have h4 : 2 ^ T.size g ≤ 2 ^ 52 := Nat.pow_le_pow_right (by omega) (by omega)
  unfold Table.real
  rw [BitVec.toNat_ofNat, Nat.mod_eq_of_lt (by omega), Nat.mul_comm, Nat.mul_add_div (Nat.two_pow_pos _), Nat.div_eq_of_lt h3]
  omega

theorem lower_hostWalk {i : Nat} {T : Table} {g : BitVec 64} {k : Nat} {w : Walk} (hw : w ∈ hostWalk T g k) : ¬ Lower i w := by
  rw [← stage_zero] at hw
  intro h
  have := (stage_final w hw).2
  rw [h.1] at this
  simp at this

theorem lower_nested {i : Nat} (hi : i < 4) (r : BitVec 64) : ¬ Lower i (nestedEntry (level i) r) := by
  intro ⟨_, _, j, h1, h2, h3⟩
  have := level_inj hi h2 h3
  omega

theorem LeafRest.cons {G : Table} {a : BitVec 64} {i : Nat} {rs : List Walk} (h : LeafRest G a i rs) {w : Walk} (hw : ¬ Lower i w) :
    LeafRest G a i (w :: rs) := by
  refine ⟨fun hl v hv => ?_, fun hl => ?_⟩
  · rcases List.mem_cons.1 hv with rfl | hv
    · exact hw
    · exact h.1 hl v hv
  · obtain ⟨v, hv, h2⟩ := h.2 hl
    exact ⟨v, List.mem_cons_of_mem _ hv, h2⟩

theorem LeafRest.append {G : Table} {a : BitVec 64} {i : Nat} {rs : List Walk} (h : LeafRest G a i rs) {l : List Walk}
    (hw : ∀ w ∈ l, ¬ Lower i w) : LeafRest G a i (l ++ rs) := by
  induction l with
  | nil => exact h
  | cons w l ih => exact (ih fun v hv => hw v (List.mem_cons_of_mem _ hv)).cons (hw w (List.mem_cons_self ..))

theorem GuestSize.cons {T : Table} {rs : List Walk} (h : GuestSize T rs) {w : Walk} (hw : w.finalRa = false) : GuestSize T (w :: rs) := by
  obtain ⟨⟨v, hv, hv'⟩, h2⟩ := h
  refine ⟨⟨v, List.mem_cons_of_mem _ hv, hv'⟩, ?_⟩
  intro u hu h3 h4 h5
  rcases List.mem_cons.1 hu with rfl | hu
  · rw [hw] at h5; simp at h5
  · exact h2 u hu h3 h4 h5

theorem GuestSize.append {T : Table} {rs : List Walk} (h : GuestSize T rs) {l : List Walk} (hl : ∀ w ∈ l, w.finalRa = false) :
    GuestSize T (l ++ rs) := by
  induction l with
  | nil => exact h
  | cons w l ih => exact (ih fun v hv => hl v (List.mem_cons_of_mem _ hv)).cons (hl w (List.mem_cons_self ..))

theorem HostSize.append {T : Table} {rs : List Walk} (h : HostSize T rs) {l : List Walk} (hl : ∀ w ∈ l, w.finalRa = false) :
    HostSize T (l ++ rs) := by
  induction l with
  | nil => exact h
  | cons w l ih => exact (ih fun v hv => hl v (List.mem_cons_of_mem _ hv)).cons (hl w (List.mem_cons_self ..))

theorem final_hostWalk {T : Table} {g : BitVec 64} {k : Nat} : ∀ w ∈ hostWalk T g k, w.finalRa = false := by
  intro w hw
  rw [← stage_zero] at hw
  exact (stage_final w hw).1

theorem real_row {S : Tables} {lpid pid : BitVec 32} {a : BitVec 64} :
    (⟨0, lpid, pid, a⟩ : Addr) = at_ ⟨0, lpid, pid, 0⟩ a := rfl

/-- A level that is written completely. -/
theorem row_full {S : Tables} (hS : S.Ok) {lpid pid : BitVec 32} {a : BitVec 64} {i k : Nat} {R : List Walk} {c : Caches}
    (hi : i < (S.guest lpid pid).depth a)
    (hknow : ∀ j < k, j < (S.host lpid).depth ((S.guest lpid pid).entry i a) → ∀ c', Steps S c c' →
      Knows c' (S.host lpid) ⟨MSR_HV, lpid, 0, 0⟩ j ((S.guest lpid pid).entry i a))
    (hno : 0 < k → ∀ c', Steps S c c' → NoOther c' (S.host lpid) ⟨MSR_HV, lpid, 0, 0⟩)
    (hhost : SmallWritten (S.host lpid) ((S.guest lpid pid).entry i a) k → HostSize (S.host lpid) R)
    (hleaf : LeafRest (S.guest lpid pid) a i R) (hsize : i = 3 → GuestSize (S.guest lpid pid) R) :
    ∃ c', guestLevel (Table.typ i) ⟨0, lpid, pid, a⟩
        ⟨rowRecords (S.host lpid) i ((S.guest lpid pid).entry i a) (.full k) ++ R, c⟩ =
      .ok (some (levelOf (S.host lpid) (S.guest lpid pid) a i), ⟨R, c'⟩) ∧ Steps S c c' ∧
      HostPresent S c' lpid ((S.guest lpid pid).entry i a) ∧ Present c' (S.guest lpid pid) ⟨0, lpid, pid, 0⟩ i a := by
  have h4 : i < 4 := by have := (S.guest lpid pid).depth_le a; omega
  have hrec : rowRecords (S.host lpid) i ((S.guest lpid pid).entry i a) (.full k) ++ R =
      guestEntry (level i) ((S.guest lpid pid).entry i a) :: (hostWalk (S.host lpid) ((S.guest lpid pid).entry i a) k ++
        nestedEntry (level i) ((S.host lpid).real ((S.guest lpid pid).entry i a)) :: R) := by
    simp [rowRecords]
  have s1 : Step S c (ins c ((S.guest lpid pid).lvl i) (at_ ⟨0, lpid, pid, 0⟩ a) ((S.guest lpid pid).entry i a)
      ((S.guest lpid pid).leafAt i a)) := Step.walk c (InTab.guest lpid pid) h4 a
  have e1 := processPte_full (x := ⟨0, lpid, pid, 0⟩) ((hS.2 lpid pid).2 a) hi
    ((hleaf.cons (lower_nested h4 ((S.host lpid).real ((S.guest lpid pid).entry i a)))).append
      (l := hostWalk (S.host lpid) ((S.guest lpid pid).entry i a) k) fun w hw => lower_hostWalk hw)
    (fun h3 => ((hsize h3).cons (w := nestedEntry (level i) ((S.host lpid).real ((S.guest lpid pid).entry i a))) rfl).append
      final_hostWalk) c
  obtain ⟨c', e2, s2, p2⟩ := hostWritten hS (k := k)
    (w := nestedEntry (level i) ((S.host lpid).real ((S.guest lpid pid).entry i a))) (R := R)
    (c := ins c ((S.guest lpid pid).lvl i) (at_ ⟨0, lpid, pid, 0⟩ a) ((S.guest lpid pid).entry i a) ((S.guest lpid pid).leafAt i a))
    (flag := NESTED_PTE ||| X_LEVEL (level i)) rfl (by rw [check_nested h4]; simp [nestedEntry]) (real_frame (hS.1 lpid) _)
    (fun j hj hd => hknow j hj hd _ (Steps.one s1)) (fun h => hno h _ (Steps.one s1)) (fun h => (hhost h).cons rfl)
  refine ⟨c', ?_, (Steps.one s1).trans s2, p2, (present_ins h4 a _ _).steps s2⟩
  unfold guestLevel
  rw [hrec, real_row (S := S), bind_ok e1]
  show (partitionTranslate (NESTED_PTE ||| X_LEVEL (htmLevel (Table.typ i))) (processRealAddr lpid ((S.guest lpid pid).entry i a)) >>= _) _ = _
  rw [Table.htmLevel_typ h4, bind_ok e2]
  rfl

/-- What the caches must know for the rows not written. -/
structure Ready (S : Tables) (c : Caches) (lpid pid : BitVec 32) (e : BitVec 64) : Prop where
  host : ∀ i < (S.host lpid).depth e, Knows c (S.host lpid) ⟨MSR_HV, lpid, 0, 0⟩ i e
  hostOther : NoOther c (S.host lpid) ⟨MSR_HV, lpid, 0, 0⟩
  guestOther : NoOther c (S.guest lpid pid) ⟨0, lpid, pid, 0⟩
  tlb : tlbGet c ((S.host lpid).size e) (processRealAddr lpid e) = some (some ((S.host lpid).real e))
  present : PresentTlb S c lpid e

theorem hostWalk_all {T : Table} {g : BitVec 64} : hostWalk T g (T.depth g) = [] := by
  rw [← stage_zero]; exact stage_all (Nat.le_refl _)

/-- A level of which only the host's result is written. -/
theorem row_short {S : Tables} (hS : S.Ok) {lpid pid : BitVec 32} {a : BitVec 64} {i : Nat} {R : List Walk} {c : Caches}
    (hi : i < (S.guest lpid pid).depth a)
    (hready : ∀ c', Steps S c c' → Ready S c' lpid pid ((S.guest lpid pid).entry i a))
    (hdir : Pwc.get c ((S.guest lpid pid).lvl i) (at_ ⟨0, lpid, pid, 0⟩ a) = some (some ((S.guest lpid pid).entry i a, none)) ∨
      Knows c (S.guest lpid pid) ⟨0, lpid, pid, 0⟩ i a)
    (hleaf : LeafRest (S.guest lpid pid) a i R) :
    ∃ c', guestLevel (Table.typ i) ⟨0, lpid, pid, a⟩
        ⟨rowRecords (S.host lpid) i ((S.guest lpid pid).entry i a) .short ++ R, c⟩ =
      .ok (some (levelOf (S.host lpid) (S.guest lpid pid) a i), ⟨R, c'⟩) ∧ Steps S c c' ∧
      HostPresent S c' lpid ((S.guest lpid pid).entry i a) ∧ Present c' (S.guest lpid pid) ⟨0, lpid, pid, 0⟩ i a := by
  have hd := (S.guest lpid pid).depth_le a
  have h4 : i < 4 := by omega
  have hde := (S.host lpid).depth_le ((S.guest lpid pid).entry i a)
  obtain ⟨c1, e1, hc1, k1⟩ := processPte_short (x := ⟨0, lpid, pid, 0⟩)
    (r := (S.host lpid).real ((S.guest lpid pid).entry i a)) (rs := R) ((hS.2 lpid pid).2 a) hi
    (hleaf.cons (lower_nested h4 _)) hdir (hready c (Steps.refl c)).guestOther
  have s1 : Steps S c c1 := by
    rcases hc1 with rfl | rfl
    · exact Steps.refl _
    · exact Steps.one (Step.walk c (InTab.guest lpid pid) h4 a)
  have hr := hready c1 s1
  obtain ⟨c', e2, s2, p2⟩ := hostWritten hS (k := (S.host lpid).depth ((S.guest lpid pid).entry i a))
    (w := nestedEntry (level i) ((S.host lpid).real ((S.guest lpid pid).entry i a))) (R := R) (c := c1)
    (flag := NESTED_PTE ||| X_LEVEL (level i)) rfl (by rw [check_nested h4]; simp [nestedEntry]) (real_frame (hS.1 lpid) _)
    (fun j _ hd => hr.host j hd) (fun _ => hr.hostOther) (fun h => by have := h.1; have := h.2; omega)
  rw [hostWalk_all, List.nil_append] at e2
  refine ⟨c', ?_, s1.trans s2, p2, (present_of_knows h4 k1).steps s2⟩
  unfold guestLevel
  show (processPte (Table.typ i) ⟨0, lpid, pid, a⟩ >>= _)
    ⟨nestedEntry (level i) ((S.host lpid).real ((S.guest lpid pid).entry i a)) :: R, c⟩ = _
  rw [real_row (S := S), bind_ok e1]
  show (partitionTranslate (NESTED_PTE ||| X_LEVEL (htmLevel (Table.typ i))) (processRealAddr lpid ((S.guest lpid pid).entry i a)) >>= _) _ = _
  rw [Table.htmLevel_typ h4, bind_ok e2]
  rfl

/-- A level of which nothing is written. -/
theorem row_hidden {S : Tables} (hS : S.Ok) {lpid pid : BitVec 32} {a : BitVec 64} {i : Nat} {w : Walk} {R : List Walk} {c : Caches}
    (hi : i < (S.guest lpid pid).depth a) (hready : Ready S c lpid pid ((S.guest lpid pid).entry i a))
    (hknow : Knows c (S.guest lpid pid) ⟨0, lpid, pid, 0⟩ i a)
    (hw : w.guestPte = true) (hw1 : check w (PROCESS_PTE ||| X_LEVEL (level i)) = false)
    (hw2 : check w (NESTED_PTE ||| X_LEVEL (level i)) = false) :
    ∃ c', guestLevel (Table.typ i) ⟨0, lpid, pid, a⟩ ⟨w :: R, c⟩ =
      .ok (some (levelOf (S.host lpid) (S.guest lpid pid) a i), ⟨w :: R, c'⟩) ∧ Steps S c c' ∧
      HostPresent S c' lpid ((S.guest lpid pid).entry i a) ∧ Present c' (S.guest lpid pid) ⟨0, lpid, pid, 0⟩ i a := by
  have hd := (S.guest lpid pid).depth_le a
  have h4 : i < 4 := by omega
  have e1 := processPte_known (rs := R) h4 hw1 hknow hready.guestOther
  obtain ⟨c', e2, s2, p2⟩ := hostHidden hS (g := (S.guest lpid pid).entry i a) (R := R) (c := c) hw hw2 hready.host
    hready.hostOther hready.tlb hready.present
  refine ⟨c', ?_, s2, p2, (present_of_knows h4 hknow).steps s2⟩
  unfold guestLevel
  rw [real_row (S := S), bind_ok e1]
  show (partitionTranslate (NESTED_PTE ||| X_LEVEL (htmLevel (Table.typ i))) (processRealAddr lpid ((S.guest lpid pid).entry i a)) >>= _) _ = _
  rw [Table.htmLevel_typ h4, bind_ok e2]
  rfl

end Htm.Mmu
