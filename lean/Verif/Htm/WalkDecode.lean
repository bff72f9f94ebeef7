import Verif.Htm.WalkCaches
/-!
Lemmas about decoding one table walk.
-/
namespace Htm.Mmu
open Htm Htm.Pwc Htm.Xl

theorem bind_ok {α β : Type} {m : X α} {f : α → X β} {s s' : PS} {a : α} (h : m s = .ok (some a, s')) :
    (m >>= f) s = f a s' := by
  show X.bind m f s = _
  unfold X.bind
  rw [h]

theorem pure_ok {α : Type} (a : α) (s : PS) : (pure a : X α) s = .ok (some a, s) := rfl

/-! Which records the parser takes. -/

theorem level_cases {P : Nat → Prop} (h0 : P 0) (h1 : P 1) (h2 : P 2) (h3 : P 3) {i : Nat} (hi : i < 4) : P i := by
  have : i = 0 ∨ i = 1 ∨ i = 2 ∨ i = 3 := by omega
  rcases this with rfl | rfl | rfl | rfl <;> assumption

theorem check_partition {i : Nat} (hi : i < 4) (w : Walk) :
    check w (PARTITION_PTE ||| X_LEVEL (level i)) = (w.hostRa && !w.guestPte && !w.finalRa && decide (level i = w.level)) := by
  obtain ⟨f, e, g, h, r, l, ra⟩ := w
  revert i
  apply level_cases <;> cases f <;> cases g <;> cases h <;>
    simp [check, PARTITION_PTE, X_LEVEL, X_HOST_RA, X_NO_GUEST_PTE, X_NO_FINAL_RA, X_FINAL_RA, X_GUEST_PTE, enabled, value, level]

theorem check_process {i : Nat} (hi : i < 4) (w : Walk) :
    check w (PROCESS_PTE ||| X_LEVEL (level i)) = (!w.hostRa && w.guestPte && !w.finalRa && decide (level i = w.level)) := by
  obtain ⟨f, e, g, h, r, l, ra⟩ := w
  revert i
  apply level_cases <;> cases f <;> cases g <;> cases h <;>
    simp [check, PROCESS_PTE, X_LEVEL, X_HOST_RA, X_NO_HOST_RA, X_NO_FINAL_RA, X_FINAL_RA, X_GUEST_PTE, enabled, value, level]

theorem check_nested {i : Nat} (hi : i < 4) (w : Walk) :
    check w (NESTED_PTE ||| X_LEVEL (level i)) = (w.hostRa && w.guestPte && !w.finalRa && decide (level i = w.level)) := by
  obtain ⟨f, e, g, h, r, l, ra⟩ := w
  revert i
  apply level_cases <;> cases f <;> cases g <;> cases h <;>
    simp [check, NESTED_PTE, X_LEVEL, X_HOST_RA, X_NO_HOST_RA, X_NO_FINAL_RA, X_FINAL_RA, X_GUEST_PTE, enabled, value, level]

theorem check_lower {i : Nat} (hi : i < 4) (w : Walk) :
    check w (X_NO_FINAL_RA ||| X_GUEST_PTE ||| X_LEVEL (level i)) = (w.guestPte && !w.finalRa && decide (level i = w.level)) := by
  obtain ⟨f, e, g, h, r, l, ra⟩ := w
  revert i
  apply level_cases <;> cases f <;> cases g <;> cases h <;>
    simp [check, X_LEVEL, X_HOST_RA, X_NO_HOST_RA, X_NO_FINAL_RA, X_FINAL_RA, X_GUEST_PTE, enabled, value, level]

theorem check_guest (w : Walk) : check w X_GUEST_PTE = w.guestPte := by
  obtain ⟨f, e, g, h, r, l, ra⟩ := w
  cases f <;> cases g <;> cases h <;> simp [check, X_HOST_RA, X_FINAL_RA, X_GUEST_PTE, enabled, value]

theorem check_final (w : Walk) : check w X_FINAL_RA = w.finalRa := by
  obtain ⟨f, e, g, h, r, l, ra⟩ := w
  cases f <;> cases g <;> cases h <;> simp [check, X_HOST_RA, X_FINAL_RA, X_GUEST_PTE, enabled, value]

theorem check_hostFinal (w : Walk) :
    check w (X_HOST_RA ||| X_GUEST_PTE ||| X_FINAL_RA) = (w.hostRa && w.guestPte && w.finalRa) := by
  obtain ⟨f, e, g, h, r, l, ra⟩ := w
  cases f <;> cases g <;> cases h <;> simp [check, X_HOST_RA, X_FINAL_RA, X_GUEST_PTE, enabled, value]

theorem check_guestFinal (w : Walk) :
    check w (X_NO_HOST_RA ||| X_GUEST_PTE ||| X_FINAL_RA) = (!w.hostRa && w.guestPte && w.finalRa) := by
  obtain ⟨f, e, g, h, r, l, ra⟩ := w
  cases f <;> cases g <;> cases h <;> simp [check, X_HOST_RA, X_NO_HOST_RA, X_FINAL_RA, X_GUEST_PTE, enabled, value]

theorem check_nestedRa {l : BitVec 32} (hl : l = 0 ∨ l = 1) (w : Walk) :
    check w (NESTED_RA_ADDR ||| X_LEVEL l) = (w.hostRa && w.guestPte && w.finalRa && decide (l = w.level)) := by
  obtain ⟨f, e, g, h, r, l', ra⟩ := w
  rcases hl with rfl | rfl <;> cases f <;> cases g <;> cases h <;>
    simp [check, NESTED_RA_ADDR, X_LEVEL, X_HOST_RA, X_FINAL_RA, X_GUEST_PTE, enabled, value]

theorem check_processRa {l : BitVec 32} (hl : l = 0 ∨ l = 1) (w : Walk) :
    check w (PROCESS_RA_ADDR ||| X_LEVEL l) = (!w.hostRa && w.guestPte && w.finalRa && decide (l = w.level)) := by
  obtain ⟨f, e, g, h, r, l', ra⟩ := w
  rcases hl with rfl | rfl <;> cases f <;> cases g <;> cases h <;>
    simp [check, PROCESS_RA_ADDR, X_LEVEL, X_HOST_RA, X_NO_HOST_RA, X_FINAL_RA, X_GUEST_PTE, enabled, value]

theorem check_partition7 (w : Walk) :
    check w (X_HOST_RA ||| X_NO_GUEST_PTE ||| X_LEVEL 7) = (w.hostRa && !w.guestPte && decide (7 = w.level)) := by
  obtain ⟨f, e, g, h, r, l', ra⟩ := w
  cases f <;> cases g <;> cases h <;>
    simp [check, X_LEVEL, X_HOST_RA, X_NO_GUEST_PTE, X_FINAL_RA, X_GUEST_PTE, enabled, value]

theorem check_guest7 (w : Walk) : check w (X_GUEST_PTE ||| X_LEVEL 7) = (w.guestPte && decide (7 = w.level)) := by
  obtain ⟨f, e, g, h, r, l', ra⟩ := w
  cases f <;> cases g <;> cases h <;>
    simp [check, X_LEVEL, X_HOST_RA, X_FINAL_RA, X_GUEST_PTE, enabled, value]

theorem check_nested7 (w : Walk) :
    check w (NESTED_PTE ||| X_LEVEL 7) = (w.hostRa && w.guestPte && !w.finalRa && decide (7 = w.level)) := by
  obtain ⟨f, e, g, h, r, l', ra⟩ := w
  cases f <;> cases g <;> cases h <;>
    simp [check, NESTED_PTE, X_LEVEL, X_HOST_RA, X_NO_FINAL_RA, X_FINAL_RA, X_GUEST_PTE, enabled, value]

theorem level_inj {i j : Nat} (hi : i < 4) (hj : j < 4) (h : level i = level j) : i = j := by
  have hi' : i = 0 ∨ i = 1 ∨ i = 2 ∨ i = 3 := by omega
  have hj' : j = 0 ∨ j = 1 ∨ j = 2 ∨ j = 3 := by omega
  rcases hi' with rfl | rfl | rfl | rfl <;> rcases hj' with rfl | rfl | rfl | rfl <;> simp [level] at h ⊢

theorem level_ne7 (i : Nat) : level i ≠ 7 := by
  unfold level; split <;> decide

/-! The parser. -/

theorem take_hit {w : Walk} {flags : BitVec 32} (h : check w flags = true) (rs : List Walk) (c : Caches) :
    take flags ⟨w :: rs, c⟩ = .ok (some (some w), ⟨rs, c⟩) := by
  show (if check w flags then _ else _) = _
  rw [if_pos h]

theorem take_miss {w : Walk} {flags : BitVec 32} (h : check w flags = false) (rs : List Walk) (c : Caches) :
    take flags ⟨w :: rs, c⟩ = .ok (some none, ⟨w :: rs, c⟩) := by
  show (if check w flags then _ else _) = _
  rw [if_neg (by simp [h])]

theorem peek_hit {w : Walk} {flags : BitVec 32} (h : check w flags = true) (rs : List Walk) (c : Caches) :
    peek flags ⟨w :: rs, c⟩ = .ok (some (some w), ⟨w :: rs, c⟩) := by
  show Except.ok (some (if check w flags then _ else _), _) = _
  rw [if_pos h]

theorem peek_miss {w : Walk} {flags : BitVec 32} (h : check w flags = false) (rs : List Walk) (c : Caches) :
    peek flags ⟨w :: rs, c⟩ = .ok (some none, ⟨w :: rs, c⟩) := by
  show Except.ok (some (if check w flags then _ else _), _) = _
  rw [if_neg (by simp [h])]

theorem scan_hit {flags : BitVec 32} {rs : List Walk} {w : Walk} (hw : w ∈ rs) (h : check w flags = true) (c : Caches) :
    ∃ w', scan flags ⟨rs, c⟩ = .ok (some (some w'), ⟨rs, c⟩) := by
  unfold scan
  cases hf : rs.find? fun w => check w flags with
  | none => exact absurd h (by simpa using List.find?_eq_none.1 hf w hw)
  | some w' => exact ⟨w', rfl⟩

theorem scan_miss {flags : BitVec 32} {rs : List Walk} (h : ∀ w ∈ rs, check w flags = false) (c : Caches) :
    scan flags ⟨rs, c⟩ = .ok (some none, ⟨rs, c⟩) := by
  unfold scan
  have : rs.find? (fun w => check w flags) = none := List.find?_eq_none.2 fun w hw => by simp [h w hw]
  rw [this]

/-! Cache operations. -/

theorem xInsert_ok {l : Lvl} (hl : l ≠ .pte) (a : Addr) (real : BitVec 64) (leaf : Bool) (rs : List Walk) (c : Caches) :
    xInsert l a real leaf ⟨rs, c⟩ = .ok (some (), ⟨rs, ins c l a real leaf⟩) := by
  unfold xInsert cached
  simp only [insert_eq hl, Option.map_some]

theorem xGet_ok {l : Lvl} {a : Addr} {c : Caches} {r : Option (BitVec 64 × Option Bool)} (h : Pwc.get c l a = some r)
    (rs : List Walk) : xGet l a ⟨rs, c⟩ = .ok (some r, ⟨rs, c⟩) := by
  unfold xGet cached
  simp only [h, Option.map_some]

theorem xTlbInsert_ok {s : Nat} (hs : PageSize s) (a : Addr) (real : BitVec 64) (rs : List Walk) (c : Caches) :
    xTlbInsert s a real ⟨rs, c⟩ = .ok (some (), ⟨rs, tlbPut c s a real⟩) := by
  unfold xTlbInsert cached
  simp only [tlbInsert_eq hs, Option.map_some]

theorem xRevInsert_ok {s : Nat} (hs : PageSize s) (a : Addr) (real : BitVec 64) (rs : List Walk) (c : Caches) :
    xRevInsert s a real ⟨rs, c⟩ = .ok (some (), ⟨rs, revPut c s a real⟩) := by
  unfold xRevInsert cached
  simp only [revInsert_eq hs, Option.map_some]

theorem xTlbGet_ok {s : Nat} {a : Addr} {c : Caches} {r : Option (BitVec 64)} (h : tlbGet c s a = some r) (rs : List Walk) :
    xTlbGet s a ⟨rs, c⟩ = .ok (some r, ⟨rs, c⟩) := by
  unfold xTlbGet cached
  simp only [h, Option.map_some]

theorem finishPte_ok {sub : Lvl} {a : Addr} {c : Caches} {e : BitVec 64} {b : Bool} (h : Pwc.get c sub a = some (some (e, some b)))
    (rs : List Walk) : finishPte sub a ⟨rs, c⟩ = .ok (some ⟨e, pageSizes sub, b⟩, ⟨rs, c⟩) := by
  unfold finishPte
  rw [bind_ok (xGet_ok h rs)]
  show Except.ok _ = _
  cases b <;> rfl

/-! Host entries. -/

theorem partitionPte_written {type sub : Lvl} {a : Addr} {w : Walk} {rs : List Walk} {c : Caches} {b : Bool}
    (hw : check w (PARTITION_PTE ||| X_LEVEL (htmLevel type)) = true)
    (hleaf : partitionIsLeaf (htmLevel type) ⟨rs, c⟩ = .ok (some b, ⟨rs, c⟩))
    (hsub : partitionSubtype type ⟨rs, c⟩ = .ok (some sub, ⟨rs, c⟩)) (hs : sub ≠ .pte) :
    partitionPte type a ⟨w :: rs, c⟩ = .ok (some ⟨w.ra, pageSizes sub, b⟩, ⟨rs, ins c sub a w.ra b⟩) := by
  unfold partitionPte
  rw [bind_ok (take_hit hw rs c)]
  have h1 : partitionTaken type a w ⟨rs, c⟩ = .ok (some sub, ⟨rs, ins c sub a w.ra b⟩) := by
    unfold partitionTaken
    rw [bind_ok hleaf, bind_ok hsub, bind_ok (xInsert_ok hs a w.ra b rs c)]
    rfl
  show (partitionTaken type a w >>= fun subtype => finishPte subtype a) _ = _
  rw [bind_ok h1, finishPte_ok (get_ins hs c a w.ra b)]

theorem lvl_subtypes (T : Table) {i : Nat} (hi : i < 4) :
    (i < 3 ∧ subtypes (Table.typ i) = [T.lvl i]) ∨
    (i = 3 ∧ T.small = 12 ∧ subtypes (Table.typ i) = [T.lvl i, T.other]) ∨
    (i = 3 ∧ T.small ≠ 12 ∧ subtypes (Table.typ i) = [T.other, T.lvl i]) := by
  have : i = 0 ∨ i = 1 ∨ i = 2 ∨ i = 3 := by omega
  rcases this with rfl | rfl | rfl | rfl
  · simp [Table.typ, subtypes, Table.lvl]
  · simp [Table.typ, subtypes, Table.lvl]
  · simp [Table.typ, subtypes, Table.lvl]
  · by_cases h : T.small = 12 <;> simp [Table.typ, subtypes, Table.lvl, Table.other, h]

theorem partitionPte_known {T : Table} {x : Addr} {i : Nat} (hi : i < 4) {g : BitVec 64} {w : Walk} {rs : List Walk} {c : Caches}
    (hw : check w (PARTITION_PTE ||| X_LEVEL (level i)) = false) (hk : Knows c T x i g) (ho : NoOther c T x) :
    partitionPte (Table.typ i) (at_ x g) ⟨w :: rs, c⟩ =
      .ok (some ⟨T.entry i g, pageSizes (T.lvl i), T.leafAt i g⟩, ⟨w :: rs, c⟩) := by
  unfold partitionPte
  rw [Table.htmLevel_typ hi, bind_ok (take_miss hw rs c)]
  have hhit : ∀ l, partitionCached (level i) (at_ x g) (T.lvl i :: l) ⟨w :: rs, c⟩ = .ok (some (T.lvl i), ⟨w :: rs, c⟩) := by
    intro l
    unfold partitionCached
    rw [bind_ok (xGet_ok hk _)]
    rfl
  have h1 : partitionCached (level i) (at_ x g) (subtypes (Table.typ i)) ⟨w :: rs, c⟩ = .ok (some (T.lvl i), ⟨w :: rs, c⟩) := by
    rcases lvl_subtypes T hi with ⟨_, h⟩ | ⟨_, _, h⟩ | ⟨_, _, h⟩
    · rw [h, hhit]
    · rw [h, hhit]
    · rw [h]
      unfold partitionCached
      rw [bind_ok (xGet_ok (ho g) _)]
      exact hhit []
  show (partitionCached (level i) (at_ x g) (subtypes (Table.typ i)) >>= fun subtype => finishPte subtype (at_ x g)) _ = _
  rw [bind_ok h1, finishPte_ok hk]

theorem partitionIsLeaf_ok {w : Walk} {lv : BitVec 32} (hl : w.guestPte = true → lv < 6) (hf : w.finalRa = false ∨ w.guestPte = true)
    (rs : List Walk) (c : Caches) : partitionIsLeaf lv ⟨w :: rs, c⟩ = .ok (some w.guestPte, ⟨w :: rs, c⟩) := by
  unfold partitionIsLeaf
  cases hg : w.guestPte with
  | true =>
    rw [bind_ok (peek_hit (by rw [check_guest]; exact hg) rs c)]
    show leafBelow lv 6 _ = _
    unfold leafBelow
    rw [if_pos (hl hg)]; rfl
  | false =>
    rw [bind_ok (peek_miss (by rw [check_guest]; exact hg) rs c)]
    have hf' : w.finalRa = false := by simpa [hg] using hf
    show (peek X_FINAL_RA >>= _) _ = _
    rw [bind_ok (peek_miss (by rw [check_final]; exact hf') rs c)]
    rfl

/-- The final address in the records tells the size of small host pages. -/
def HostSize (T : Table) (rs : List Walk) : Prop :=
  (∃ w ∈ rs, w.hostRa ∧ w.guestPte ∧ w.finalRa ∧ w.level = T.code) ∧
  ∀ w ∈ rs, w.hostRa → w.guestPte → w.finalRa → w.level = T.code

theorem HostSize.cons {T : Table} {rs : List Walk} (h : HostSize T rs) {w : Walk} (hw : w.finalRa = false) : HostSize T (w :: rs) := by
  obtain ⟨⟨v, hv, hv'⟩, h2⟩ := h
  refine ⟨⟨v, List.mem_cons_of_mem _ hv, hv'⟩, ?_⟩
  intro u hu h3 h4 h5
  rcases List.mem_cons.1 hu with rfl | hu
  · rw [hw] at h5; simp at h5
  · exact h2 u hu h3 h4 h5

theorem pteSubtype_host {T : Table} {rs : List Walk} (h : HostSize T rs) (c : Caches) :
    pteSubtype NESTED_RA_ADDR ⟨rs, c⟩ = .ok (some (T.lvl 3), ⟨rs, c⟩) := by
  obtain ⟨⟨w, hw, h1, h2, h3, h4⟩, hall⟩ := h
  unfold pteSubtype
  by_cases hs : T.small = 12
  · have hc : T.code = 0 := by simp [Table.code, hs]
    obtain ⟨w', e⟩ := scan_hit (flags := NESTED_RA_ADDR ||| X_LEVEL 0) hw
      (by rw [check_nestedRa (Or.inl rfl), h1, h2, h3, h4, hc]; rfl) c
    rw [bind_ok e]
    show Except.ok _ = _
    simp [Table.lvl, hs]
  · have hc : T.code = 1 := by simp [Table.code, hs]
    have e0 := scan_miss (flags := NESTED_RA_ADDR ||| X_LEVEL 0) (rs := rs) (by
      intro v hv
      rw [check_nestedRa (Or.inl rfl)]
      cases hh : v.hostRa <;> cases hg : v.guestPte <;> cases hf : v.finalRa <;> simp
      rw [hall v hv hh hg hf, hc]; decide) c
    obtain ⟨w', e⟩ := scan_hit (flags := NESTED_RA_ADDR ||| X_LEVEL 1) hw
      (by rw [check_nestedRa (Or.inr rfl), h1, h2, h3, h4, hc]; rfl) c
    rw [bind_ok e0]
    show (scan (NESTED_RA_ADDR ||| X_LEVEL 1) >>= _) _ = _
    rw [bind_ok e]
    show Except.ok _ = _
    simp [Table.lvl, hs]

/-- The records of the levels from `i` on, of those from `k` on. -/
def stage (T : Table) (g : BitVec 64) (k i : Nat) : List Walk :=
  ((List.range (T.depth g)).drop (max k i)).map fun i => hostEntry (level i) (T.entry i g)

theorem stage_zero (T : Table) (g : BitVec 64) (k : Nat) : stage T g k 0 = hostWalk T g k := by
  unfold stage hostWalk; rw [Nat.max_zero]

theorem stage_end {T : Table} {g : BitVec 64} {k i : Nat} (hi : T.depth g ≤ i) : stage T g k i = [] := by
  unfold stage
  rw [List.drop_eq_nil_of_le (by rw [List.length_range]; omega)]; rfl

theorem stage_all {T : Table} {g : BitVec 64} {i : Nat} {k : Nat} (hk : T.depth g ≤ k) : stage T g k i = [] := by
  unfold stage
  rw [List.drop_eq_nil_of_le (by rw [List.length_range]; omega)]; rfl

theorem stage_cons {T : Table} {g : BitVec 64} {k i : Nat} (hi : max k i < T.depth g) :
    stage T g k i = hostEntry (level (max k i)) (T.entry (max k i) g) :: stage T g k (max k i + 1) := by
  unfold stage
  have hm : max k (max k i + 1) = max k i + 1 := by omega
  rw [hm]
  rw [List.drop_eq_getElem_cons (by rw [List.length_range]; exact hi), List.map_cons, List.getElem_range]

theorem stage_skip {T : Table} {g : BitVec 64} {k i : Nat} (hi : i < k) : stage T g k i = stage T g k (i + 1) := by
  unfold stage
  have : max k i = max k (i + 1) := by omega
  rw [this]

theorem stage_final {T : Table} {g : BitVec 64} {k i : Nat} : ∀ w ∈ stage T g k i, w.finalRa = false ∧ w.guestPte = false := by
  intro w hw
  unfold stage at hw
  obtain ⟨j, _, rfl⟩ := List.mem_map.1 hw
  exact ⟨rfl, rfl⟩

/-- One level of the host's walk. -/
theorem hostLevel {S : Tables} (hS : S.Ok) {lpid : BitVec 32} {g : BitVec 64} {k i : Nat} {w : Walk} {R : List Walk}
    {c : Caches} (hi : i < (S.host lpid).depth g) (hw : w.guestPte = true)
    (hknow : i < k → Knows c (S.host lpid) ⟨MSR_HV, lpid, 0, 0⟩ i g ∧ NoOther c (S.host lpid) ⟨MSR_HV, lpid, 0, 0⟩)
    (hsz : SmallWritten (S.host lpid) g k → HostSize (S.host lpid) (w :: R)) :
    ∃ c', partitionPte (Table.typ i) (processRealAddr lpid g) ⟨stage (S.host lpid) g k i ++ w :: R, c⟩ =
      .ok (some ⟨(S.host lpid).entry i g, pageSizes ((S.host lpid).lvl i), (S.host lpid).leafAt i g⟩,
        ⟨stage (S.host lpid) g k (i + 1) ++ w :: R, c'⟩) ∧
      Steps S c c' ∧ Present c' (S.host lpid) ⟨MSR_HV, lpid, 0, 0⟩ i g ∧ (i < k → c' = c) := by
  have hd := (S.host lpid).depth_le g
  have hi4 : i < 4 := by omega
  have ea : processRealAddr lpid g = at_ ⟨MSR_HV, lpid, 0, 0⟩ g := rfl
  rw [ea]
  by_cases hk : i < k
  · obtain ⟨hkn, hno⟩ := hknow hk
    refine ⟨c, ?_, Steps.refl c, present_of_knows hi4 hkn, fun _ => rfl⟩
    rw [stage_skip hk]
    by_cases hlt : k < (S.host lpid).depth g
    · have hmax : max k (i + 1) = k := by omega
      rw [stage_cons (by omega), hmax]
      refine partitionPte_known hi4 ?_ hkn hno
      rw [check_partition hi4]
      have : ¬ level i = level k := fun h => by have := level_inj hi4 (by omega) h; omega
      simp [hostEntry, this]
    · rw [stage_all (by omega)]
      refine partitionPte_known hi4 ?_ hkn hno
      rw [check_partition hi4, hw]
      simp
  · have hmax : max k i = i := by omega
    have hst : stage (S.host lpid) g k i = hostEntry (level i) ((S.host lpid).entry i g) :: stage (S.host lpid) g k (i + 1) := by
      have := stage_cons (T := S.host lpid) (g := g) (k := k) (i := i) (by omega)
      rw [hmax] at this; exact this
    rw [hst]
    refine ⟨ins c ((S.host lpid).lvl i) (at_ ⟨MSR_HV, lpid, 0, 0⟩ g) ((S.host lpid).entry i g) ((S.host lpid).leafAt i g), ?_,
      Steps.one (Step.walk c (InTab.host lpid) hi4 g), present_ins hi4 g _ _, fun h => absurd h hk⟩
    refine partitionPte_written (w := hostEntry (level i) ((S.host lpid).entry i g)) ?_ ?_ ?_ (Table.lvl_ne i)
    · rw [Table.htmLevel_typ hi4, check_partition hi4]; simp [hostEntry]
    · rw [Table.htmLevel_typ hi4, Table.leafAt_eq hi]
      by_cases hlast : i + 1 = (S.host lpid).depth g
      · rw [stage_end (by omega)]
        show partitionIsLeaf (level i) ⟨w :: R, c⟩ = .ok (_, ⟨w :: R, c⟩)
        have := partitionIsLeaf_ok (w := w) (lv := level i) (fun _ => by
          have : i = 1 ∨ i = 2 ∨ i = 3 := by omega
          rcases this with rfl | rfl | rfl <;> decide) (Or.inr hw) R c
        rw [this, hw]; simp [hlast]
      · have hmax' : max k (i + 1) = i + 1 := by omega
        rw [stage_cons (by omega), hmax']
        have := partitionIsLeaf_ok (w := hostEntry (level (i + 1)) ((S.host lpid).entry (i + 1) g)) (lv := level i)
          (by simp [hostEntry]) (Or.inl rfl) (stage (S.host lpid) g k (i + 1 + 1) ++ w :: R) c
        simp only [hlast, decide_false]
        exact this
    · by_cases h3 : i = 3
      · subst h3
        have hz := hsz ⟨by omega, by omega⟩
        have hsz' : HostSize (S.host lpid) (stage (S.host lpid) g k (3 + 1) ++ w :: R) := by
          rw [stage_end (by omega)]; exact hz
        exact pteSubtype_host hsz' c
      · have : i = 0 ∨ i = 1 ∨ i = 2 := by omega
        rcases this with rfl | rfl | rfl <;> rfl

/-- The levels of the host's walk, up to the final address. -/
theorem hostPtes {S : Tables} (hS : S.Ok) {lpid : BitVec 32} {g : BitVec 64} {k : Nat} {w : Walk} {R : List Walk}
    {c : Caches} (flag : BitVec 32) (hw : w.guestPte = true)
    (hknow : ∀ i < k, i < (S.host lpid).depth g → Knows c (S.host lpid) ⟨MSR_HV, lpid, 0, 0⟩ i g)
    (hno : 0 < k → NoOther c (S.host lpid) ⟨MSR_HV, lpid, 0, 0⟩)
    (hsz : SmallWritten (S.host lpid) g k → HostSize (S.host lpid) (w :: R)) :
    ∃ c', partitionTranslate flag (processRealAddr lpid g) ⟨hostWalk (S.host lpid) g k ++ w :: R, c⟩ =
      partitionFinal flag (processRealAddr lpid g) ((S.host lpid).path g) ((S.host lpid).size g) ⟨w :: R, c'⟩ ∧
      Steps S c c' ∧ (∀ i < (S.host lpid).depth g, Present c' (S.host lpid) ⟨MSR_HV, lpid, 0, 0⟩ i g) ∧
      (k = (S.host lpid).depth g → c' = c) := by
  have hd := (S.host lpid).depth_le g
  have hsm := (hS.1 lpid).1
  obtain ⟨c0, e0, s0, p0, q0⟩ := hostLevel hS (k := k) (i := 0) (R := R) (c := c) (by omega) hw
    (fun h => ⟨hknow 0 h (by omega), hno (by omega)⟩) hsz
  obtain ⟨c1, e1, s1, p1, q1⟩ := hostLevel hS (k := k) (i := 1) (R := R) (c := c0) (by omega) hw
    (fun h => by rw [q0 (by omega)]; exact ⟨hknow 1 h (by omega), hno (by omega)⟩) hsz
  rw [stage_zero] at e0
  have hp2 : [(S.host lpid).entry 0 g, (S.host lpid).entry 1 g] = (List.range 2).map fun i => (S.host lpid).entry i g := rfl
  have hp3 : [(S.host lpid).entry 0 g, (S.host lpid).entry 1 g, (S.host lpid).entry 2 g] =
    (List.range 3).map fun i => (S.host lpid).entry i g := rfl
  have hp4 : [(S.host lpid).entry 0 g, (S.host lpid).entry 1 g, (S.host lpid).entry 2 g, (S.host lpid).entry 3 g] =
    (List.range 4).map fun i => (S.host lpid).entry i g := rfl
  unfold partitionTranslate
  rw [bind_ok (m := partitionPte .pgd (processRealAddr lpid g)) e0, bind_ok (m := partitionPte .pud (processRealAddr lpid g)) e1]
  rcases (S.host lpid).depth_cases g with ⟨h, h1⟩ | ⟨h, h1, h2⟩ | ⟨h, h1, h2⟩
  · refine ⟨c1, ?_, s0.trans s1, ?_, ?_⟩
    · simp only [h1, if_true]
      rw [stage_end (by omega), List.nil_append, Table.path, Table.size, h, ← hp2, Table.pageSizes_lvl hsm (by decide)]
    · intro i hi
      have : i = 0 ∨ i = 1 := by omega
      rcases this with rfl | rfl
      · exact p0.steps s1
      · exact p1
    · intro hk; rw [q1 (by omega), q0 (by omega)]
  · obtain ⟨c2, e2, s2, p2, q2⟩ := hostLevel hS (k := k) (i := 2) (R := R) (c := c1) (by omega) hw
      (fun h => by rw [q1 (by omega), q0 (by omega)]; exact ⟨hknow 2 h (by omega), hno (by omega)⟩) hsz
    refine ⟨c2, ?_, (s0.trans s1).trans s2, ?_, ?_⟩
    · simp only [h1, Bool.false_eq_true, if_false]
      unfold partitionLower
      rw [bind_ok (m := partitionPte .pmd (processRealAddr lpid g)) e2]
      simp only [h2, if_true]
      rw [stage_end (by omega), List.nil_append, Table.path, Table.size, h, ← hp3, Table.pageSizes_lvl hsm (by decide)]
    · intro i hi
      have : i = 0 ∨ i = 1 ∨ i = 2 := by omega
      rcases this with rfl | rfl | rfl
      · exact (p0.steps s1).steps s2
      · exact p1.steps s2
      · exact p2
    · intro hk; rw [q2 (by omega), q1 (by omega), q0 (by omega)]
  · obtain ⟨c2, e2, s2, p2, q2⟩ := hostLevel hS (k := k) (i := 2) (R := R) (c := c1) (by omega) hw
      (fun h => by rw [q1 (by omega), q0 (by omega)]; exact ⟨hknow 2 h (by omega), hno (by omega)⟩) hsz
    obtain ⟨c3, e3, s3, p3, q3⟩ := hostLevel hS (k := k) (i := 3) (R := R) (c := c2) (by omega) hw
      (fun h => by rw [q2 (by omega), q1 (by omega), q0 (by omega)]; exact ⟨hknow 3 h (by omega), hno (by omega)⟩) hsz
    refine ⟨c3, ?_, ((s0.trans s1).trans s2).trans s3, ?_, ?_⟩
    · simp only [h1, Bool.false_eq_true, if_false]
      unfold partitionLower
      rw [bind_ok (m := partitionPte .pmd (processRealAddr lpid g)) e2]
      simp only [h2, Bool.false_eq_true, if_false]
      rw [bind_ok (m := partitionPte .pte (processRealAddr lpid g)) e3]
      rw [stage_end (by omega), List.nil_append, Table.path, Table.size, h, ← hp4, Table.pageSizes_lvl hsm (by decide)]
    · intro i hi
      have : i = 0 ∨ i = 1 ∨ i = 2 ∨ i = 3 := by omega
      rcases this with rfl | rfl | rfl | rfl
      · exact ((p0.steps s1).steps s2).steps s3
      · exact (p1.steps s2).steps s3
      · exact p2.steps s3
      · exact p3
    · intro hk; rw [q3 (by omega), q2 (by omega), q1 (by omega), q0 (by omega)]

/-- A host's walk whose result is written. -/
theorem hostWritten {S : Tables} (hS : S.Ok) {lpid : BitVec 32} {g : BitVec 64} {k : Nat} {w : Walk} {R : List Walk}
    {c : Caches} {flag : BitVec 32} (hw : w.guestPte = true) (hflag : check w flag = true)
    (hreal : w.ra.toNat / 2 ^ (S.host lpid).size g = (S.host lpid).frame g)
    (hknow : ∀ i < k, i < (S.host lpid).depth g → Knows c (S.host lpid) ⟨MSR_HV, lpid, 0, 0⟩ i g)
    (hno : 0 < k → NoOther c (S.host lpid) ⟨MSR_HV, lpid, 0, 0⟩)
    (hsz : SmallWritten (S.host lpid) g k → HostSize (S.host lpid) (w :: R)) :
    ∃ c', partitionTranslate flag (processRealAddr lpid g) ⟨hostWalk (S.host lpid) g k ++ w :: R, c⟩ =
      .ok (some ⟨w.ra, (S.host lpid).path g, (S.host lpid).size g⟩, ⟨R, c'⟩) ∧ Steps S c c' ∧ HostPresent S c' lpid g := by
  obtain ⟨c1, e, s1, p1, _⟩ := hostPtes hS flag hw hknow hno hsz
  have hps := Table.pageSize_size (hS.1 lpid).1 g
  have hra : partitionRealAddr flag (processRealAddr lpid g) ((S.host lpid).size g) ⟨w :: R, c1⟩ =
      .ok (some w.ra, ⟨R, tlbPut c1 ((S.host lpid).size g) (processRealAddr lpid g) w.ra⟩) := by
    unfold partitionRealAddr
    rw [bind_ok (take_hit hflag R c1)]
    show (xTlbInsert _ _ _ >>= _) _ = _
    rw [bind_ok (xTlbInsert_ok hps _ _ _ _)]
    rfl
  refine ⟨revPut (tlbPut c1 ((S.host lpid).size g) (processRealAddr lpid g) w.ra) ((S.host lpid).size g)
    ⟨0, (processRealAddr lpid g).lpid, 0, w.ra⟩ (processRealAddr lpid g).address, ?_, ?_, ?_, ?_⟩
  · rw [e]
    unfold partitionFinal
    rw [bind_ok hra, bind_ok (xRevInsert_ok hps _ _ _ _)]
    rfl
  · exact (s1.tail (Step.tlb _ lpid g w.ra hreal)).tail (Step.rev _ _ _ _)
  · intro i hi
    exact ((p1 i hi).step (Step.tlb _ lpid g w.ra hreal)).step (Step.rev (S := S) _ _ _ _)
  · exact (presentTlb_put c1 lpid g w.ra).step (Step.rev _ _ _ _)

/-- A host's walk of which nothing is written. -/
theorem hostHidden {S : Tables} (hS : S.Ok) {lpid : BitVec 32} {g : BitVec 64} {w : Walk} {R : List Walk}
    {c : Caches} {flag : BitVec 32} (hw : w.guestPte = true) (hflag : check w flag = false)
    (hknow : ∀ i < (S.host lpid).depth g, Knows c (S.host lpid) ⟨MSR_HV, lpid, 0, 0⟩ i g)
    (hno : NoOther c (S.host lpid) ⟨MSR_HV, lpid, 0, 0⟩)
    (htlb : tlbGet c ((S.host lpid).size g) (processRealAddr lpid g) = some (some ((S.host lpid).real g)))
    (hpt : PresentTlb S c lpid g) :
    ∃ c', partitionTranslate flag (processRealAddr lpid g) ⟨w :: R, c⟩ =
      .ok (some ⟨(S.host lpid).real g, (S.host lpid).path g, (S.host lpid).size g⟩, ⟨w :: R, c'⟩) ∧
      Steps S c c' ∧ HostPresent S c' lpid g := by
  have h0 : hostWalk (S.host lpid) g ((S.host lpid).depth g) = [] := by rw [← stage_zero]; exact stage_all (Nat.le_refl _)
  have hd := (S.host lpid).depth_le g
  obtain ⟨c1, e, s1, p1, q1⟩ := hostPtes hS (k := (S.host lpid).depth g) (R := R) flag hw (fun i _ h => hknow i h) (fun _ => hno)
    (fun h => by have := h.1; have := h.2; omega)
  have hc := q1 rfl
  subst hc
  rw [h0, List.nil_append] at e
  have hps := Table.pageSize_size (hS.1 lpid).1 g
  have hra : partitionRealAddr flag (processRealAddr lpid g) ((S.host lpid).size g) ⟨w :: R, c1⟩ =
      .ok (some ((S.host lpid).real g), ⟨w :: R, c1⟩) := by
    unfold partitionRealAddr
    rw [bind_ok (take_miss hflag R c1)]
    show (xTlbGet _ _ >>= _) _ = _
    rw [bind_ok (xTlbGet_ok htlb _)]
    rfl
  refine ⟨revPut c1 ((S.host lpid).size g) ⟨0, (processRealAddr lpid g).lpid, 0, (S.host lpid).real g⟩
    (processRealAddr lpid g).address, ?_, ?_, ?_, ?_⟩
  · rw [e]
    unfold partitionFinal
    rw [bind_ok hra, bind_ok (xRevInsert_ok hps _ _ _ _)]
    rfl
  · exact s1.tail (Step.rev _ _ _ _)
  · intro i hi; exact (p1 i hi).step (Step.rev (S := S) _ _ _ _)
  · exact hpt.step (Step.rev _ _ _ _)

end Htm.Mmu
