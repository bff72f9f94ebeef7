import Verif.Htm.WalkGuest
/-!
Lemmas about decoding nested walks.
-/
namespace Htm.Mmu
open Htm Htm.Pwc Htm.Xl

/-! ### What the caches know of omitted steps -/

theorem Table.same_mono {T : Table} (hs : T.SmallOk) {i j : Nat} (hi : i < 4) (hj : j ≤ i) {a b : BitVec 64} (h : T.Same i a b) :
    T.Same j a b := by
  have hi' : i = 0 ∨ i = 1 ∨ i = 2 ∨ i = 3 := by omega
  unfold Table.Same at h ⊢
  rcases hi' with rfl | rfl | rfl | rfl
  · have : j = 0 := by omega
    subst this; exact h
  · have : j = 0 ∨ j = 1 := by omega
    rcases this with rfl | rfl <;> simp only [Table.shift] at h ⊢ <;> omega
  · have : j = 0 ∨ j = 1 ∨ j = 2 := by omega
    rcases this with rfl | rfl | rfl <;> simp only [Table.shift] at h ⊢ <;> omega
  · have : j = 0 ∨ j = 1 ∨ j = 2 ∨ j = 3 := by omega
    rcases hs with hs | hs <;> rcases this with rfl | rfl | rfl | rfl <;> simp only [Table.shift, hs] at h ⊢ <;> omega

theorem presentTlb_of_same {S : Tables} (hS : S.Ok) {c : Caches} {lpid : BitVec 32} {g g' : BitVec 64}
    (hp : PresentTlb S c lpid g') (hs : (S.host lpid).SamePage g g') : PresentTlb S c lpid g := by
  have hsm := (hS.1 lpid).1
  have hd := Table.depth_of_same hsm hs
  have hsz : (S.host lpid).size g = (S.host lpid).size g' := by unfold Table.size; rw [hd]
  have hk : (⟨(S.host lpid).size g, (processRealAddr lpid g).page ((S.host lpid).size g)⟩ : Key Nat) =
      ⟨(S.host lpid).size g', (processRealAddr lpid g').page ((S.host lpid).size g')⟩ :=
    (key_page_iff (Table.pageSize_size hsm g) _ _).2 ⟨hsz.symm, ⟨rfl, rfl, rfl⟩, by
      unfold Table.SamePage Table.Same at hs
      exact hs.symm⟩
  unfold PresentTlb
  rw [hk]
  exact hp

theorem knows_of_omittable {S : Tables} (hS : S.Ok) {seen : Seen} {c : Caches} (h : Inv S seen c) {lpid : BitVec 32} {g : BitVec 64}
    {k : Nat} (ho : Omittable S seen lpid g k) :
    ∀ i < k, i < (S.host lpid).depth g → Knows c (S.host lpid) ⟨MSR_HV, lpid, 0, 0⟩ i g := by
  intro i hi hd
  obtain ⟨g', hm, hs⟩ := ho.2 i hi
  have h4 := (S.host lpid).depth_le g
  exact h.agree.knows hS (InTab.host lpid) (by omega) ((h.host lpid g' hm).1 i (Table.lt_depth_of_same (hS.1 lpid).1 hd hs)) hs

theorem ready_of_pageSeen {S : Tables} (hS : S.Ok) {seen : Seen} {c : Caches} (h : Inv S seen c) {lpid : BitVec 32} (pid : BitVec 32)
    {e : BitVec 64} (hp : PageSeen S seen lpid e) : Ready S c lpid pid e := by
  obtain ⟨g', hm, hs⟩ := hp
  have hd := Table.depth_of_same (hS.1 lpid).1 hs
  have h4 := (S.host lpid).depth_le e
  have hpr := h.host lpid g' hm
  refine ⟨?_, h.agree.noOther (InTab.host lpid), h.agree.noOther (InTab.guest lpid pid), h.agree.tlbKnown hS hpr.2 hs,
    presentTlb_of_same hS hpr.2 hs⟩
  intro i hi
  exact h.agree.knows hS (InTab.host lpid) (by omega) (hpr.1 i (by omega))
    (Table.same_mono (hS.1 lpid).1 (i := (S.host lpid).depth e - 1) (by omega) (by omega) hs)

theorem guest_hidden_known {S : Tables} (hS : S.Ok) {seen : Seen} {c : Caches} (h : Inv S seen c) {lpid pid : BitVec 32} {a : BitVec 64}
    {i : Nat} (hi : i < (S.guest lpid pid).depth a)
    (hp : ∃ a', (lpid, pid, a') ∈ seen.guest ∧ (S.guest lpid pid).Same i a a') :
    Knows c (S.guest lpid pid) ⟨0, lpid, pid, 0⟩ i a := by
  obtain ⟨a', hm, hs⟩ := hp
  have h4 := (S.guest lpid pid).depth_le a
  exact h.agree.knows hS (InTab.guest lpid pid) (by omega)
    (h.guest lpid pid a' hm i (Table.lt_depth_of_same (hS.2 lpid pid).1 hi hs)) hs

theorem guest_short_known {S : Tables} (hS : S.Ok) {seen : Seen} {c : Caches} (h : Inv S seen c) {lpid pid : BitVec 32} {a : BitVec 64}
    {i : Nat} (hi : i < (S.guest lpid pid).depth a)
    (hp : ∃ a', (lpid, pid, a') ∈ seen.guest ∧ (S.guest lpid pid).SameTable i a a') :
    Pwc.get c ((S.guest lpid pid).lvl i) (at_ ⟨0, lpid, pid, 0⟩ a) = some (some ((S.guest lpid pid).entry i a, none)) ∨
      Knows c (S.guest lpid pid) ⟨0, lpid, pid, 0⟩ i a := by
  obtain ⟨a', hm, hs⟩ := hp
  have h4 := (S.guest lpid pid).depth_le a
  have hsm := (hS.2 lpid pid).1
  have hi' : i < (S.guest lpid pid).depth a' := by
    have h2 := (S.guest lpid pid).depth_le a'
    cases i with
    | zero => omega
    | succ j =>
      have hsj := hs j rfl
      have hlt := Table.lt_depth_of_same hsm (i := j) (by omega) hsj
      have hl := Table.leafAt_of_same hsm (i := j) (by omega) (Nat.le_refl j) hsj
      rw [Table.leafAt_eq (by omega), Table.leafAt_eq hlt] at hl
      simp at hl
      omega
  exact h.agree.dirOther hS (InTab.guest lpid pid) (by omega) (h.guest lpid pid a' hm i hi') hs

/-! ### The records that follow -/

/-- The records of the final address. -/
def tailRecords (S : Tables) (t : Translation) : List Walk :=
  guestFinal t.guestLevel t.guest :: (hostWalk (S.host t.lpid) t.guest t.omitted ++ [t.last])

/-- The records from level `i` of the guest's walk on. -/
def restFrom (S : Tables) (t : Translation) (i : Nat) : List Walk :=
  rowsRecords (S.host t.lpid) (S.guest t.lpid t.pid) t.address i (t.forms.drop i) ++ tailRecords S t

theorem records_eq (S : Tables) (t : Translation) : t.records S = procRecords (S.host t.lpid) t.proc ++ restFrom S t 0 := rfl

theorem restFrom_step {S : Tables} {t : Translation} {i : Nat} {f : Form} (h : t.forms[i]? = some f) :
    restFrom S t i = rowRecords (S.host t.lpid) i ((S.guest t.lpid t.pid).entry i t.address) f ++ restFrom S t (i + 1) := by
  unfold restFrom
  obtain ⟨hi, hf⟩ := List.getElem?_eq_some_iff.1 h
  rw [List.drop_eq_getElem_cons hi, hf]
  simp [rowsRecords]

theorem restFrom_end {S : Tables} {t : Translation} {i : Nat} (h : t.forms.length ≤ i) : restFrom S t i = tailRecords S t := by
  unfold restFrom
  rw [List.drop_eq_nil_of_le h]
  rfl

/-- The first record of the levels from `i` on. -/
def Head (i : Nat) (w : Walk) : Prop :=
  w.guestPte = true ∧ (w.finalRa = true ∨ ∃ j, i ≤ j ∧ j < 4 ∧ w.level = level j)

theorem rows_head (T G : Table) (a : BitVec 64) (tl : Walk) (R : List Walk) (h1 : tl.guestPte = true) (h2 : tl.finalRa = true) :
    ∀ (l : List Form) (i : Nat), i + l.length ≤ 4 → ∃ w R', rowsRecords T G a i l ++ tl :: R = w :: R' ∧ Head i w := by
  intro l
  induction l with
  | nil => intro i _; exact ⟨tl, R, rfl, h1, Or.inl h2⟩
  | cons f l ih =>
    intro i hi
    rw [List.length_cons] at hi
    cases f with
    | full k => exact ⟨_, _, rfl, rfl, Or.inr ⟨i, Nat.le_refl i, by omega, rfl⟩⟩
    | short => exact ⟨_, _, rfl, rfl, Or.inr ⟨i, Nat.le_refl i, by omega, rfl⟩⟩
    | hidden =>
      obtain ⟨w, R', e, hw, hw'⟩ := ih (i + 1) (by omega)
      refine ⟨w, R', ?_, hw, ?_⟩
      · rw [rowsRecords, rowRecords, List.nil_append]; exact e
      · rcases hw' with h | ⟨j, hj, hj4, hl⟩
        · exact Or.inl h
        · exact Or.inr ⟨j, by omega, hj4, hl⟩

theorem Head.process {i j : Nat} {w : Walk} (h : Head i w) (hj : j < i) (hj4 : j < 4) :
    check w (PROCESS_PTE ||| X_LEVEL (level j)) = false := by
  rw [check_process hj4]
  rcases h.2 with hf | ⟨m, hm, hm4, hl⟩
  · rw [hf]; simp
  · have : ¬ level j = w.level := by
      rw [hl]; intro h; have := level_inj hj4 hm4 h; omega
    simp [this]

theorem Head.nested {i j : Nat} {w : Walk} (h : Head i w) (hj : j < i) (hj4 : j < 4) :
    check w (NESTED_PTE ||| X_LEVEL (level j)) = false := by
  rw [check_nested hj4]
  rcases h.2 with hf | ⟨m, hm, hm4, hl⟩
  · rw [hf]; simp
  · have : ¬ level j = w.level := by
      rw [hl]; intro h; have := level_inj hj4 hm4 h; omega
    simp [this]

theorem restFrom_head (S : Tables) (t : Translation) {i : Nat} (hl : t.forms.length ≤ 4) (hi : i ≤ 4) :
    ∃ w R, restFrom S t i = w :: R ∧ Head i w := by
  unfold restFrom tailRecords
  exact rows_head _ _ _ _ _ rfl rfl _ _ (by rw [List.length_drop]; omega)

theorem tail_lower (S : Tables) (t : Translation) (i : Nat) : ∀ w ∈ tailRecords S t, ¬ Lower i w := by
  intro w hw
  unfold tailRecords at hw
  rcases List.mem_cons.1 hw with rfl | hw
  · intro h; simp [Lower, guestFinal] at h
  · rcases List.mem_append.1 hw with hw | hw
    · exact lower_hostWalk hw
    · rw [List.mem_singleton] at hw
      subst hw
      intro h; simp [Lower, Translation.last] at h

/-- After a level that is written, in full or in part, all are written in full. -/
theorem leafRest_of {S : Tables} {t : Translation} {i : Nat} (hlen : t.forms.length = (S.guest t.lpid t.pid).depth t.address)
    (hi : i < (S.guest t.lpid t.pid).depth t.address) (hfull : ∀ f' ∈ t.forms.drop (i + 1), ∃ k, f' = .full k) :
    LeafRest (S.guest t.lpid t.pid) t.address i (restFrom S t (i + 1)) := by
  have h4 := (S.guest t.lpid t.pid).depth_le t.address
  constructor
  · intro hl
    rw [Table.leafAt_eq hi] at hl
    have : i + 1 = (S.guest t.lpid t.pid).depth t.address := by simpa using hl
    rw [restFrom_end (by omega)]
    exact tail_lower S t i
  · intro hl
    rw [Table.leafAt_eq hi] at hl
    have hne : ¬ i + 1 = (S.guest t.lpid t.pid).depth t.address := by simpa using hl
    have hlt : i + 1 < t.forms.length := by omega
    obtain ⟨k, hk⟩ := hfull t.forms[i + 1] (by rw [List.drop_eq_getElem_cons hlt]; exact List.mem_cons_self ..)
    have hg : t.forms[i + 1]? = some (.full k) := by rw [List.getElem?_eq_getElem hlt, hk]
    rw [restFrom_step hg]
    refine ⟨guestEntry (level (i + 1)) ((S.guest t.lpid t.pid).entry (i + 1) t.address), ?_, rfl, rfl, i + 1, by omega, by omega, rfl⟩
    rw [rowRecords]
    simp

theorem guestSize_tail {S : Tables} {t : Translation} (h : t.guestLevel = (S.guest t.lpid t.pid).code) :
    GuestSize (S.guest t.lpid t.pid) (tailRecords S t) := by
  unfold tailRecords
  refine ⟨⟨_, List.mem_cons_self .., rfl, rfl, rfl, h⟩, ?_⟩
  intro w hw h1 h2 h3
  rcases List.mem_cons.1 hw with rfl | hw
  · exact h
  · rcases List.mem_append.1 hw with hw | hw
    · rw [final_hostWalk w hw] at h3; simp at h3
    · rw [List.mem_singleton] at hw
      subst hw
      simp [Translation.last] at h1

theorem hostSize_end {S : Tables} {t : Translation} (h : t.realLevel = (S.host t.lpid).code) :
    HostSize (S.host t.lpid) [t.last] := by
  refine ⟨⟨_, List.mem_cons_self .., rfl, rfl, rfl, h⟩, ?_⟩
  intro w hw _ _ _
  rw [List.mem_singleton] at hw
  subst hw
  exact h

theorem hostSize_tail {S : Tables} {t : Translation} (h : t.realLevel = (S.host t.lpid).code) :
    HostSize (S.host t.lpid) (tailRecords S t) := by
  have h1 := (hostSize_end h).append (l := hostWalk (S.host t.lpid) t.guest t.omitted) final_hostWalk
  obtain ⟨⟨w, hw, hw'⟩, h2⟩ := h1
  unfold tailRecords
  refine ⟨⟨w, List.mem_cons_of_mem _ hw, hw'⟩, ?_⟩
  intro v hv a b c
  rcases List.mem_cons.1 hv with rfl | hv
  · simp [guestFinal] at a
  · exact h2 v hv a b c

theorem rows_final (T G : Table) (a : BitVec 64) : ∀ (l : List Form) (i : Nat), ∀ w ∈ rowsRecords T G a i l, w.finalRa = false := by
  intro l
  induction l with
  | nil => intro i w hw; simp [rowsRecords] at hw
  | cons f l ih =>
    intro i w hw
    rw [rowsRecords] at hw
    rcases List.mem_append.1 hw with hw | hw
    · cases f with
      | full k =>
        rw [rowRecords] at hw
        rcases List.mem_cons.1 hw with rfl | hw
        · rfl
        · rcases List.mem_append.1 hw with hw | hw
          · exact final_hostWalk w hw
          · rw [List.mem_singleton] at hw; subst hw; rfl
      | short => rw [rowRecords, List.mem_singleton] at hw; subst hw; rfl
      | hidden => simp [rowRecords] at hw
    · exact ih (i + 1) w hw

theorem hostSize_rest {S : Tables} {t : Translation} (h : t.realLevel = (S.host t.lpid).code) (i : Nat) :
    HostSize (S.host t.lpid) (restFrom S t i) := (hostSize_tail h).append (rows_final _ _ _ _ _)

/-! ### Nested walks -/

/-- What is decoded of a translation. -/
def nestedOf (S : Tables) (t : Translation) : Nested :=
  ⟨(List.range ((S.guest t.lpid t.pid).depth t.address)).map fun i =>
      (levelOf (S.host t.lpid) (S.guest t.lpid t.pid) t.address i).2,
   ⟨t.guest, ⟨t.real, (S.host t.lpid).path t.guest, (S.host t.lpid).size t.guest⟩⟩,
   (S.guest t.lpid t.pid).size t.address⟩

/-- The parts of a nested walk put together; `P i` holds of the caches before level `i`, `Q` at the end. -/
theorem nested_of_rows {S : Tables} (hS : S.Ok) {t : Translation} {P : Nat → Caches → Prop} {Q : Caches → Prop} {c : Caches}
    (hproc : ∃ c', processTable t.lpid ⟨t.records S, c⟩ = .ok (some (), ⟨restFrom S t 0, c'⟩) ∧ P 0 c')
    (hrow : ∀ i < (S.guest t.lpid t.pid).depth t.address, ∀ c, P i c →
      ∃ c', guestLevel (Table.typ i) ⟨0, t.lpid, t.pid, t.address⟩ ⟨restFrom S t i, c⟩ =
        .ok (some (levelOf (S.host t.lpid) (S.guest t.lpid t.pid) t.address i), ⟨restFrom S t (i + 1), c'⟩) ∧ P (i + 1) c')
    (hfinal : ∀ c, P ((S.guest t.lpid t.pid).depth t.address) c →
      ∃ c', finalLevel ⟨0, t.lpid, t.pid, t.address⟩ ((S.guest t.lpid t.pid).size t.address)
        ⟨restFrom S t ((S.guest t.lpid t.pid).depth t.address), c⟩ = .ok (some (nestedOf S t).final, ⟨[], c'⟩) ∧ Q c') :
    ∃ c', nestedRadix ⟨0, t.lpid, t.pid, t.address⟩ ⟨t.records S, c⟩ = .ok (some (nestedOf S t), ⟨[], c'⟩) ∧ Q c' := by
  have hd := (S.guest t.lpid t.pid).depth_le t.address
  have hd2 := (hS.2 t.lpid t.pid).2 t.address
  have hsm := (hS.2 t.lpid t.pid).1
  obtain ⟨cp, ep, pp⟩ := hproc
  obtain ⟨c0, e0, p0⟩ := hrow 0 (by omega) cp pp
  obtain ⟨c1, e1, p1⟩ := hrow 1 (by omega) c0 p0
  obtain ⟨c2, e2, p2⟩ := hrow 2 (by omega) c1 p1
  unfold nestedRadix
  rw [bind_ok (m := processTable t.lpid) ep, bind_ok (m := guestLevel .pgd _) e0]
  show ∃ c', (guestLevel .pud ⟨0, t.lpid, t.pid, t.address⟩ >>= _) _ = _ ∧ _
  rw [bind_ok (m := guestLevel .pud _) e1]
  show ∃ c', (guestLevel .pmd ⟨0, t.lpid, t.pid, t.address⟩ >>= _) _ = _ ∧ _
  rw [bind_ok (m := guestLevel .pmd _) e2]
  show ∃ c', nestedLower _ _ (levelOf (S.host t.lpid) (S.guest t.lpid t.pid) t.address 2).1 _ = _ ∧ _
  unfold nestedLower
  rcases (S.guest t.lpid t.pid).depth_cases t.address with ⟨h, _⟩ | ⟨h, h1, h2⟩ | ⟨h, h1, h2⟩
  · exact absurd h hd2
  · rw [h] at hfinal
    obtain ⟨c3, e3, q3⟩ := hfinal c2 p2
    refine ⟨c3, ?_, q3⟩
    have hsz : (levelOf (S.host t.lpid) (S.guest t.lpid t.pid) t.address 2).1.pageSize = (S.guest t.lpid t.pid).size t.address := by
      show pageSizes ((S.guest t.lpid t.pid).lvl 2) = _
      rw [Table.pageSizes_lvl hsm (by decide), Table.size, h]
    rw [if_pos (show (levelOf (S.host t.lpid) (S.guest t.lpid t.pid) t.address 2).1.leaf = true from h2)]
    rw [hsz, bind_ok e3]
    show Except.ok _ = _
    unfold nestedOf
    rw [h]
    rfl
  · obtain ⟨c3, e3, p3⟩ := hrow 3 (by omega) c2 p2
    rw [h] at hfinal
    obtain ⟨c4, e4, q4⟩ := hfinal c3 p3
    refine ⟨c4, ?_, q4⟩
    have hsz : (levelOf (S.host t.lpid) (S.guest t.lpid t.pid) t.address 3).1.pageSize = (S.guest t.lpid t.pid).size t.address := by
      show pageSizes ((S.guest t.lpid t.pid).lvl 3) = _
      rw [Table.pageSizes_lvl hsm (by decide), Table.size, h]
    rw [if_neg (show ¬ (levelOf (S.host t.lpid) (S.guest t.lpid t.pid) t.address 2).1.leaf = true by
      show ¬ (S.guest t.lpid t.pid).leafAt 2 t.address = true
      rw [h2]; simp)]
    rw [bind_ok (m := guestLevel .pte _) e3]
    show (finalLevel _ (levelOf (S.host t.lpid) (S.guest t.lpid t.pid) t.address 3).1.pageSize >>= _) _ = _
    rw [hsz, bind_ok e4]
    show Except.ok (some (Nested.mk _ _ (levelOf (S.host t.lpid) (S.guest t.lpid t.pid) t.address 3).1.pageSize), _) = _
    rw [hsz]
    unfold nestedOf
    rw [h]
    rfl

/-- The final address. -/
theorem final_ok {S : Tables} (hS : S.Ok) {t : Translation} {c : Caches}
    (hreal : t.real.toNat / 2 ^ (S.host t.lpid).size t.guest = (S.host t.lpid).frame t.guest)
    (hknow : ∀ i < t.omitted, i < (S.host t.lpid).depth t.guest → ∀ c', Steps S c c' →
      Knows c' (S.host t.lpid) ⟨MSR_HV, t.lpid, 0, 0⟩ i t.guest)
    (hno : 0 < t.omitted → ∀ c', Steps S c c' → NoOther c' (S.host t.lpid) ⟨MSR_HV, t.lpid, 0, 0⟩)
    (hsz : SmallWritten (S.host t.lpid) t.guest t.omitted → t.realLevel = (S.host t.lpid).code) :
    ∃ c', finalLevel ⟨0, t.lpid, t.pid, t.address⟩ ((S.guest t.lpid t.pid).size t.address) ⟨tailRecords S t, c⟩ =
      .ok (some (nestedOf S t).final, ⟨[], c'⟩) ∧ Steps S c c' ∧ HostPresent S c' t.lpid t.guest := by
  have hps := Table.pageSize_size (hS.2 t.lpid t.pid).1 t.address
  have s1 : Step S c (tlbPut c ((S.guest t.lpid t.pid).size t.address) ⟨0, t.lpid, t.pid, t.address⟩ t.guest) :=
    Step.tlbGuest c _ _ _ rfl
  have e1 : processRealAddr' ⟨0, t.lpid, t.pid, t.address⟩ ((S.guest t.lpid t.pid).size t.address) ⟨tailRecords S t, c⟩ =
      .ok (some t.guest, ⟨hostWalk (S.host t.lpid) t.guest t.omitted ++ [t.last],
        tlbPut c ((S.guest t.lpid t.pid).size t.address) ⟨0, t.lpid, t.pid, t.address⟩ t.guest⟩) := by
    unfold processRealAddr' tailRecords
    rw [bind_ok (take_hit (by rw [check_guestFinal]; rfl) _ c)]
    show (xTlbInsert _ _ _ >>= _) _ = _
    rw [bind_ok (xTlbInsert_ok hps _ _ _ _)]
    rfl
  obtain ⟨c', e2, s2, p2⟩ := hostWritten hS (k := t.omitted) (w := t.last) (R := [])
    (c := tlbPut c ((S.guest t.lpid t.pid).size t.address) ⟨0, t.lpid, t.pid, t.address⟩ t.guest) (g := t.guest)
    (flag := X_HOST_RA ||| X_GUEST_PTE ||| X_FINAL_RA) rfl (by rw [check_hostFinal]; rfl) hreal
    (fun j hj hd => hknow j hj hd _ (Steps.one s1)) (fun h => hno h _ (Steps.one s1)) (fun h => hostSize_end (hsz h))
  refine ⟨c', ?_, (Steps.one s1).trans s2, p2⟩
  unfold finalLevel
  rw [bind_ok e1]
  show (partitionTranslate _ (processRealAddr t.lpid t.guest) >>= _) _ = _
  rw [bind_ok e2]
  rfl

theorem Head.not7 {w : Walk} (h : Head 0 w) (h7 : w.finalRa = true → w.level ≠ 7) :
    check w (X_HOST_RA ||| X_NO_GUEST_PTE ||| X_LEVEL 7) = false ∧ check w (X_GUEST_PTE ||| X_LEVEL 7) = false := by
  rw [check_partition7, check_guest7, h.1]
  have : ¬ 7 = w.level := by
    rcases h.2 with hf | ⟨j, _, _, hl⟩
    · exact fun h => h7 hf h.symm
    · rw [hl]; exact fun h => level_ne7 j h.symm
  simp only [decide_eq_false this]
  simp

theorem rest_final7 {S : Tables} {t : Translation} (h : t.guestLevel ≠ 7) {i : Nat} {w : Walk} {R : List Walk}
    (he : restFrom S t i = w :: R) (hf : w.finalRa = true) : w.level ≠ 7 := by
  unfold restFrom at he
  cases hr : rowsRecords (S.host t.lpid) (S.guest t.lpid t.pid) t.address i (t.forms.drop i) with
  | nil =>
    rw [hr, List.nil_append, tailRecords] at he
    injection he with h1 h2
    rw [← h1]; exact h
  | cons v l =>
    have hv := rows_final (S.host t.lpid) (S.guest t.lpid t.pid) t.address (t.forms.drop i) i v (by rw [hr]; exact List.mem_cons_self ..)
    rw [hr, List.cons_append] at he
    injection he with h1 h2
    rw [h1, hf] at hv; simp at hv

/-- The process table. -/
theorem proc_ok {S : Tables} (hS : S.Ok) {t : Translation} {c : Caches} (hl : t.forms.length ≤ 4) (h7 : t.guestLevel ≠ 7)
    (hknow : ∀ p, t.proc = some p → ∀ i < p.omitted, i < (S.host t.lpid).depth p.entry →
      Knows c (S.host t.lpid) ⟨MSR_HV, t.lpid, 0, 0⟩ i p.entry)
    (hno : ∀ p, t.proc = some p → 0 < p.omitted → NoOther c (S.host t.lpid) ⟨MSR_HV, t.lpid, 0, 0⟩)
    (hsz : ∀ p, t.proc = some p → SmallWritten (S.host t.lpid) p.entry p.omitted → t.realLevel = (S.host t.lpid).code) :
    ∃ c', processTable t.lpid ⟨t.records S, c⟩ = .ok (some (), ⟨restFrom S t 0, c'⟩) ∧ Steps S c c' ∧
      ∀ p, t.proc = some p → HostPresent S c' t.lpid p.entry := by
  rw [records_eq]
  unfold processTable
  cases hp : t.proc with
  | none =>
    obtain ⟨w, R, e, hw⟩ := restFrom_head S t (i := 0) hl (by omega)
    have h := hw.not7 (rest_final7 h7 e)
    refine ⟨c, ?_, Steps.refl c, by simp⟩
    rw [procRecords, List.nil_append, e, bind_ok (take_miss h.1 R c), bind_ok (take_miss h.2 R c)]
    rfl
  | some p =>
    obtain ⟨c', e2, s2, p2⟩ := hostWritten hS (k := p.omitted) (w := nestedEntry 7 ((S.host t.lpid).real p.entry))
      (R := restFrom S t 0) (c := c) (g := p.entry) (flag := NESTED_PTE ||| X_LEVEL 7) rfl
      (by rw [check_nested7]; simp [nestedEntry]) (real_frame (hS.1 t.lpid) _) (hknow p hp) (hno p hp)
      (fun h => (hostSize_rest (hsz p hp h) 0).cons rfl)
    have e3 : (take (X_GUEST_PTE ||| X_LEVEL 7) >>= fun r => match r with
        | none => pure ()
        | some w => ignore (partitionTranslate (NESTED_PTE ||| X_LEVEL 7) (processRealAddr t.lpid w.ra)))
        ⟨guestEntry 7 p.entry :: (hostWalk (S.host t.lpid) p.entry p.omitted ++
          nestedEntry 7 ((S.host t.lpid).real p.entry) :: restFrom S t 0), c⟩ = .ok (some (), ⟨restFrom S t 0, c'⟩) := by
      rw [bind_ok (take_hit (by rw [check_guest7]; simp [guestEntry]) _ c)]
      show ignore (partitionTranslate (NESTED_PTE ||| X_LEVEL 7) (processRealAddr t.lpid p.entry)) _ = _
      unfold ignore
      rw [e2]
    refine ⟨c', ?_, s2, fun q hq => by injection hq with hq; rw [← hq]; exact p2⟩
    cases hpp : p.partition with
    | none =>
      have hr : procRecords (S.host t.lpid) (some p) ++ restFrom S t 0 =
          guestEntry 7 p.entry :: (hostWalk (S.host t.lpid) p.entry p.omitted ++
            nestedEntry 7 ((S.host t.lpid).real p.entry) :: restFrom S t 0) := by
        simp [procRecords, hpp]
      rw [hr, bind_ok (take_miss (by rw [check_partition7]; simp [guestEntry]) _ c)]
      exact e3
    | some r =>
      have hr : procRecords (S.host t.lpid) (some p) ++ restFrom S t 0 =
          hostEntry 7 r :: guestEntry 7 p.entry :: (hostWalk (S.host t.lpid) p.entry p.omitted ++
            nestedEntry 7 ((S.host t.lpid).real p.entry) :: restFrom S t 0) := by
        simp [procRecords, hpp]
      rw [hr, bind_ok (take_hit (by rw [check_partition7]; simp [hostEntry]) _ c)]
      exact e3

/-! ### A translation after a history -/

/-- What was translated before level `i`. -/
def seenAt (S : Tables) (t : Translation) (seen : Seen) (i : Nat) : Seen :=
  { seen with host := ((List.range i).map fun i => (S.guest t.lpid t.pid).entry i t.address).reverse.map (fun e => (t.lpid, e)) ++ seen.host }

theorem seenAt_zero (S : Tables) (t : Translation) (seen : Seen) : seenAt S t seen 0 = seen := rfl

theorem seenAt_succ (S : Tables) (t : Translation) (seen : Seen) (i : Nat) :
    (seenAt S t seen i).addHost t.lpid ((S.guest t.lpid t.pid).entry i t.address) = seenAt S t seen (i + 1) := by
  unfold seenAt Seen.addHost
  simp [List.range_succ]

theorem seenAt_end (S : Tables) (t : Translation) (seen : Seen) :
    seenAt S t seen ((S.guest t.lpid t.pid).depth t.address) = seen.addRows S t := rfl

theorem formsOk_get {S : Tables} {t : Translation} {seen : Seen} : ∀ (l : List Form) (i : Nat),
    FormsOk S t.lpid t.pid t.address i (seenAt S t seen i) l → ∀ j f, l[j]? = some f →
    FormOk S (seenAt S t seen (i + j)) t.lpid t.pid t.address (i + j) f ∧ (f ≠ .hidden → ∀ f' ∈ l.drop (j + 1), ∃ k, f' = .full k) := by
  intro l
  induction l with
  | nil => intro i _ j f h; simp at h
  | cons g l ih =>
    intro i ⟨h1, h2, h3⟩ j f hj
    rw [seenAt_succ] at h3
    cases j with
    | zero =>
      simp only [List.getElem?_cons_zero, Option.some.injEq] at hj
      subst hj
      exact ⟨h1, by simpa using h2⟩
    | succ j =>
      rw [List.getElem?_cons_succ] at hj
      have := ih (i + 1) h3 j f hj
      rw [show i + (j + 1) = i + 1 + j by omega]
      exact ⟨this.1, by simpa using this.2⟩

/-- A translation that the processor may write is decoded to the walk through the tables. -/
theorem nested_ok {S : Tables} (hS : S.Ok) {seen : Seen} {t : Translation} {c : Caches} (hI : Inv S seen c) (hV : t.Valid S seen) :
    ∃ c', nestedRadix ⟨0, t.lpid, t.pid, t.address⟩ ⟨t.records S, c⟩ = .ok (some (nestedOf S t), ⟨[], c'⟩) ∧
      Inv S (seen.add S t) c' := by
  have hd := (S.guest t.lpid t.pid).depth_le t.address
  have hlen := hV.length
  refine nested_of_rows hS
    (P := fun i c => Inv S (seenAt S t (seen.addProc t.lpid t.proc) i) c ∧
      ∀ j < i, Present c (S.guest t.lpid t.pid) ⟨0, t.lpid, t.pid, 0⟩ j t.address) ?_ ?_ ?_
  · obtain ⟨c', e, s, p⟩ := proc_ok hS (c := c) (by omega) hV.notProc
      (fun p hp => knows_of_omittable hS hI (hV.proc p hp)) (fun p hp _ => hI.agree.noOther (InTab.host _)) hV.smallProc
    refine ⟨c', e, ?_, by omega⟩
    rw [seenAt_zero]
    have hI' := hI.steps hS s
    cases hp : t.proc with
    | none => exact hI'
    | some q => exact hI'.addHost (p q hp)
  · intro i hi c1 ⟨hI1, hP1⟩
    have hlt : i < t.forms.length := by omega
    obtain ⟨hF, hfull⟩ := formsOk_get t.forms 0 (by rw [seenAt_zero]; exact hV.forms) i t.forms[i] (List.getElem?_eq_getElem hlt)
    rw [Nat.zero_add] at hF
    have hstep := restFrom_step (S := S) (List.getElem?_eq_getElem hlt)
    have key : ∃ c', guestLevel (Table.typ i) ⟨0, t.lpid, t.pid, t.address⟩ ⟨restFrom S t i, c1⟩ =
        .ok (some (levelOf (S.host t.lpid) (S.guest t.lpid t.pid) t.address i), ⟨restFrom S t (i + 1), c'⟩) ∧ Steps S c1 c' ∧
        HostPresent S c' t.lpid ((S.guest t.lpid t.pid).entry i t.address) ∧
        Present c' (S.guest t.lpid t.pid) ⟨0, t.lpid, t.pid, 0⟩ i t.address := by
      rw [hstep]
      cases hf : t.forms[i] with
      | full k =>
        rw [hf] at hF hfull
        refine row_full hS hi (fun j hj hd c' hs => knows_of_omittable hS (hI1.steps hS hs) hF j hj hd)
          (fun _ c' hs => (hI1.steps hS hs).agree.noOther (InTab.host _))
          (fun h => hostSize_rest (hV.smallRows i k (by rw [List.getElem?_eq_getElem hlt, hf]) h) _)
          (leafRest_of hlen hi (hfull (by simp))) ?_
        intro h3
        rw [restFrom_end (by omega)]
        exact guestSize_tail (hV.guestLevel (by omega))
      | short =>
        rw [hf] at hF hfull
        exact row_short hS hi (fun c' hs => ready_of_pageSeen hS (hI1.steps hS hs) t.pid hF.1) (guest_short_known hS hI1 hi hF.2)
          (leafRest_of hlen hi (hfull (by simp)))
      | hidden =>
        rw [hf] at hF
        obtain ⟨w, R, e, hw⟩ := restFrom_head S t (i := i + 1) (by omega) (by omega)
        rw [rowRecords, List.nil_append, e]
        exact row_hidden hS hi (ready_of_pageSeen hS hI1 t.pid hF.1) (guest_hidden_known hS hI1 hi hF.2) hw.1
          (hw.process (by omega) (by omega)) (hw.nested (by omega) (by omega))
    obtain ⟨c', e, s, p, q⟩ := key
    refine ⟨c', e, ?_, ?_⟩
    · rw [← seenAt_succ]
      exact (hI1.steps hS s).addHost p
    · intro j hj
      by_cases h : j = i
      · subst h; exact q
      · exact (hP1 j (by omega)).steps s
  · intro c1 ⟨hI1, hP1⟩
    rw [seenAt_end] at hI1
    rw [restFrom_end (by omega)]
    obtain ⟨c', e, s, p⟩ := final_ok hS (c := c1) hV.real
      (fun i hi hd c' hs => knows_of_omittable hS (hI1.steps hS hs) hV.omitted i hi hd)
      (fun _ c' hs => (hI1.steps hS hs).agree.noOther (InTab.host _)) hV.smallFinal
    refine ⟨c', e, ?_⟩
    have hI2 := (hI1.steps hS s).addHost p
    refine ⟨hI2.agree, hI2.host, ?_⟩
    intro l q a hm
    rcases List.mem_cons.1 hm with hm | hm
    · injection hm with h1 h2
      injection h2 with h2 h3
      subst h1 h2 h3
      intro i hi
      exact (hP1 i hi).steps s
    · refine hI2.guest l q a ?_
      cases hp : t.proc <;> simp only [Seen.addHost, Seen.addRows, Seen.addProc, hp] <;> exact hm

end Htm.Mmu
