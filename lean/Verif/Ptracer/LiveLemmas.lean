import Verif.Ptracer.SpecLive
import Verif.Ptracer.PropsStorage
import Verif.Ptracer.PropsPagemap
import Verif.Qt.PropsTold
import Verif.Qt.PropsBranch

/-! Helper lemmas for C88: the records made by the live tracer. -/

namespace Ptr
open LiveSpec IsaMem PmSpec

theorem storage_ne_abort {x : Seen} (h : ∀ i ∈ unsupported, ¬ i.Encodes x.insn) : isStorageInsn x.insn x.regs ≠ .abort := by
  intro ha
  obtain ⟨h1, h2⟩ := C37_storage_partial x.insn x.regs
  by_cases hc : Accesses x.insn
  · rcases hc with ⟨i, hi, he⟩ | ⟨i, hi, he⟩
    · obtain ⟨a, s, e, _⟩ := h1 i hi he
      rw [e] at ha; cases ha
    · exact h i hi he
  · rw [h2 hc] at ha; cases ha

/-- Look-ups end in a page size of 64 KiB or 2 MiB. -/
theorem eaToPa_shift (s : Maps) (a : Access) (pa : BitVec 64) (sh : Nat) (h : (eaToPa s a).2 = .yes pa sh) : sh = 16 ∨ sh = 21 := by
  rcases eaToPa_cases s a with ⟨e, t, i, ht, -, -, he⟩ | he
  · rw [he] at h
    obtain ⟨-, rfl⟩ := Pa.yes.inj h
    rcases ht with ⟨rfl, -⟩ | ⟨rfl, -⟩ <;> simp
  · rw [he] at h
    obtain ⟨w, f, -, -, -, -, hs⟩ := (fill_spec _ a).2.2.2 pa sh h
    rw [hs]; split <;> simp

theorem eaToPa_exit (s : Maps) (a : Access) (h1 : ∀ p, a.kernel.pagemap p ≠ none) (h2 : ∀ p, a.kernel.kpageflags p ≠ none) :
    (eaToPa s a).2 ≠ .exit := by
  rcases eaToPa_cases s a with ⟨e, t, i, -, -, -, he⟩ | he
  · rw [he]; simp
  · rw [he]
    unfold fill
    dsimp only
    split
    · next h => exact absurd h (h1 _)
    · split
      · simp
      · split
        · next h => exact absurd h (h2 _)
        · split <;> simp

theorem lookUp_shift (xlate : Bool) (s : Maps) (x : Seen) (ea : BitVec 64) (iside : Bool) (pa : BitVec 64) (sh : Nat)
    (h : (lookUp xlate s x ea iside).2 = .yes pa sh) : sh = 16 ∨ sh = 21 := by
  unfold lookUp at h
  cases xlate with
  | true => exact eaToPa_shift _ _ _ _ h
  | false => cases h

theorem lookUp_exit (xlate : Bool) (s : Maps) (x : Seen) (ea : BitVec 64) (iside : Bool)
    (h : xlate = true → ∀ p, x.kernel.pagemap p ≠ none ∧ x.kernel.kpageflags p ≠ none) : (lookUp xlate s x ea iside).2 ≠ .exit := by
  unfold lookUp
  cases xlate with
  | true => exact eaToPa_exit _ _ (fun p => (h rfl p).1) (fun p => (h rfl p).2)
  | false => simp

/-- The record says of the instruction what the look-up said. -/
def InsnSays (r : Qt.Record) : Pa → Prop
  | .yes pa sh => r.insnRaValid = true ∧ r.insnRa = pa ∧ r.insnPageShiftValid = true ∧ r.insnPageShift = sh
  | _ => r.insnRaValid = false ∧ r.insnPageShiftValid = false

/-- The record says of the data what the look-up said. -/
def DataSays (r : Qt.Record) : Pa → Prop
  | .yes pa sh => r.dataRaValid = true ∧ r.dataRa = pa ∧ r.dataPageShiftValid = true ∧ r.dataPageShift = sh
  | _ => r.dataRaValid = false ∧ r.dataPageShiftValid = false

/-- What all records have in common. -/
structure Basic (x : Seen) (r : Qt.Record) : Prop where
  insn : r.insn = x.insn
  addr : r.insnAddr = x.pc
  branch : r.branch = Qt.isBranch x.insn
  cond : r.conditionalBranch = Qt.isConditionalBranch x.insn
  data : (if r.dataAddrValid then some r.dataAddr else none) = match isStorageInsn x.insn x.regs with
    | .yes a _ => some a
    | _ => none
  shifts : Qt.Spec.ShiftsOk r
  ri : r.radixInsn = {}
  rd : r.radixData = {}
  gi : r.guestInsnPageShiftValid = false
  gd : r.guestDataPageShiftValid = false

/-- The record made for an instruction, with the two look-ups. -/
theorem makeRecord_made (xlate : Bool) (s : Maps) (x : Seen) (h1 : isStorageInsn x.insn x.regs ≠ .abort)
    (h2 : xlate = true → ∀ p, x.kernel.pagemap p ≠ none ∧ x.kernel.kpageflags p ≠ none) :
    ∃ r, (makeRecord xlate s x).2 = .made r ∧ Basic x r ∧
      InsnSays r (lookUp xlate s x x.pc true).2 ∧
      (∀ a n, isStorageInsn x.insn x.regs = .yes a n →
        (makeRecord xlate s x).1 = (lookUp xlate (lookUp xlate s x x.pc true).1 x a false).1 ∧
        DataSays r (lookUp xlate (lookUp xlate s x x.pc true).1 x a false).2) ∧
      (isStorageInsn x.insn x.regs = .no → (makeRecord xlate s x).1 = (lookUp xlate s x x.pc true).1 ∧ DataSays r .no) := by
  have e1 := lookUp_exit xlate s x x.pc true h2
  have s1 := lookUp_shift xlate s x x.pc true
  obtain ⟨s', p, e⟩ : ∃ s' p, lookUp xlate s x x.pc true = (s', p) := ⟨_, _, rfl⟩
  rw [e] at e1 s1 ⊢
  dsimp only at e1 s1 ⊢
  have em : makeRecord xlate s x = addData xlate s' x (withInsnPa (plainRecord x) p) := by
    unfold makeRecord
    rw [e]
    cases p with
    | exit => exact absurd rfl e1
    | no => rfl
    | yes pa sh => rfl
  rw [em]
  have hsh : ∀ sh, (sh = 16 ∨ sh = 21) → sh < 64 := by omega
  unfold addData
  cases hst : isStorageInsn x.insn x.regs with
  | abort => exact absurd hst h1
  | no =>
    refine ⟨_, rfl, ?_, ?_, ?_, fun _ => ⟨rfl, ?_⟩⟩
    · cases p with
      | exit => exact absurd rfl e1
      | no => constructor <;> simp [withInsnPa, plainRecord, Qt.Spec.ShiftsOk, hst]
      | yes pa sh =>
        have := hsh sh (s1 pa sh rfl)
        constructor <;> simp [withInsnPa, plainRecord, Qt.Spec.ShiftsOk, hst, this]
    · cases p with
      | exit => exact absurd rfl e1
      | no => exact ⟨rfl, rfl⟩
      | yes pa sh => exact ⟨rfl, rfl, rfl, rfl⟩
    · intro a n h; cases h
    · cases p with
      | exit => exact absurd rfl e1
      | no => exact ⟨rfl, rfl⟩
      | yes pa sh => exact ⟨rfl, rfl⟩
  | yes a n =>
    have e2 := lookUp_exit xlate s' x a false h2
    have s2 := lookUp_shift xlate s' x a false
    dsimp only
    obtain ⟨s'', q, e'⟩ : ∃ s'' q, lookUp xlate s' x a false = (s'', q) := ⟨_, _, rfl⟩
    rw [e'] at e2 s2 ⊢
    dsimp only at e2 s2 ⊢
    refine ⟨withData (withInsnPa (plainRecord x) p) a q, ?_, ?_, ?_, ?_, ?_⟩
    · cases q with
      | exit => exact absurd rfl e2
      | no => rfl
      | yes pa sh => rfl
    · have k1 : ∀ pa sh, p = .yes pa sh → sh < 64 := fun pa sh h => hsh sh (s1 pa sh h)
      have k2 : ∀ pa sh, q = .yes pa sh → sh < 64 := fun pa sh h => hsh sh (s2 pa sh h)
      cases p <;> cases q <;> constructor <;> simp_all [withData, withInsnPa, plainRecord, Qt.Spec.ShiftsOk]
    · cases p with
      | exit => exact absurd rfl e1
      | no => cases q <;> exact ⟨rfl, rfl⟩
      | yes pa sh => cases q <;> exact ⟨rfl, rfl, rfl, rfl⟩
    · intro a' n' h
      obtain ⟨rfl, rfl⟩ := Outcome.yes.inj h
      rw [e']
      cases q with
      | exit => exact absurd rfl e2
      | no => exact ⟨rfl, by cases p <;> exact ⟨rfl, rfl⟩⟩
      | yes pa sh => exact ⟨rfl, rfl, rfl, rfl, rfl⟩
    · intro h; cases h

/-- All calls return, and there is a record for each. -/
theorem makeAll_made (xlate : Bool) : ∀ (xs : List Seen) (s : Maps), (∀ x ∈ xs, isStorageInsn x.insn x.regs ≠ .abort) →
    (xlate = true → Answers xs) →
    (makeAll xlate s xs).2 = true ∧ (makeAll xlate s xs).1.length = xs.length ∧
    ∀ (i : Nat) (x : Seen), xs[i]? = some x → ∃ r, (makeAll xlate s xs).1[i]? = some r ∧ Basic x r
  | [], _, _, _ => ⟨rfl, rfl, fun i x h => by simp at h⟩
  | x :: t, s, h1, h2 => by
    obtain ⟨r, hr, hb, _⟩ := makeRecord_made xlate s x (h1 x (by simp)) (fun hx p => h2 hx x (by simp) p)
    obtain ⟨i1, i2, i3⟩ := makeAll_made xlate t (makeRecord xlate s x).1 (fun y hy => h1 y (by simp [hy]))
      (fun hx y hy => h2 hx y (by simp [hy]))
    have e : makeAll xlate s (x :: t) = (r :: (makeAll xlate (makeRecord xlate s x).1 t).1, (makeAll xlate (makeRecord xlate s x).1 t).2) := by
      show (match (makeRecord xlate s x).2 with
        | .made r => (r :: (makeAll xlate (makeRecord xlate s x).1 t).1, (makeAll xlate (makeRecord xlate s x).1 t).2)
        | _ => ([], false)) = _
      rw [hr]
    rw [e]
    refine ⟨i1, by simp [i2], fun i y hy => ?_⟩
    cases i with
    | zero =>
      obtain rfl : x = y := by simpa using hy
      exact ⟨r, rfl, hb⟩
    | succ i =>
      rw [List.getElem?_cons_succ] at hy ⊢
      exact i3 i y hy

theorem runMaps_snoc (h : List Access) (a : Access) : runMaps (h ++ [a]) = (eaToPa (runMaps h) a).1 := by
  unfold runMaps
  rw [List.foldl_append]
  rfl

/-- With translation, each record says what the look-ups gave, which follow those for the instructions before. -/
theorem makeAll_says : ∀ (xs : List Seen) (h : List Access), (∀ x ∈ xs, isStorageInsn x.insn x.regs ≠ .abort) → Answers xs →
    ∀ (i : Nat) (x : Seen), xs[i]? = some x → ∃ r, (makeAll true (runMaps h) xs).1[i]? = some r ∧
      InsnSays r (eaToPa (runMaps (h ++ accesses (xs.take i))) (fetch x)).2 ∧
      (∀ a n, isStorageInsn x.insn x.regs = .yes a n →
        DataSays r (eaToPa (runMaps (h ++ accesses (xs.take i) ++ [fetch x])) ⟨x.kernel, a, false⟩).2) ∧
      (isStorageInsn x.insn x.regs = .no → DataSays r .no)
  | [], _, _, _, i, x, hx => by simp at hx
  | x :: t, h, h1, h2, i, y, hy => by
    obtain ⟨r, hr, hb, k1, k2, k3⟩ := makeRecord_made true (runMaps h) x (h1 x (by simp)) (fun _ p => h2 x (by simp) p)
    have e : (makeAll true (runMaps h) (x :: t)).1 = r :: (makeAll true (makeRecord true (runMaps h) x).1 t).1 := by
      show (match (makeRecord true (runMaps h) x).2 with
        | .made r => (r :: (makeAll true (makeRecord true (runMaps h) x).1 t).1, (makeAll true (makeRecord true (runMaps h) x).1 t).2)
        | _ => ([], false)).1 = _
      rw [hr]
    have l1 : (lookUp true (runMaps h) x x.pc true) = eaToPa (runMaps h) (fetch x) := rfl
    have l2 : (lookUp true (runMaps h) x x.pc true).1 = runMaps (h ++ [fetch x]) := by rw [l1, runMaps_snoc]
    have hs : (makeRecord true (runMaps h) x).1 = runMaps (h ++ lookUps x) := by
      unfold lookUps
      cases hst : isStorageInsn x.insn x.regs with
      | abort => exact absurd hst (h1 x (by simp))
      | no => rw [(k3 hst).1, l2]
      | yes a n =>
        rw [(k2 a n hst).1, l2]
        show (eaToPa (runMaps (h ++ [fetch x])) ⟨x.kernel, a, false⟩).1 = _
        rw [← runMaps_snoc, List.append_assoc]; rfl
    rw [e]
    cases i with
    | zero =>
      obtain rfl : x = y := by simpa using hy
      refine ⟨r, rfl, ?_, ?_, fun hn => (k3 hn).2⟩
      · have k1' : InsnSays r (eaToPa (runMaps h) (fetch x)).2 := k1
        rw [List.take_zero]; simpa [accesses] using k1'
      · intro a n hst
        have := (k2 a n hst).2
        rw [l2] at this
        have this : DataSays r (eaToPa (runMaps (h ++ [fetch x])) ⟨x.kernel, a, false⟩).2 := this
        rw [List.take_zero]; simpa [accesses] using this
    | succ i =>
      rw [List.getElem?_cons_succ] at hy
      obtain ⟨r', q1, q2, q3, q4⟩ := makeAll_says t (h ++ lookUps x) (fun z hz => h1 z (by simp [hz])) (fun z hz => h2 z (by simp [hz])) i y hy
      rw [hs]
      have ea : h ++ accesses ((x :: t).take (i + 1)) = h ++ lookUps x ++ accesses (t.take i) := by
        rw [List.take_succ_cons, List.append_assoc]; rfl
      exact ⟨r', by rw [List.getElem?_cons_succ]; exact q1, by rw [ea]; exact q2, fun a n hst => by rw [ea]; exact q3 a n hst, q4⟩

/-- The records of such a run are expressible. -/
theorem makeAll_expressible (xlate : Bool) (s : Maps) (xs : List Seen) (ht : Traceable xs) (ha : xlate = true → Answers xs) :
    Qt.Spec.Expressible (makeAll xlate s xs).1 := by
  obtain ⟨-, hl, hb⟩ := makeAll_made xlate xs s (fun x hx => storage_ne_abort (ht.supported x hx)) ha
  have back : ∀ (i : Nat) (r : Qt.Record), (makeAll xlate s xs).1[i]? = some r → ∃ x, xs[i]? = some x ∧ Basic x r := by
    intro i r hr
    have hi := (List.getElem?_eq_some_iff.1 hr).1
    obtain ⟨x, hx⟩ : ∃ x, xs[i]? = some x := ⟨xs[i]'(by omega), List.getElem?_eq_getElem (by omega)⟩
    obtain ⟨r', h1, h2⟩ := hb i x hx
    rw [hr] at h1
    exact ⟨x, hx, Option.some.inj h1 ▸ h2⟩
  have mem : ∀ r ∈ (makeAll xlate s xs).1, ∃ x, Basic x r := by
    intro r hr
    obtain ⟨i, hi⟩ := List.getElem?_of_mem hr
    obtain ⟨x, -, h⟩ := back i r hi
    exact ⟨x, h⟩
  have chain : ∀ (l : List Qt.Record) (ys : List Seen), l.length = ys.length →
      (∀ (i : Nat) (r : Qt.Record), l[i]? = some r → ∃ x, ys[i]? = some x ∧ Basic x r) →
      Qt.Spec.Chain (fun a b : Seen => b.insn = 0 → Qt.Spec.IsPrefix a.insn) ys → Qt.Spec.Chain Qt.Spec.StepOk l := by
    intro l
    induction l with
    | nil => intros; trivial
    | cons a l ih =>
      cases l with
      | nil => intros; trivial
      | cons b l =>
        intro ys hlen hbk hch
        match ys, hlen, hch with
        | x :: y :: ys, hlen, hch =>
          obtain ⟨x', hx, hxa⟩ := hbk 0 a rfl
          obtain ⟨y', hy, hyb⟩ := hbk 1 b rfl
          obtain rfl : x = x' := by simpa using hx
          obtain rfl : y = y' := by simpa using hy
          refine ⟨⟨fun hz => ?_, fun _ _ _ => ?_⟩, ih (y :: ys) (by simpa using hlen) (fun i r hr => ?_) hch.2⟩
          · rw [hxa.insn]; exact hch.1 (by rw [← hyb.insn]; exact hz)
          · rw [hxa.rd, hyb.ri]; exact .inl ⟨rfl, rfl⟩
          · have := hbk (i + 1) r (by rw [List.getElem?_cons_succ]; exact hr)
            rwa [List.getElem?_cons_succ] at this
  refine ⟨fun r hr => ?_, chain _ xs hl back ht.words, fun r hr => ?_⟩
  · obtain ⟨x, h⟩ := mem r hr
    exact ⟨h.shifts, fun _ => by rw [h.ri]; exact .inl rfl, fun _ => by rw [h.rd]; exact .inl rfl⟩
  · rw [List.head?_eq_getElem?] at hr
    obtain ⟨x, hx, h⟩ := back 0 r hr
    refine ⟨?_, fun hn => ?_⟩
    · rw [h.insn]; exact ht.first x (by rw [List.head?_eq_getElem?]; exact hx)
    · rw [h.ri] at hn; exact absurd rfl hn

end Ptr
