import Verif.Qt.Calculus
import Verif.Qt.Spec
/-! Helper lemmas: what each section of the reader does on the bytes the writer stored for it. -/
namespace Qt

/-! ### Flag words -/

theorem has_recFlags (a b c d e : Bool) :
    let f := (0x0001 : BitVec 16) ||| bitIf a 0x0800 ||| bitIf b 0x0200 ||| bitIf c 0x0010
      ||| bitIf d (0x4000 ||| 0x2000) ||| bitIf e (0x8000 ||| 0x0040)
    has f 0x0001 = true ∧ has f 0x4000 = d ∧ has f 0x2000 = d ∧ has f 0x1000 = false ∧ has f 0x0800 = a ∧
    has f 0x0400 = false ∧ has f 0x0200 = b ∧ has f 0x0040 = e ∧ has f 0x0020 = false ∧
    has f 0x0010 = c ∧ has f 0x0008 = false ∧ has f (~~~ 0xFFF9) = false := by
  revert a b c d e; decide

theorem has_recFlags2 (a b c d e f : Bool) :
    let g := bitIf a 0x0001 ||| bitIf b 0x0001 ||| bitIf c 0x0100 ||| bitIf d 0x0004
      ||| bitIf e 0x0200 ||| bitIf f 0x0008
    has g 0x0001 = (a || b) ∧ has g 0x4000 = false ∧ has g 0x1000 = false ∧ has g 0x0020 = false ∧
    has g 0x0200 = e ∧ has g 0x0100 = c ∧ has g 0x0008 = f ∧ has g 0x0004 = d ∧
    has g (~~~ 0x532F) = false := by
  revert a b c d e f; decide

theorem has_hdrFlags (a b c d e : Bool) :
    let h := (0x2000 : BitVec 16) ||| bitIf a 0x0800 ||| bitIf b 0x0040 ||| bitIf c 0x0010
      ||| bitIf d 0x4000 ||| bitIf e 0x8000
    has h (~~~ 0xF852) = false ∧ has h 0x8000 = e ∧ has h 0x4000 = d ∧ has h 0x2000 = true ∧
    has h 0x1000 = false ∧ has h 0x0800 = a ∧ has h 0x0040 = b ∧ has h 0x0010 = c ∧
    has h 0x0002 = false := by
  revert a b c d e; decide

/-! ### Page walks -/

/-- Result of reading back the walk `x` of kind `w` over the previous contents `x0`. -/
def walkOut (w : Walk) (ty : XlateType) (x x0 : Radix) : Radix :=
  match w with
  | .none => x0
  | .single _ =>
    { x0 with
      type := ty, nrPtes := 4, nrWalks := 1
      hostPtes := fun i j => if i = 0 ∧ j < 4 then x.hostPtes 0 j else x0.hostPtes i j }
  | .nested =>
    { x0 with
      nrPtes := x.nrPtes, nrWalks := x.nrWalks
      hostPtes := fun i j => if i < x.nrWalks ∧ j < x.nrPtes then x.hostPtes i j else x0.hostPtes i j
      hostRas := fun j => if j < x.nrWalks - 1 then x.hostRas j else x0.hostRas j
      guestRas := fun j => if j < x.nrWalks then x.guestRas j else x0.guestRas j }

theorem radixWalk_nested {x : Radix} (h : radixWalk x = .ok .nested) :
    1 ≤ x.nrPtes ∧ x.nrPtes ≤ 4 ∧ 2 ≤ x.nrWalks ∧ x.nrWalks ≤ 5 := by
  unfold radixWalk at h
  split at h
  · split at h <;> simp_all
  · split at h
    · split at h
      · rename_i h1 h2 h3
        simp only [NR_RADIX_PTES, MAX_RADIX_WALKS] at h3
        omega
      · simp at h
    · simp at h

theorem getRadixCount_byte {m c hs gs d f3} (n : Nat) (hn : n < 256) (h : modeField f3 hs = 0)
    (hg : modeField f3 gs = 0) : Reads (getRadixCount hs gs d f3) m c (put8n n) n c := by
  intro p rest hp
  have := Reads.get8 (m := m) (c := c) (BitVec.ofNat 8 n) p rest hp
  simp only [getRadixCount, h, hg, and_self, if_true]
  have e : (BitVec.ofNat 8 n).toNat = n := by
    rw [BitVec.toNat_ofNat]; exact Nat.mod_eq_of_lt hn
  rw [this]
  show Out.ok (BitVec.ofNat 8 n).toNat _ = _
  rw [e]; rfl

theorem getRadixCount_dflt {m c hs gs d f3} (h : modeField f3 hs = 0)
    (hg : modeField f3 gs ≠ 0) : Reads (getRadixCount hs gs d f3) m c [] d c := by
  intro p rest hp
  simp only [getRadixCount, h, hg, and_false, if_false, if_true]; rfl

theorem walkSection_single {m c hs gs st f3} (g : Bool) (x x0 : Radix) (h : modeField f3 hs = 0)
    (hg : modeField f3 gs ≠ 0) :
    Reads (walkSection hs gs st f3 x0) m c (walkBytes (.single g) x)
      (walkOut (.single g) (if st then getRadixType hs gs f3 else x0.type) x x0) c := by
  unfold walkSection walkBytes
  refine Reads.bind0 (getRadixCount_dflt h hg) (Reads.bind0 (getRadixCount_dflt h hg) ?_)
  simp only [if_true]
  refine Reads.bindR (Reads.readInto0 NR_RADIX_PTES (x.hostPtes 0) NR_RADIX_PTES _ (Nat.le_refl _)) ?_
  refine (Reads.pure _ m c).congr rfl ?_ rfl
  have : (fun i => if i = 0 then (fun j => if j < 4 then x.hostPtes 0 j else x0.hostPtes 0 j)
      else x0.hostPtes i) = fun i j => if i = 0 ∧ j < 4 then x.hostPtes 0 j else x0.hostPtes i j := by
    funext i j; by_cases hi : i = 0 <;> simp [hi]
  cases st <;> simp only [walkOut, Bool.false_eq_true, if_true, if_false, ← this, NR_RADIX_PTES]

theorem walkSection_nested {m c hs gs st f3} (ty : XlateType) (x x0 : Radix)
    (hw : radixWalk x = .ok .nested) (h : modeField f3 hs = 0) (hg : modeField f3 gs = 0) :
    Reads (walkSection hs gs st f3 x0) m c (walkBytes .nested x) (walkOut .nested ty x x0) c := by
  obtain ⟨h1, h2, h3, h4⟩ := radixWalk_nested hw
  unfold walkSection walkBytes
  simp only [List.append_assoc]
  refine Reads.bind (getRadixCount_byte _ (by omega) h hg)
    (Reads.bind (getRadixCount_byte _ (by omega) h hg) ?_)
  simp only [show ¬ x.nrWalks = 1 by omega, if_false, show x.nrWalks > 1 by omega, if_true]
  unfold parseRadixOnRadix
  have hr := Reads.readRows (m := m) (c := c) x.nrPtes h2 x.hostPtes x.nrWalks 0 x0.hostPtes (by omega)
  rw [← List.range_eq_range'] at hr
  refine Reads.bind hr (Reads.bind (Reads.readInto0 _ x.hostRas _ _ (by simp only [MAX_RADIX_WALKS]; omega))
    (Reads.bindR (Reads.readInto0 _ x.guestRas _ _ (by simp only [MAX_RADIX_WALKS]; omega)) ?_))
  refine (Reads.pure _ m c).congr rfl ?_ rfl
  simp [walkOut]

/-- Reading a present walk of kind `w` with the matching mode fields. -/
theorem walkSection_reads {m c hs gs st f3} (w : Walk) (x x0 : Radix) (hw : radixWalk x = .ok w)
    (hn : w ≠ .none) (h : modeField f3 hs = 0) (hg : modeField f3 gs = 0 ↔ w = .nested) :
    Reads (walkSection hs gs st f3 x0) m c (walkBytes w x)
      (walkOut w (if st then getRadixType hs gs f3 else x0.type) x x0) c := by
  cases w with
  | none => exact absurd rfl hn
  | single g => exact walkSection_single g x x0 h (by rw [Ne, hg]; simp)
  | nested => exact walkSection_nested _ x x0 hw h (by rw [hg])

end Qt
