import Verif.Opc.Forms
import Verif.Opc.PropsEntry
/-!
Property C128: an instruction is counted by `ppcstats` under a form of what it is.
-/
namespace Opc

theorem knownNat_of {e : Opcode} (h : e.known) : knownNat e = true := by
  unfold knownNat
  rw [Bool.not_eq_true', ← Bool.not_eq_true]
  intro c
  refine h ?_
  have c' : e.flags &&& 0x11018502909 = 0 := Nat.eq_of_beq_eq_true c
  have : BitVec.ofNat 64 e.flags &&& Stats.dialect = BitVec.ofNat 64 (e.flags &&& 0x11018502909) := by
    rw [BitVec.ofNat_and]; rfl
  rw [this, c']

theorem pair_form {a e : Opcode} {w : W} (h : pairOk a e = true) (ha : a.matches w) (he : e.matches w) (s : ∀ x ∈ [a, e], x.opcode < 2 ^ 64 ∧ x.mask < 2 ^ 64) :
    FormOf a e ∨ (a.name, e.name) ∈ crossing := by
  unfold pairOk at h
  simp only [Bool.or_eq_true, Bool.and_eq_true, decide_eq_true_eq, Bool.not_eq_true'] at h
  unfold Opcode.matches at ha he
  obtain ⟨⟨sa, ma⟩, se, me⟩ : (a.opcode < 2 ^ 64 ∧ a.mask < 2 ^ 64) ∧ e.opcode < 2 ^ 64 ∧ e.mask < 2 ^ 64 := ⟨s a (by simp), s e (by simp)⟩
  rcases h with h | ⟨h1, h2⟩ | h
  · exfalso
    have hne := Nat.ne_of_beq_eq_false h
    apply hne
    have : BitVec.ofNat 64 a.opcode &&& BitVec.ofNat 64 e.mask = BitVec.ofNat 64 e.opcode &&& BitVec.ofNat 64 a.mask := by
      rw [← ha, ← he, BitVec.and_assoc, BitVec.and_assoc, BitVec.and_comm (BitVec.ofNat 64 a.mask)]
    rw [← BitVec.ofNat_and, ← BitVec.ofNat_and] at this
    have h3 := congrArg BitVec.toNat this
    rw [BitVec.toNat_ofNat, BitVec.toNat_ofNat, Nat.mod_eq_of_lt (Nat.lt_of_le_of_lt Nat.and_le_left sa),
      Nat.mod_eq_of_lt (Nat.lt_of_le_of_lt Nat.and_le_left se)] at h3
    exact h3
  · left
    intro w' hw
    unfold Opcode.matches at hw ⊢
    have e1 : a.mask &&& e.mask = e.mask := Nat.eq_of_beq_eq_true h1
    have e2 : a.opcode &&& e.mask = e.opcode := Nat.eq_of_beq_eq_true h2
    rw [← e2, BitVec.ofNat_and, ← hw]
    conv => lhs; rw [← e1]
    rw [BitVec.ofNat_and, BitVec.and_assoc]
  · exact Or.inr h

theorem table_words : ∀ e ∈ mainTable.flatten, e.opcode < 2 ^ 32 ∧ e.mask < 2 ^ 32 := by decide +kernel

theorem table_majors : ∀ e ∈ mainTable.flatten, knownNat e = true → e.mask / 67108864 = 63 := by decide +kernel

theorem same_major {a : Opcode} {w : W} (s : a.opcode < 2 ^ 64 ∧ a.mask < 2 ^ 64) (hm : a.mask / 67108864 = 63) (ha : a.matches w) :
    a.opcode / 67108864 = w.toNat / 67108864 &&& 63 := by
  unfold Opcode.matches at ha
  have h := congrArg BitVec.toNat ha
  rw [BitVec.toNat_and, BitVec.toNat_ofNat, BitVec.toNat_ofNat, Nat.mod_eq_of_lt s.1, Nat.mod_eq_of_lt s.2] at h
  rw [← h, ← hm]
  exact Nat.and_div_two_pow (n := 26)

theorem fits_iff {e : Opcode} {w : BitVec 32} (hs : e.opcode < 2 ^ 32 ∧ e.mask < 2 ^ 32) :
    (Stats.entry (e.opcode, e.mask, e.flags)).fits w = true ↔ e.matches (w.setWidth 64) ∧ e.known := by
  unfold Stats.Entry.fits Stats.entry Opcode.matches Opcode.known
  simp only [Bool.and_eq_true, beq_iff_eq, bne_iff_ne]
  refine and_congr_left fun _ => ?_
  have e1 : ∀ n : Nat, n < 2 ^ 32 → BitVec.ofNat 64 n = BitVec.setWidth 64 (BitVec.ofNat 32 n) := by
    intro n hn
    apply BitVec.eq_of_toNat_eq
    rw [BitVec.toNat_ofNat, BitVec.toNat_setWidth, BitVec.toNat_ofNat]
    omega
  rw [e1 _ hs.1, e1 _ hs.2, ← BitVec.setWidth_and]
  constructor
  · intro h; rw [h]
  · intro h
    have := congrArg (BitVec.setWidth 32) h
    simpa using this

/-- The search of `ppcstats` finds the first entry of the table, but its last one, that is for its processors and that the word matches. -/
theorem counted_first (w : BitVec 32) : Stats.classify Stats.opcodeTable (Stats.majors Stats.opcodeTable) w =
    some (mainTable.flatten.dropLast.findIdx? fun e => (Stats.entry (e.opcode, e.mask, e.flags)).fits w) := by
  rw [Stats.C28_search_partial Stats.table_covered]
  unfold Stats.Spec.kind Stats.opcodeTable
  rw [← main_stats, List.map_map, ← List.map_dropLast, List.findIdx?_map]
  rfl

/-- An instruction of an entry is counted under this entry or an earlier one, which it also is an instruction of, and which is a form of the entry or one of
the pairs of the list. -/
theorem C128_form_partial {i : Nat} {e : Opcode} {w : BitVec 32} (hi : mainTable.flatten.dropLast[i]? = some e) (hk : e.known) (hw : e.matches (w.setWidth 64)) :
    ∃ k a, Stats.classify Stats.opcodeTable (Stats.majors Stats.opcodeTable) w = some (some k) ∧ k ≤ i ∧ mainTable.flatten[k]? = some a ∧
      a.known ∧ a.matches (w.setWidth 64) ∧ (FormOf a e ∨ (a.name, e.name) ∈ crossing) := by
  have hm : ∀ x ∈ mainTable.flatten.dropLast, x.opcode < 2 ^ 32 ∧ x.mask < 2 ^ 32 := fun x hx => table_words x (List.dropLast_subset _ hx)
  have he := List.mem_of_getElem? hi
  have hfit := (fits_iff (w := w) (hm e he)).mpr ⟨hw, hk⟩
  cases hf : mainTable.flatten.dropLast.findIdx? fun e => (Stats.entry (e.opcode, e.mask, e.flags)).fits w with
  | none =>
    rw [List.findIdx?_eq_none_iff] at hf
    rw [hf e he] at hfit
    cases hfit
  | some k =>
    obtain ⟨hl, h1, h2⟩ := List.findIdx?_eq_some_iff_getElem.mp hf
    obtain ⟨hil, hie⟩ := List.getElem?_eq_some_iff.mp hi
    have hki : k ≤ i := by
      refine Nat.le_of_not_lt fun c => ?_
      have := h2 i c
      rw [hie, hfit] at this
      exact this rfl
    have ha := List.getElem_mem hl
    obtain ⟨m1, m2⟩ := (fits_iff (hm _ ha)).mp h1
    refine ⟨k, mainTable.flatten.dropLast[k], by rw [counted_first, hf], hki, ?_, m2, m1, ?_⟩
    · have := List.getElem?_eq_getElem hl
      rw [List.getElem?_dropLast] at this
      split at this
      · exact this
      · cases this
    · rcases Nat.lt_or_eq_of_le hki with c | c
      · have h64 : ∀ x ∈ mainTable.flatten.dropLast, x.opcode < 2 ^ 64 ∧ x.mask < 2 ^ 64 := by
          intro x hx
          have := hm x hx
          omega
        have ja := same_major (h64 _ ha) (table_majors _ (List.dropLast_subset _ ha) (knownNat_of m2)) m1
        have je := same_major (h64 _ he) (table_majors _ (List.dropLast_subset _ he) (knownNat_of hk)) hw
        have hp := List.pairwise_filter.mp (allPairs_iff.mp (pairs_check ((w.setWidth 64).toNat / 67108864 &&& 63)))
        have hp' := hp.sublist (List.dropLast_sublist _)
        have own : ∀ x : Opcode, x.known → x.opcode / 67108864 = (w.setWidth 64).toNat / 67108864 &&& 63 →
            (knownNat x && Nat.beq (Nat.div x.opcode 67108864) ((w.setWidth 64).toNat / 67108864 &&& 63)) = true := by
          intro x hx h
          rw [knownNat_of hx, Bool.true_and, ← h]
          exact Nat.beq_refl _
        have := List.pairwise_iff_getElem.mp hp' k i hl hil c (own _ m2 ja) (by rw [hie]; exact own _ hk je)
        rw [hie] at this
        refine pair_form this m1 hw ?_
        intro x hx
        simp only [List.mem_cons, List.not_mem_nil, or_false] at hx
        rcases hx with rfl | rfl
        · exact h64 _ ha
        · exact h64 _ he
      · subst c
        left
        rw [hie]
        exact fun _ h => h

/-- An entry that has no instruction in common with an earlier one for these processors counts all its instructions. -/
theorem C128_own_partial {i : Nat} {e : Opcode} {w : BitVec 32} (hi : mainTable.flatten.dropLast[i]? = some e) (hk : e.known) (hw : e.matches (w.setWidth 64))
    (h : ∀ j a, j < i → mainTable.flatten[j]? = some a → a.known → ∀ x, ¬(a.matches x ∧ e.matches x)) :
    Stats.classify Stats.opcodeTable (Stats.majors Stats.opcodeTable) w = some (some i) := by
  obtain ⟨k, a, h1, h2, h3, h4, h5, -⟩ := C128_form_partial hi hk hw
  rcases Nat.lt_or_eq_of_le h2 with c | c
  · exact absurd ⟨h5, hw⟩ (h k a c h3 h4 _)
  · rw [h1, c]

/-- cntlzd, entry 1736, has no instruction in common with an earlier entry. -/
example : ∃ (i : Nat) (e : Opcode) (w : BitVec 32), mainTable.flatten.dropLast[i]? = some e ∧ e.name = "cntlzd" ∧ e.known ∧ e.matches (BitVec.setWidth 64 w) ∧
    ∀ (j : Nat) (a : Opcode), j < i → mainTable.flatten[j]? = some a → a.known → ∀ x, ¬(a.matches x ∧ e.matches x) := by
  refine ⟨1736, ⟨"cntlzd", 2080374900, 4227923967, 136, 0, [74, 86]⟩, 0x7c640074, by decide +kernel, rfl, ?_, ?_, ?_⟩
  · unfold Opcode.known; decide +kernel
  · unfold Opcode.matches; decide +kernel
  · intro j a hj ha _ x hx
    have hd : ∀ a ∈ mainTable.flatten.take 1736, a.opcode < 2 ^ 64 ∧ Nat.land a.opcode 4227923967 ≠ Nat.land 2080374900 a.mask := by decide +kernel
    have hm : a ∈ mainTable.flatten.take 1736 := by
      refine List.mem_of_getElem? (i := j) ?_
      rw [List.getElem?_take_of_lt hj, ha]
    obtain ⟨h1, h2⟩ := hd a hm
    apply h2
    have : BitVec.ofNat 64 a.opcode &&& BitVec.ofNat 64 4227923967 = BitVec.ofNat 64 2080374900 &&& BitVec.ofNat 64 a.mask := by
      rw [← hx.1, ← hx.2, BitVec.and_assoc, BitVec.and_assoc, BitVec.and_comm (BitVec.ofNat 64 a.mask)]
    rw [← BitVec.ofNat_and, ← BitVec.ofNat_and] at this
    have h3 := congrArg BitVec.toNat this
    rw [BitVec.toNat_ofNat, BitVec.toNat_ofNat, Nat.mod_eq_of_lt (Nat.lt_of_le_of_lt Nat.and_le_left h1),
      Nat.mod_eq_of_lt (Nat.lt_of_le_of_lt Nat.and_le_left (by decide))] at h3
    exact h3

/-- No instruction is ever counted as `mfspr`: all of them are counted before. -/
theorem C128_never_refuted : ∃ (i : Nat) (e : Opcode), mainTable.flatten.dropLast[i]? = some e ∧ e.name = "mfspr" ∧ e.known ∧
    ∀ w, Stats.classify Stats.opcodeTable (Stats.majors Stats.opcodeTable) w ≠ some (some i) := by
  refine ⟨2224, ⟨"mfspr", 2080375462, 4227860479, 35, 0, [86, 108]⟩, by decide +kernel, rfl, by unfold Opcode.known; decide +kernel, ?_⟩
  intro w h
  rw [counted_first, Option.some.injEq] at h
  obtain ⟨hl, h1, h2⟩ := List.findIdx?_eq_some_iff_getElem.mp h
  have e1 : mainTable.flatten.dropLast[2224]? = some ⟨"mfspr", 2080375462, 4227860479, 35, 0, [86, 108]⟩ := by decide +kernel
  have e2 : mainTable.flatten.dropLast[2050]? = some ⟨"mftb", 2080375462, 4227860479, 3072, 0, [86, 116]⟩ := by decide +kernel
  obtain ⟨_, e1'⟩ := List.getElem?_eq_some_iff.mp e1
  obtain ⟨_, e2'⟩ := List.getElem?_eq_some_iff.mp e2
  have h3 := h2 2050 (by decide)
  rw [e1'] at h1
  rw [e2'] at h3
  apply h3
  have m1 := (fits_iff (e := ⟨"mfspr", 2080375462, 4227860479, 35, 0, [86, 108]⟩) (by decide)).mp h1
  exact (fits_iff (e := ⟨"mftb", 2080375462, 4227860479, 3072, 0, [86, 116]⟩) (by decide)).mpr ⟨m1.1, by unfold Opcode.known; decide +kernel⟩

/-- mfspr r3,1022 is counted as mftb, an entry whose operand does not take this register number, in the same dialect. -/
theorem C128_mfspr_refuted : ∃ e ∈ mainTable.flatten, ∃ a w k o, e.name = "mfspr" ∧ fill Stats.dialect (BitVec.ofNat 64 e.opcode) (e.args.zip [3, 1022]) = some (BitVec.setWidth 64 w, false) ∧
    Stats.classify Stats.opcodeTable (Stats.majors Stats.opcodeTable) w = some (some k) ∧ mainTable.flatten[k]? = some a ∧ a.name = "mftb" ∧
    o ∈ a.args ∧ (o.extract (w.setWidth 64) Stats.dialect 0).2 = 1 := by
  refine ⟨⟨"mfspr", 2080375462, 4227860479, 35, 0, [86, 108]⟩, by decide +kernel, ⟨"mftb", 2080375462, 4227860479, 3072, 0, [86, 116]⟩, 0x7c7efaa6, 2050, operandAt 116,
    rfl, by decide +kernel, ?_, by decide +kernel, rfl, by decide +kernel, by decide +kernel⟩
  rw [counted_first]
  exact congrArg some (by decide +kernel)

/-- mfpvr r3 is counted as mfsprg, which is not a form of it, and whose operand does not take this register number. -/
theorem C128_mfpvr_refuted : ∃ e ∈ mainTable.flatten, ∃ a w k o, e.name = "mfpvr" ∧ fill Stats.dialect (BitVec.ofNat 64 e.opcode) (e.args.zip [3]) = some (BitVec.setWidth 64 w, false) ∧
    Stats.classify Stats.opcodeTable (Stats.majors Stats.opcodeTable) w = some (some k) ∧ mainTable.flatten[k]? = some a ∧ a.name = "mfsprg" ∧
    ¬FormOf a e ∧ o ∈ a.args ∧ (o.extract (w.setWidth 64) Stats.dialect 0).2 = 1 := by
  refine ⟨⟨"mfpvr", 2082423462, 4229955583, 1, 0, [86]⟩, by decide +kernel, ⟨"mfsprg", 2080391846, 4227923967, 1, 0, [86, 111]⟩, 0x7c7f42a6, 2044, operandAt 111,
    rfl, by decide +kernel, ?_, by decide +kernel, rfl, ?_, by decide +kernel, by decide +kernel⟩
  · rw [counted_first]
    exact congrArg some (by decide +kernel)
  · intro h
    have := h 0x7c7042a6#64 (by unfold Opcode.matches; decide +kernel)
    revert this
    unfold Opcode.matches
    decide +kernel

/-- li r3,5 is an addi counted as a form of it. -/
example : ∃ (i : Nat) (e : Opcode) (w : BitVec 32), mainTable.flatten.dropLast[i]? = some e ∧ e.name = "addi" ∧ e.known ∧ e.matches (BitVec.setWidth 64 w) ∧
    Stats.classify Stats.opcodeTable (Stats.majors Stats.opcodeTable) w ≠ some (some i) := by
  refine ⟨878, ⟨"addi", 0x38000000, 0xfc000000, 0x21, 0x800000000, [86, 75, 105]⟩, 0x38600005, by decide +kernel, rfl, ?_, ?_, ?_⟩
  · unfold Opcode.known; decide +kernel
  · unfold Opcode.matches; decide +kernel
  · rw [counted_first, ne_eq, Option.some.injEq]
    decide +kernel

end Opc
