import Verif.Opc.PropsForms
/-!
Property C128: kinds of instructions that are never counted.
-/
namespace Opc

/-- Entries with an earlier entry that has all their instructions, a special form whose operands must be alike, with a hint or with a fixed number: the name,
the position of the earlier entry and that of the entry. -/
def hiddenRows : List (String × Nat × Nat) := [
  ("vor", 597, 598), ("vnor", 641, 642), ("subi", 878, 880), ("la", 878, 881), ("bdnz+", 887, 888), ("bdnz", 887, 889), ("bdz+", 903, 904),
  ("bdz", 903, 905), ("bge+", 915, 916), ("bge", 915, 917), ("ble+", 939, 940), ("ble", 939, 941), ("bne+", 963, 964), ("bne", 963, 965),
  ("blt+", 999, 1000), ("blt", 999, 1001), ("bgt+", 1011, 1012), ("bgt", 1011, 1013), ("beq+", 1023, 1024), ("beq", 1023, 1025),
  ("bso+", 1035, 1036), ("bso", 1035, 1037), ("crnor", 1386, 1387), ("crxor", 1399, 1400), ("creqv", 1405, 1406), ("cror", 1412, 1413),
  ("sub", 1723, 1724), ("nor", 1790, 1791), ("nor.", 1792, 1793), ("mfpvr", 2044, 2059), ("mfppr", 2050, 2151), ("mfspr", 2050, 2224),
  ("or", 2281, 2282), ("or.", 2283, 2284), ("xxpermdi", 3000, 3004), ("xvcpsgnsp", 3150, 3151), ("xvcpsgndp", 3179, 3180)]

/-- Every instruction of `e` is one of `a`; both are for these processors. -/
def hides (a e : Opcode) : Bool :=
  Nat.beq (Nat.land a.mask e.mask) a.mask && (Nat.beq (Nat.land e.opcode a.mask) a.opcode &&
    (knownNat a && (Nat.ble a.flags 0xffffffffffffffff && (knownNat e && Nat.ble e.flags 0xffffffffffffffff))))

def rowOk (r : String × Nat × Nat) : Bool :=
  match mainTable.flatten[r.2.1]?, mainTable.flatten[r.2.2]? with
  | some a, some e => decide (e.name = r.1) && (hides a e && Nat.blt r.2.1 r.2.2)
  | _, _ => false

theorem rows_check : hiddenRows.all rowOk = true := by decide +kernel

theorem known_of {e : Opcode} (h : knownNat e = true) (hf : Nat.ble e.flags 0xffffffffffffffff = true) : e.known := by
  intro c
  unfold knownNat at h
  rw [Bool.not_eq_true'] at h
  apply Nat.ne_of_beq_eq_false h
  have e4 : e.flags ≤ 0xffffffffffffffff := Nat.le_of_ble_eq_true hf
  have h5 := congrArg BitVec.toNat c
  rw [BitVec.toNat_and, BitVec.toNat_ofNat, Nat.mod_eq_of_lt (by omega)] at h5
  exact h5

theorem hides_spec {a e : Opcode} (h : hides a e = true) : a.known ∧ e.known ∧ FormOf e a := by
  unfold hides at h
  simp only [Bool.and_eq_true] at h
  obtain ⟨h1, h2, h3, h4, h5, h6⟩ := h
  have e1 : a.mask &&& e.mask = a.mask := Nat.eq_of_beq_eq_true h1
  have e2 : e.opcode &&& a.mask = a.opcode := Nat.eq_of_beq_eq_true h2
  refine ⟨known_of h3 h4, known_of h5 h6, ?_⟩
  intro w hw
  unfold Opcode.matches at hw ⊢
  rw [← e2, BitVec.ofNat_and, ← hw]
  conv => lhs; rw [← e1]
  rw [BitVec.ofNat_and, BitVec.and_assoc, BitVec.and_comm (BitVec.ofNat 64 a.mask)]

/-- Nothing is ever counted under these entries, among them `or`, `beq` and `mfspr`, although they are for these processors: an `or` is counted as `mr`, a
`beq` as `beq-`. -/
theorem C128_hidden_refuted : ∀ r ∈ hiddenRows, ∃ e, mainTable.flatten[r.2.2]? = some e ∧ e.name = r.1 ∧ e.known ∧
    ∀ w, Stats.classify Stats.opcodeTable (Stats.majors Stats.opcodeTable) w ≠ some (some r.2.2) := by
  intro r hr
  have hc := List.all_eq_true.mp rows_check r hr
  unfold rowOk at hc
  generalize ha : mainTable.flatten[r.2.1]? = oa at hc
  generalize hi : mainTable.flatten[r.2.2]? = oe at hc
  cases oa with
  | none => cases hc
  | some a =>
  cases oe with
  | none => cases hc
  | some e =>
  simp only [Bool.and_eq_true, decide_eq_true_eq] at hc
  obtain ⟨hn, hh, hj⟩ := hc
  have hj' : r.2.1 < r.2.2 := Nat.le_of_ble_eq_true hj
  obtain ⟨k1, k0, k2⟩ := hides_spec hh
  refine ⟨e, rfl, hn, k0, ?_⟩
  intro w h
  rw [counted_first, Option.some.injEq] at h
  obtain ⟨hl, h1, h2⟩ := List.findIdx?_eq_some_iff_getElem.mp h
  have hd : ∀ {j : Nat} {a : Opcode} (hj : j < mainTable.flatten.dropLast.length), mainTable.flatten[j]? = some a → mainTable.flatten.dropLast[j] = a := by
    intro j a hj ha
    have := List.getElem?_eq_getElem hj
    rw [List.getElem?_dropLast, if_pos (by rw [List.length_dropLast] at hj; exact hj), ha, Option.some.injEq] at this
    exact this.symm
  rw [hd hl hi] at h1
  obtain ⟨m1, m2⟩ := (fits_iff (table_words e (List.mem_of_getElem? hi))).mp h1
  have h4 := h2 _ hj'
  rw [hd (Nat.lt_trans hj' hl) ha] at h4
  exact h4 ((fits_iff (table_words a (List.mem_of_getElem? ha))).mpr ⟨k2 _ m1, k1⟩)

/-- or r3,r4,r5 is an instruction of one of these entries. -/
example : mainTable.flatten[2282]? = some ⟨"or", 0x7c000378, 0xfc0007ff, 0x23, 0x0, [74, 86, 81]⟩ ∧ ("or", 2281, 2282) ∈ hiddenRows ∧
    (⟨"or", 0x7c000378, 0xfc0007ff, 0x23, 0x0, [74, 86, 81]⟩ : Opcode).matches 0x7c832b78#64 :=
  ⟨by decide +kernel, by decide +kernel, by unfold Opcode.matches; decide +kernel⟩

end Opc
