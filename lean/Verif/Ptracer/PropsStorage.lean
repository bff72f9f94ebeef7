import Verif.Ptracer.StorageLemmas

/-! # Storage operands reported by the live tracer (C37) -/

namespace Ptr
open IsaMem

/-- The statement body that computes what the ISA says about an instruction. -/
def expected (i : Insn) : Body :=
  match i.ea, i.size with
  | .indexed a, .bytes n => if a = 1 then .x n else .xm n (BitVec.ofNat 32 (a - 1))
  | .base, .vectorLength => .vl
  | .disp 16 1, .bytes n => .d n
  | .disp 14 4, .bytes n => .ds n
  | .disp 12 16, .bytes n => .dq n
  | .disp 16 1, .multiple => .mult
  | _, _ => .no

theorem select_plain {op : Nat} (h : op ≠ 31 ∧ op ≠ 57 ∧ op ≠ 58 ∧ op ≠ 61 ∧ op ≠ 62) (a b c : Nat) :
    select op a b c = select op 0 0 0 := by
  unfold select
  rw [if_neg h.1, if_neg h.2.1, if_neg h.2.2.1, if_neg h.2.2.2.1, if_neg h.2.2.2.2, if_neg h.1, if_neg h.2.1,
    if_neg h.2.2.1, if_neg h.2.2.2.1, if_neg h.2.2.2.2]

/-- One row of the ISA table is what the `switch` statements select, for every word encoding it. -/
def rowOk (want : Insn → Body) (i : Insn) : Bool :=
  (i.op == 31 && i.xf == 21 && i.xl == 10 && extended31 i.xo == want i) ||
  ((i.op == 57 || i.op == 58 || i.op == 62) && i.xf == 30 && i.xl == 2 && select i.op 0 i.xo 0 == want i) ||
  (i.op == 61 && i.xf == 30 && i.xl == 2 && extended61 i.xo == want i && extended61 (i.xo + 4) == want i) ||
  (i.op == 61 && i.xf == 29 && i.xl == 3 && extended61 i.xo == want i) ||
  (i.op != 31 && i.op != 57 && i.op != 58 && i.op != 61 && i.op != 62 && select i.op 0 0 0 == want i)

theorem handled_ok : handled.all (rowOk expected) = true := by decide +kernel
theorem unsupported_ok : unsupported.all (rowOk fun _ => .abort) = true := by decide +kernel

theorem select_row {want : Insn → Body} {i : Insn} (h : rowOk want i = true) {w : BitVec 32} (e : i.Encodes w) :
    select (opc w) (field w 21 10).toNat (field w 30 2).toNat (field w 29 3).toNat = want i := by
  have ho : opc w = i.op := by
    unfold opc; rw [field_toNat w 0 6 (by omega)]; exact e.1
  rw [ho, field_toNat w 21 10 (by omega), field_toNat w 30 2 (by omega), field_toNat w 29 3 (by omega)]
  have e2 := e.2
  unfold rowOk at h
  simp only [Bool.or_eq_true, Bool.and_eq_true, beq_iff_eq, bne_iff_ne, ne_eq] at h
  rcases h with (((h | h) | h) | h) | h
  · obtain ⟨⟨⟨h1, h2⟩, h3⟩, h4⟩ := h
    rw [h2, h3] at e2
    rw [h1, e2, ← h4]; rfl
  · obtain ⟨⟨⟨h1, h2⟩, h3⟩, h4⟩ := h
    rw [h2, h3] at e2
    rw [e2, ← h4]
    rcases h1 with (h1 | h1) | h1 <;> rw [h1] <;> rfl
  · obtain ⟨⟨⟨⟨h1, h2⟩, h3⟩, h4⟩, h5⟩ := h
    rw [h2, h3] at e2
    have : bits w 29 3 = i.xo ∨ bits w 29 3 = i.xo + 4 := by
      rw [← e2]; unfold bits; omega
    rw [h1]
    rcases this with t | t <;> rw [t]
    · exact h4
    · exact h5
  · obtain ⟨⟨⟨h1, h2⟩, h3⟩, h4⟩ := h
    rw [h2, h3] at e2
    rw [h1, e2, ← h4]; rfl
  · obtain ⟨⟨⟨⟨⟨h1, h2⟩, h3⟩, h4⟩, h5⟩, h6⟩ := h
    rw [select_plain ⟨h1, h2, h3, h4, h5⟩, h6]

/-- Whatever the `switch` of primary opcode 31 handles is in one of the ISA tables. -/
theorem rows31 : (List.range 1024).all (fun s => extended31 s == .no ||
    (handled ++ unsupported).any fun i => i.op == 31 && i.xf == 21 && i.xl == 10 && i.xo == s) = true := by decide +kernel

theorem rows2 : (List.range 4).all (fun s => [57, 58, 62].all fun op => select op 0 s 0 == .no ||
    handled.any fun i => i.op == op && i.xf == 30 && i.xl == 2 && i.xo == s) = true := by decide +kernel

theorem rows3 : (List.range 8).all (fun s => extended61 s == .no ||
    handled.any fun i => i.op == 61 && ((i.xf == 29 && i.xl == 3 && i.xo == s) || (i.xf == 30 && i.xl == 2 && i.xo == s % 4))) =
    true := by decide +kernel

theorem rows0 : (List.range 64).all (fun op => [31, 57, 58, 61, 62].contains op || select op 0 0 0 == .no ||
    handled.any fun i => i.op == op && i.xl == 0 && i.xo == 0) = true := by decide +kernel

theorem select_no {w : BitVec 32} (h : ¬ Accesses w) :
    select (opc w) (field w 21 10).toNat (field w 30 2).toNat (field w 29 3).toNat = .no := by
  have ho : opc w = bits w 0 6 := by unfold opc; rw [field_toNat w 0 6 (by omega)]
  rw [ho, field_toNat w 21 10 (by omega), field_toNat w 30 2 (by omega), field_toNat w 29 3 (by omega)]
  have hall : ∀ i ∈ handled ++ unsupported, ¬ i.Encodes w := by
    intro i hi he
    rw [List.mem_append] at hi
    exact h (hi.imp (fun hi => ⟨i, hi, he⟩) (fun hi => ⟨i, hi, he⟩))
  have hh : ∀ i ∈ handled, ¬ i.Encodes w := fun i hi => hall i (List.mem_append_left _ hi)
  have get : ∀ {n : Nat} {f : Nat → Bool} {s : Nat}, (List.range n).all f = true → s < n → f s = true := by
    intro n f s hf hs
    exact List.all_eq_true.1 hf s (List.mem_range.2 hs)
  by_cases h31 : bits w 0 6 = 31
  · have := get rows31 (bits_lt w 21 10)
    simp only [Bool.or_eq_true, beq_iff_eq, List.any_eq_true, Bool.and_eq_true] at this
    rw [h31]
    rcases this with t | ⟨i, hi, ⟨⟨h1, h2⟩, h3⟩, h4⟩
    · exact t
    · exact absurd ⟨by rw [h1, h31], by rw [h2, h3, h4]⟩ (hall i hi)
  · by_cases h2 : bits w 0 6 = 57 ∨ bits w 0 6 = 58 ∨ bits w 0 6 = 62
    · have hr := get rows2 (bits_lt w 30 2)
      have := List.all_eq_true.1 hr (bits w 0 6) (by simp; omega)
      simp only [Bool.or_eq_true, beq_iff_eq, List.any_eq_true, Bool.and_eq_true] at this
      rcases this with t | ⟨i, hi, ⟨⟨g1, g2⟩, g3⟩, g4⟩
      · rw [← t]
        rcases h2 with h2 | h2 | h2 <;> rw [h2] <;> rfl
      · exact absurd ⟨by rw [g1], by rw [g2, g3, g4]⟩ (hh i hi)
    · by_cases h3 : bits w 0 6 = 61
      · have := get rows3 (bits_lt w 29 3)
        simp only [Bool.or_eq_true, beq_iff_eq, List.any_eq_true, Bool.and_eq_true] at this
        rw [h3]
        rcases this with t | ⟨i, hi, g1, ⟨⟨g2, g3⟩, g4⟩ | ⟨⟨g2, g3⟩, g4⟩⟩
        · exact t
        · exact absurd ⟨by rw [g1, h3], by rw [g2, g3, g4]⟩ (hh i hi)
        · refine absurd ⟨by rw [g1, h3], ?_⟩ (hh i hi)
          rw [g2, g3, g4]; unfold bits; omega
      · have := get rows0 (bits_lt w 0 6)
        rw [select_plain ⟨h31, by omega, by omega, h3, by omega⟩]
        simp only [Bool.or_eq_true, beq_iff_eq, List.any_eq_true, Bool.and_eq_true] at this
        rcases this with (t | t) | ⟨i, hi, ⟨g1, g2⟩, g3⟩
        · have : bits w 0 6 = 31 ∨ bits w 0 6 = 57 ∨ bits w 0 6 = 58 ∨ bits w 0 6 = 61 ∨ bits w 0 6 = 62 := by
            simpa using t
          omega
        · exact t
        · refine absurd ⟨by rw [g1], ?_⟩ (hh i hi)
          rw [g2, g3]; unfold bits; omega

/-- The address rules and sizes occurring in the table of handled instructions. -/
def shapeOk (i : Insn) : Bool :=
  (match i.ea, i.size with
  | .indexed a, .bytes n => decide (n < 256) && (List.range 8).any fun k => decide (a = 2 ^ k)
  | .base, .vectorLength => true
  | .disp 16 1, .bytes n => decide (n < 256)
  | .disp 14 4, .bytes n => decide (n < 256)
  | .disp 12 16, .bytes n => decide (n < 256)
  | .disp 16 1, .multiple => true
  | _, _ => false)

theorem shapes_ok : handled.all shapeOk = true := by decide +kernel

theorem ofNat_small {n : Nat} (h : n < 256) : (BitVec.ofNat 64 n).toNat = n := by
  rw [BitVec.toNat_ofNat]; exact Nat.mod_eq_of_lt (by omega)

theorem vl_size (w : BitVec 32) (g : Gprs) :
    (if (g (rb w) >>> 56).toNat > 16 then 16#64 else g (rb w) >>> 56).toNat = Size.vectorLength.value w g := by
  have h : (g (rb w) >>> 56).toNat = (g (bits w 16 5)).toNat / 2 ^ 56 := by
    rw [BitVec.toNat_ushiftRight, Nat.shiftRight_eq_div_pow]; unfold rb; rw [field_toNat w 16 5 (by omega)]
  show _ = min ((g (bits w 16 5)).toNat / 2 ^ 56) 16
  rw [← h]
  split
  · next hgt => rw [Nat.min_eq_right (by omega)]; rfl
  · next hle => rw [Nat.min_eq_left (by omega)]

theorem mult_size (w : BitVec 32) (g : Gprs) : (BitVec.ofNat 64 (4 * (32 - rt w))).toNat = Size.multiple.value w g := by
  rw [ofNat_small (by omega)]
  unfold rt; rw [field_toNat w 6 5 (by omega)]; rfl

theorem run_expected {i : Insn} (hs : shapeOk i = true) (w : BitVec 32) (g : Gprs) :
    ∃ a s, (expected i).run w g = .yes a s ∧ a.toNat = i.ea.value w g ∧ s.toNat = i.size.value w g := by
  obtain ⟨nm, op, xf, xl, xo, ea, size⟩ := i
  unfold shapeOk at hs
  unfold expected
  dsimp only at hs ⊢
  split at hs
  · next a n =>
    rw [Bool.and_eq_true, List.any_eq_true] at hs
    obtain ⟨h1, k, hk, h2⟩ := hs
    have h2 := of_decide_eq_true h2
    have hk := List.mem_range.1 hk
    by_cases ha : a = 1
    · rw [if_pos ha, ha]
      exact ⟨_, _, rfl, xform_toNat w g, ofNat_small (of_decide_eq_true h1)⟩
    · rw [if_neg ha, h2]
      exact ⟨_, _, rfl, xm_toNat w g k (by omega), ofNat_small (of_decide_eq_true h1)⟩
  · exact ⟨_, _, rfl, base_toNat w g, vl_size w g⟩
  · exact ⟨_, _, rfl, dform_toNat w g, ofNat_small (of_decide_eq_true hs)⟩
  · exact ⟨_, _, rfl, dsform_toNat w g, ofNat_small (of_decide_eq_true hs)⟩
  · exact ⟨_, _, rfl, dqform_toNat w g, ofNat_small (of_decide_eq_true hs)⟩
  · exact ⟨_, _, rfl, dform_toNat w g, mult_size w g⟩
  · cases hs

/-- C37 (partial). For every word that encodes an instruction of the ISA table and for every contents of
the registers, the reported address and size are those of the ISA; words outside the tables are reported
as not accessing storage. The move-assist and atomic-memory instructions are not covered: the tracer
aborts on them (`C37_refuted`). -/
theorem C37_storage_partial (w : BitVec 32) (g : Nat → BitVec 64) :
    (∀ i ∈ handled, i.Encodes w →
      ∃ a s, isStorageInsn w g = .yes a s ∧ a.toNat = i.ea.value w g ∧ s.toNat = i.size.value w g) ∧
    (¬ Accesses w → isStorageInsn w g = .no) := by
  refine ⟨fun i hi he => ?_, fun h => ?_⟩
  · unfold isStorageInsn
    rw [select_row (List.all_eq_true.1 handled_ok i hi) he]
    exact run_expected (List.all_eq_true.1 shapes_ok i hi) w g
  · unfold isStorageInsn
    rw [select_no h]; rfl

/-- `lwzu r3,-4(r1)`: the row of the table, its address and size. -/
example : (df "lwzu" 33 4) ∈ handled ∧ (df "lwzu" 33 4).Encodes 0x8461fffc#32 ∧
    isStorageInsn 0x8461fffc#32 (fun _ => 0x1000#64) = .yes 0xffc#64 4#64 := by
  refine ⟨by decide +kernel, ⟨by decide, by decide⟩, by decide⟩

/-- `addi` does not access storage. -/
example : isStorageInsn 0x38630001#32 (fun _ => 0#64) = .no := by decide

/-- Every register the address computation reads is one of the thirty-two. -/
theorem C37_bounds (w : BitVec 32) : ra w < 32 ∧ rb w < 32 := ⟨ra_lt w, rb_lt w⟩

/-- C37 in full is violated: on every word encoding a move-assist or atomic-memory instruction (there is
one: `lswx r3,r4,r5`) the tracer dies on an assertion instead of reporting an address. -/
theorem C37_refuted :
    (∀ (w : BitVec 32) (g : Nat → BitVec 64), (∃ i ∈ unsupported, i.Encodes w) → isStorageInsn w g = .abort) ∧
    ∃ i ∈ unsupported, i.Encodes 0x7c642c2a#32 := by
  refine ⟨fun w g ⟨i, hi, he⟩ => ?_, xf "lswx" 533 1, by decide +kernel, by decide, by decide⟩
  unfold isStorageInsn
  rw [select_row (List.all_eq_true.1 unsupported_ok i hi) he]; rfl

end Ptr
