import Verif.Opc.Fill
import Verif.Opc.Props

/-! The operands of an entry do not disturb each other; a check of the tables. -/
namespace Opc

variable {d i w : W} {fxm oc mk : Nat}

/-- The operand comes back, and is not BOE. -/
def good (k : Nat) : Bool := Nat.testBit goodTable k

theorem good_table : ∀ k, k < 185 → good k = decide ((operandAt k).name ∉ notBack ∧ (operandAt k).ins ≠ .boe) := by decide +kernel

/-- No operand touches the field of a later one or what the extraction of an earlier one needs. -/
def apart (fxm oc mk : Nat) : List Nat → Bool
  | [] => true
  | k :: ks => ks.all (fun j => (!good j || Nat.beq (touch fxm oc mk k &&& look fieldTable j) 0) &&
      (!good k || Nat.beq (look needTable k &&& touch fxm oc mk j) 0)) && apart fxm oc mk ks

/-- The check of an entry. -/
def Opcode.check (fxm : Nat) (e : Opcode) : Bool :=
  Nat.beq (e.opcode &&& e.mask) e.opcode && Nat.blt e.opcode (2 ^ 32) &&
  e.operands.all (fun k => Nat.blt k 185 && Nat.blt (touch fxm e.opcode e.mask k) (2 ^ 32) && Nat.beq (e.mask &&& touch fxm e.opcode e.mask k) 0 &&
    (!good k || Nat.beq (e.opcode &&& look fieldTable k) 0)) &&
  apart fxm e.opcode e.mask e.operands

theorem main_check : mainTable.all (fun c => c.all fun e => (e.name == "mfcr" || e.name == "mtcrf") || e.check 0x1ff000) = true := by decide +kernel
theorem vle_check : vleTable.all (fun c => c.all fun e => e.check 0x1ff000) = true := by decide +kernel
theorem spe2_check : spe2Table.all (fun c => c.all fun e => e.check 0x1ff000) = true := by decide +kernel
theorem old_check : (mainTable ++ vleTable ++ spe2Table).all (fun c => c.all fun e => e.check 0xff000) = true := by decide +kernel

theorem check_new {e : Opcode} (he : e ∈ entries) (hn : e.name ≠ "mfcr" ∧ e.name ≠ "mtcrf") : e.check 0x1ff000 = true := by
  unfold entries at he
  simp only [List.mem_append, List.mem_flatten] at he
  rcases he with (⟨c, hc, he⟩ | ⟨c, hc, he⟩) | ⟨c, hc, he⟩
  · have := List.all_eq_true.mp (List.all_eq_true.mp main_check c hc) e he
    simpa [hn.1, hn.2] using this
  · exact List.all_eq_true.mp (List.all_eq_true.mp vle_check c hc) e he
  · exact List.all_eq_true.mp (List.all_eq_true.mp spe2_check c hc) e he

theorem check_old {e : Opcode} (he : e ∈ entries) : e.check 0xff000 = true := by
  unfold entries at he
  simp only [List.mem_append, List.mem_flatten] at he
  rcases he with (⟨c, hc, he⟩ | ⟨c, hc, he⟩) | ⟨c, hc, he⟩
  all_goals exact List.all_eq_true.mp (List.all_eq_true.mp old_check c (by simp [hc])) e he

theorem nat_apart {a b : Nat} (h : Nat.beq (a &&& b) 0 = true) : BitVec.ofNat 64 a &&& BitVec.ofNat 64 b = 0#64 := nat_mask (Nat.eq_of_beq_eq_true h)

theorem high_zero {n : Nat} (h : n < 2 ^ 32) : ~~~0xffffffff#64 &&& BitVec.ofNat 64 n = 0#64 := by
  apply BitVec.eq_of_getLsbD_eq
  intro k hk
  rw [BitVec.getLsbD_and, BitVec.getLsbD_ofNat, BitVec.getLsbD_not, BitVec.getLsbD_zero, BitVec.getLsbD_ofNat]
  by_cases h32 : k < 32
  · have : Nat.testBit 0xffffffff k = true := by rw [show 0xffffffff = 2 ^ 32 - 1 from rfl, Nat.testBit_two_pow_sub_one]; simpa using h32
    simp [this, hk]
  · have : Nat.testBit n k = false := Nat.testBit_lt_two_pow (Nat.lt_of_lt_of_le h (Nat.pow_le_pow_right (by omega) (by omega)))
    simp [this]

theorem low_of_high (h : w &&& ~~~0xffffffff#64 = 0#64) : w.toNat < 2 ^ 32 := by
  apply Nat.lt_pow_two_of_testBit
  intro k hk
  by_cases h64 : k < 64
  · have := congrArg (fun y => y.getLsbD k) h
    have e : Nat.testBit 0xffffffff k = false := Nat.testBit_lt_two_pow (Nat.lt_of_lt_of_le (by decide : 0xffffffff < 2 ^ 32) (Nat.pow_le_pow_right (by omega) hk))
    simp only [BitVec.getLsbD_and, BitVec.getLsbD_not, BitVec.getLsbD_ofNat, BitVec.getLsbD_zero, h64, e] at this
    change w.getLsbD k = false
    simpa using this
  · exact BitVec.getLsbD_of_ge w k (by omega)

/-- All operands of an entry. -/
theorem fill_all (hf : fxm = 0x1ff000 ∨ (fxm = 0xff000 ∧ d &&& 0x840#64 = 0#64)) (h1 : oc &&& mk = oc) :
    ∀ (ks : List Nat) (vs : List Int) (i : W), ks.length = vs.length → (∀ k ∈ ks, k < 185 ∧ mk &&& touch fxm oc mk k = 0) →
      (∀ p ∈ (ks.map operandAt).zip vs, p.1.Range p.2) → apart fxm oc mk ks = true → i &&& BitVec.ofNat 64 mk = BitVec.ofNat 64 oc →
      (∀ k ∈ ks, good k = true → i &&& BitVec.ofNat 64 (look fieldTable k) = 0#64) →
      ∃ w e, fill d i ((ks.map operandAt).zip vs) = some (w, e) ∧ w &&& BitVec.ofNat 64 mk = BitVec.ofNat 64 oc ∧
        (∀ m, (∀ k ∈ ks, m &&& BitVec.ofNat 64 (touch fxm oc mk k) = 0#64) → w &&& m = i &&& m) ∧
        (e = false → ∀ p ∈ (ks.map operandAt).zip vs, p.1.name ∉ notBack → p.1.ins ≠ .boe →
          ∀ inv : Int, 0 ≤ inv → p.1.extract w d inv = (BitVec.ofInt 64 p.2, inv)) := by
  intro ks
  induction ks with
  | nil =>
    intro vs i hl hk hr ha hi hg
    exact ⟨i, false, rfl, hi, fun _ _ => rfl, fun _ p hp => by simp at hp⟩
  | cons k ks ih =>
    intro vs i hl hk hr ha hi hg
    cases vs with
    | nil => simp at hl
    | cons v vs =>
      simp only [List.map_cons, List.zip_cons_cons, List.mem_cons, forall_eq_or_imp] at hr hk hg
      obtain ⟨hr, hr'⟩ := hr
      obtain ⟨⟨hk, hm⟩, hk'⟩ := hk
      obtain ⟨hg, hg'⟩ := hg
      unfold apart at ha
      simp only [Bool.and_eq_true, List.all_eq_true] at ha
      obtain ⟨ha, ha'⟩ := ha
      obtain ⟨w1, e1, hw1, -⟩ := legal_row (at_mem hk) hr (i := i) (d := d)
      have tr := touch_row hk hr hi hf h1 hw1
      have hm1 : w1 &&& BitVec.ofNat 64 mk = BitVec.ofNat 64 oc := by rw [and_of_frame tr (nat_mask hm), hi]
      have hg1 : ∀ j ∈ ks, good j = true → w1 &&& BitVec.ofNat 64 (look fieldTable j) = 0#64 := by
        intro j hj hgj
        have := (ha j hj).1
        rw [hgj] at this
        rw [and_of_frame tr (by rw [BitVec.and_comm]; exact nat_apart (by simpa using this))]
        exact hg' j hj hgj
      obtain ⟨w, e, hw, hwm, hwf, hwb⟩ := ih vs w1 (by simpa using hl) hk' hr' ha' hm1 hg1
      refine ⟨w, e1 || e, ?_, hwm, ?_, ?_⟩
      · simp only [List.map_cons, List.zip_cons_cons, fill, hw1, Option.bind_eq_bind, Option.bind_some, hw]; rfl
      · intro m hmm
        rw [hwf m (fun j hj => hmm j (List.mem_cons_of_mem _ hj))]
        exact and_of_frame tr (hmm k List.mem_cons_self)
      · intro he p hp hn hb inv hinv
        simp only [Bool.or_eq_false_iff] at he
        simp only [List.map_cons, List.zip_cons_cons, List.mem_cons] at hp
        rcases hp with hp | hp
        · subst hp
          have hgk : good k = true := by rw [good_table k hk]; simpa using ⟨hn, hb⟩
          have hn' := notBack_rows _ (at_mem hk) hn
          have rt := trip_row (at_mem hk) hn'.1 hn'.2 i d v hr (by rw [field_table k hk]; exact hg hgk) w1 (by rw [hw1, he.1]) inv hinv
          rw [← rt]
          change (operandAt k).extract w d inv = _
          rw [← local_row (at_mem hk) (i := w), ← local_row (at_mem hk) (i := w1)]
          rw [hwf (operandAt k).need]
          intro j hj
          rw [need_table k hk]
          have := (ha j hj).2
          rw [hgk] at this
          exact nat_apart (by simpa using this)
        · exact hwb he.2 p hp hn hb inv hinv

theorem fill_entry {e : Opcode} {vs : List Int} (hf : fxm = 0x1ff000 ∨ (fxm = 0xff000 ∧ d &&& 0x840#64 = 0#64)) (hc : e.check fxm = true)
    (hl : vs.length = e.args.length) (hr : ∀ p ∈ e.args.zip vs, p.1.Range p.2) :
    ∃ w error, fill d (BitVec.ofNat 64 e.opcode) (e.args.zip vs) = some (w, error) ∧ e.matches w ∧ w.toNat < 2 ^ 32 ∧
      (error = false → ∀ p ∈ e.args.zip vs, p.1.name ∉ notBack → p.1.ins ≠ .boe →
          ∀ inv : Int, 0 ≤ inv → p.1.extract w d inv = (BitVec.ofInt 64 p.2, inv)) := by
  unfold Opcode.check at hc
  simp only [Bool.and_eq_true, List.all_eq_true] at hc
  obtain ⟨⟨⟨c1, c2⟩, c3⟩, c4⟩ := hc
  have c1 := Nat.eq_of_beq_eq_true c1
  unfold Opcode.args at hl hr ⊢
  obtain ⟨w, er, hw, h2, h3, h4⟩ := fill_all hf c1 e.operands vs (BitVec.ofNat 64 e.opcode) (by simpa using hl.symm)
    (fun k hk => ⟨by simpa using (c3 k hk).1.1.1, Nat.eq_of_beq_eq_true (c3 k hk).1.2⟩) hr c4 (nat_mask c1)
    (fun k hk hg => by have := (c3 k hk).2; rw [hg] at this; exact nat_apart (by simpa using this))
  refine ⟨w, er, hw, h2, ?_, h4⟩
  have := h3 (~~~0xffffffff#64) (fun k hk => by
    have := (c3 k hk).1.1.2
    have lt : touch fxm e.opcode e.mask k < 2 ^ 32 := by simpa using this
    exact high_zero lt)
  have lt : e.opcode < 2 ^ 32 := by simpa using c2
  rw [BitVec.and_comm (BitVec.ofNat 64 e.opcode), high_zero lt] at this
  exact low_of_high this

end Opc
