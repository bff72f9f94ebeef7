import Verif.Ptracer.PropsStorage
import Verif.Ptracer.PropsStep

/-! # Data addresses recorded by the live tracer (C62) -/

namespace Ptr
open IsaMem

/-- The data address put into a record, ptracer/main.c:275-277: computed from the registers the thread has
when `print_insn` is called. `none`: no data address in the record. (An abort gives no record at all.) -/
def recordData (w : Word) (now : Gprs) : Option (BitVec 64) :=
  match isStorageInsn w now with
  | .yes a _ => some a
  | _ => none

/-- What is recorded for an atomic sequence: `step_over_atomic` calls `print_insn` for every instruction of
it after the thread has run through all of them (ptracer/single_step.c:284-293), so that all data addresses
are computed from the registers at the end. -/
def recordAtomic (m : Mem) (cs : List Addr) (after : Gprs) : List (Option (BitVec 64)) :=
  cs.map fun a => match m a with
    | some w => recordData w after
    | none => none

theorem run_congr (b : Body) (w : Word) (g g' : Gprs) (ha : g (ra w) = g' (ra w)) (hb : g (rb w) = g' (rb w)) :
    b.run w g = b.run w g' := by
  have hbase : base w g = base w g' := by unfold base; rw [ha]
  have hx : ∀ m, xformMasked w g m = xformMasked w g' m := fun m => by unfold xformMasked; rw [hbase, hb]
  cases b <;> simp only [Body.run, xform, dform, dsform, dqform, hbase, hx, hb]

/-- C62 (partial). For every load or store of the ISA table, the recorded data address is the one accessed
if the registers the address is formed from have, when the record is written, the values with which the
instruction was executed (`exec`). This is so for every instruction stepped over singly, where the record
is written before the instruction is executed (`now = exec`). -/
theorem C62_address_partial (w : BitVec 32) (exec now : Nat → BitVec 64) (i : Insn) (hi : i ∈ handled) (he : i.Encodes w)
    (ha : exec (bits w 11 5) = now (bits w 11 5)) (hb : exec (bits w 16 5) = now (bits w 16 5)) :
    ∃ a, recordData w now = some a ∧ a.toNat = i.ea.value w exec := by
  obtain ⟨a, s, h1, h2, _⟩ := (C37_storage_partial w exec).1 i hi he
  have hra : ra w = bits w 11 5 := field_toNat w 11 5 (by omega)
  have hrb : rb w = bits w 16 5 := field_toNat w 16 5 (by omega)
  refine ⟨a, ?_, h2⟩
  unfold recordData
  have : isStorageInsn w now = isStorageInsn w exec := by
    unfold isStorageInsn
    exact (run_congr _ w exec now (by rw [hra]; exact ha) (by rw [hrb]; exact hb)).symm
  rw [this, h1]

/-- The hypotheses are met: `stw r5,8(r1)`. -/
example : (df "stw" 36 4) ∈ handled ∧ (df "stw" 36 4).Encodes 0x90a10008#32 ∧
    recordData 0x90a10008#32 (fun _ => 0x1000#64) = some 0x1008#64 := by
  refine ⟨by decide +kernel, ⟨by decide, by decide⟩, by decide⟩

/-- C62 in full is violated in atomic sequences: `lwarx r3,0,r3` with `0x2000` in `r3` loads the value 5 into
`r3`; the data address recorded for it is 5, not `0x2000`. -/
theorem C62_refuted : ∃ (m : Mem) (p : Addr) (run : Run) (before after : Nat → BitVec 64) (m' : Mem) (cs : List Addr) (w : Word) (i : Insn),
    stepOver m p run = .done m' cs ∧ m p = some w ∧ i ∈ handled ∧ i.Encodes w ∧
    i.ea.value w before = 0x2000 ∧ after = (fun r => if r = bits w 6 5 then 5#64 else before r) ∧
    (recordAtomic m cs after)[0]? = some (some 5#64) := by
  refine ⟨textAt [0x7c601828#32, 0x7c60212d#32, 0x60000000#32, 0x60000000#32], 0x1000#64, fun m => ⟨m, true, 0x1008#64⟩,
    fun _ => 0x2000#64, _, _, [0x1000#64, 0x1004#64, 0x1008#64], 0x7c601828#32, xf "lwarx" 20 4,
    rfl, rfl, by decide +kernel, ⟨by decide, by decide⟩, by decide, rfl, by decide⟩

end Ptr
