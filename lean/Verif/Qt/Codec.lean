import Verif.Qt.Reader
import Verif.Qt.Writer
/-! Helper lemmas: byte codec, GET primitives on a known suffix of the trace. -/
namespace Qt

theorem of16_be16 (v : BitVec 16) : of16 (v.extractLsb' 8 8) (v.extractLsb' 0 8) = v := by
  unfold of16
  apply BitVec.eq_of_getLsbD_eq
  intro i hi
  simp only [BitVec.getLsbD_append, BitVec.getLsbD_extractLsb']
  grind

theorem of32_be32 (v : BitVec 32) :
    of32 (v.extractLsb' 24 8) (v.extractLsb' 16 8) (v.extractLsb' 8 8) (v.extractLsb' 0 8) = v := by
  unfold of32
  apply BitVec.eq_of_getLsbD_eq
  intro i hi
  simp only [BitVec.getLsbD_append, BitVec.getLsbD_extractLsb']
  grind

theorem of64_be64 (v : BitVec 64) :
    of64 (v.extractLsb' 56 8) (v.extractLsb' 48 8) (v.extractLsb' 40 8) (v.extractLsb' 32 8)
      (v.extractLsb' 24 8) (v.extractLsb' 16 8) (v.extractLsb' 8 8) (v.extractLsb' 0 8) = v := by
  unfold of64
  apply BitVec.eq_of_getLsbD_eq
  intro i hi
  simp only [BitVec.getLsbD_append, BitVec.getLsbD_extractLsb']
  grind

@[simp] theorem be16_length (v) : (be16 v).length = 2 := rfl
@[simp] theorem be32_length (v) : (be32 v).length = 4 := rfl
@[simp] theorem be64_length (v) : (be64 v).length = 8 := rfl
@[simp] theorem put8n_length (v) : (put8n v).length = 1 := rfl

end Qt
