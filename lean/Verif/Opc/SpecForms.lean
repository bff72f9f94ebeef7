import Verif.Opc.Entry
import Verif.Stats.Imix
/-!
Specification for property C128: under which entry an instruction may be counted.
-/
namespace Opc

/-- Every instruction of entry `a` is one of entry `e`: `a` is a synonym or a special form of `e`. -/
def FormOf (a e : Opcode) : Prop := ∀ w : W, a.matches w → e.matches w

/-- The entry is for the processors that `ppcstats` knows. -/
def Opcode.known (e : Opcode) : Prop := BitVec.ofNat 64 e.flags &&& Stats.dialect ≠ 0#64

/-- The pairs of entries, an earlier and a later one, that have instructions in common although the earlier is not a form of the later. -/
def crossing : List (String × String) := [
    ("rotlwi", "clrlwi"), ("rotlwi.", "clrlwi."), ("rotldi", "clrldi"), ("rotldi.", "clrldi."), ("mfvsrd", "mffprd"), ("mfvsrd", "mfvrd"),
    ("mtvsrd", "mtfprd"), ("mtvsrd", "mtvrd"), ("tlbiel", "tlbiel"), ("tlbie", "tlbie"), ("mfsprg", "mftbu"), ("mfsprg", "mftbl"), ("mftb", "mftbl"),
    ("mfsprg", "mfsprg0"), ("mftb", "mfsprg0"), ("mfsprg", "mfsprg1"), ("mftb", "mfsprg1"), ("mfsprg", "mfsprg2"), ("mftb", "mfsprg2"),
    ("mfsprg", "mfsprg3"), ("mftb", "mfsprg3"), ("mfsprg", "mfasr"), ("mftb", "mfasr"), ("mfsprg", "mfear"), ("mftb", "mfear"), ("mfsprg", "mfpvr"),
    ("mftb", "mfpvr"), ("mftb", "mfibatu"), ("mftb", "mfibatl"), ("mftb", "mfdbatu"), ("mftb", "mfdbatl"), ("mftb", "mfupmc1"), ("mftb", "mfpmc1"),
    ("mftb", "mfupmc2"), ("mftb", "mfpmc2"), ("mftb", "mfupmc3"), ("mftb", "mfpmc3"), ("mftb", "mfupmc4"), ("mftb", "mfpmc4"), ("mftb", "mfupmc5"),
    ("mftb", "mfpmc5"), ("mftb", "mfupmc6"), ("mftb", "mfpmc6"), ("mftb", "mfppr"), ("mftb", "mfppr32"), ("mtsprg", "mtsprg0"),
    ("mtsprg", "mtsprg1"), ("mtsprg", "mtsprg2"), ("mtsprg", "mtsprg3"), ("mtsprg", "mtasr"), ("mtsprg", "mtear"), ("mtsprg", "mttbl"),
    ("mtsprg", "mttbu"), ("slbia", "slbia"), ("slbmfev", "slbmfev"), ("slbmfee", "slbmfee"), ("lxsd", "lfdp"), ("lxssp", "lfdp"),
    ("xxspltd", "xxmrghd"), ("xxspltd", "xxswapd"), ("xxspltd", "xxmrgld"), ("lxv", "stfdp"), ("stxv", "stfdp"), ("stxsd", "stfdp"),
    ("stxssp", "stfdp"), ("mtfsfi", "mtfsfi"), ("mtfsfi.", "mtfsfi.")]

end Opc
