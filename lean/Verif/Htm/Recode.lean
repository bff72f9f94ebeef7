import Verif.Htm.Bits
/-!
htm/htm.c: the instruction words of branches, which the trace hardware stores with target bits in place of the displacement
(line numbers are of that file).
-/
namespace Htm

/-- 796 `MAJOR_OPCODE`. -/
def majorOp (i : BitVec 32) : BitVec 32 := (i >>> 26) &&& 0x3f

/-- 797 `MINOR_OPCODE`: the low five of the ten bits. -/
def minorOp (i : BitVec 32) : BitVec 32 := (i >>> 1) &&& 0x1f

/-- 833-845, 874-884, 981-992, 1007-1017: the upper bits of the target, from the address of the branch and the carry mode. -/
def targetMsb (mode : BitVec 32) (n : Nat) (iea : BitVec 64) : BitVec 64 :=
  if mode = 0 then (iea >>> n) <<< n
  else if mode = 1 then ((iea >>> n) + 1) <<< n
  else if mode = 3 then ((iea >>> n) - 1) <<< n
  else 0

/-- 825-826, 847-848: the low target bits of an I-form branch. -/
def lowI (op : BitVec 32) : BitVec 32 := ((bits32 op 4 10 <<< 17) ||| bits32 op 15 31) <<< 2

/-- 860-861, 886-887: the low target bits of a B-form branch. -/
def lowB (op : BitVec 32) : BitVec 32 := ((bits32 op 4 4 <<< 13) ||| bits32 op 19 31) <<< 2

/-- 855-856, 869-870. -/
def boB (op : BitVec 32) : BitVec 32 := (bits32 op 5 8 <<< 1) ||| bits32 op 13 13

/-- 871-872, 898-899, 910-911. -/
def biOf (op : BitVec 32) : BitVec 32 := (bits32 op 10 10 <<< 4) ||| bits32 op 15 18

/-- 857-858: as 871-872 but with the upper bit one position too high. -/
def biAbs (op : BitVec 32) : BitVec 32 := (bits32 op 10 10 <<< 5) ||| bits32 op 15 18

/-- 895-897, 907-909: the low bit of BO is stored only for hints. -/
def boXL (op : BitVec 32) : BitVec 32 :=
  if (bits32 op 5 8 <<< 1) &&& 2 ≠ 0 then (bits32 op 5 8 <<< 1) ||| bits32 op 13 13 else bits32 op 5 8 <<< 1

/-- 822-851: I-form. -/
def recodeI (op : BitVec 32) (iea : BitVec 64) : BitVec 32 :=
  if bits32 op 2 3 = 2 then 0x48000000 ||| lowI op ||| 2 ||| bits32 op 1 1
  else
    0x48000000 ||| ((((targetMsb (bits32 op 2 3) 26 iea ||| (lowI op).setWidth 64) - iea) &&& 0x03fffffc).setWidth 32) ||| bits32 op 1 1

/-- 853-892: B-form. -/
def recodeB (op : BitVec 32) (iea : BitVec 64) : BitVec 32 :=
  if bits32 op 2 3 = 2 then
    (0x40000000 : BitVec 32) ||| (2 : BitVec 32) ||| lowB op ||| boB op <<< 21 ||| biAbs op <<< 16 ||| bits32 op 1 1
  else
    0x40000000 ||| ((((targetMsb (bits32 op 2 3) 16 iea ||| (lowB op).setWidth 64) - iea) &&& 0x0000fffc).setWidth 32) |||
      boB op <<< 21 ||| biOf op <<< 16 ||| bits32 op 1 1

/-- 894-903, 933-934: the fields of an XL-form branch with the extended opcode `x`. -/
def recodeXL (x op : BitVec 32) : BitVec 32 :=
  x ||| boXL op <<< 21 ||| biOf op <<< 16 ||| bits32 op 21 22 <<< 11 ||| bits32 op 1 1

/-- 906-939: bcctr, bctar and the instructions that are not branches. -/
def recodeOther (op : BitVec 32) : BitVec 32 :=
  if majorOp op = 17 then op &&& ~~~ 0x1e0000
  else if majorOp op = 19 then (if minorOp op = 18 then op &&& ~~~ 0x1e0000 else 0)
  else if majorOp op = 31 then op &&& ~~~ 0x1e0000
  else if op &&& 0x800 ≠ 0 then recodeXL 0x4c000420 op ||| 0x40
  else recodeXL 0x4c000420 op

/-- 805-943 `insn_recode_p10`. -/
def recodeP10 (op : BitVec 32) (iea : BitVec 64) : BitVec 32 :=
  if bits32 op 11 12 = 0 then recodeI op iea
  else if bits32 op 11 12 = 1 then recodeB op iea
  else if bits32 op 11 12 = 2 then recodeXL 0x4c000020 op
  else recodeOther op

/-- 956-961: an I-form word without its bit 30 is a B-form branch. -/
def branchType (op : BitVec 32) : BitVec 32 :=
  if (op >>> 28) &&& 3 = 0 ∧ op &&& 2 = 0 then 1 else (op >>> 28) &&& 3

/-- 963-967: the fields of all forms but the I-form are moved by one bit. -/
def unshift (op : BitVec 32) : BitVec 32 :=
  if branchType op ≠ 0 then (op &&& (0xfc007fff : BitVec 32)) ||| ((op <<< 1) &&& (0x03ff0000 : BitVec 32)) ||| ((op >>> 10) &&& (0x00008000 : BitVec 32)) else op

/-- 969-970: the link bit goes to its place. -/
def relink (op : BitVec 32) : BitVec 32 := (op &&& (0xbffffffe : BitVec 32)) ||| ((op &&& (0x40000000 : BitVec 32)) >>> 30)

/-- 945-1060 `insn_recode`, for the only value `0x100` of `predecode` that is passed (1066); `m` is `msb_mode` of line 957. -/
def recodeP9 (op0 : BitVec 32) (iea : BitVec 64) : BitVec 32 :=
  let m := (op0 >>> 26) &&& 3
  let op := relink (unshift op0)
  if branchType op0 = 0 then
    if m = 2 then 0x48000000 ||| (op &&& 0x03ffffff) ||| 2
    else 0x48000000 ||| ((((op &&& 0x03fffffc).setWidth 64 ||| targetMsb m 26 iea) - iea) &&& 0x03fffffc).setWidth 32 ||| (op &&& 1)
  else if branchType op0 = 1 then
    if m = 2 then 0x40000002 ||| (op &&& 0x03ffffff)
    else 0x40000000 ||| ((((op &&& 0x0000fffc).setWidth 64 ||| targetMsb m 16 iea) - iea) &&& 0x0000fffc).setWidth 32 |||
      (op &&& 0x03ff0001)
  else if branchType op0 = 2 then 0x4c000020 ||| (op &&& 0x03fff801)
  else if op &&& 0x00002000 ≠ 0 then (0x4c000420 ||| (op &&& 0x03fff801)) ||| 0x40
  else 0x4c000420 ||| (op &&& 0x03fff801)

/-- 1075-1086 and 1062-1073 `insn_demunge_p10` and `insn_demunge`: the word, or an error. -/
def demunge (w : BitVec 32) : Option (BitVec 32) := if w = 0xffffffff then none else some w

/-- 1088 `IS_ISEL`. -/
def isIsel (i : BitVec 32) : Bool := majorOp i == 31 && minorOp i == 15

/-- 1089-1090 `IS_BLR(insn) || IS_BCTR(insn)`; the second can not hold, `minorOp` being below 32. -/
def isBlr (i : BitVec 32) : Bool := (majorOp i == 19 && minorOp i == 16) || (majorOp i == 19 && minorOp i == 528)

/-- 1100-1117 `opcode_type`, as far as it is used: whether it is not `OPCODE_UNKNOWN`. -/
def isCall (i : BitVec 32) : Bool :=
  i == 0x4c0000a4 || i == 0x4c000024 || i == 0x4c000224 || i == 0x44000002 || i == 0x44000022 ||
    (i &&& 0xFFFFF001) == 0x44000001

end Htm
