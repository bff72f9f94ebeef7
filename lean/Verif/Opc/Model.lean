/-!
Model of the operand functions of qtlib/ppc-opc.c, lines 38-1712, and of the descriptions in qtlib/ppc.h, lines 249-312, of what to do for an operand
without functions of its own.

`uint64_t` and `int64_t` values are 64-bit words; comparisons of an `int64_t` are comparisons of `toInt`.  An insertion is `none` when it computes a
signed expression whose value does not fit (undefined behaviour: only for values next to the ends of the `int64_t` range), otherwise the new instruction
word and whether `*errmsg` was set.  The texts of the messages are left out.  An extraction takes `*invalid` and gives the value of the operand and the
new `*invalid`.  A shift to the right of an `int64_t` is written as a logical shift only where the operand is masked first and so not negative.
-/
namespace Opc

/-- An instruction word, an operand value or a dialect (`uint64_t`, `int64_t`, `ppc_cpu_t`; ppc.h:34). -/
abbrev W := BitVec 64

/-- Result of an insertion: `none` for undefined behaviour, else the instruction word and "an error message was set". -/
abbrev Inserted := Option (W × Bool)

/-- `-value` for an `int64_t`; undefined for the smallest value. -/
def minus (v : W) : Option W := if v = 0x8000000000000000#64 then none else some (-v)

/-- PPC_OP, ppc.h:230. -/
def ppcOp (i : W) : W := (i >>> 26) &&& 0x3f#64

/-- insert_arx, ppc-opc.c:45-58. -/
def insertArx (insn value : W) (_ : W) : Inserted :=
  if value.toInt < -2 ^ 63 + 8 then none
  else
    let value := value - 8#64
    if value.toInt < 0 ∨ 16 ≤ value.toInt then some (insn ||| 0xf#64, true) else some (insn ||| value, false)

/-- extract_arx, ppc-opc.c:60-66. -/
def extractArx (insn : W) (_ : W) (invalid : Int) : W × Int := ((insn &&& 0xf#64) + 8#64, invalid)

/-- insert_ary, ppc-opc.c:68-81. -/
def insertAry (insn value : W) (_ : W) : Inserted :=
  if value.toInt < -2 ^ 63 + 8 then none
  else
    let value := value - 8#64
    if value.toInt < 0 ∨ 16 ≤ value.toInt then some (insn ||| (0xf#64 <<< 4), true) else some (insn ||| (value <<< 4), false)

/-- extract_ary, ppc-opc.c:83-89. -/
def extractAry (insn : W) (_ : W) (invalid : Int) : W × Int := (((insn >>> 4) &&& 0xf#64) + 8#64, invalid)

/-- insert_rx, ppc-opc.c:91-107. -/
def insertRx (insn value : W) (_ : W) : Inserted :=
  if 0 ≤ value.toInt ∧ value.toInt < 8 then some (insn ||| value, false)
  else if 24 ≤ value.toInt ∧ value.toInt ≤ 31 then some (insn ||| (value - 16#64), false)
  else some (insn ||| 0xf#64, true)

/-- extract_rx, ppc-opc.c:109-119. -/
def extractRx (insn : W) (_ : W) (invalid : Int) : W × Int :=
  let value := insn &&& 0xf#64
  if 0 ≤ value.toInt ∧ value.toInt < 8 then (value, invalid) else (value + 16#64, invalid)

/-- insert_ry, ppc-opc.c:121-137. -/
def insertRy (insn value : W) (_ : W) : Inserted :=
  if 0 ≤ value.toInt ∧ value.toInt < 8 then some (insn ||| (value <<< 4), false)
  else if 24 ≤ value.toInt ∧ value.toInt ≤ 31 then some (insn ||| ((value - 16#64) <<< 4), false)
  else some (insn ||| (0xf#64 <<< 4), true)

/-- extract_ry, ppc-opc.c:139-149. -/
def extractRy (insn : W) (_ : W) (invalid : Int) : W × Int :=
  let value := (insn >>> 4) &&& 0xf#64
  if 0 ≤ value.toInt ∧ value.toInt < 8 then (value, invalid) else (value + 16#64, invalid)

/-- insert_bab, ppc-opc.c:156-164. -/
def insertBab (insn value : W) (_ : W) : Inserted :=
  some (insn ||| ((value &&& 0x1f#64) <<< 16) ||| ((value &&& 0x1f#64) <<< 11), false)

/-- extract_bab, ppc-opc.c:166-177. -/
def extractBab (insn : W) (_ : W) (invalid : Int) : W × Int :=
  let ba := (insn >>> 16) &&& 0x1f#64
  let bb := (insn >>> 11) &&& 0x1f#64
  (ba, if ba ≠ bb then 1 else invalid)

/-- insert_btab, ppc-opc.c:183-191; the call of insert_bab is written out. -/
def insertBtab (insn value : W) (_ : W) : Inserted :=
  some (((value &&& 0x1f#64) <<< 21) |||
    (insn ||| (((value &&& 0x1f#64) &&& 0x1f#64) <<< 16) ||| (((value &&& 0x1f#64) &&& 0x1f#64) <<< 11)), false)

/-- extract_btab, ppc-opc.c:193-204. -/
def extractBtab (insn : W) (dialect : W) (invalid : Int) : W × Int :=
  let bt := (insn >>> 21) &&& 0x1f#64
  let bab := extractBab insn dialect invalid
  (bt, if bt ≠ bab.1 then 1 else bab.2)

/-- ISA_V2, ppc-opc.c:224; ppc.h:119, 164, 182. -/
def isaV2 : W := 0x800#64 ||| 0x2000000#64 ||| 0x80000000#64

/-- insert_bdm, ppc-opc.c:225-244. -/
def insertBdm (insn value : W) (dialect : W) : Inserted :=
  let insn :=
    if dialect &&& isaV2 = 0#64 then if value &&& 0x8000#64 ≠ 0#64 then insn ||| (1#64 <<< 21) else insn
    else if insn &&& (0x14#64 <<< 21) = 0x04#64 <<< 21 then insn ||| (0x02#64 <<< 21)
    else if insn &&& (0x14#64 <<< 21) = 0x10#64 <<< 21 then insn ||| (0x08#64 <<< 21)
    else insn
  some (insn ||| (value &&& 0xfffc#64), false)

/-- extract_bdm, ppc-opc.c:246-264. -/
def extractBdm (insn : W) (dialect : W) (invalid : Int) : W × Int :=
  (((insn &&& 0xfffc#64) ^^^ 0x8000#64) - 0x8000#64,
    if dialect &&& isaV2 = 0#64 then
      if (insn &&& (1#64 <<< 21) = 0#64) ↔ (insn &&& (1#64 <<< 15) = 0#64) then invalid else 1
    else if insn &&& (0x17#64 <<< 21) ≠ 0x06#64 <<< 21 ∧ insn &&& (0x1d#64 <<< 21) ≠ 0x18#64 <<< 21 then 1 else invalid)

/-- insert_bdp, ppc-opc.c:270-289. -/
def insertBdp (insn value : W) (dialect : W) : Inserted :=
  let insn :=
    if dialect &&& isaV2 = 0#64 then if value &&& 0x8000#64 = 0#64 then insn ||| (1#64 <<< 21) else insn
    else if insn &&& (0x14#64 <<< 21) = 0x04#64 <<< 21 then insn ||| (0x03#64 <<< 21)
    else if insn &&& (0x14#64 <<< 21) = 0x10#64 <<< 21 then insn ||| (0x09#64 <<< 21)
    else insn
  some (insn ||| (value &&& 0xfffc#64), false)

/-- extract_bdp, ppc-opc.c:291-309. -/
def extractBdp (insn : W) (dialect : W) (invalid : Int) : W × Int :=
  (((insn &&& 0xfffc#64) ^^^ 0x8000#64) - 0x8000#64,
    if dialect &&& isaV2 = 0#64 then
      if (insn &&& (1#64 <<< 21) = 0#64) ↔ (insn &&& (1#64 <<< 15) = 0#64) then 1 else invalid
    else if insn &&& (0x17#64 <<< 21) ≠ 0x07#64 <<< 21 ∧ insn &&& (0x1d#64 <<< 21) ≠ 0x19#64 <<< 21 then 1 else invalid)

/-- valid_bo_pre_v2, ppc-opc.c:311-334. -/
def validBoPreV2 (value : W) : Bool :=
  if value &&& 0x14#64 = 0#64 then true
  else if value &&& 0x14#64 = 0x4#64 then value &&& 0x2#64 = 0#64
  else if value &&& 0x14#64 = 0x10#64 then value &&& 0x8#64 = 0#64
  else value = 0x14#64

/-- valid_bo_post_v2, ppc-opc.c:336-357. -/
def validBoPostV2 (value : W) : Bool :=
  if value &&& 0x14#64 = 0#64 then value &&& 0x1#64 = 0#64
  else if value &&& 0x14#64 = 0x14#64 then value = 0x14#64
  else true

/-- valid_bo, ppc-opc.c:361-376; PPC_OPCODE_ANY is 0x40 (ppc.h:104). -/
def validBo (value dialect : W) (extract : Bool) : Bool :=
  if extract ∧ dialect = ~~~0x40#64 then validBoPreV2 value || validBoPostV2 value
  else if dialect &&& isaV2 = 0#64 then validBoPreV2 value
  else validBoPostV2 value

/-- insert_bo, ppc-opc.c:380-391. -/
def insertBo (insn value : W) (dialect : W) : Inserted :=
  some (insn ||| ((value &&& 0x1f#64) <<< 21),
    if !validBo value dialect false then true
    else if ppcOp insn = 19#64 ∧ insn &&& 0x400#64 ≠ 0#64 ∧ value &&& 4#64 = 0#64 then true
    else false)

/-- extract_bo, ppc-opc.c:393-402. -/
def extractBo (insn : W) (dialect : W) (invalid : Int) : W × Int :=
  let value := (insn >>> 21) &&& 0x1f#64
  (value, if !validBo value dialect true then 1 else invalid)

/-- insert_boe, ppc-opc.c:408-422. -/
def insertBoe (insn value : W) (dialect : W) : Inserted :=
  some (insn ||| ((value &&& 0x1f#64) <<< 21),
    if !validBo value dialect false then true
    else if ppcOp insn = 19#64 ∧ insn &&& 0x400#64 ≠ 0#64 ∧ value &&& 4#64 = 0#64 then true
    else if value &&& 1#64 ≠ 0#64 then true
    else false)

/-- extract_boe, ppc-opc.c:424-433. -/
def extractBoe (insn : W) (dialect : W) (invalid : Int) : W × Int :=
  let value := (insn >>> 21) &&& 0x1f#64
  (value &&& 0x1e#64, if !validBo value dialect true then 1 else invalid)

/-- insert_dcmxs, ppc-opc.c:438-448. -/
def insertDcmxs (insn value : W) (_ : W) : Inserted :=
  some (insn ||| ((value &&& 0x1f#64) <<< 16) ||| ((value &&& 0x20#64) >>> 3) ||| (value &&& 0x40#64), false)

/-- extract_dcmxs, ppc-opc.c:450-456. -/
def extractDcmxs (insn : W) (_ : W) (invalid : Int) : W × Int :=
  ((insn &&& 0x40#64) ||| ((insn <<< 3) &&& 0x20#64) ||| ((insn >>> 16) &&& 0x1f#64), invalid)

/-- insert_dxd, ppc-opc.c:461-468. -/
def insertDxd (insn value : W) (_ : W) : Inserted :=
  some (insn ||| (value &&& 0xffc1#64) ||| ((value &&& 0x3e#64) <<< 15), false)

/-- extract_dxd, ppc-opc.c:470-477. -/
def extractDxd (insn : W) (_ : W) (invalid : Int) : W × Int :=
  let dxd := (insn &&& 0xffc1#64) ||| ((insn >>> 15) &&& 0x3e#64)
  ((dxd ^^^ 0x8000#64) - 0x8000#64, invalid)

/-- insert_dxdn, ppc-opc.c:479-486. -/
def insertDxdn (insn value : W) (dialect : W) : Inserted :=
  match minus value with
  | none => none
  | some v => insertDxd insn v dialect

/-- extract_dxdn, ppc-opc.c:488-494.  The value of extract_dxd is never the smallest number. -/
def extractDxdn (insn : W) (dialect : W) (invalid : Int) : W × Int :=
  (-(extractDxd insn dialect invalid).1, (extractDxd insn dialect invalid).2)

/-- Does the instruction have the extended opcode of mfcr?  ppc-opc.c:524, 528, 560. -/
def isMfcr (insn : W) : Bool := insn &&& (0x3ff#64 <<< 1) = 19#64 <<< 1

/-- insert_fxm, ppc-opc.c:498-538. -/
def insertFxm (insn value : W) (dialect : W) : Inserted :=
  if insn &&& (1#64 <<< 20) ≠ 0#64 then
    if value = 0x8000000000000000#64 then none
    else if value = 0#64 ∨ value &&& -value ≠ value then some (insn ||| ((0#64 &&& 0xff#64) <<< 12), true)
    else some (insn ||| ((value &&& 0xff#64) <<< 12), false)
  else if 0 < value.toInt ∧ value &&& -value = value ∧
      (dialect &&& 0x800#64 ≠ 0#64 ∨ (dialect &&& 0x40#64 ≠ 0#64 ∧ isMfcr insn)) then
    some ((insn ||| (1#64 <<< 20)) ||| ((value &&& 0xff#64) <<< 12), false)
  else if isMfcr insn then some (insn ||| ((0#64 &&& 0xff#64) <<< 12), value ≠ -1#64)
  else some (insn ||| ((value &&& 0xff#64) <<< 12), false)

/-- extract_fxm, ppc-opc.c:540-569. -/
def extractFxm (insn : W) (_ : W) (invalid : Int) : W × Int :=
  if invalid < 0 then (-1#64, invalid)
  else
    let mask := (insn >>> 12) &&& 0xff#64
    if insn &&& (1#64 <<< 20) ≠ 0#64 then (mask, if mask = 0#64 ∨ mask &&& -mask ≠ mask then 1 else invalid)
    else if isMfcr insn then if mask ≠ 0#64 then (mask, 1) else (-1#64, invalid)
    else (mask, invalid)

/-- insert_li20, ppc-opc.c:571-581. -/
def insertLi20 (insn value : W) (_ : W) : Inserted :=
  some (insn ||| ((value &&& 0xf0000#64) >>> 5) ||| ((value &&& 0x0f800#64) <<< 5) ||| (value &&& 0x7ff#64), false)

/-- extract_li20, ppc-opc.c:583-591. -/
def extractLi20 (insn : W) (_ : W) (invalid : Int) : W × Int :=
  (((((insn <<< 5) &&& 0xf0000#64) ||| ((insn >>> 5) &&& 0xf800#64) ||| (insn &&& 0x7ff#64)) ^^^ 0x80000#64) - 0x80000#64, invalid)

/-- insert_ls, ppc-opc.c:598-613. -/
def insertLs (insn value : W) (dialect : W) : Inserted :=
  some (insn ||| ((value &&& 0x3#64) <<< 21),
    if (insn >>> 1) &&& 0x3ff#64 = 598#64 then
      if (if dialect &&& 0x800#64 ≠ 0#64 then 2 else 1) < value.toInt then true else false
    else false)

/-- extract_ls, ppc-opc.c:615-632. -/
def extractLs (insn : W) (dialect : W) (invalid : Int) : W × Int :=
  if invalid < 0 then (0#64, invalid)
  else
    let lvalue := (insn >>> 21) &&& 3#64
    (lvalue, if (insn >>> 1) &&& 0x3ff#64 = 598#64 then
        if (if dialect &&& 0x800#64 ≠ 0#64 then 2 else 1) < lvalue.toNat then 1 else invalid
      else invalid)

/-- insert_esync, ppc-opc.c:638-651. -/
def insertEsync (insn value : W) (_ : W) : Inserted :=
  let ls := (insn >>> 21) &&& 0x03#64
  some (insn ||| ((value &&& 0xf#64) <<< 16), if value ≠ 0#64 ∧ (BitVec.sshiftRight (~~~value) 1) &&& 0x1#64 ≠ ls then true else false)

/-- extract_esync, ppc-opc.c:653-667. -/
def extractEsync (insn : W) (_ : W) (invalid : Int) : W × Int :=
  if invalid < 0 then (0#64, invalid)
  else
    let ls := (insn >>> 21) &&& 0x3#64
    let value := (insn >>> 16) &&& 0xf#64
    (value, if value ≠ 0#64 ∧ ((~~~value) >>> 1) &&& 0x1#64 ≠ ls then 1 else invalid)

/-- The local variables of the loop of insert_mbe, ppc-opc.c:680-681. -/
structure Mbe where
  mb : Nat
  me : Nat
  count : Nat
  last : Bool
deriving DecidableEq, Repr

/-- One round of the loop of insert_mbe, ppc-opc.c:705-716, for `mask = 1 << (31 - mx)`. -/
def mbeRound (uval : W) (s : Mbe) (mx : Nat) : Mbe :=
  if uval.getLsbD (31 - mx) ∧ ¬s.last then { s with count := s.count + 1, mb := mx, last := true }
  else if ¬uval.getLsbD (31 - mx) ∧ s.last then { s with count := s.count + 1, me := mx, last := false }
  else s

/-- The loop of insert_mbe, ppc-opc.c:691-717. -/
def mbeLoop (uval : W) : Mbe :=
  (List.range 32).foldl (mbeRound uval) { mb := 0, me := 32, count := 0, last := uval &&& 1#64 ≠ 0#64 }

/-- insert_mbe, ppc-opc.c:674-725. -/
def insertMbe (insn value : W) (_ : W) : Inserted :=
  if value = 0#64 then some (insn, true)
  else
    let s := mbeLoop value
    let me := if s.me = 0 then 32 else s.me
    some (insn ||| (BitVec.ofNat 64 s.mb <<< 6) ||| (BitVec.ofNat 64 (me - 1) <<< 1),
      if s.count ≠ 2 ∧ (s.count ≠ 0 ∨ ¬s.last) then true else false)

/-- extract_mbe, ppc-opc.c:727-755. -/
def extractMbe (insn : W) (_ : W) (_ : Int) : W × Int :=
  let mb := ((insn >>> 6) &&& 0x1f#64).toNat
  let me := ((insn >>> 1) &&& 0x1f#64).toNat
  if mb < me + 1 then ((List.range' mb (me + 1 - mb)).foldl (fun r i => r ||| (1#64 <<< (31 - i))) 0#64, 1)
  else if mb = me + 1 then (~~~0#64, 1)
  else ((List.range' (me + 1) (mb - (me + 1))).foldl (fun r i => r &&& ~~~(1#64 <<< (31 - i))) (~~~0#64), 1)

/-- insert_mb6, ppc-opc.c:760-767. -/
def insertMb6 (insn value : W) (_ : W) : Inserted :=
  some (insn ||| ((value &&& 0x1f#64) <<< 6) ||| (value &&& 0x20#64), false)

/-- extract_mb6, ppc-opc.c:769-775. -/
def extractMb6 (insn : W) (_ : W) (invalid : Int) : W × Int :=
  (((insn >>> 6) &&& 0x1f#64) ||| (insn &&& 0x20#64), invalid)

/-- extract_nb, ppc-opc.c:780-791. -/
def extractNb (insn : W) (_ : W) (invalid : Int) : W × Int :=
  let ret := (insn >>> 11) &&& 0x1f#64
  (if ret = 0#64 then 32#64 else ret, invalid)

/-- insert_nbi, ppc-opc.c:796-811; `/` rounds towards zero. -/
def insertNbi (insn value : W) (_ : W) : Inserted :=
  let rt := (((insn >>> 21) &&& 0x1f#64).toNat : Int)
  let ra := (((insn >>> 16) &&& 0x1f#64).toNat : Int)
  let value := if value = 0#64 then 32#64 else value
  if 2 ^ 63 - 3 ≤ value.toInt then none
  else some (insn ||| ((value &&& 0x1f#64) <<< 11),
    if (if rt > ra then ra + 32 else ra) < rt + (value.toInt + 3).tdiv 4 then true else false)

/-- insert_nsi, ppc-opc.c:818-825. -/
def insertNsi (insn value : W) (_ : W) : Inserted :=
  match minus value with
  | none => none
  | some v => some (insn ||| (v &&& 0xffff#64), false)

/-- extract_nsi, ppc-opc.c:827-834. -/
def extractNsi (insn : W) (_ : W) (_ : Int) : W × Int := (-(((insn &&& 0xffff#64) ^^^ 0x8000#64) - 0x8000#64), 1)

/-- insert_ral, ppc-opc.c:840-850. -/
def insertRal (insn value : W) (_ : W) : Inserted :=
  some (insn ||| ((value &&& 0x1f#64) <<< 16), if value = 0#64 ∨ value = (insn >>> 21) &&& 0x1f#64 then true else false)

/-- extract_ral, ppc-opc.c:852-863. -/
def extractRal (insn : W) (_ : W) (invalid : Int) : W × Int :=
  let rt := (insn >>> 21) &&& 0x1f#64
  let ra := (insn >>> 16) &&& 0x1f#64
  (ra, if rt = ra ∨ ra = 0#64 then 1 else invalid)

/-- insert_ram, ppc-opc.c:868-877. -/
def insertRam (insn value : W) (_ : W) : Inserted :=
  some (insn ||| ((value &&& 0x1f#64) <<< 16), if ((insn >>> 21) &&& 0x1f#64).toNat ≤ value.toNat then true else false)

/-- extract_ram, ppc-opc.c:879-890. -/
def extractRam (insn : W) (_ : W) (invalid : Int) : W × Int :=
  let rt := (insn >>> 21) &&& 0x1f#64
  let ra := (insn >>> 16) &&& 0x1f#64
  (ra, if rt.toNat ≤ ra.toNat then 1 else invalid)

/-- insert_raq, ppc-opc.c:895-906. -/
def insertRaq (insn value : W) (_ : W) : Inserted :=
  some (insn ||| ((value &&& 0x1f#64) <<< 16), if value = (insn >>> 21) &&& 0x1f#64 then true else false)

/-- extract_raq, ppc-opc.c:908-921. -/
def extractRaq (insn : W) (_ : W) (invalid : Int) : W × Int :=
  if invalid < 0 then (0#64, invalid)
  else
    let rt := (insn >>> 21) &&& 0x1f#64
    let ra := (insn >>> 16) &&& 0x1f#64
    (ra, if ra = rt then 1 else invalid)

/-- insert_ras, ppc-opc.c:927-936. -/
def insertRas (insn value : W) (_ : W) : Inserted :=
  some (insn ||| ((value &&& 0x1f#64) <<< 16), if value = 0#64 then true else false)

/-- extract_ras, ppc-opc.c:938-948. -/
def extractRas (insn : W) (_ : W) (invalid : Int) : W × Int :=
  let ra := (insn >>> 16) &&& 0x1f#64
  (ra, if ra = 0#64 then 1 else invalid)

/-- insert_rsb, ppc-opc.c:954-962. -/
def insertRsb (insn value : W) (_ : W) : Inserted :=
  some (insn ||| ((value &&& 0x1f#64) <<< 21) ||| ((value &&& 0x1f#64) <<< 11), false)

/-- extract_rsb, ppc-opc.c:964-975. -/
def extractRsb (insn : W) (_ : W) (invalid : Int) : W × Int :=
  let rs := (insn >>> 21) &&& 0x1f#64
  let rb := (insn >>> 11) &&& 0x1f#64
  (rs, if rs ≠ rb then 1 else invalid)

/-- insert_rbx, ppc-opc.c:980-991. -/
def insertRbx (insn value : W) (_ : W) : Inserted :=
  some (insn ||| ((value &&& 0x1f#64) <<< 11), if value = (insn >>> 21) &&& 0x1f#64 then true else false)

/-- extract_rbx, ppc-opc.c:993-1004. -/
def extractRbx (insn : W) (_ : W) (invalid : Int) : W × Int :=
  let rt := (insn >>> 21) &&& 0x1f#64
  let rb := (insn >>> 11) &&& 0x1f#64
  (rb, if rb = rt then 1 else invalid)

/-- insert_sci8, ppc-opc.c:1007-1057. -/
def insertSci8 (insn value : W) (_ : W) : Inserted :=
  let put (fillScale ui8 : W) : W := insn ||| fillScale ||| (ui8 &&& 0xff#64)
  if value &&& 0xffffff00#64 = 0#64 then some (put 0#64 value, false)
  else if value &&& 0xffffff00#64 = 0xffffff00#64 then some (put 0x400#64 value, false)
  else if value &&& 0xffff00ff#64 = 0#64 then some (put (1#64 <<< 8) (value >>> 8), false)
  else if value &&& 0xffff00ff#64 = 0xffff00ff#64 then some (put (0x400#64 ||| (1#64 <<< 8)) (value >>> 8), false)
  else if value &&& 0xff00ffff#64 = 0#64 then some (put (2#64 <<< 8) (value >>> 16), false)
  else if value &&& 0xff00ffff#64 = 0xff00ffff#64 then some (put (0x400#64 ||| (2#64 <<< 8)) (value >>> 16), false)
  else if value &&& 0x00ffffff#64 = 0#64 then some (put (3#64 <<< 8) (value >>> 24), false)
  else if value &&& 0x00ffffff#64 = 0x00ffffff#64 then some (put (0x400#64 ||| (3#64 <<< 8)) (value >>> 24), false)
  else some (put 0#64 0#64, true)

/-- extract_sci8, ppc-opc.c:1059-1071. -/
def extractSci8 (insn : W) (_ : W) (invalid : Int) : W × Int :=
  let fill := insn &&& 0x400#64
  let scale := ((insn &&& 0x300#64) >>> 5).toNat
  let value := (insn &&& 0xff#64) <<< scale
  (if fill ≠ 0#64 then value ||| ~~~(0xff#64 <<< scale) else value, invalid)

/-- insert_sci8n, ppc-opc.c:1073-1080. -/
def insertSci8n (insn value : W) (dialect : W) : Inserted :=
  match minus value with
  | none => none
  | some v => insertSci8 insn v dialect

/-- extract_sci8n, ppc-opc.c:1082-1088.  The value of extract_sci8 is never the smallest number. -/
def extractSci8n (insn : W) (dialect : W) (invalid : Int) : W × Int :=
  (-(extractSci8 insn dialect invalid).1, (extractSci8 insn dialect invalid).2)

/-- insert_oimm, ppc-opc.c:1090-1097. -/
def insertOimm (insn value : W) (_ : W) : Inserted :=
  if value = 0x8000000000000000#64 then none else some (insn ||| (((value - 1#64) &&& 0x1f#64) <<< 4), false)

/-- extract_oimm, ppc-opc.c:1099-1105. -/
def extractOimm (insn : W) (_ : W) (invalid : Int) : W × Int := (((insn >>> 4) &&& 0x1f#64) + 1#64, invalid)

/-- insert_sh6, ppc-opc.c:1109-1116. -/
def insertSh6 (insn value : W) (_ : W) : Inserted :=
  some (insn ||| ((value &&& 0x1f#64) <<< 11) ||| ((value &&& 0x20#64) >>> 4), false)

/-- extract_sh6, ppc-opc.c:1118-1124. -/
def extractSh6 (insn : W) (_ : W) (invalid : Int) : W × Int :=
  (((insn >>> 11) &&& 0x1f#64) ||| ((insn <<< 4) &&& 0x20#64), invalid)

/-- insert_spr, ppc-opc.c:1129-1136. -/
def insertSpr (insn value : W) (_ : W) : Inserted :=
  some (insn ||| ((value &&& 0x1f#64) <<< 16) ||| ((value &&& 0x3e0#64) <<< 6), false)

/-- extract_spr, ppc-opc.c:1138-1144. -/
def extractSpr (insn : W) (_ : W) (invalid : Int) : W × Int :=
  (((insn >>> 16) &&& 0x1f#64) ||| ((insn >>> 6) &&& 0x3e0#64), invalid)

/-- insert_sprbat, ppc-opc.c:1149-1166; ALLOW8_BAT is PPC_OPCODE_750 (line 1147, ppc.h:200). -/
def insertSprbat (insn value : W) (dialect : W) : Inserted :=
  let err := if 7 < value.toNat ∨ (3 < value.toNat ∧ dialect &&& 0x2000000000#64 = 0#64) then true else false
  if 3 < value.toNat then some (insn ||| ((((value &&& 3#64) <<< 6) ||| 1#64) <<< 11), err)
  else some (insn ||| ((value <<< 6) <<< 11), err)

/-- extract_sprbat, ppc-opc.c:1168-1179. -/
def extractSprbat (insn : W) (dialect : W) (invalid : Int) : W × Int :=
  let val := ((insn >>> 17) &&& 0x3#64) + ((insn >>> 9) &&& 0x4#64)
  (val, if 3 < val.toNat ∧ dialect &&& 0x2000000000#64 = 0#64 then 1 else invalid)

/-- ALLOW8_SPRG, ppc-opc.c:1182; ppc.h:116, 167. -/
def allow8Sprg : W := 0x400#64 ||| 0x4000000#64

/-- insert_sprg, ppc-opc.c:1184-1200. -/
def insertSprg (insn value : W) (dialect : W) : Inserted :=
  let err := if 7 < value.toNat ∨ (3 < value.toNat ∧ dialect &&& allow8Sprg = 0#64) then true else false
  let value := if value.toNat ≤ 3 ∨ insn &&& 0x100#64 ≠ 0#64 then value ||| 0x10#64 else value
  some (insn ||| ((value &&& 0x17#64) <<< 16), err)

/-- extract_sprg, ppc-opc.c:1202-1217. -/
def extractSprg (insn : W) (dialect : W) (invalid : Int) : W × Int :=
  let val := (insn >>> 16) &&& 0x1f#64
  (val &&& 7#64,
    if (3 < (val - 0x10#64).toNat ∧ dialect &&& allow8Sprg = 0#64) ∨ (7 < (val - 0x10#64).toNat ∧ insn &&& 0x100#64 ≠ 0#64) ∨
        val.toNat ≤ 3 ∨ val &&& 8#64 ≠ 0#64 then 1 else invalid)

/-- insert_tbr, ppc-opc.c:1222-1231. -/
def insertTbr (insn value : W) (_ : W) : Inserted :=
  some (insn ||| ((value &&& 0x1f#64) <<< 16) ||| ((value &&& 0x3e0#64) <<< 6), if value ≠ 268#64 ∧ value ≠ 269#64 then true else false)

/-- extract_tbr, ppc-opc.c:1233-1245. -/
def extractTbr (insn : W) (_ : W) (invalid : Int) : W × Int :=
  if invalid < 0 then (268#64, invalid)
  else
    let ret := ((insn >>> 16) &&& 0x1f#64) ||| ((insn >>> 6) &&& 0x3e0#64)
    (ret, if ret ≠ 268#64 ∧ ret ≠ 269#64 then 1 else invalid)

/-- insert_xt6, ppc-opc.c:1249-1256. -/
def insertXt6 (insn value : W) (_ : W) : Inserted :=
  some (insn ||| ((value &&& 0x1f#64) <<< 21) ||| ((value &&& 0x20#64) >>> 5), false)

/-- extract_xt6, ppc-opc.c:1258-1264. -/
def extractXt6 (insn : W) (_ : W) (invalid : Int) : W × Int :=
  (((insn <<< 5) &&& 0x20#64) ||| ((insn >>> 21) &&& 0x1f#64), invalid)

/-- insert_xtq6, ppc-opc.c:1267-1274. -/
def insertXtq6 (insn value : W) (_ : W) : Inserted :=
  some (insn ||| ((value &&& 0x1f#64) <<< 21) ||| ((value &&& 0x20#64) >>> 2), false)

/-- extract_xtq6, ppc-opc.c:1276-1282. -/
def extractXtq6 (insn : W) (_ : W) (invalid : Int) : W × Int :=
  (((insn <<< 2) &&& 0x20#64) ||| ((insn >>> 21) &&& 0x1f#64), invalid)

/-- insert_xa6, ppc-opc.c:1286-1293. -/
def insertXa6 (insn value : W) (_ : W) : Inserted :=
  some (insn ||| ((value &&& 0x1f#64) <<< 16) ||| ((value &&& 0x20#64) >>> 3), false)

/-- extract_xa6, ppc-opc.c:1295-1301. -/
def extractXa6 (insn : W) (_ : W) (invalid : Int) : W × Int :=
  (((insn <<< 3) &&& 0x20#64) ||| ((insn >>> 16) &&& 0x1f#64), invalid)

/-- insert_xb6, ppc-opc.c:1305-1312. -/
def insertXb6 (insn value : W) (_ : W) : Inserted :=
  some (insn ||| ((value &&& 0x1f#64) <<< 11) ||| ((value &&& 0x20#64) >>> 4), false)

/-- extract_xb6, ppc-opc.c:1314-1320. -/
def extractXb6 (insn : W) (_ : W) (invalid : Int) : W × Int :=
  (((insn <<< 4) &&& 0x20#64) ||| ((insn >>> 11) &&& 0x1f#64), invalid)

/-- insert_xab6, ppc-opc.c:1326-1334; the calls of insert_xa6 and insert_xb6 are written out. -/
def insertXab6 (insn value : W) (_ : W) : Inserted :=
  some ((insn ||| ((value &&& 0x1f#64) <<< 16) ||| ((value &&& 0x20#64) >>> 3)) |||
    (insn ||| ((value &&& 0x1f#64) <<< 11) ||| ((value &&& 0x20#64) >>> 4)), false)

/-- extract_xab6, ppc-opc.c:1336-1347. -/
def extractXab6 (insn : W) (dialect : W) (invalid : Int) : W × Int :=
  let xa6 := (extractXa6 insn dialect invalid).1
  let xb6 := (extractXb6 insn dialect invalid).1
  (xa6, if xa6 ≠ xb6 then 1 else invalid)

/-- insert_xc6, ppc-opc.c:1351-1358. -/
def insertXc6 (insn value : W) (_ : W) : Inserted :=
  some (insn ||| ((value &&& 0x1f#64) <<< 6) ||| ((value &&& 0x20#64) >>> 2), false)

/-- extract_xc6, ppc-opc.c:1360-1366. -/
def extractXc6 (insn : W) (_ : W) (invalid : Int) : W × Int :=
  (((insn <<< 2) &&& 0x20#64) ||| ((insn >>> 6) &&& 0x1f#64), invalid)

/-- insert_dm, ppc-opc.c:1368-1377. -/
def insertDm (insn value : W) (_ : W) : Inserted :=
  some (insn ||| ((if value ≠ 0#64 then 3#64 else 0#64) <<< 8), if value ≠ 0#64 ∧ value ≠ 1#64 then true else false)

/-- extract_dm, ppc-opc.c:1379-1388. -/
def extractDm (insn : W) (_ : W) (invalid : Int) : W × Int :=
  let value := (insn >>> 8) &&& 3#64
  (if value ≠ 0#64 then 1#64 else 0#64, if value ≠ 0#64 ∧ value ≠ 3#64 then 1 else invalid)

/-- insert_vlesi, ppc-opc.c:1392-1399. -/
def insertVlesi (insn value : W) (_ : W) : Inserted :=
  some (insn ||| ((value &&& 0xf800#64) <<< 10) ||| (value &&& 0x7ff#64), false)

/-- extract_vlesi, ppc-opc.c:1401-1409. -/
def extractVlesi (insn : W) (_ : W) (invalid : Int) : W × Int :=
  let value := ((insn >>> 10) &&& 0xf800#64) ||| (insn &&& 0x7ff#64)
  ((value ^^^ 0x8000#64) - 0x8000#64, invalid)

/-- insert_vlensi, ppc-opc.c:1411-1419. -/
def insertVlensi (insn value : W) (_ : W) : Inserted :=
  match minus value with
  | none => none
  | some v => some (insn ||| ((v &&& 0xf800#64) <<< 10) ||| (v &&& 0x7ff#64), false)

/-- extract_vlensi, ppc-opc.c:1420-1430. -/
def extractVlensi (insn : W) (_ : W) (_ : Int) : W × Int :=
  let value := ((insn >>> 10) &&& 0xf800#64) ||| (insn &&& 0x7ff#64)
  (-((value ^^^ 0x8000#64) - 0x8000#64), 1)

/-- insert_vleui, ppc-opc.c:1434-1441. -/
def insertVleui (insn value : W) (_ : W) : Inserted :=
  some (insn ||| ((value &&& 0xf800#64) <<< 10) ||| (value &&& 0x7ff#64), false)

/-- extract_vleui, ppc-opc.c:1443-1449. -/
def extractVleui (insn : W) (_ : W) (invalid : Int) : W × Int :=
  (((insn >>> 10) &&& 0xf800#64) ||| (insn &&& 0x7ff#64), invalid)

/-- insert_vleil, ppc-opc.c:1453-1460. -/
def insertVleil (insn value : W) (_ : W) : Inserted :=
  some (insn ||| ((value &&& 0xf800#64) <<< 5) ||| (value &&& 0x7ff#64), false)

/-- extract_vleil, ppc-opc.c:1462-1468. -/
def extractVleil (insn : W) (_ : W) (invalid : Int) : W × Int :=
  (((insn >>> 5) &&& 0xf800#64) ||| (insn &&& 0x7ff#64), invalid)

/-- insert_evuimm1_ex0, ppc-opc.c:1470-1479. -/
def insertEvuimm1Ex0 (insn value : W) (_ : W) : Inserted :=
  some (insn ||| ((value &&& 0x1f#64) <<< 11), if value.toInt ≤ 0 ∨ 0x1f < value.toInt then true else false)

/-- extract_evuimm1_ex0, ppc-opc.c:1481-1491. -/
def extractEvuimm1Ex0 (insn : W) (_ : W) (invalid : Int) : W × Int :=
  let value := (insn >>> 11) &&& 0x1f#64
  (value, if value = 0#64 then 1 else invalid)

/-- insert_evuimm2_ex0, ppc-opc.c:1493-1502. -/
def insertEvuimm2Ex0 (insn value : W) (_ : W) : Inserted :=
  some (insn ||| ((value &&& 0x3e#64) <<< 10), if value.toInt ≤ 0 ∨ 0x3e < value.toInt then true else false)

/-- extract_evuimm2_ex0, ppc-opc.c:1504-1514. -/
def extractEvuimm2Ex0 (insn : W) (_ : W) (invalid : Int) : W × Int :=
  let value := (insn >>> 10) &&& 0x3e#64
  (value, if value = 0#64 then 1 else invalid)

/-- insert_evuimm4_ex0, ppc-opc.c:1516-1525. -/
def insertEvuimm4Ex0 (insn value : W) (_ : W) : Inserted :=
  some (insn ||| ((value &&& 0x7c#64) <<< 9), if value.toInt ≤ 0 ∨ 0x7c < value.toInt then true else false)

/-- extract_evuimm4_ex0, ppc-opc.c:1527-1537. -/
def extractEvuimm4Ex0 (insn : W) (_ : W) (invalid : Int) : W × Int :=
  let value := (insn >>> 9) &&& 0x7c#64
  (value, if value = 0#64 then 1 else invalid)

/-- insert_evuimm8_ex0, ppc-opc.c:1539-1548. -/
def insertEvuimm8Ex0 (insn value : W) (_ : W) : Inserted :=
  some (insn ||| ((value &&& 0xf8#64) <<< 8), if value.toInt ≤ 0 ∨ 0xf8 < value.toInt then true else false)

/-- extract_evuimm8_ex0, ppc-opc.c:1550-1560. -/
def extractEvuimm8Ex0 (insn : W) (_ : W) (invalid : Int) : W × Int :=
  let value := (insn >>> 8) &&& 0xf8#64
  (value, if value = 0#64 then 1 else invalid)

/-- insert_evuimm_lt8, ppc-opc.c:1562-1571. -/
def insertEvuimmLt8 (insn value : W) (_ : W) : Inserted :=
  some (insn ||| ((value &&& 0x7#64) <<< 11), if value.toInt < 0 ∨ 7 < value.toInt then true else false)

/-- extract_evuimm_lt8, ppc-opc.c:1573-1583. -/
def extractEvuimmLt8 (insn : W) (_ : W) (invalid : Int) : W × Int :=
  let value := (insn >>> 11) &&& 0x1f#64
  (value, if 7 < value.toInt then 1 else invalid)

/-- insert_evuimm_lt16, ppc-opc.c:1585-1594. -/
def insertEvuimmLt16 (insn value : W) (_ : W) : Inserted :=
  some (insn ||| ((value &&& 0xf#64) <<< 11), if value.toInt < 0 ∨ 15 < value.toInt then true else false)

/-- extract_evuimm_lt16, ppc-opc.c:1596-1606. -/
def extractEvuimmLt16 (insn : W) (_ : W) (invalid : Int) : W × Int :=
  let value := (insn >>> 11) &&& 0x1f#64
  (value, if 15 < value.toInt then 1 else invalid)

/-- insert_rD_rS_even, ppc-opc.c:1608-1617. -/
def insertEven (insn value : W) (_ : W) : Inserted :=
  some (insn ||| ((value &&& 0x1e#64) <<< 21), if value &&& 0x1#64 ≠ 0#64 then true else false)

/-- extract_rD_rS_even, ppc-opc.c:1619-1629. -/
def extractEven (insn : W) (_ : W) (invalid : Int) : W × Int :=
  let value := (insn >>> 21) &&& 0x1f#64
  (value, if value &&& 0x1#64 ≠ 0#64 then 1 else invalid)

/-- insert_off_lsp, ppc-opc.c:1631-1640. -/
def insertOffLsp (insn value : W) (_ : W) : Inserted :=
  some (insn ||| (value &&& 0x3#64), if value.toInt ≤ 0 ∨ 0x3 < value.toInt then true else false)

/-- extract_off_lsp, ppc-opc.c:1642-1652. -/
def extractOffLsp (insn : W) (_ : W) (invalid : Int) : W × Int :=
  let value := insn &&& 0x3#64
  (value, if value = 0#64 then 1 else invalid)

/-- insert_off_spe2, ppc-opc.c:1654-1663. -/
def insertOffSpe2 (insn value : W) (_ : W) : Inserted :=
  some (insn ||| (value &&& 0x7#64), if value.toInt ≤ 0 ∨ 0x7 < value.toInt then true else false)

/-- extract_off_spe2, ppc-opc.c:1665-1675. -/
def extractOffSpe2 (insn : W) (_ : W) (invalid : Int) : W × Int :=
  let value := insn &&& 0x7#64
  (value, if value = 0#64 then 1 else invalid)

/-- insert_Ddd, ppc-opc.c:1677-1686. -/
def insertDdd (insn value : W) (_ : W) : Inserted :=
  some (insn ||| ((value &&& 0x3#64) <<< 11) ||| ((value &&& 0x4#64) >>> 2), if value.toInt < 0 ∨ 0x7 < value.toInt then true else false)

/-- extract_Ddd, ppc-opc.c:1688-1694. -/
def extractDdd (insn : W) (_ : W) (invalid : Int) : W × Int :=
  (((insn >>> 11) &&& 0x3#64) ||| ((insn <<< 2) &&& 0x4#64), invalid)

/-- insert_sxl, ppc-opc.c:1696-1703. -/
def insertSxl (insn value : W) (_ : W) : Inserted := some (insn ||| ((value &&& 0x1#64) <<< 11), false)

/-- extract_sxl, ppc-opc.c:1705-1713. -/
def extractSxl (insn : W) (_ : W) (invalid : Int) : W × Int :=
  if invalid < 0 then (1#64, invalid) else ((insn >>> 11) &&& 0x1#64, invalid)

/-- The insertion functions of the table; `null` for NULL. -/
inductive Ins
  | null
  | arx | ary | rx | ry | bab | btab | bdm | bdp | bo | boe | dcmxs | dxd | dxdn | fxm | li20 | ls | esync | mbe | mb6 | nbi | nsi | ral | ram | raq | ras | rsb | rbx | sci8 | sci8n
  | oimm | sh6 | spr | sprbat | sprg | tbr | xt6 | xtq6 | xa6 | xb6 | xab6 | xc6 | dm | vlesi | vlensi | vleui | vleil | evuimm1Ex0 | evuimm2Ex0 | evuimm4Ex0 | evuimm8Ex0 | evuimmLt8 | evuimmLt16 | even | offLsp | offSpe2 | ddd | sxl
deriving DecidableEq, Repr

/-- The extraction functions of the table; `null` for NULL. -/
inductive Ext
  | null
  | arx | ary | rx | ry | bab | btab | bdm | bdp | bo | boe | dcmxs | dxd | dxdn | fxm | li20 | ls | esync | mbe | mb6 | nb | nsi | ral | ram | raq | ras | rsb | rbx | sci8 | sci8n
  | oimm | sh6 | spr | sprbat | sprg | tbr | xt6 | xtq6 | xa6 | xb6 | xab6 | xc6 | dm | vlesi | vlensi | vleui | vleil | evuimm1Ex0 | evuimm2Ex0 | evuimm4Ex0 | evuimm8Ex0 | evuimmLt8 | evuimmLt16 | even | offLsp | offSpe2 | ddd | sxl
deriving DecidableEq, Repr

/-- struct powerpc_operand_qt, ppc.h:249-312.  `name` is the macro that ppc-opc.c defines for the index of the entry; `shift` is
`none` for PPC_OPSHIFT_INV (ppc.h:323). -/
structure Operand where
  name : String
  bitm : W
  shift : Option Int
  ins : Ins
  ext : Ext
  flags : Nat
deriving DecidableEq, Repr

/-- What to do when the insertion function is NULL, ppc.h:265-269.  With PPC_OPSHIFT_INV the entry has a function. -/
def Operand.insertNull (o : Operand) (insn value : W) : Inserted :=
  match o.shift with
  | none => none
  | some s => if 0 ≤ s then some (insn ||| ((value &&& o.bitm) <<< s.toNat), false) else some (insn ||| ((value &&& o.bitm) >>> (-s).toNat), false)

/-- PPC_OPERAND_SIGNED, ppc.h:375. -/
def Operand.signed (o : Operand) : Bool := Nat.testBit o.flags 11

/-- The `sign_extend (op)` of ppc.h:291: the highest bit of `bitm` is the sign. -/
def signExtend (bitm op : W) : W :=
  let top := BitVec.ofNat 64 (2 ^ bitm.toNat.log2)
  (op ^^^ top) - top

/-- What to do when the extraction function is NULL, ppc.h:285-291. -/
def Operand.extractNull (o : Operand) (insn : W) (invalid : Int) : W × Int :=
  match o.shift with
  | none => (0#64, 1)
  | some s =>
    let op := if 0 ≤ s then (insn >>> s.toNat) &&& o.bitm else (insn <<< (-s).toNat) &&& o.bitm
    (if o.signed then signExtend o.bitm op else op, invalid)

/-- Insertion of an operand, ppc.h:262-280: the function of the table, or the default. -/
def Operand.insert (o : Operand) (insn value dialect : W) : Inserted :=
  match o.ins with
  | .null => o.insertNull insn value
  | .arx => insertArx insn value dialect
  | .ary => insertAry insn value dialect
  | .rx => insertRx insn value dialect
  | .ry => insertRy insn value dialect
  | .bab => insertBab insn value dialect
  | .btab => insertBtab insn value dialect
  | .bdm => insertBdm insn value dialect
  | .bdp => insertBdp insn value dialect
  | .bo => insertBo insn value dialect
  | .boe => insertBoe insn value dialect
  | .dcmxs => insertDcmxs insn value dialect
  | .dxd => insertDxd insn value dialect
  | .dxdn => insertDxdn insn value dialect
  | .fxm => insertFxm insn value dialect
  | .li20 => insertLi20 insn value dialect
  | .ls => insertLs insn value dialect
  | .esync => insertEsync insn value dialect
  | .mbe => insertMbe insn value dialect
  | .mb6 => insertMb6 insn value dialect
  | .nbi => insertNbi insn value dialect
  | .nsi => insertNsi insn value dialect
  | .ral => insertRal insn value dialect
  | .ram => insertRam insn value dialect
  | .raq => insertRaq insn value dialect
  | .ras => insertRas insn value dialect
  | .rsb => insertRsb insn value dialect
  | .rbx => insertRbx insn value dialect
  | .sci8 => insertSci8 insn value dialect
  | .sci8n => insertSci8n insn value dialect
  | .oimm => insertOimm insn value dialect
  | .sh6 => insertSh6 insn value dialect
  | .spr => insertSpr insn value dialect
  | .sprbat => insertSprbat insn value dialect
  | .sprg => insertSprg insn value dialect
  | .tbr => insertTbr insn value dialect
  | .xt6 => insertXt6 insn value dialect
  | .xtq6 => insertXtq6 insn value dialect
  | .xa6 => insertXa6 insn value dialect
  | .xb6 => insertXb6 insn value dialect
  | .xab6 => insertXab6 insn value dialect
  | .xc6 => insertXc6 insn value dialect
  | .dm => insertDm insn value dialect
  | .vlesi => insertVlesi insn value dialect
  | .vlensi => insertVlensi insn value dialect
  | .vleui => insertVleui insn value dialect
  | .vleil => insertVleil insn value dialect
  | .evuimm1Ex0 => insertEvuimm1Ex0 insn value dialect
  | .evuimm2Ex0 => insertEvuimm2Ex0 insn value dialect
  | .evuimm4Ex0 => insertEvuimm4Ex0 insn value dialect
  | .evuimm8Ex0 => insertEvuimm8Ex0 insn value dialect
  | .evuimmLt8 => insertEvuimmLt8 insn value dialect
  | .evuimmLt16 => insertEvuimmLt16 insn value dialect
  | .even => insertEven insn value dialect
  | .offLsp => insertOffLsp insn value dialect
  | .offSpe2 => insertOffSpe2 insn value dialect
  | .ddd => insertDdd insn value dialect
  | .sxl => insertSxl insn value dialect

/-- Extraction of an operand, ppc.h:282-308. -/
def Operand.extract (o : Operand) (insn dialect : W) (invalid : Int) : W × Int :=
  match o.ext with
  | .null => o.extractNull insn invalid
  | .arx => extractArx insn dialect invalid
  | .ary => extractAry insn dialect invalid
  | .rx => extractRx insn dialect invalid
  | .ry => extractRy insn dialect invalid
  | .bab => extractBab insn dialect invalid
  | .btab => extractBtab insn dialect invalid
  | .bdm => extractBdm insn dialect invalid
  | .bdp => extractBdp insn dialect invalid
  | .bo => extractBo insn dialect invalid
  | .boe => extractBoe insn dialect invalid
  | .dcmxs => extractDcmxs insn dialect invalid
  | .dxd => extractDxd insn dialect invalid
  | .dxdn => extractDxdn insn dialect invalid
  | .fxm => extractFxm insn dialect invalid
  | .li20 => extractLi20 insn dialect invalid
  | .ls => extractLs insn dialect invalid
  | .esync => extractEsync insn dialect invalid
  | .mbe => extractMbe insn dialect invalid
  | .mb6 => extractMb6 insn dialect invalid
  | .nb => extractNb insn dialect invalid
  | .nsi => extractNsi insn dialect invalid
  | .ral => extractRal insn dialect invalid
  | .ram => extractRam insn dialect invalid
  | .raq => extractRaq insn dialect invalid
  | .ras => extractRas insn dialect invalid
  | .rsb => extractRsb insn dialect invalid
  | .rbx => extractRbx insn dialect invalid
  | .sci8 => extractSci8 insn dialect invalid
  | .sci8n => extractSci8n insn dialect invalid
  | .oimm => extractOimm insn dialect invalid
  | .sh6 => extractSh6 insn dialect invalid
  | .spr => extractSpr insn dialect invalid
  | .sprbat => extractSprbat insn dialect invalid
  | .sprg => extractSprg insn dialect invalid
  | .tbr => extractTbr insn dialect invalid
  | .xt6 => extractXt6 insn dialect invalid
  | .xtq6 => extractXtq6 insn dialect invalid
  | .xa6 => extractXa6 insn dialect invalid
  | .xb6 => extractXb6 insn dialect invalid
  | .xab6 => extractXab6 insn dialect invalid
  | .xc6 => extractXc6 insn dialect invalid
  | .dm => extractDm insn dialect invalid
  | .vlesi => extractVlesi insn dialect invalid
  | .vlensi => extractVlensi insn dialect invalid
  | .vleui => extractVleui insn dialect invalid
  | .vleil => extractVleil insn dialect invalid
  | .evuimm1Ex0 => extractEvuimm1Ex0 insn dialect invalid
  | .evuimm2Ex0 => extractEvuimm2Ex0 insn dialect invalid
  | .evuimm4Ex0 => extractEvuimm4Ex0 insn dialect invalid
  | .evuimm8Ex0 => extractEvuimm8Ex0 insn dialect invalid
  | .evuimmLt8 => extractEvuimmLt8 insn dialect invalid
  | .evuimmLt16 => extractEvuimmLt16 insn dialect invalid
  | .even => extractEven insn dialect invalid
  | .offLsp => extractOffLsp insn dialect invalid
  | .offSpe2 => extractOffSpe2 insn dialect invalid
  | .ddd => extractDdd insn dialect invalid
  | .sxl => extractSxl insn dialect invalid

/-- Entries 0 to 49 of powerpc_operands_qt, ppc-opc.c:1731-1983. -/
def operands0 : List Operand :=
  [⟨"UNUSED_OPC", 0x0, some 0, .null, .null, 0x0⟩,
   ⟨"BA", 0x1f, some 16, .null, .null, 0x20⟩,
   ⟨"BTAB", 0x1f, some 21, .btab, .btab, 0x20⟩,
   ⟨"BB", 0x1f, some 11, .null, .null, 0x20⟩,
   ⟨"BAB", 0x1f, some 16, .bab, .bab, 0x20⟩,
   ⟨"VAB", 0x1f, some 16, .bab, .bab, 0x8⟩,
   ⟨"RAB", 0x1f, some 16, .bab, .bab, 0x1⟩,
   ⟨"BD", 0xfffc, some 0, .null, .null, 0xa00⟩,
   ⟨"BDA", 0xfffc, some 0, .null, .null, 0xc00⟩,
   ⟨"BDM", 0xfffc, some 0, .bdm, .bdm, 0xa00⟩,
   ⟨"BDMA", 0xfffc, some 0, .bdm, .bdm, 0xc00⟩,
   ⟨"BDP", 0xfffc, some 0, .bdp, .bdp, 0xa00⟩,
   ⟨"BDPA", 0xfffc, some 0, .bdp, .bdp, 0xc00⟩,
   ⟨"BF", 0x7, some 23, .null, .null, 0x40⟩,
   ⟨"BFF", 0x7, some 23, .null, .null, 0x0⟩,
   ⟨"OBF", 0x7, some 23, .null, .null, 0x80040⟩,
   ⟨"BFA", 0x7, some 18, .null, .null, 0x40⟩,
   ⟨"BO", 0x1f, some 21, .bo, .bo, 0x0⟩,
   ⟨"BOE", 0x1e, some 21, .boe, .boe, 0x0⟩,
   ⟨"RM", 0x3, some 11, .null, .null, 0x0⟩,
   ⟨"BH", 0x3, some 11, .null, .null, 0x80000⟩,
   ⟨"BT", 0x1f, some 21, .null, .null, 0x20⟩,
   ⟨"BI16", 0x3, some 8, .null, .null, 0x20⟩,
   ⟨"BI32", 0xf, some 16, .null, .null, 0x20⟩,
   ⟨"BO32", 0x3, some 20, .null, .null, 0x0⟩,
   ⟨"B8", 0x1fe, some (-1), .null, .null, 0xa00⟩,
   ⟨"B15", 0xfffe, some 0, .null, .null, 0xa00⟩,
   ⟨"B24", 0x1fffffe, some 0, .null, .null, 0xa00⟩,
   ⟨"CR", 0x7, some 18, .null, .null, 0x80040⟩,
   ⟨"CRB", 0x1f, some 6, .null, .null, 0x0⟩,
   ⟨"CRD32", 0x3, some 21, .null, .null, 0x40⟩,
   ⟨"CRFS", 0x7, some 0, .null, .null, 0x40⟩,
   ⟨"CRS", 0x3, some 18, .null, .null, 0x80040⟩,
   ⟨"CT", 0x1f, some 21, .null, .null, 0x80000⟩,
   ⟨"D", 0xffff, some 0, .null, .null, 0x2800⟩,
   ⟨"D8", 0xff, some 0, .null, .null, 0x2800⟩,
   ⟨"DCMX", 0x7f, some 16, .null, .null, 0x0⟩,
   ⟨"DCMXS", 0x7f, none, .dcmxs, .dcmxs, 0x0⟩,
   ⟨"DQ", 0xfff0, some 0, .null, .null, 0xa800⟩,
   ⟨"DS", 0xfffc, some 0, .null, .null, 0x6800⟩,
   ⟨"DUIS", 0x3ff, some 11, .null, .null, 0x0⟩,
   ⟨"DXD", 0xffff, none, .dxd, .dxd, 0x1800⟩,
   ⟨"NDXD", 0xffff, none, .dxdn, .dxdn, 0x11800⟩,
   ⟨"E", 0x1, some 15, .null, .null, 0x0⟩,
   ⟨"FL1", 0xf, some 12, .null, .null, 0x0⟩,
   ⟨"FL2", 0x7, some 2, .null, .null, 0x0⟩,
   ⟨"FLM", 0xff, some 17, .null, .null, 0x0⟩,
   ⟨"FRA", 0x1f, some 16, .null, .null, 0x4⟩,
   ⟨"FRAp", 0x1e, some 16, .null, .null, 0x4⟩,
   ⟨"FRB", 0x1f, some 11, .null, .null, 0x4⟩]

/-- Entries 50 to 99 of powerpc_operands_qt, ppc-opc.c:1987-2232. -/
def operands1 : List Operand :=
  [⟨"FRBp", 0x1e, some 11, .null, .null, 0x4⟩,
   ⟨"FRC", 0x1f, some 6, .null, .null, 0x4⟩,
   ⟨"FRS", 0x1f, some 21, .null, .null, 0x4⟩,
   ⟨"FRSp", 0x1e, some 21, .null, .null, 0x4⟩,
   ⟨"FXM", 0xff, some 12, .fxm, .fxm, 0x0⟩,
   ⟨"FXM4", 0xff, some 12, .fxm, .fxm, 0x80000⟩,
   ⟨"IMM20", 0xfffff, none, .li20, .li20, 0x800⟩,
   ⟨"L", 0x1, some 21, .null, .null, 0x0⟩,
   ⟨"LOPT", 0x1, some 21, .null, .null, 0x80000⟩,
   ⟨"L32OPT", 0x1, some 21, .null, .null, 0x480000⟩,
   ⟨"L2OPT", 0x3, some 21, .null, .null, 0x80000⟩,
   ⟨"SVC_LEV", 0x7f, some 5, .null, .null, 0x0⟩,
   ⟨"LEV", 0x7f, some 5, .null, .null, 0x80000⟩,
   ⟨"LI", 0x3fffffc, some 0, .null, .null, 0xa00⟩,
   ⟨"LIA", 0x3fffffc, some 0, .null, .null, 0xc00⟩,
   ⟨"LS", 0x3, some 21, .ls, .ls, 0x80000⟩,
   ⟨"ME", 0x1f, some 1, .null, .null, 0x0⟩,
   ⟨"MBE", 0x1f, some 6, .null, .null, 0x180000⟩,
   ⟨"MBE'", 0xffffffffffffffff, some 0, .mbe, .mbe, 0x0⟩,
   ⟨"MB6", 0x3f, some 5, .mb6, .mb6, 0x0⟩,
   ⟨"NB", 0x1f, some 11, .null, .nb, 0x20000⟩,
   ⟨"NBI", 0x1f, some 11, .nbi, .nb, 0x20000⟩,
   ⟨"NSI", 0xffff, some 0, .nsi, .nsi, 0x10800⟩,
   ⟨"NSISIGNOPT", 0xffff, some 0, .nsi, .nsi, 0x11800⟩,
   ⟨"RA", 0x1f, some 16, .null, .null, 0x1⟩,
   ⟨"RA0", 0x1f, some 16, .null, .null, 0x2⟩,
   ⟨"RAQ", 0x1f, some 16, .raq, .raq, 0x2⟩,
   ⟨"RAL", 0x1f, some 16, .ral, .ral, 0x2⟩,
   ⟨"RAM", 0x1f, some 16, .ram, .ram, 0x2⟩,
   ⟨"RAS", 0x1f, some 16, .ras, .ras, 0x2⟩,
   ⟨"RAOPT", 0x1f, some 16, .null, .null, 0x80001⟩,
   ⟨"RB", 0x1f, some 11, .null, .null, 0x1⟩,
   ⟨"RSB", 0x1f, some 11, .rsb, .rsb, 0x1⟩,
   ⟨"RBX", 0x1f, some 11, .rbx, .rbx, 0x1⟩,
   ⟨"RBOPT", 0x1f, some 11, .null, .null, 0x80001⟩,
   ⟨"RC", 0x1f, some 6, .null, .null, 0x1⟩,
   ⟨"RS", 0x1f, some 21, .null, .null, 0x1⟩,
   ⟨"RD_EVEN", 0x1f, some 21, .even, .even, 0x1⟩,
   ⟨"RSQ", 0x1e, some 21, .null, .null, 0x1⟩,
   ⟨"RSO", 0x1f, some 21, .null, .null, 0x80001⟩,
   ⟨"RX", 0x1f, none, .rx, .rx, 0x1⟩,
   ⟨"ARX", 0x1f, none, .arx, .arx, 0x1⟩,
   ⟨"RY", 0x1f, none, .ry, .ry, 0x1⟩,
   ⟨"ARY", 0x1f, none, .ary, .ary, 0x1⟩,
   ⟨"SCLSCI8", 0xffffffff, none, .sci8, .sci8, 0x0⟩,
   ⟨"SCLSCI8N", 0xffffffff, none, .sci8n, .sci8n, 0x10800⟩,
   ⟨"SE_SD", 0xf, some 8, .null, .null, 0x2000⟩,
   ⟨"SE_SDH", 0x1e, some 7, .null, .null, 0x2000⟩,
   ⟨"SE_SDW", 0x3c, some 6, .null, .null, 0x2000⟩,
   ⟨"SH", 0x1f, some 11, .null, .null, 0x0⟩]

/-- Entries 100 to 149 of powerpc_operands_qt, ppc-opc.c:2235-2457. -/
def operands2 : List Operand :=
  [⟨"EVUIMM_LT8", 0x1f, some 11, .evuimmLt8, .evuimmLt8, 0x0⟩,
   ⟨"EVUIMM_LT16", 0x1f, some 11, .evuimmLt16, .evuimmLt16, 0x0⟩,
   ⟨"HTM_SI", 0x1f, some 11, .null, .null, 0x800⟩,
   ⟨"SH6", 0x3f, none, .sh6, .sh6, 0x0⟩,
   ⟨"SHO", 0x1f, some 11, .null, .null, 0x80000⟩,
   ⟨"SI", 0xffff, some 0, .null, .null, 0x800⟩,
   ⟨"SISIGNOPT", 0xffff, some 0, .null, .null, 0x1800⟩,
   ⟨"SI8", 0xff, some 0, .null, .null, 0x800⟩,
   ⟨"SPR", 0x3ff, some 11, .spr, .spr, 0x80⟩,
   ⟨"SPRBAT", 0x7, none, .sprbat, .sprbat, 0x80⟩,
   ⟨"SPRGQR", 0x7, some 16, .null, .null, 0x100⟩,
   ⟨"SPRG", 0x1f, some 16, .sprg, .sprg, 0x80⟩,
   ⟨"SR", 0xf, some 16, .null, .null, 0x0⟩,
   ⟨"STRM", 0x3, some 21, .null, .null, 0x0⟩,
   ⟨"ESYNC", 0xf, some 16, .esync, .esync, 0x80000⟩,
   ⟨"SV", 0x3fff, some 2, .null, .null, 0x0⟩,
   ⟨"TBR", 0x3ff, some 11, .tbr, .tbr, 0x80080⟩,
   ⟨"TO", 0x1f, some 21, .null, .null, 0x0⟩,
   ⟨"UI", 0xffff, some 0, .null, .null, 0x0⟩,
   ⟨"UISIGNOPT", 0xffff, some 0, .null, .null, 0x1000⟩,
   ⟨"UI5", 0x1f, some 4, .null, .null, 0x0⟩,
   ⟨"OIMM5", 0x1f, some 4, .oimm, .oimm, 0x20000⟩,
   ⟨"UI7", 0x7f, some 4, .null, .null, 0x0⟩,
   ⟨"VA", 0x1f, some 16, .null, .null, 0x8⟩,
   ⟨"VB", 0x1f, some 11, .null, .null, 0x8⟩,
   ⟨"VC", 0x1f, some 6, .null, .null, 0x8⟩,
   ⟨"VD", 0x1f, some 21, .null, .null, 0x8⟩,
   ⟨"SIMM", 0x1f, some 16, .null, .null, 0x800⟩,
   ⟨"UIMM", 0x1f, some 16, .null, .null, 0x0⟩,
   ⟨"UIMM3", 0x7, some 16, .null, .null, 0x0⟩,
   ⟨"UIM6", 0x3f, some 16, .null, .null, 0x0⟩,
   ⟨"SIX", 0xf, some 11, .null, .null, 0x0⟩,
   ⟨"PS", 0x1, some 9, .null, .null, 0x0⟩,
   ⟨"SHB", 0xf, some 6, .null, .null, 0x0⟩,
   ⟨"EVUIMM_1", 0x1f, some 11, .null, .null, 0x2000⟩,
   ⟨"EVUIMM_1_EX0", 0x1f, some 11, .evuimm1Ex0, .evuimm1Ex0, 0x2000⟩,
   ⟨"EVUIMM_2", 0x3e, some 10, .null, .null, 0x2000⟩,
   ⟨"EVUIMM_2_EX0", 0x3e, some 10, .evuimm2Ex0, .evuimm2Ex0, 0x2000⟩,
   ⟨"EVUIMM_4", 0x7c, some 9, .null, .null, 0x2000⟩,
   ⟨"EVUIMM_4_EX0", 0x7c, some 9, .evuimm4Ex0, .evuimm4Ex0, 0x2000⟩,
   ⟨"EVUIMM_8", 0xf8, some 8, .null, .null, 0x2000⟩,
   ⟨"EVUIMM_8_EX0", 0xf8, some 8, .evuimm8Ex0, .evuimm8Ex0, 0x2000⟩,
   ⟨"WS", 0x7, some 11, .null, .null, 0x0⟩,
   ⟨"PSWM", 0x1, some 10, .null, .null, 0x0⟩,
   ⟨"PSQ", 0x7, some 12, .null, .null, 0x100⟩,
   ⟨"PSQM", 0x7, some 7, .null, .null, 0x100⟩,
   ⟨"PSD", 0xfff, some 0, .null, .null, 0x2800⟩,
   ⟨"A_L", 0x1, some 16, .null, .null, 0x80000⟩,
   ⟨"RMC", 0x3, some 9, .null, .null, 0x0⟩,
   ⟨"R", 0x1, some 16, .null, .null, 0x0⟩]

/-- Entries 150 to 184 of powerpc_operands_qt, ppc-opc.c:2460-2602. -/
def operands3 : List Operand :=
  [⟨"RIC", 0x3, some 18, .null, .null, 0x80000⟩,
   ⟨"PRS", 0x1, some 17, .null, .null, 0x80000⟩,
   ⟨"SP", 0x3, some 19, .null, .null, 0x0⟩,
   ⟨"S", 0x1, some 20, .null, .null, 0x0⟩,
   ⟨"SXL", 0x1, some 11, .sxl, .sxl, 0x80000⟩,
   ⟨"SH16", 0x3f, some 10, .null, .null, 0x0⟩,
   ⟨"EH", 0x1, some 0, .null, .null, 0x80000⟩,
   ⟨"XFL_L", 0x1, some 25, .null, .null, 0x80000⟩,
   ⟨"FCRT", 0x1f, some 21, .null, .null, 0x1000000⟩,
   ⟨"FSL", 0x1f, some 11, .null, .null, 0x800000⟩,
   ⟨"URT", 0x1f, some 21, .null, .null, 0x2000000⟩,
   ⟨"URA", 0x1f, some 16, .null, .null, 0x2000000⟩,
   ⟨"URB", 0x1f, some 11, .null, .null, 0x2000000⟩,
   ⟨"URC", 0x1f, some 6, .null, .null, 0x2000000⟩,
   ⟨"VLESIMM", 0xffff, none, .vlesi, .vlesi, 0x1800⟩,
   ⟨"VLENSIMM", 0xffff, none, .vlensi, .vlensi, 0x11800⟩,
   ⟨"VLEUIMM", 0xffff, none, .vleui, .vleui, 0x0⟩,
   ⟨"VLEUIMML", 0xffff, none, .vleil, .vleil, 0x0⟩,
   ⟨"XS6", 0x3f, none, .xt6, .xt6, 0x10⟩,
   ⟨"XSQ6", 0x3f, none, .xtq6, .xtq6, 0x10⟩,
   ⟨"XA6", 0x3f, none, .xa6, .xa6, 0x10⟩,
   ⟨"XB6", 0x3f, none, .xb6, .xb6, 0x10⟩,
   ⟨"XAB6", 0x3f, none, .xab6, .xab6, 0x10⟩,
   ⟨"XC6", 0x3f, none, .xc6, .xc6, 0x10⟩,
   ⟨"DM", 0x3, some 8, .null, .null, 0x0⟩,
   ⟨"DMEX", 0x3, some 8, .dm, .dm, 0x0⟩,
   ⟨"UIM", 0x3, some 16, .null, .null, 0x0⟩,
   ⟨"ERAT_T", 0x7, some 21, .null, .null, 0x0⟩,
   ⟨"IH", 0x7, some 21, .null, .null, 0x80000⟩,
   ⟨"IMM8", 0xff, some 11, .null, .null, 0x1000⟩,
   ⟨"VX_OFF", 0x3, some 0, .offLsp, .offLsp, 0x0⟩,
   ⟨"VX_OFF_SPE2", 0x7, some 0, .offSpe2, .offSpe2, 0x0⟩,
   ⟨"BBB", 0x7, some 13, .null, .null, 0x0⟩,
   ⟨"DDD", 0x7, none, .ddd, .ddd, 0x0⟩,
   ⟨"HH", 0x3, some 13, .null, .null, 0x0⟩]

/-- powerpc_operands_qt, ppc-opc.c:1726-2602, in the order of the table. -/
def operands : List Operand := operands0 ++ operands1 ++ operands2 ++ operands3

end Opc
