/-!
# Effective addresses of loads and stores in the live tracer

Model of `ptracer/ppc_storage.c`: given an instruction word and the general purpose registers, decide
whether the instruction accesses storage and compute the address and the size of the access.

`unsigned long` is 64 bits, `uint32_t` and `int` 32 bits (the tracer builds for 64-bit Power only).
-/

namespace Ptr

/-- `PPC_FIELD`, ptracer/ppc_storage.c:15-16: `(value >> (32 - from - len)) & ((1 << len) - 1)`. -/
def field (w : BitVec 32) (frm len : Nat) : BitVec 32 :=
  (w >>> (32 - frm - len)) &&& ((1#32 <<< len) - 1#32)

/-- `PPC_SEXT`, ptracer/ppc_storage.c:17-20: mask to `bs` bits, flip the sign bit, subtract it. -/
def sext (v : BitVec 64) (bs : Nat) : BitVec 64 :=
  ((v &&& ((1#64 <<< bs) - 1#64)) ^^^ (1#64 <<< (bs - 1))) - (1#64 <<< (bs - 1))

/-- `PPC_OPC`, ptracer/ppc_storage.c:22. -/
def opc (w : BitVec 32) : Nat := (field w 0 6).toNat
/-- `PPC_RT`, ptracer/ppc_storage.c:23. -/
def rt (w : BitVec 32) : Nat := (field w 6 5).toNat
/-- `PPC_RA`, ptracer/ppc_storage.c:24. -/
def ra (w : BitVec 32) : Nat := (field w 11 5).toNat
/-- `PPC_RB`, ptracer/ppc_storage.c:25. -/
def rb (w : BitVec 32) : Nat := (field w 16 5).toNat
/-- `PPC_D`, ptracer/ppc_storage.c:27. -/
def dD (w : BitVec 32) : BitVec 64 := sext ((field w 16 16).setWidth 64) 16
/-- `PPC_DS`, ptracer/ppc_storage.c:28. -/
def dDS (w : BitVec 32) : BitVec 64 := sext ((field w 16 14).setWidth 64) 14
/-- `PPC_DQ`, ptracer/ppc_storage.c:29. -/
def dDQ (w : BitVec 32) : BitVec 64 := sext ((field w 16 12).setWidth 64) 12

/-- The thirty-two general purpose registers handed over by `ptrace`. An index outside 0–31 would read
outside the array; `Ptr.ra_lt` and `Ptr.rb_lt` show that this never happens. -/
abbrev Gprs := Nat → BitVec 64

/-- What a call of `is_storage_insn` does. -/
inductive Outcome where
  /-- returns false -/
  | no
  /-- `assert(0)` -/
  | abort
  /-- returns true with `*addr` and `*size` set -/
  | yes (addr size : BitVec 64)
  deriving DecidableEq, Repr

/-- `if (PPC_RA(insn) != 0) *addr = gprs[PPC_RA(insn)];` where `*addr` is 0 beforehand
(ptracer/ppc_storage.c:34-35, 53-54, 64-65, 75-76, 392). -/
def base (w : BitVec 32) (g : Gprs) : BitVec 64 := if ra w ≠ 0 then g (ra w) else 0

/-- `handle_xform_masked`, ptracer/ppc_storage.c:31-42. -/
def xformMasked (w : BitVec 32) (g : Gprs) (mask : BitVec 64) : BitVec 64 := (base w g + g (rb w)) &&& mask

/-- `handle_xform`, ptracer/ppc_storage.c:44-48. -/
def xform (w : BitVec 32) (g : Gprs) : BitVec 64 := xformMasked w g (-1#64)

/-- `handle_dform`, ptracer/ppc_storage.c:50-59. -/
def dform (w : BitVec 32) (g : Gprs) : BitVec 64 := base w g + dD w

/-- `handle_dqform`, ptracer/ppc_storage.c:61-70. -/
def dqform (w : BitVec 32) (g : Gprs) : BitVec 64 := base w g + (dDQ w <<< 4)

/-- `handle_dsform`, ptracer/ppc_storage.c:72-81. -/
def dsform (w : BitVec 32) (g : Gprs) : BitVec 64 := base w g + (dDS w <<< 2)

/-- `~m` for an `int` constant `m`, converted to `unsigned long` (sign extension), as passed for `mask`
at ptracer/ppc_storage.c:97, 102, 109, 253. -/
def notInt (m : BitVec 32) : BitVec 64 := (~~~ m).signExtend 64

/-- The statement bodies behind the `case` labels of the five `switch` statements. -/
inductive Body where
  | no
  | abort
  /-- `*size = n; return handle_xform(...)` -/
  | x (n : Nat)
  /-- `*size = n; return handle_xform_masked(..., ~m, ...)` -/
  | xm (n : Nat) (m : BitVec 32)
  /-- length in the top byte of RB, ptracer/ppc_storage.c:111-123 -/
  | vl
  /-- `*size = n; return handle_dform(...)` -/
  | d (n : Nat)
  /-- `*size = n; return handle_dsform(...)` -/
  | ds (n : Nat)
  /-- `*size = n; return handle_dqform(...)` -/
  | dq (n : Nat)
  /-- load or store multiple, ptracer/ppc_storage.c:452-455 -/
  | mult
  deriving DecidableEq, Repr

/-- Execute a statement body. -/
def Body.run (w : BitVec 32) (g : Gprs) : Body → Outcome
  | .no => .no
  | .abort => .abort
  | .x n => .yes (xform w g) (BitVec.ofNat 64 n)
  | .xm n m => .yes (xformMasked w g (notInt m)) (BitVec.ofNat 64 n)
  | .vl => .yes (base w g) (if (g (rb w) >>> 56).toNat > 16 then 16#64 else g (rb w) >>> 56)
  | .d n => .yes (dform w g) (BitVec.ofNat 64 n)
  | .ds n => .yes (dsform w g) (BitVec.ofNat 64 n)
  | .dq n => .yes (dqform w g) (BitVec.ofNat 64 n)
  | .mult => .yes (dform w g) (BitVec.ofNat 64 (4 * (32 - rt w)))

/-- The `switch (subopc)` of `extended_31`, ptracer/ppc_storage.c:83-281, label by label. -/
def extended31 (sub : Nat) : Body :=
  if [7, 135].contains sub then .x 1
  else if [39, 167].contains sub then .xm 2 0x1#32
  else if [71, 199].contains sub then .xm 4 0x3#32
  else if [103, 231, 359, 487].contains sub then .xm 16 0xf#32
  else if [269, 301, 397, 429].contains sub then .vl
  else if [781, 909].contains sub then .x 1
  else if [813, 941].contains sub then .x 2
  else if [12, 76, 140, 364, 524, 652].contains sub then .x 4
  else if [332, 588, 716].contains sub then .x 8
  else if [268, 396, 780, 908, 812, 940, 844, 972, 876, 1004].contains sub then .x 16
  else if [52, 694, 87, 119, 215, 247, 853, 981].contains sub then .x 1
  else if [116, 726, 279, 311, 343, 375, 407, 439, 790, 918, 821, 949].contains sub then .x 2
  else if [20, 150, 23, 151, 55, 341, 373, 183, 534, 662, 789, 917].contains sub then .x 4
  else if [84, 214, 21, 149, 53, 181, 532, 660, 885, 1013, 309].contains sub then .x 8
  else if [276, 182].contains sub then .x 16
  else if [535, 567, 663, 695, 855, 887, 983].contains sub then .x 4
  else if [599, 631, 727, 759].contains sub then .x 8
  else if [791, 919].contains sub then .x 16
  else if [22, 54, 86, 246, 278, 982, 1014].contains sub then .xm 128 127#32
  else if [533, 661, 597, 725].contains sub then .abort
  else if [582, 710].contains sub then .abort
  else if [614, 742].contains sub then .abort
  else if [774, 902].contains sub then .x 128
  else .no

/-- The `switch (subopc)` of `extended_57`, ptracer/ppc_storage.c:283-303. -/
def extended57 : Nat → Body
  | 0 => .ds 16
  | 2 => .ds 8
  | 3 => .ds 4
  | _ => .no

/-- The `switch (subopc)` of `extended_58`, ptracer/ppc_storage.c:305-322. -/
def extended58 : Nat → Body
  | 0 => .ds 8
  | 1 => .ds 8
  | 2 => .ds 4
  | _ => .no

/-- The `switch (subopc)` of `extended_61`, ptracer/ppc_storage.c:324-353. -/
def extended61 : Nat → Body
  | 0 => .ds 16
  | 4 => .ds 16
  | 1 => .dq 16
  | 5 => .dq 16
  | 2 => .ds 8
  | 6 => .ds 8
  | 3 => .ds 4
  | 7 => .ds 4
  | _ => .no

/-- The `switch (subopc)` of `extended_62`, ptracer/ppc_storage.c:355-372. -/
def extended62 : Nat → Body
  | 0 => .ds 8
  | 1 => .ds 8
  | 2 => .ds 16
  | _ => .no

/-- The `switch (opcode)` of `is_storage_insn`, ptracer/ppc_storage.c:395-456. `s31`, `s2` and `s3` are
`PPC_FIELD(insn, 21, 10)`, `PPC_FIELD(insn, 30, 2)` and `PPC_FIELD(insn, 29, 3)`. -/
def select (op s31 s2 s3 : Nat) : Body :=
  if op = 31 then extended31 s31
  else if op = 57 then extended57 s2
  else if op = 58 then extended58 s2
  else if op = 61 then extended61 s3
  else if op = 62 then extended62 s2
  else if [32, 33, 36, 37].contains op then .d 4
  else if [34, 35, 38, 39].contains op then .d 1
  else if [40, 41, 42, 43, 44, 45].contains op then .d 2
  else if [48, 49, 52, 53].contains op then .d 4
  else if [50, 51, 54, 55].contains op then .d 8
  else if op = 56 then .dq 16
  else if [46, 47].contains op then .mult
  else .no

/-- `is_storage_insn`, ptracer/ppc_storage.c:376-459, called with the registers of the stopped thread. -/
def isStorageInsn (w : BitVec 32) (g : Gprs) : Outcome :=
  (select (opc w) (field w 21 10).toNat (field w 30 2).toNat (field w 29 3).toNat).run w g

/-- `is_storage_insn(insn, NULL, NULL, NULL)` (called at qtbuild/qtbuild.c:166): the address and size are
computed from uninitialised local variables and thrown away, only the returned flag is used; `none` is the
`assert(0)`. -/
def isStorage (w : BitVec 32) : Option Bool :=
  match select (opc w) (field w 21 10).toNat (field w 30 2).toNat (field w 29 3).toNat with
  | .abort => none
  | .no => some false
  | _ => some true

end Ptr
