import Verif.Htm.PropsHalt
import Verif.Htm.Convert
import Verif.Dis.Verbose
/-!
The model run on the dumps in `htm/tests/dumps` of the project, whose listings by `htmdecoder` and `qtdis -v` are in
`htm/tests/disasms`.  These are tests of the model, not proofs of properties.

The listings agree for 01, 05, 06, 10 and 11.  For the others the listings of the project do not fit the code at this commit, as far as the model
tells: in 02 and 03 a walk ends at the start of a page of 2^30 bytes and is not taken for the address in that page
(htm.c:466, 480 compare for equality), so that the page numbers and sizes of the expected listing are missing; 04, 07, 08 and 09 end
with the assertion of xlate.c:941 (`C102_hypervisor_refuted` is 08).
-/
namespace Htm.Conformance

/-- What `qtdis -v` prints for the converted dump: address, word, second word, whether there are remarks, and the remarks. -/
def listing (l : List (BitVec 64)) : Option (List (Dis.Line × Bool × List Dis.Remark)) :=
  match convert {} false (dumpOf l) false 0 0 with
  | .file f => some ((Dis.list { bytes := f, beyond := fun _ => 0 }).shown.map fun x => (Dis.line x, Dis.marked x, Dis.remarks x))
  | _ => none

def dump01 : List (BitVec 64) :=
    [0x000000001abcdf00, 0x1e00301ffffd0000, 0x2e00301ffe000000, 0x1c00000001e50300, 0x1800301ffffe03f8,
    0x3e00301ffe000000, 0x1c00000001e50000, 0x1800007fffff0000, 0xb800000000000000, 0x0100000000000000,
    0x000000003abcdf00, 0xc000000000ea0780, 0x0000000ea0000000, 0x7f8438002abcdf54]

/-- `disasms/01.dis`: `c000000000ea07d4 cmpw cr7,r4,r7`. -/
example : listing dump01 = some
    [(⟨0xc000000000ea07d4, 0x7f843800, none⟩, false, [])] := by
  decide +kernel

def dump05 : List (BitVec 64) :=
    [0x000000139abcdf00, 0x1000000041a005e8, 0xb200000020f10000, 0x0100000000000000, 0x000000003abcdf00,
    0xc00000000000da00, 0x000000000d000000, 0x4c1e00a4aabcdf08, 0xb0c0000000000000]

/-- `disasms/05.dis`: `c00000000000da08 rfscv # NODE 0x00 TERM NODE 0x00 TERM CODE 0x08`. -/
example : listing dump05 = some
    [(⟨0xc00000000000da08, 0x4c0000a4, none⟩, true, [.node 0, .term 0 8])] := by
  decide +kernel

def dump06 : List (BitVec 64) :=
    [0x000000001abcdf00, 0x1e00301ffffd0000, 0x2e00301ffe000000, 0x1c00000001e50300, 0x1800301ffffe03f8,
    0x3e00301ffe000000, 0x1c00000001e50000, 0x1800007fffff0000, 0xb800000000000000, 0x0100000000000000,
    0x000000003abcdf00, 0xc000000000010900, 0x0000000010000000, 0x4c1e0024aabcdf00, 0xb0c0000000000000]

/-- `disasms/06.dis`: `c000000000010900 rfid # NODE 0x00 TERM NODE 0x00 TERM CODE 0x08`. -/
example : listing dump06 = some
    [(⟨0xc000000000010900, 0x4c000024, none⟩, true, [.node 0, .term 0 8])] := by
  decide +kernel

def dump10 : List (BitVec 64) :=
    [0x000000003abcdf00, 0xc000000000ed8d80, 0x0000000ed8000000, 0x7c3f48402abcdf34, 0xb8c0000000000000]

/-- `disasms/10.dis`: `c000000000ed8db4 cmpld r31,r9`. -/
example : listing dump10 = some
    [(⟨0xc000000000ed8db4, 0x7c3f4840, none⟩, false, [])] := by
  decide +kernel

def dump11 : List (BitVec 64) :=
    [0x000000003abcdf00, 0xc000000000081580, 0x0000000081000000, 0x7cc01b242abcdf7b, 0xb0c0000000000000,
    0x0000000010000000, 0x000aa229f547dc80]

/-- `disasms/11.dis`: `c0000000000815f8 slbmte r6,r3`. -/
example : listing dump11 = some
    [(⟨0xc0000000000815f8, 0x7cc01b24, none⟩, false, [])] := by
  decide +kernel

def dump02 : List (BitVec 64) :=
    [0x000000001abcdf00, 0x1e00301ffffd0000, 0x2e00301ffe000000, 0x1c00000001e50300, 0x1800301ffffe03f8,
    0x3e00301ffe000000, 0x1c00000001e50000, 0x1800007fffff0000, 0xb800000000000000, 0x0100000000000000,
    0x000000003abcdf00, 0xc000000000ea2e00, 0x0000000ea2000000, 0x800000001abcdf00, 0x1c00000001e50000,
    0x1800007fffff0ff8, 0xb800007fc0000000, 0x0100000000000000, 0xebed00302abcdf4d, 0xb8c0000000000000,
    0xc000007ffffef2b0, 0x0003fffff7800000]

/-- `disasms/02.dis` has `DATA RPN 0x000001ff DATA PAGE SIZE 30` in addition. -/
example : listing dump02 = some
    [(⟨0xc000000000ea2e4c, 0xebed0030, none⟩, true, [.dataAddr 0xc000007ffffef2b0])] := by
  decide +kernel

def dump03 : List (BitVec 64) :=
    [0x000000001abcdf00, 0x1e00301ffffd0000, 0x2e00301ffe000000, 0x1c00000001e50300, 0x1800301ffffe03f8,
    0x3e00301ffe000000, 0x1c00000001e50000, 0x1800007fffff0000, 0xb800000000000000, 0x0100000000000000,
    0x000000003abcdf00, 0xc000000000ea0800, 0x0000000ea0000000, 0x03a481fcaabcdf0c, 0xb8c0000000000000,
    0x000000003abcdf00, 0xc000000000ea0780, 0x0000000ea0000000, 0x392900012abcdf70, 0xb8c0000000000000]

/-- `disasms/03.dis` has `INSN RPN 0x00000000 INSN PAGE SIZE 30` in addition. -/
example : listing dump03 = some
    [(⟨0xc000000000ea080c, 0x4bffffe4, none⟩, true, [.node 0, .term 0 8]), (⟨0xc000000000ea07f0, 0x39290001, none⟩, false, [])] := by
  decide +kernel

end Htm.Conformance
