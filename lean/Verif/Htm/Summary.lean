import Verif.Htm.Decode
import Verif.Ptracer.AsciiLog
/-!
The summary of `htmdecode -d`: htm/htmdecoder.c:159-208 `print_stat`, the structure `htm_decode_stat` (htm/htm.h:76-122), and how
`htm_decode` fills it (htm/htm.c:1969-1974, 1987-1989).
-/
namespace Htm

/-- One increment of a counter; the counters are `unsigned int`. -/
def bump (k : Counter) (n : BitVec 32) : Ev → BitVec 32
  | .count c => if c = k then n + 1 else n
  | _ => n

/-- htm.c:1969-1974: the counters start at zero; 1987-1989: the caller gets their last values. -/
def Rd.stat (r : Rd) (k : Counter) : BitVec 32 := r.out.foldl (bump k) 0

/-- htm.c:306: what is added to `total_cycles`. -/
def addCycles (n : BitVec 32) : Ev → BitVec 32
  | .cycles m => n + m
  | _ => n

def Rd.cycleStat (r : Rd) : BitVec 32 := r.out.foldl addCycles 0

/-- `%u`. -/
def fmtU (n : BitVec 32) : List Char := Nat.toDigits 10 n.toNat

/-- htmdecoder.c:161-206: labels and numbers.  The counters `pipeline_cpi`, `chtm_cpi`, `unique_esid_with_irpn`, `unique_esid_without_irpn`,
`total_instructions_with_esid` and `total_instructions_with_vsid` are never changed; 177-179 print the constant 0. -/
def statRows (r : Rd) : List (String × List Char) :=
  [("RAW Checksum", "0x".toList ++ Ptr.Log.fmtPad 16 r.checksum.toNat),
   ("Total Records Scanned", fmtU r.scanned),
   ("Total Records Processed", fmtU (r.stat .recordsProcessed)),
   ("Total Instructions Scanned", fmtU (r.stat .instructionsScanned)),
   ("Total Instructions Processed", fmtU (r.stat .instructionsProcessed)),
   ("Total TimeStamps Scanned", fmtU (r.stat .timestampsScanned)),
   ("Total TimeStamps Processed", fmtU (r.stat .timestampsProcessed)),
   ("Total Cycles for Processed Instructions", fmtU r.cycleStat),
   ("Total Interrupts Processed", fmtU (r.stat .interrupts)),
   ("Total Branches taken after Non branches", fmtU (r.stat .branchesAfterNonbranches)),
   ("Pipeline CPI", fmtU 0),
   ("CHTM CPI", fmtU 0),
   ("Unique ESIDs with IRPNs", fmtU 0),
   ("Unique ESIDs without IRPNs", fmtU 0),
   ("Instructions with IRAs", fmtU (r.stat .withIra)),
   ("Instructions without IRAs", fmtU (r.stat .withoutIra)),
   ("SLBMTE Instructions", fmtU 0),
   ("SLBIA Instructions", fmtU 0),
   ("RFID Instructions", fmtU 0),
   ("Total Instructions With I-VSIDs", fmtU (r.stat .withIVsid)),
   ("Total Instructions Without I-VSIDs", fmtU (r.stat .withoutIVsid)),
   ("Total Instructions With D-VSIDs", fmtU (r.stat .withDVsid)),
   ("Total Instructions Without D-VSIDs", fmtU (r.stat .withoutDVsid)),
   ("Total Instruction Records with ESID record", fmtU 0),
   ("Total Instruction Records with VSID record", fmtU 0),
   ("Total VSID records with Segment Size 0", fmtU (r.stat (.segment 0))),
   ("Total VSID records with Segment Size 1", fmtU (r.stat (.segment 1))),
   ("Total VSID records with Segment Size 2", fmtU (r.stat (.segment 2))),
   ("Total VSID records with Segment Size 3", fmtU (r.stat (.segment 3))),
   ("Total Instructions With I-XLATEs", fmtU (r.stat .withIXlate)),
   ("Total Instructions missing I-XLATEs ERAT", fmtU (r.stat .withoutIXlateErat)),
   ("Total Instructions missing I-XLATEs PWC", fmtU (r.stat .withoutIXlatePwc)),
   ("Total Instructions missing I-XLATEs without IEARA", fmtU (r.stat .withoutIXlateIeara)),
   ("Total Instructions With D-XLATEs", fmtU (r.stat .withDXlate)),
   ("Total Instructions Without D-XLATEs ERAT", fmtU (r.stat .withoutDXlateErat)),
   ("Total Instructions Without D-XLATEs PWC", fmtU (r.stat .withoutDXlatePwc)),
   ("4K data pages", fmtU (r.stat (.dataPages 12))),
   ("64K data pages", fmtU (r.stat (.dataPages 16))),
   ("2M data pages", fmtU (r.stat (.dataPages 21))),
   ("16M data pages", fmtU (r.stat (.dataPages 24))),
   ("1G data pages", fmtU (r.stat (.dataPages 30))),
   ("4K instruction pages", fmtU (r.stat (.insnPages 12))),
   ("64K instruction pages", fmtU (r.stat (.insnPages 16))),
   ("2M instruction pages", fmtU (r.stat (.insnPages 21))),
   ("16M instruction pages", fmtU (r.stat (.insnPages 24))),
   ("1G instruction pages", fmtU (r.stat (.insnPages 30)))]

/-- `"%48s : …\n"`. -/
def statLine (p : String × List Char) : List Char :=
  List.replicate (48 - p.1.toList.length) ' ' ++ p.1.toList ++ [' ', ':', ' '] ++ p.2 ++ ['\n']

/-- 159-208 `print_stat`.  What `tlb_dump` (207) prints after the numbers is a parameter (see Report.lean). -/
def printStat (r : Rd) (tlb : List Char) : List Char := (statRows r).flatMap statLine ++ tlb

/-- htmdecoder.c:306-321: what is printed of the dump after decoding, with `-d`.  If the decoder ends the program, there is no summary. -/
def printed (c : Conf) (eof : Bool) (bytes : List (BitVec 8)) (failing : Bool) (fill phantom : BitVec 64) (tlb : List Char) : Option (List Char) :=
  match decode c eof bytes failing fill phantom with
  | .ok (_, r) => some (printStat r tlb)
  | .error _ => none

end Htm
