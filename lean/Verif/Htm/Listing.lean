import Verif.Htm.Decode
import Verif.Ptracer.AsciiLog
/-!
The listing of `htmdecode -d` and `htmdecode -D`: htm/htmdecoder.c:27-157 `print_record` (line numbers are of that file).  The messages
of the decoder itself, about records it does not understand, are not part of it.
-/
namespace Htm

/-- `%d` and `%i` of a 32-bit number. -/
def fmtI (n : BitVec 32) : List Char := if n.toNat < 2 ^ 31 then Nat.toDigits 10 n.toNat else '-' :: Nat.toDigits 10 (2 ^ 32 - n.toNat)

/-- 62-81 `print_record_time`, by the indicator (htm.c:301-320). -/
def timeText (i e c : BitVec 32) : List Char :=
  if i = 0x80 then "cycles = ".toList ++ fmtI e
  else if i = 0x90 then "markers dropped".toList
  else if i = 0xA0 then "record dropped counter overflow, counter= ".toList ++ fmtI c
  else if i = 0xB0 then "elapsed time overflow".toList
  else if i = 0x88 then "CResp record dropped".toList
  else if i = 0x84 then "trigger dropped".toList
  else if i = 0x82 then "trace full asserted".toList
  else []

/-- 27-81: the functions for the stamps. -/
def stampText : Stamp → List Char
  | .record c => "REC  ".toList ++ "counter = ".toList ++ fmtI c
  | .complete e => "END  ".toList ++ "cycles = ".toList ++ fmtI e
  | .pause e => "PAUSE".toList ++ "cycles = ".toList ++ fmtI e
  | .mark g c u i d => "MARK ".toList ++ "group = ".toList ++ fmtI g ++ ", chip = ".toList ++ fmtI c ++ ", unit = ".toList ++ fmtI u ++
      ", marker = ".toList ++ fmtI i ++ ", set = ".toList ++ (if d then ['1'] else ['0'])
  | .sync => "SYNC ".toList
  | .time i e c => "TIME ".toList ++ timeText i e c

/-- 83-99 `print_record_insn`. -/
def insnText (r : Qt.Record) : List Char :=
  "INSN ".toList ++ " iea:".toList ++ Ptr.Log.fmtPad 16 r.insnAddr.toNat ++ " op:".toList ++ Ptr.Log.fmtPad 8 r.insn.toNat ++
    (if r.insnRaValid then " ira:".toList ++ Ptr.Log.fmtPad 16 r.insnRa.toNat else []) ++
    (if r.insnPageShiftValid then " ipgsize:".toList ++ fmtI (BitVec.ofNat 32 r.insnPageShift) else []) ++
    (if r.dataAddrValid then " dea:".toList ++ Ptr.Log.fmtPad 16 r.dataAddr.toNat else []) ++
    (if r.dataRaValid then " dra:".toList ++ Ptr.Log.fmtPad 16 r.dataRa.toNat else []) ++
    (if r.dataPageShiftValid then " dpgsize:".toList ++ fmtI (BitVec.ofNat 32 r.dataPageShift) else [])

/-- 106-157 `print_record`: `-D` sets `debug`, `-d` sets `detail`. -/
def listLine (debug detail : Bool) : Ev → List Char
  | .stamp s => if debug then stampText s ++ ['\n'] else []
  | .insn r => if debug || detail then insnText r ++ ['\n'] else []
  | .count _ => []
  | .cycles _ => []
  | .ea _ => []
  | .inst _ _ => []
  | .tlb _ => []

/-- What is printed while a dump is decoded. -/
def listing (debug detail : Bool) (out : List Ev) : List Char := out.flatMap (listLine debug detail)

/-- 305-316: the listing of a dump.  If the decoder ends the program, it breaks off. -/
def listed (junk : Qt.Record) (debug detail : Bool) (eof : Bool) (bytes : List (BitVec 8)) (failing : Bool) (fill phantom : BitVec 64) : Option (List Char) :=
  match decode { fn := true, private_ := true, junk := junk } eof bytes failing fill phantom with
  | .ok (_, r) => some (listing debug detail r.out)
  | .error _ => none

end Htm
