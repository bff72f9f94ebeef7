import Verif.Htm.SpecSummary
import Verif.Qt.Types
/-!
What the listing of `htmdecode -d` and `htmdecode -D` has to say of a dump.
-/
namespace Htm.Spec

/-! ### Reading the listing -/

/-- Split at blanks. -/
def blanks : Text → List Text
  | [] => [[]]
  | c :: l =>
    if c = ' ' then [] :: blanks l
    else match blanks l with
      | [] => [[c]]
      | x :: r => (c :: x) :: r

def words (l : Text) : List Text := (blanks l).filter fun w => decide (w ≠ [])

/-- A word like `ira:0000000000001000`. -/
def keyed (w : Text) : Text × Text := (w.takeWhile (· ≠ ':'), (w.dropWhile (· ≠ ':')).drop 1)

/-- What a line says of an instruction. -/
structure Shown where
  addr : Option Text
  word : Option Text
  real : Option Text
  size : Option Text
  data : Option Text
  dataReal : Option Text
  dataSize : Option Text
deriving DecidableEq

/-- The first five columns of a line say what it is about. -/
def shown (line : Text) : Option Shown :=
  if line.take 5 = "INSN ".toList then
    let of (k : String) : Option Text := (((words (line.drop 5)).map keyed).find? fun p => decide (p.1 = k.toList)).map (·.2)
    some ⟨of "iea", of "op", of "ira", of "ipgsize", of "dea", of "dra", of "dpgsize"⟩
  else none

/-- A line about something else. -/
def remark (line : Text) : Option (Text × List Text) :=
  if line.take 5 = "INSN ".toList then none else some (line.take 5, words (line.drop 5))

/-! ### What it should say -/

def decimal (n : Nat) : Text := Nat.toDigits 10 n

/-- Eight hexadecimal digits. -/
def hex8 (n : Nat) : Text := List.replicate (8 - (Nat.toDigits 16 n).length) '0' ++ Nat.toDigits 16 n

/-- An instruction: the address and the word; real address, page size, address of the data, their real address and page size as far as they are
known. -/
def showOf (r : Qt.Record) : Shown :=
  ⟨some (hex16 r.insnAddr.toNat), some (hex8 r.insn.toNat), if r.insnRaValid then some (hex16 r.insnRa.toNat) else none,
    if r.insnPageShiftValid then some (decimal r.insnPageShift) else none, if r.dataAddrValid then some (hex16 r.dataAddr.toNat) else none,
    if r.dataRaValid then some (hex16 r.dataRa.toNat) else none, if r.dataPageShiftValid then some (decimal r.dataPageShift) else none⟩

def texts (l : List String) : List Text := l.map String.toList

/-- The reason for a time stamp without a time. -/
def reason (indicator counter : Nat) : List Text :=
  if indicator = 0x90 then texts ["markers", "dropped"]
  else if indicator = 0xA0 then texts ["record", "dropped", "counter", "overflow,", "counter="] ++ [decimal counter]
  else if indicator = 0xB0 then texts ["elapsed", "time", "overflow"]
  else if indicator = 0x88 then texts ["CResp", "record", "dropped"]
  else if indicator = 0x84 then texts ["trigger", "dropped"]
  else if indicator = 0x82 then texts ["trace", "full", "asserted"]
  else []

/-- A stamp. -/
def remarkOf : Stamp → Text × List Text
  | .record c => ("REC  ".toList, texts ["counter", "="] ++ [decimal c.toNat])
  | .complete e => ("END  ".toList, texts ["cycles", "="] ++ [decimal e.toNat])
  | .pause e => ("PAUSE".toList, texts ["cycles", "="] ++ [decimal e.toNat])
  | .mark g c u i d => ("MARK ".toList, texts ["group", "="] ++ [decimal g.toNat ++ [',']] ++ texts ["chip", "="] ++ [decimal c.toNat ++ [',']] ++
      texts ["unit", "="] ++ [decimal u.toNat ++ [',']] ++ texts ["marker", "="] ++ [decimal i.toNat ++ [',']] ++ texts ["set", "="] ++ [decimal d.toNat])
  | .sync => ("SYNC ".toList, [])
  | .time i e c => ("TIME ".toList, if i.toNat = 0x80 then texts ["cycles", "="] ++ [decimal e.toNat] else reason i.toNat c.toNat)

end Htm.Spec
