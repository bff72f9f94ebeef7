import Verif.Bbv.Sweep
/-!
Model of the text that `qtrace-bbv` prints.
-/
namespace Bbv

/-- `printf("%ld", v)` for an unsigned word: it is shown as a signed number. -/
def ld (v : BitVec 64) : List Char := if v.toInt < 0 then '-' :: Nat.toDigits 10 (-v.toInt).toNat else Nat.toDigits 10 v.toInt.toNat

/-- pam.c:254. -/
def Line.text (l : Line) : List Char := ld l.first ++ '-' :: (ld l.last ++ '\t' :: (ld (BitVec.ofNat 64 l.count) ++ ['\n']))

/-- qtrace-bbv.c:137, 150, 152, 154 and pam.c:230, 253-254, without `-v`. -/
def Report.text (r : Report) : List Char :=
  "Testing K=".toList ++ (ld (BitVec.ofNat 64 r.k) ++ '\n' :: ("Cost: ".toList ++ (ld r.cost ++ '\n' :: ("Medoids:".toList ++ '\n' ::
    ((r.lines.map Line.text).flatten ++ ['\n'])))))

/-- What is printed for the reports one after the other. -/
def text (rs : List Report) : List Char := (rs.map Report.text).flatten

/-- qtrace-bbv.c:185-194 without `-v`: what is printed for `clusterings`.  If `pam_initialise` fails, the program ends (lines 139-143) after the first
line for this number of medoids. -/
def printed (k : BitVec 32) (r : List Report × Ending) : List Char :=
  if r.2 = .done then text r.1
  else text r.1 ++ ("Testing K=".toList ++ (ld (if k ≠ 0 then k.setWidth 64 else BitVec.ofNat 64 (1 + r.1.length)) ++ ['\n']))

/-- matrix.c:145. -/
def printEntry (m : Matrix) (row : BitVec 64) (out : List Char) (col : BitVec 64) : Except Stop (List Char) :=
  match m.load row col with
  | .error e => .error e
  | .ok v => .ok (out ++ (ld v ++ ['\t']))

/-- matrix.c:144-147. -/
def printRow (m : Matrix) (out : List Char) (row : BitVec 64) : Except Stop (List Char) :=
  match loop m.cols out (printEntry m row) with
  | .error e => .error e
  | .ok out => .ok (out ++ ['\n'])

/-- matrix.c:139-149 `matrix_print`. -/
def Matrix.print (m : Matrix) : Except Stop (List Char) := loop m.rows [] (printRow m)

end Bbv
