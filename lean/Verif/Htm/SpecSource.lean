import Verif.Qt.Types
/-!
What there is to read in an HTM trace, and what its checksum is.
-/
namespace Htm

/-- The records of a file: eight bytes each, the most significant one first. -/
def records : List (BitVec 8) → List (BitVec 64)
  | a :: b :: c :: d :: e :: f :: g :: h :: rest => (a ++ b ++ c ++ d ++ e ++ f ++ g ++ h : BitVec 64) :: records rest
  | _ => []

/-- The bytes at the end of a file that do not make up a record. -/
def remainder : List (BitVec 8) → List (BitVec 8)
  | _ :: _ :: _ :: _ :: _ :: _ :: _ :: _ :: rest => remainder rest
  | l => l

/-- A record with the bytes that are left over and bytes of `fill`, which stands for an indeterminate value. -/
def padded (l : List (BitVec 8)) (fill : BitVec 64) : List (BitVec 64) :=
  if remainder l = [] then []
  else
    let k := 64 - 8 * (remainder l).length
    [BitVec.ofNat 64 (((remainder l).foldl (fun n b => n * 256 + b.toNat) 0) * 2 ^ k + fill.toNat % 2 ^ k)]

/-- Everything the decoder is given: the records of the file, a last record with the bytes left over and, at the first end of
file in a process, a record with indeterminate contents. -/
def stream (bytes : List (BitVec 8)) (failing eof : Bool) (fill phantom : BitVec 64) : List (BitVec 64) :=
  records bytes ++ (if failing then [] else padded bytes fill ++ if eof then [] else [phantom])

/-- What a record adds to the checksum: the sum of its halves, in 32 bits. -/
def halves (v : BitVec 64) : Nat := (v.toNat / 2 ^ 32 + v.toNat % 2 ^ 32) % 2 ^ 32

/-- The checksum of a list of records, in 64 bits. -/
def checksum (l : List (BitVec 64)) : BitVec 64 := BitVec.ofNat 64 (l.map halves).sum

end Htm
