import Verif.Qt.Types
/-! Specification vocabulary for the reader properties (C08, C49). -/
namespace Qt.Spec

/-- The byte at index `i` exists and exceeds `cap`. -/
def Over (b : Bytes) (i cap : Nat) : Prop := ∃ v : Byte, b[i]? = some v ∧ cap < v.toNat

/-- Two bytes at `p` that announce page walks too big for the record: more than 4 entries per walk in a section
with at least one walk, or more than 5 walks. -/
def BadWalkCounts (b : Bytes) (p : Nat) : Prop :=
  (Over b p 4 ∧ Over b (p + 1) 0) ∨ Over b (p + 1) 5

/-- Ten (`vsx`) or eight counts at `p` that announce more than 32 gprs, 3 fprs or 4 sprs, in or out. -/
def BadRegCounts (b : Bytes) (p : Nat) (vsx : Bool) : Prop :=
  let d := if vsx then 1 else 0
  Over b p 32 ∨ Over b (p + 1) 3 ∨ Over b (p + 3 + d) 4 ∨
  Over b (p + 4 + d) 32 ∨ Over b (p + 5 + d) 3 ∨ Over b (p + 7 + 2 * d) 4

/-- The bytes at `p` start with `x`. -/
def At (b : Bytes) (p : Nat) (x : Bytes) : Prop := x <+: b.drop p

/-- A layout: bytes with a given value, or bytes that are stepped over. -/
inductive Piece where
  | data (x : Bytes)
  | gap (n : Nat)

def Piece.size : Piece → Nat
  | .data x => x.length
  | .gap n => n

/-- Consecutive pieces, starting at `p`. -/
def Laid (b : Bytes) : List Piece → Nat → Prop
  | [], _ => True
  | .data x :: t, p => At b p x ∧ Laid b t (p + x.length)
  | .gap n :: t, p => Laid b t (p + n)

def layoutSize (l : List Piece) : Nat := (l.map Piece.size).sum

/-- A register with a one-byte number. -/
def reg8 (r : RegInfo) : Bytes := r.index.setWidth 8 :: be64 r.value
/-- A register with a two-byte number. -/
def reg16 (r : RegInfo) : Bytes := be16 r.index ++ be64 r.value

def count (n : Nat) : Byte := BitVec.ofNat 8 n

/-- The register section of a record: the counts (gpr, fpr, vmx, vsx if `vsx`, spr; in, then out), then 9 bytes per
gpr and fpr, 18 per vmx and vsx, 10 per spr, in then out. -/
def regLayout (vsx : Bool) (r : Regs) : List Piece :=
  [ .data ([count r.nrGprsIn, count r.nrFprsIn, count r.nrVmxsIn] ++ (if vsx then [count r.nrVsxsIn] else []) ++
      [count r.nrSprsIn] ++
      [count r.nrGprsOut, count r.nrFprsOut, count r.nrVmxsOut] ++ (if vsx then [count r.nrVsxsOut] else []) ++
      [count r.nrSprsOut]),
    .data (r.gprsIn.flatMap reg8), .data (r.fprsIn.flatMap reg8),
    .gap (18 * r.nrVmxsIn), .gap (18 * r.nrVsxsIn),
    .data (r.sprsIn.flatMap reg16),
    .data (r.gprsOut.flatMap reg8), .data (r.fprsOut.flatMap reg8),
    .gap (18 * r.nrVmxsOut), .gap (18 * r.nrVsxsOut),
    .data (r.sprsOut.flatMap reg16) ]

/-- The counts are bytes, agree with the lists and fit the arrays of the record. -/
structure RegsOk (vsx : Bool) (r : Regs) : Prop where
  gi : r.gprsIn.length = r.nrGprsIn
  fi : r.fprsIn.length = r.nrFprsIn
  si : r.sprsIn.length = r.nrSprsIn
  go : r.gprsOut.length = r.nrGprsOut
  fo : r.fprsOut.length = r.nrFprsOut
  so : r.sprsOut.length = r.nrSprsOut
  caps : r.nrGprsIn ≤ 32 ∧ r.nrFprsIn ≤ 3 ∧ r.nrSprsIn ≤ 4 ∧ r.nrGprsOut ≤ 32 ∧ r.nrFprsOut ≤ 3 ∧ r.nrSprsOut ≤ 4
  vecs : r.nrVmxsIn < 256 ∧ r.nrVsxsIn < 256 ∧ r.nrVmxsOut < 256 ∧ r.nrVsxsOut < 256
  noVsx : vsx = false → r.nrVsxsIn = 0 ∧ r.nrVsxsOut = 0
  index8 : ∀ x ∈ r.gprsIn ++ r.fprsIn ++ r.gprsOut ++ r.fprsOut, x.index.toNat < 256

end Qt.Spec
