import Verif.Htm.Source
/-!
Specification of the stamps of a trace, by the numbers that the records are.
-/
namespace Htm

/-- The record `v` is the stamp `s`. -/
inductive Says : BitVec 64 → Stamp → Prop where
  | record {v : BitVec 64} (counter low : Nat) (hc : counter < 2 ^ 8) (hl : low < 2 ^ 32)
      (h : v.toNat = 0xACEFF0 * 2 ^ 40 + counter * 2 ^ 32 + low) : Says v (.record (BitVec.ofNat 32 counter))
  | complete {v : BitVec 64} (mid elapsed : Nat) (hm : mid < 2 ^ 12) (he : elapsed < 2 ^ 28)
      (h : v.toNat = 0xACEFF1 * 2 ^ 40 + mid * 2 ^ 28 + elapsed) : Says v (.complete (BitVec.ofNat 32 elapsed))
  | pause {v : BitVec 64} (mid elapsed : Nat) (hm : mid < 2 ^ 12) (he : elapsed < 2 ^ 28)
      (h : v.toNat = 0xACEFF2 * 2 ^ 40 + mid * 2 ^ 28 + elapsed) : Says v (.pause (BitVec.ofNat 32 elapsed))
  | mark {v : BitVec 64} (group chip unit info : Nat) (dropped : Bool) (hg : group < 2 ^ 4) (hc : chip < 2 ^ 3) (hu : unit < 2 ^ 10)
      (hi : info < 2 ^ 12)
      (h : v.toNat = 0xACEFF3 * 2 ^ 40 + group * 2 ^ 36 + chip * 2 ^ 33 + unit * 2 ^ 23 + info * 2 ^ 11 + dropped.toNat) :
      Says v (.mark (BitVec.ofNat 32 group) (BitVec.ofNat 32 chip) (BitVec.ofNat 32 unit) (BitVec.ofNat 32 info) dropped)
  | sync {v : BitVec 64} (low : Nat) (hl : low < 2 ^ 40) (h : v.toNat = 0xACEFF4 * 2 ^ 40 + low) : Says v .sync
  /-- The indicator 0x80 is for a time, 0xA0 for a number of lost records. -/
  | time {v : BitVec 64} (indicator counter elapsed : Nat) (h1 : 0x80 ≤ indicator) (h2 : indicator < 2 ^ 8) (hc : counter < 2 ^ 8)
      (he : elapsed < 2 ^ 28)
      (h : v.toNat = 0xACEFF * 2 ^ 44 + indicator * 2 ^ 36 + counter * 2 ^ 28 + elapsed) :
      Says v (.time (BitVec.ofNat 32 indicator) (if indicator = 0x80 then BitVec.ofNat 32 elapsed else 0)
        (if indicator = 0xA0 then BitVec.ofNat 32 counter else 0))

/-- The stamps among these records, in order. -/
inductive Reported : List (BitVec 64) → List Stamp → Prop where
  | nil : Reported [] []
  | stamp {v : BitVec 64} {s : Stamp} {l : List (BitVec 64)} {ss : List Stamp} (h : Says v s) (hl : Reported l ss) : Reported (v :: l) (s :: ss)
  | other {v : BitVec 64} {l : List (BitVec 64)} {ss : List Stamp} (h : ∀ s, ¬ Says v s) (hl : Reported l ss) : Reported (v :: l) ss

/-- A marker with something in the bits 53 to 62, which are reserved. -/
def Unfit (v : BitVec 64) : Prop := v.toNat / 2 ^ 40 = 0xACEFF3 ∧ v.toNat / 2 % 2 ^ 10 ≠ 0

/-- The stamps that were handed to the callback. -/
def stamps (l : List Ev) : List Stamp := l.filterMap fun
  | .stamp s => some s
  | _ => none

/-- What was added to the number of cycles. -/
def cycles (l : List Ev) : List (BitVec 32) := l.filterMap fun
  | .cycles n => some n
  | _ => none

/-- How often a counter was incremented. -/
def counted (k : Counter) (l : List Ev) : Nat := l.countP fun
  | .count c => c = k
  | _ => false

/-- The cycles of a stamp. -/
def Stamp.cycles : Stamp → Option (BitVec 32)
  | .time i e _ => if i = 0x80 then some e else none
  | _ => none

def Stamp.isTime : Stamp → Bool
  | .time .. => true
  | _ => false

end Htm
