import Verif.Htm.PropsGuestSummary
import Verif.Htm.Weigh
/-!
C99 for every dump: the numbers of the summary do not contradict each other.
-/
namespace Htm
open Htm.Spec

theorem counted_cons (k : Counter) (e : Ev) (l : List Ev) : (counted k (e :: l) : Int) = evWeight (fun j => if j = k then 1 else 0) e + counted k l := by
  unfold counted
  rw [List.countP_cons]
  cases e with
  | count c =>
    by_cases h : c = k
    · subst h
      simp [evWeight]; omega
    · simp [evWeight, h]
  | _ => simp [evWeight]

/-- A number of the summary, weighed. -/
theorem weigh_counted (k : Counter) : ∀ l : List Ev, weigh (fun j => if j = k then 1 else 0) l = counted k l
  | [] => rfl
  | e :: l => by rw [weigh_cons, counted_cons, weigh_counted k l]

theorem weigh_add (u v : Counter → Int) : ∀ l : List Ev, weigh (fun j => u j + v j) l = weigh u l + weigh v l
  | [] => rfl
  | e :: l => by
    rw [weigh_cons, weigh_cons, weigh_cons, weigh_add u v l]
    cases e with
    | count c => show u c + v c + _ = (u c + _) + (v c + _); omega
    | _ => show 0 + _ = (0 + _) + (0 + _); omega

theorem weigh_neg (u : Counter → Int) : ∀ l : List Ev, weigh (fun j => - u j) l = - weigh u l
  | [] => rfl
  | e :: l => by
    rw [weigh_cons, weigh_cons, weigh_neg u l]
    cases e with
    | count c => show - u c + _ = - (u c + _); omega
    | _ => show 0 + _ = - (0 + _); omega

/-- One of the counters. -/
def one (k : Counter) : Counter → Int := fun j => if j = k then 1 else 0

/-- Several of them. -/
def several (ks : List Counter) : Counter → Int
  | j => (ks.map fun k => one k j).sum

theorem weigh_some (l : List Ev) : ∀ ks : List Counter, weigh (several ks) l = (ks.map fun k => (counted k l : Int)).sum
  | [] => by
    show weigh (fun _ => 0) l = 0
    induction l with
    | nil => rfl
    | cons e l ih => rw [weigh_cons, ih]; cases e <;> rfl
  | k :: ks => by
    have : several (k :: ks) = fun j => one k j + several ks j := by funext j; simp [several]
    rw [this, weigh_add, weigh_some l ks, List.map_cons, List.sum_cons]
    unfold one
    rw [weigh_counted]

/-- What is counted of `a` is at most what is counted of `b`. -/
theorem at_most {c : Conf} {eof : Bool} {bytes : List (BitVec 8)} {failing : Bool} {fill phantom : BitVec 64} {s : Dec} {r : Rd}
    (h : decode c eof bytes failing fill phantom = .ok (s, r)) (a b : List Counter) (J D I I' D' : Int)
    (hw : Stampless fun j => several a j + - several b j)
    (h1 : 0 ≤ J ∧ (several a .interrupts + - several b .interrupts) ≤ J ∧ (several a .branchesAfterNonbranches + - several b .branchesAfterNonbranches) ≤ J)
    (hd : DataBound (fun j => several a j + - several b j) D) (hi : InsnBound (fun j => several a j + - several b j) I)
    (hd' : DataBound10 (fun j => several a j + - several b j) D') (hi' : InsnBound10 (fun j => several a j + - several b j) I')
    (hs : several a .instructionsScanned + - several b .instructionsScanned ≤ 0)
    (hp : (several a .instructionsScanned + - several b .instructionsScanned) + (several a .instructionsProcessed + - several b .instructionsProcessed) + I + D + J ≤ 0)
    (hp' : (several a .instructionsScanned + - several b .instructionsScanned) + (several a .instructionsProcessed + - several b .instructionsProcessed) + I' + D' ≤ 0) :
    (a.map fun k => (counted k r.out : Int)).sum ≤ (b.map fun k => (counted k r.out : Int)).sum := by
  have := light_decode hw (fun s v => light_insn9 h1.1 h1.2.1 h1.2.2 hd hi hw.records hs hp c s v) (fun n s v => light_insn10 hi' hd' hw.records hs hp' c n s v) h
  rw [weigh_add, weigh_neg, weigh_some, weigh_some] at this
  omega

/-- Counters weighed by hand. -/
macro "weighed" : tactic => `(tactic| (constructor <;> (try intro n) <;> (try intro hn) <;> simp [several, one] <;> (repeat' split) <;> omega))

/-- No more instructions are processed than scanned. -/
theorem processed_scanned {c : Conf} {eof : Bool} {bytes : List (BitVec 8)} {failing : Bool} {fill phantom : BitVec 64} {s : Dec} {r : Rd}
    (h : decode c eof bytes failing fill phantom = .ok (s, r)) :
    counted .instructionsProcessed r.out ≤ counted .instructionsScanned r.out := by
  have := at_most h [.instructionsProcessed] [.instructionsScanned] 0 0 0 0 0 (by constructor <;> simp [several, one]) (by simp [several, one])
      (by weighed) (by weighed) (by weighed) (by weighed) (by simp [several, one]) (by simp [several, one]) (by simp [several, one])
  simp at this; omega

/-- Jumps are of one kind. -/
theorem flow_processed {c : Conf} {eof : Bool} {bytes : List (BitVec 8)} {failing : Bool} {fill phantom : BitVec 64} {s : Dec} {r : Rd}
    (h : decode c eof bytes failing fill phantom = .ok (s, r)) :
    counted .interrupts r.out + counted .branchesAfterNonbranches r.out ≤ counted .instructionsProcessed r.out := by
  have := at_most h [.interrupts, .branchesAfterNonbranches] [.instructionsProcessed] 1 0 0 0 0 (by constructor <;> simp [several, one]) (by simp [several, one])
      (by weighed) (by weighed) (by weighed) (by weighed) (by simp [several, one]) (by simp [several, one]) (by simp [several, one])
  simp at this; omega

/-- One thing is said of an instruction. -/
theorem insn_processed {c : Conf} {eof : Bool} {bytes : List (BitVec 8)} {failing : Bool} {fill phantom : BitVec 64} {s : Dec} {r : Rd}
    (h : decode c eof bytes failing fill phantom = .ok (s, r)) :
    counted .withIra r.out + counted .withoutIra r.out + counted .withIXlate r.out + counted .withoutIXlateErat r.out + counted .withoutIXlatePwc r.out + counted .withoutIXlateIeara r.out ≤ counted .instructionsProcessed r.out := by
  have := at_most h [.withIra, .withoutIra, .withIXlate, .withoutIXlateErat, .withoutIXlatePwc, .withoutIXlateIeara] [.instructionsProcessed] 0 0 1 1 0 (by constructor <;> simp [several, one]) (by simp [several, one])
      (by weighed) (by weighed) (by weighed) (by weighed) (by simp [several, one]) (by simp [several, one]) (by simp [several, one])
  simp at this; omega

/-- One thing is said of its data. -/
theorem data_processed {c : Conf} {eof : Bool} {bytes : List (BitVec 8)} {failing : Bool} {fill phantom : BitVec 64} {s : Dec} {r : Rd}
    (h : decode c eof bytes failing fill phantom = .ok (s, r)) :
    counted .withDVsid r.out + counted .withoutDVsid r.out + counted .withDXlate r.out + counted .withoutDXlateErat r.out + counted .withoutDXlatePwc r.out ≤ counted .instructionsProcessed r.out := by
  have := at_most h [.withDVsid, .withoutDVsid, .withDXlate, .withoutDXlateErat, .withoutDXlatePwc] [.instructionsProcessed] 0 1 0 0 1 (by constructor <;> simp [several, one]) (by simp [several, one])
      (by weighed) (by weighed) (by weighed) (by weighed) (by simp [several, one]) (by simp [several, one]) (by simp [several, one])
  simp at this; omega

/-- Instructions with a real page. -/
theorem vsid_ira {c : Conf} {eof : Bool} {bytes : List (BitVec 8)} {failing : Bool} {fill phantom : BitVec 64} {s : Dec} {r : Rd}
    (h : decode c eof bytes failing fill phantom = .ok (s, r)) :
    counted .withIVsid r.out + counted .withoutIVsid r.out ≤ counted .withIra r.out := by
  have := at_most h [.withIVsid, .withoutIVsid] [.withIra] 0 0 0 0 0 (by constructor <;> simp [several, one]) (by simp [several, one])
      (by weighed) (by weighed) (by weighed) (by weighed) (by simp [several, one]) (by simp [several, one]) (by simp [several, one])
  simp at this; omega

/-- Instructions with a real page. -/
theorem ira_vsid {c : Conf} {eof : Bool} {bytes : List (BitVec 8)} {failing : Bool} {fill phantom : BitVec 64} {s : Dec} {r : Rd}
    (h : decode c eof bytes failing fill phantom = .ok (s, r)) :
    counted .withIra r.out ≤ counted .withIVsid r.out + counted .withoutIVsid r.out := by
  have := at_most h [.withIra] [.withIVsid, .withoutIVsid] 0 0 0 0 0 (by constructor <;> simp [several, one]) (by simp [several, one])
      (by weighed) (by weighed) (by weighed) (by weighed) (by simp [several, one]) (by simp [several, one]) (by simp [several, one])
  simp at this; omega

/-- Segments of data. -/
theorem segment_dvsid {c : Conf} {eof : Bool} {bytes : List (BitVec 8)} {failing : Bool} {fill phantom : BitVec 64} {s : Dec} {r : Rd}
    (h : decode c eof bytes failing fill phantom = .ok (s, r)) :
    counted (.segment 0#32) r.out + counted (.segment 1#32) r.out + counted (.segment 2#32) r.out + counted (.segment 3#32) r.out ≤ counted .withDVsid r.out := by
  have := at_most h [.segment 0#32, .segment 1#32, .segment 2#32, .segment 3#32] [.withDVsid] 0 0 0 0 0 (by constructor <;> simp [several, one]) (by simp [several, one])
      ⟨by decide, fun n hn => by rcases hn with rfl | rfl | rfl | rfl <;> decide, fun n => by simp [several, one], by decide⟩ (by weighed) (by weighed) (by weighed) (by simp [several, one]) (by simp [several, one]) (by simp [several, one])
  simp at this; omega

/-- Segments of data. -/
theorem dvsid_segment {c : Conf} {eof : Bool} {bytes : List (BitVec 8)} {failing : Bool} {fill phantom : BitVec 64} {s : Dec} {r : Rd}
    (h : decode c eof bytes failing fill phantom = .ok (s, r)) :
    counted .withDVsid r.out ≤ counted (.segment 0#32) r.out + counted (.segment 1#32) r.out + counted (.segment 2#32) r.out + counted (.segment 3#32) r.out := by
  have := at_most h [.withDVsid] [.segment 0#32, .segment 1#32, .segment 2#32, .segment 3#32] 0 0 0 0 0 (by constructor <;> simp [several, one]) (by simp [several, one])
      ⟨by decide, fun n hn => by rcases hn with rfl | rfl | rfl | rfl <;> decide, fun n => by simp [several, one], by decide⟩ (by weighed) (by weighed) (by weighed) (by simp [several, one]) (by simp [several, one]) (by simp [several, one])
  simp at this; omega

/-- Pages of instructions. -/
theorem pages_insn {c : Conf} {eof : Bool} {bytes : List (BitVec 8)} {failing : Bool} {fill phantom : BitVec 64} {s : Dec} {r : Rd}
    (h : decode c eof bytes failing fill phantom = .ok (s, r)) :
    counted (.insnPages 12) r.out + counted (.insnPages 16) r.out + counted (.insnPages 21) r.out + counted (.insnPages 24) r.out + counted (.insnPages 30) r.out ≤ counted .withIra r.out + counted .withIXlate r.out + counted .withoutIXlatePwc r.out := by
  have := at_most h [.insnPages 12, .insnPages 16, .insnPages 21, .insnPages 24, .insnPages 30] [.withIra, .withIXlate, .withoutIXlatePwc] 0 0 0 0 0 (by constructor <;> simp [several, one]) (by simp [several, one])
      (by weighed) (by weighed) (by weighed) (by weighed) (by simp [several, one]) (by simp [several, one]) (by simp [several, one])
  simp at this; omega

/-- Pages of data. -/
theorem pages_data {c : Conf} {eof : Bool} {bytes : List (BitVec 8)} {failing : Bool} {fill phantom : BitVec 64} {s : Dec} {r : Rd}
    (h : decode c eof bytes failing fill phantom = .ok (s, r)) :
    counted (.dataPages 12) r.out + counted (.dataPages 16) r.out + counted (.dataPages 21) r.out + counted (.dataPages 24) r.out + counted (.dataPages 30) r.out ≤ counted .withoutDVsid r.out + counted .withDXlate r.out + counted .withoutDXlatePwc r.out := by
  have := at_most h [.dataPages 12, .dataPages 16, .dataPages 21, .dataPages 24, .dataPages 30] [.withoutDVsid, .withDXlate, .withoutDXlatePwc] 0 0 0 0 0 (by constructor <;> simp [several, one]) (by simp [several, one])
      (by weighed) (by weighed) (by weighed) (by weighed) (by simp [several, one]) (by simp [several, one]) (by simp [several, one])
  simp at this; omega

/-- **C99**, any dump: whatever a dump has, if it is decoded, all lines of the summary have numbers that do not contradict each other, and the lines that are
not about what was counted are zero. -/
theorem C99_consistent_partial (c : Conf) (eof : Bool) (bytes : List (BitVec 8)) (failing : Bool) (fill phantom : BitVec 64) (tlb text : List Char)
    (h : printed c eof bytes failing fill phantom tlb = some text) :
    ∃ ss scanned processed x, Reported (stream bytes failing eof fill phantom) ss ∧ Numbers.Consistent scanned processed x ∧
      entries text = recordRows (stream bytes failing eof fill phantom) ss scanned processed ++ instructionRows x := by
  unfold printed at h
  split at h
  · rename_i s r hd
    rcases Option.some.inj h with rfl
    let x : Numbers :=
      { interrupts := counted .interrupts r.out, branches := counted .branchesAfterNonbranches r.out
        withIra := counted .withIra r.out, withoutIra := counted .withoutIra r.out, withIVsid := counted .withIVsid r.out, withoutIVsid := counted .withoutIVsid r.out
        withDVsid := counted .withDVsid r.out, withoutDVsid := counted .withoutDVsid r.out, segments := fun n => counted (.segment (BitVec.ofNat 32 n)) r.out
        withIXlate := counted .withIXlate r.out, withoutIXlateErat := counted .withoutIXlateErat r.out, withoutIXlatePwc := counted .withoutIXlatePwc r.out
        withoutIXlateIeara := counted .withoutIXlateIeara r.out, withDXlate := counted .withDXlate r.out, withoutDXlateErat := counted .withoutDXlateErat r.out
        withoutDXlatePwc := counted .withoutDXlatePwc r.out, insnPages := fun n => counted (.insnPages n) r.out, dataPages := fun n => counted (.dataPages n) r.out }
    obtain ⟨ss, g1, g2⟩ := entries_counted (tlb := tlb) hd (x := x) (fun k => counted k r.out) (fun _ _ => rfl) ⟨rfl, rfl⟩ ⟨rfl, rfl⟩ ⟨rfl, rfl, rfl, rfl⟩
      ⟨rfl, rfl, fun _ _ => rfl⟩ ⟨rfl, rfl, rfl, rfl⟩ ⟨rfl, rfl, rfl, fun _ => rfl⟩ (fun _ => rfl)
    have a := ira_vsid hd
    have b := vsid_ira hd
    have d := segment_dvsid hd
    have e := dvsid_segment hd
    exact ⟨ss, _, _, x, g1, ⟨processed_scanned hd, flow_processed hd, insn_processed hd, data_processed hd, Nat.le_antisymm b a, Nat.le_antisymm d e, pages_insn hd, pages_data hd⟩, g2⟩
  · cases h

/-! ### Examples -/

/-- A dump with segment information, of two instructions. -/
example : said (bytes9 seg9) "Total Instructions With I-VSIDs" = some ['1'] ∧ said (bytes9 seg9) "Total Instructions With D-VSIDs" = some ['1'] ∧
    said (bytes9 seg9) "Total Instructions Without I-VSIDs" = some ['0'] ∧ said (bytes9 seg9) "Instructions with IRAs" = some ['1'] := by
  decide +kernel

end Htm

namespace Htm.Guest
open Htm.Spec

/-- The dump of C73 without the first steps of its walks: those of instructions, or those of data. -/
def cut (n : Nat) (data : Bool) : List Item := exItems.map fun i =>
  if data then { i with data := i.data.map fun a => { a with walk := a.walk.map fun w => { w with steps := w.steps.drop n } } }
  else { i with walk := i.walk.map fun w => { w with steps := w.steps.drop n } }

/-- The values with these labels in the summary of the dump. -/
def saidOf (items : List Item) (labels : List String) : List (Option Text) := labels.map (said ((items.flatMap Item.words).flatMap bytesOf))

/-- **C99**, one dump each: walks of which the first steps are missing, and cannot be found in the caches, are counted as such, and not with the instructions
that had no walk. -/
theorem C99_incomplete_partial :
    saidOf (cut 1 false) ["Total Instructions Processed", "Total Instructions With I-XLATEs", "Total Instructions missing I-XLATEs ERAT",
      "Total Instructions missing I-XLATEs PWC", "Total Instructions missing I-XLATEs without IEARA"] = [some ['2'], some ['0'], some ['0'], some ['1'], some ['1']] ∧
    saidOf (cut 15 true) ["Total Instructions With I-XLATEs", "Total Instructions With D-XLATEs", "Total Instructions Without D-XLATEs ERAT",
      "Total Instructions Without D-XLATEs PWC"] = [some ['2'], some ['0'], some ['1'], some ['1']] := by
  decide +kernel

end Htm.Guest
