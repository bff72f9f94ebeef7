import Verif.Qt.Show
import Verif.Qt.SpecShow
import Verif.Qt.PropsRoundTrip
import Verif.Bbv.VerboseLemmas

/-! # The lists of test1 and test2 (C126) -/
namespace Show
open Qt Qt.Spec BbvText Bbv

theorem hex_read (n : Nat) : ShowSpec.hex (Show.hex n) = some n := by
  unfold ShowSpec.hex Show.hex
  rw [if_pos ⟨hex_ne n, List.all_eq_true.2 fun c hc => (hex_all n c hc).1⟩, hex_value]

theorem dec_read (n : Nat) : ShowSpec.dec (Show.dec n) = some n := by
  unfold ShowSpec.dec Show.dec
  rw [if_pos ⟨digits_ne n, List.all_eq_true.2 fun c hc => digits_all n c hc⟩, digits_value]

theorem zeros_value (k : Nat) (l : List Char) : hexValue (List.replicate k '0' ++ l) = hexValue l := by
  unfold hexValue
  rw [List.foldl_append]
  congr 1
  induction k with
  | zero => rfl
  | succ k ih => rw [List.replicate_succ, List.foldl_cons]; exact ih

theorem hex8_read (n : Nat) : ShowSpec.hex (hex8 n) = some n := by
  unfold ShowSpec.hex hex8 Show.hex
  rw [if_pos, zeros_value, hex_value]
  refine ⟨fun h => hex_ne n (List.append_eq_nil_iff.1 h).2, List.all_eq_true.2 fun c hc => ?_⟩
  rcases List.mem_append.1 hc with h | h
  · rw [List.eq_of_mem_replicate h]; decide
  · exact (hex_all n c h).1

theorem hex8_length {n : Nat} (hn : n < 2 ^ 32) : (hex8 n).length = 8 := by
  have h : (Show.hex n).length ≤ 8 := (Nat.length_toDigits_le_iff (by decide) (by decide)).2 hn
  unfold hex8
  rw [List.length_append, List.length_replicate]
  omega

theorem hexDigit_other (c : Char) (h : (hexDigit c).isSome = true) : c ≠ ' ' ∧ c ≠ '\n' := by
  constructor <;> (rintro rfl; exact absurd h (by decide))

theorem hex_inner (n : Nat) : ∀ c ∈ Show.hex n, c ≠ ' ' ∧ c ≠ '\n' := fun c hc => hexDigit_other c (hex_all n c hc).1

theorem dec_inner (n : Nat) : ∀ c ∈ Show.dec n, c ≠ ' ' ∧ c ≠ '\n' := by
  intro c hc
  have h := digits_all n c hc
  constructor <;> (rintro rfl; exact absurd h (by decide))

theorem hex8_inner (n : Nat) : ∀ c ∈ hex8 n, c ≠ ' ' ∧ c ≠ '\n' := by
  intro c hc
  rcases List.mem_append.1 hc with h | h
  · rw [List.eq_of_mem_replicate h]; decide
  · exact hex_inner n c h

theorem words_inner (r : Record) : ∀ w ∈ words r, ∀ c ∈ w, c ≠ ' ' ∧ c ≠ '\n' := by
  intro w hw
  simp only [words, List.mem_cons, List.not_mem_nil, or_false] at hw
  rcases hw with rfl | rfl | rfl | rfl | rfl | rfl | rfl | rfl | rfl | rfl <;> first | exact hex_inner _ | exact dec_inner _

theorem intercalate_blank : ∀ (w : List Char) (ws : List (List Char)), List.intercalate [' '] (w :: ws) ++ [' '] = ((w :: ws).map (· ++ [' '])).flatten
  | w, [] => by simp [List.intercalate]
  | w, v :: ws => by
    have h := intercalate_blank v ws
    rw [List.map_cons, List.flatten_cons, ← h]
    simp [List.intercalate]

theorem split_words : ∀ ws : List (List Char), (∀ w ∈ ws, ∀ c ∈ w, c ≠ ' ') → split ' ' [] ((ws.map (· ++ [' '])).flatten) = ws
  | [], _ => rfl
  | w :: ws, h => by
    rw [List.map_cons, List.flatten_cons, List.append_assoc, List.singleton_append, split_line _ (h w List.mem_cons_self),
      split_words ws fun x hx => h x (List.mem_cons_of_mem _ hx)]

/-- What a line of test2 tells about a record. -/
def rowOf (r : Record) : ShowSpec.Row :=
  ⟨r.insn.toNat, r.insnAddr.toNat, r.insnRa.toNat, r.insnPageShift, r.dataAddr.toNat, r.dataRa.toNat, r.dataPageShift, r.branch.toNat, r.conditionalBranch.toNat,
    r.branchTaken.toNat⟩

theorem row_read (r : Record) : ShowSpec.row (List.intercalate [' '] (words r)) = some (rowOf r) := by
  have h : split ' ' [] (List.intercalate [' '] (words r) ++ [' ']) = words r := by
    have hw := split_words (words r) fun w hw c hc => (words_inner r w hw c hc).1
    exact (congrArg (split ' ' []) (intercalate_blank _ _)).trans hw
  unfold ShowSpec.row
  rw [h]
  simp only [words, hex_read, dec_read]
  rfl

theorem intercalate_inner : ∀ ws : List (List Char), (∀ w ∈ ws, ∀ c ∈ w, c ≠ '\n') → ∀ c ∈ List.intercalate [' '] ws, c ≠ '\n' := by
  intro ws h c hc
  cases ws with
  | nil => simp [List.intercalate] at hc
  | cons w ws =>
    have hc' : c ∈ List.intercalate [' '] (w :: ws) ++ [' '] := List.mem_append_left _ hc
    rw [intercalate_blank] at hc'
    obtain ⟨l, hl, hcl⟩ := List.mem_flatten.1 hc'
    obtain ⟨x, hx, rfl⟩ := List.mem_map.1 hl
    rcases List.mem_append.1 hcl with h1 | h1
    · exact h x hx c h1
    · rw [List.mem_singleton] at h1
      subst h1
      decide

theorem show_lines {line : Record → List Char} {f : Record → List Char} (hf : ∀ r, line r = f r ++ ['\n']) (hn : ∀ r, ∀ c ∈ f r, c ≠ '\n') (rs : List Record) :
    split '\n' [] ((rs.map line).flatten) = rs.map f := by
  have h := split_unlines (rs.map f) (by
    intro l hl
    obtain ⟨r, -, rfl⟩ := List.mem_map.1 hl
    exact hn r)
  rw [← h]
  unfold unlines
  rw [List.map_map]
  congr 2
  exact List.map_congr_left fun r _ => hf r

theorem rows_text (rs : List Record) : ShowSpec.rows ((rs.map line2).flatten) = some (rs.map rowOf) := by
  unfold ShowSpec.rows
  rw [show_lines (line := line2) (f := fun r => List.intercalate [' '] (words r)) (fun _ => rfl) fun r => intercalate_inner _ fun w hw c hc => (words_inner r w hw c hc).2]
  exact every_map _ _ _ rs fun r _ => row_read r

theorem insns_text (rs : List Record) : ShowSpec.insns ((rs.map line1).flatten) = some (rs.map fun r => r.insn.toNat) := by
  unfold ShowSpec.insns
  rw [show_lines (line := line1) (f := fun r => '0' :: 'x' :: hex8 r.insn.toNat) (fun _ => rfl)]
  · refine every_map _ _ _ rs fun r _ => ?_
    exact (if_pos (hex8_length r.insn.isLt)).trans (hex8_read _)
  · intro r c hc
    rcases List.mem_cons.1 hc with rfl | hc
    · decide
    · rcases List.mem_cons.1 hc with rfl | hc
      · decide
      · exact (hex8_inner _ c hc).2

/-- **C126**: for every trace that is opened, both programs print one line for each record that is read, in order, and the lines tell the fields.  They end with status 0
exactly if reading ends regularly. -/
theorem C126_lists (m : Mem) (ho : ∃ c, readerInit m = .ok () c) :
    ShowSpec.insns (show_ line1 m).1 = some ((readTrace m false false).records.map fun r => r.insn.toNat) ∧
    ShowSpec.rows (show_ line2 m).1 = some ((readTrace m false false).records.map rowOf) ∧
    ((show_ line1 m).2 = .done ↔ (readTrace m false false).final = .fail) ∧ ((show_ line2 m).2 = .done ↔ (readTrace m false false).final = .fail) := by
  obtain ⟨c, hc⟩ := ho
  unfold show_
  rw [hc]
  refine ⟨insns_text _, rows_text _, ?_, ?_⟩ <;> (dsimp only; split <;> simp [*])

/-- A file that is no trace: nothing is printed, and the status is not 0. -/
theorem C126_refused (m : Mem) (line : Record → List Char) (ho : ¬ ∃ c, readerInit m = .ok () c) : (show_ line m).1 = [] ∧ (show_ line m).2 ≠ .done := by
  unfold show_
  cases h : readerInit m with
  | ok u c => exact absurd ⟨c, h⟩ ho
  | err e c => cases e <;> exact ⟨rfl, by simp⟩

/-- With the trace writer: test1 prints the words of the instructions that were written, test2 also their addresses. -/
theorem C126_written (magic : BitVec 32) {rs : List Record} (h : Expressible rs) (hne : rs ≠ []) : ∃ file, writeTrace magic rs = .ok file ∧ ∀ beyond,
    (show_ line1 { bytes := file, beyond := beyond }).2 = .done ∧
    ShowSpec.insns (show_ line1 { bytes := file, beyond := beyond }).1 = some (rs.map fun r => r.insn.toNat) ∧
    ∃ l, ShowSpec.rows (show_ line2 { bytes := file, beyond := beyond }).1 = some l ∧ l.map (fun x => (x.insn, x.addr)) = rs.map fun r => (r.insn.toNat, r.insnAddr.toNat) := by
  obtain ⟨file, e, H⟩ := C01_roundtrip_partial magic rs h
  refine ⟨file, e, fun beyond => ?_⟩
  obtain ⟨h1, h2⟩ := H beyond
  have ho : ∃ c, readerInit { bytes := file, beyond := beyond } = .ok () c := by
    cases hr : readerInit { bytes := file, beyond := beyond } with
    | ok u c => exact ⟨c, rfl⟩
    | err x c =>
      exfalso
      apply hne
      have h0 : (readTrace { bytes := file, beyond := beyond } false false).records = [] := by unfold readTrace; rw [hr]
      rw [h0] at h1
      exact List.map_eq_nil_iff.1 h1.symm
  obtain ⟨k1, k2, k3, -⟩ := C126_lists _ ho
  refine ⟨k3.2 h2, ?_, _, k2, ?_⟩
  · rw [k1]
    have := congrArg (List.map fun p : BitVec 32 × BitVec 64 => p.1.toNat) h1
    rw [List.map_map, List.map_map] at this
    exact congrArg some this
  · have := congrArg (List.map fun p : BitVec 32 × BitVec 64 => (p.1.toNat, p.2.toNat)) h1
    rw [List.map_map, List.map_map] at this
    rw [List.map_map]
    exact this

/-- Two instructions, the first with data. -/
def few : List Record := [{ insn := 0x60000000, insnAddr := 0x10000000, dataAddrValid := true, dataAddr := 0xacebabe }, { insn := 0x38600001, insnAddr := 0x10000004 }]

example : few.map line1 = ["0x60000000\n".toList, "0x38600001\n".toList] ∧
    few.map line2 = ["60000000 10000000 0 0 acebabe 0 0 0 0 0\n".toList, "38600001 10000004 0 0 0 0 0 0 0 0\n".toList] := by decide +kernel

example := C126_written 0 (rs := few) (by simp [few, Expressible, RecordOk, ShiftsOk, WalkOk, Chain, NoWalk, StepOk, Jumps]) (by simp [few])

end Show
