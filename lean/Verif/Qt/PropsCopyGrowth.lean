import Verif.Qt.PropsCopy
import Verif.Qt.PropsWriter
import Verif.Qt.PropsReader
/-
Property C113: what the copy of a trace has when the output file cannot be grown.
-/
namespace Qt
open Spec

/-- Growing fails and nothing is written, or it does not matter. -/
theorem writeRecord_grow (w : WState) (r : Record) (g : Bool) :
    (g = false ∧ writeRecord w r g = .ok (false, w)) ∨ writeRecord w r g = writeRecord w r true := by
  cases g with
  | true => exact .inr rfl
  | false =>
    unfold writeRecord
    by_cases h : w.out.length + BUFFER > w.mapped
    · exact .inl ⟨rfl, by simp [h]⟩
    · exact .inr (by simp [h])

theorem copyLoop_grow (m : Mem) (grow : Nat → Bool) : ∀ fuel n s w w' file,
    (readLoop m fuel s).final = .fail → writeAll w (readLoop m fuel s).records = .ok w' → writerClose w' true = .ok file →
    ((∃ k, k < (readLoop m fuel s).records.length ∧ grow (n + k) = false) ∧ copyLoop m grow fuel n s w = .error) ∨
    copyLoop m grow fuel n s w = .done file ∨
    (grow (n + (readLoop m fuel s).records.length) = false ∧ copyLoop m grow fuel n s w = .done w'.out) := by
  have close : ∀ w file n, writerClose w true = .ok file →
      copyEnd w (grow n) = .done file ∨ (grow n = false ∧ copyEnd w (grow n) = .done w.out) := by
    intro w file n h
    unfold copyEnd
    rcases writeRecord_grow w { Record.zero with insnAddr := w.prev.insnAddr + 4 } (grow n) with ⟨hg, e⟩ | e
    · refine .inr ⟨hg, ?_⟩
      unfold writerClose
      rw [e]
      rfl
    · refine .inl ?_
      unfold writerClose at h ⊢
      rw [e, h]
  intro fuel
  induction fuel with
  | zero =>
    intro n s w w' file _ h hc
    obtain rfl : w = w' := WRes.ok.inj h
    rcases close w file n hc with e | e
    · exact .inr (.inl e)
    · exact .inr (.inr e)
  | succ fuel ih =>
    intro n s w w' file hf h hc
    unfold copyLoop
    unfold readLoop at hf h ⊢
    cases hn : nextRecord m s with
    | err e c =>
      rw [hn] at hf h
      replace hf : e = .fail := hf
      subst hf
      obtain rfl : w = w' := WRes.ok.inj h
      rcases close w file n hc with e | e
      · exact .inr (.inl e)
      · exact .inr (.inr e)
    | ok u c =>
      rw [hn] at hf h
      dsimp only at hf h ⊢
      rcases writeRecord_grow w c.rcd (grow n) with ⟨hg, e⟩ | e
      · refine .inl ⟨⟨0, by simp, hg⟩, ?_⟩
        rw [e]
      · rw [e]
        unfold writeAll at h
        obtain ⟨x, ex, hx⟩ := writeRecord_true w c.rcd
        rw [ex] at h ⊢
        cases x with
        | abort => cases h
        | ub => cases h
        | ok p =>
          obtain ⟨b, w1⟩ := p
          obtain rfl := hx b w1 rfl
          rcases ih (n + 1) c.st w1 w' file hf h hc with ⟨⟨k, hk, hg⟩, e⟩ | e | ⟨hg, e⟩
          · exact .inl ⟨⟨k + 1, by simpa using hk, by rw [show n + (k + 1) = n + 1 + k by omega]; exact hg⟩, e⟩
          · exact .inr (.inl e)
          · refine .inr (.inr ⟨?_, e⟩)
            rw [List.length_cons, show ∀ l, n + (l + 1) = n + 1 + l by omega]
            exact hg

/-- The bytes stored before closing read back as all records but the last. -/
theorem unclosed_reads (magic : BitVec 32) (rs : List Record) (h : Expressible rs) (w : WState)
    (hw : writeAll (writerOpen magic) rs = .ok w) (beyond : Nat → Byte) :
    (readTrace { bytes := w.out, beyond := beyond } false false).records.map (fun r => (r.insn, r.insnAddr)) =
      rs.dropLast.map (fun r => (r.insn, r.insnAddr)) := by
  cases rs with
  | nil =>
    obtain rfl := WRes.ok.inj hw
    have := C09_record_count { bytes := (writerOpen magic).out, beyond := beyond } false false
    have h0 : ({ bytes := (writerOpen magic).out, beyond := beyond } : Mem).bytes.length / 6 = 0 := by simp [writerOpen]
    rw [h0] at this
    rw [List.length_eq_zero_iff.mp (Nat.le_zero.mp this)]
    rfl
  | cons r rs =>
    obtain ⟨out, x, _, ⟨t, et, ho⟩, _, H⟩ := readTrace_open magic r rs h
    obtain rfl : t = w := WRes.ok.inj (et.symm.trans hw)
    obtain ⟨fuel, _, HH⟩ := H beyond []
    rw [List.append_nil] at HH
    rw [ho, HH]
    obtain ⟨i1, _, _⟩ := sim_stream rs r (startState magic r x) rfl
    have : (readLoop { bytes := out, beyond := beyond } (fuel + 1) ((sim (startState magic r x) r rs).2.at out.length)).records = [] := by
      unfold readLoop
      cases hn : nextRecord { bytes := out, beyond := beyond } ((sim (startState magic r x) r rs).2.at out.length) with
      | err e c => rfl
      | ok u c =>
        obtain ⟨p1, p2⟩ := C09_progress _ _ _ hn
        have : ((sim (startState magic r x) r rs).2.at out.length).pos = out.length := rfl
        rw [this] at p1
        simp only at p2
        omega
    simp only [this, List.append_nil]
    exact i1

/-- C113. Whenever growing the output file fails: the program ends with an error, or normally. If it ends normally the file is the
complete copy, or growing failed in closing, and the file has all records but the last. -/
theorem C113_growth_partial (m : Mem) (grow : Nat → Bool) (ho : ∃ c, readerInit m = .ok () c)
    (hf : (readTrace m false false).final = .fail) (h : Copyable (readTrace m false false).records) :
    let rs := (readTrace m false false).records
    ((∃ k, k < rs.length ∧ grow k = false) ∧ copyTrace m grow = .error) ∨
    ∃ file, copyTrace m grow = .done file ∧
      (copyTrace m (fun _ => true) = .done file ∨
        grow rs.length = false ∧ ∀ beyond,
          (readTrace { bytes := file, beyond := beyond } false false).records.map (fun r => (r.insn, r.insnAddr)) =
            rs.dropLast.map (fun r => (r.insn, r.insnAddr))) := by
  have hx := expressible_of_copyable m h
  obtain ⟨file, e1, _⟩ := C01_roundtrip_partial 0 _ hx
  have hall := copyTrace_eq m ho hf file e1
  obtain ⟨w', ew, ec⟩ := WRes.bind_ok e1
  have hu := unclosed_reads 0 _ hx w' ew
  obtain ⟨c, hc⟩ := ho
  have e : readTrace m false false = readLoop m (m.bytes.length + 1) { c.st with wantBranch := false, wantTlbie := false } := by
    unfold readTrace; rw [hc]
  have ewant : { c.st with wantBranch := false, wantTlbie := false } = c.st := by
    have h := Comm.parseHeader m { st := .initial, rcd := .zero } (false, false)
    have h0 : ({ st := .initial, rcd := .zero } : Ctx).want (false, false) = { st := .initial, rcd := .zero } := rfl
    rw [h0] at h
    replace hc : parseHeader m { st := .initial, rcd := .zero } = .ok () c := hc
    rw [hc] at h
    exact (congrArg Ctx.st (Out.ok.inj h).2).symm
  rw [ewant] at e
  have eg : copyTrace m grow = copyLoop m grow (m.bytes.length + 1) 0 c.st (writerOpen 0) := by
    unfold copyTrace; rw [hc]
  have k := copyLoop_grow m grow (m.bytes.length + 1) 0 c.st (writerOpen 0) w' file (by rw [← e]; exact hf) (by rw [← e]; exact ew) ec
  rw [← e, ← eg] at k
  simp only [Nat.zero_add] at k
  rcases k with k | k | ⟨k1, k2⟩
  · exact .inl k
  · exact .inr ⟨file, k, .inl hall⟩
  · exact .inr ⟨w'.out, k2, .inr ⟨k1, hu⟩⟩

end Qt
