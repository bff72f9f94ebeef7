import Verif.Htm.Convert
import Verif.Htm.SatLemmas
import Verif.Htm.PropsInsn
import Verif.Qt.PropsRoundTrip
/-!
C68: converting a dump does not end in the writer.  C69: the trace that is written contains the instructions of the dump.
-/
namespace Htm
open Spec

theorem writeTrace_storable (magic : BitVec 32) : ∀ (rs : List Qt.Record), (∀ r ∈ rs, Storable r) → ∃ file, Qt.writeTrace magic rs = .ok file
  | [], _ => by
    obtain ⟨file, e, _⟩ := Qt.readTrace_empty magic
    exact ⟨file, e⟩
  | r :: rs, h => by
    have hr := (h r List.mem_cons_self).1
    have hrs : ∀ x ∈ rs, Qt.Spec.RecordOk x := fun x hx => (h x (List.mem_cons_of_mem _ hx)).1
    have hlast : ∀ (rs : List Qt.Record) (r : Qt.Record), Qt.Spec.RecordOk r → (∀ x ∈ rs, Qt.Spec.RecordOk x) → Qt.Spec.RecordOk (Qt.lastOf r rs) := by
      intro rs
      induction rs with
      | nil => intro r h _; exact h
      | cons a l ih => intro r _ h; exact ih a (h a (by simp)) (fun x hx => h x (by simp [hx]))
    obtain ⟨w, b0, _, hh, _⟩ := Qt.headerBytes_total (magic := magic) (version := Qt.QTWRITER_VERSION) hr (h r List.mem_cons_self).2
    obtain ⟨b, hb⟩ := Qt.bodyBytes_total rs r hr hrs
    obtain ⟨b', hb'⟩ := Qt.recordBytes_total (hlast rs r hr hrs) (Qt.closer_ok (Qt.lastOf r rs))
    exact ⟨_, Qt.writeTrace_cons hh hb hb'⟩

/-- What is converted. -/
theorem convert_decoded {junk : Qt.Record} {eof failing : Bool} {bytes : List (BitVec 8)} {fill phantom : BitVec 64} {l : List Qt.Record}
    (h : decoded { fn := true, private_ := true, junk := junk } eof bytes failing fill phantom = some l) {file : Qt.Bytes}
    (hf : Qt.writeTrace 0 l = .ok file) : convert junk eof bytes failing fill phantom = .file file := by
  unfold decoded at h
  unfold convert
  cases hd : decode { fn := true, private_ := true, junk := junk } eof bytes failing fill phantom with
  | error e => rw [hd] at h; cases h
  | ok p =>
    rw [hd] at h
    obtain ⟨s, r⟩ := p
    dsimp only
    rw [show instructions r.out = l from Option.some.inj h, hf]

/-- **C68**: whatever the dump is, the writer can store everything that the decoder delivers: no assertion of the writer fails
and no shift is undefined, provided the memory of the record that the decoder does not initialise has no page-table walk in it.  So the
conversion gives a file, or the decoder stops it. -/
theorem C68_stored_partial {junk : Qt.Record} (hq : QuietJunk junk) (eof failing : Bool) (bytes : List (BitVec 8)) (fill phantom : BitVec 64) :
    (∃ file, convert junk eof bytes failing fill phantom = .file file) ∨ ∃ h, convert junk eof bytes failing fill phantom = .decoder h := by
  cases hd : decode { fn := true, private_ := true, junk := junk } eof bytes failing fill phantom with
  | error e =>
    refine Or.inr ⟨e, ?_⟩
    unfold convert
    rw [hd]
  | ok p =>
    have hl : decoded { fn := true, private_ := true, junk := junk } eof bytes failing fill phantom = some (instructions p.2.out) := by
      unfold decoded
      rw [hd]; rfl
    obtain ⟨file, hf⟩ := writeTrace_storable 0 _ (decoded_storable hq hl)
    exact Or.inl ⟨file, convert_decoded hl hf⟩

example : QuietJunk {} := ⟨rfl, rfl, rfl, rfl⟩

/-- What the reader finds in the file: instruction words and addresses. -/
def Converted.contents : Converted → Option (List (BitVec 32 × BitVec 64))
  | .file f => some ((Qt.readTrace { bytes := f, beyond := fun _ => 0 } false false).records.map fun r => (r.insn, r.insnAddr))
  | _ => none

/-- The decoder can stop the conversion: a mark with a reserved bit set. -/
example : ∃ h, convert {} true [0xac, 0xef, 0xf3, 0, 0, 0, 0, 2] false 0 0 = .decoder h := ⟨.assert, by decide +kernel⟩

/-- **C68 is false without the condition**: with other memory in the record, a POWER9 dump of one instruction makes the writer
fail an assertion, or gives a file with a page-table walk that is not in the dump, or with a page size that is not. -/
theorem C68_refuted :
    let dump : List (BitVec 8) := [0x60, 0, 0, 0, 0x0a, 0xbc, 0xde, 0x80]
    convert { radixInsn := { nrPtes := 1, nrWalks := 1 } } true dump false 0 0 = .writerAbort ∧
    (∃ f g, convert {} true dump false 0 0 = .file f ∧ convert { radixInsn := { nrPtes := 2, nrWalks := 2 } } true dump false 0 0 = .file g ∧
      f.length = 30 ∧ g.length = 90) ∧
    ∃ f g, convert {} true dump false 0 0 = .file f ∧ convert { guestInsnPageShiftValid := true, guestInsnPageShift := 255 } true dump false 0 0 = .file g ∧ f ≠ g :=
  ⟨by decide +kernel, ⟨_, _, rfl, rfl, by decide +kernel, by decide +kernel⟩, ⟨_, _, rfl, rfl, by decide +kernel⟩⟩

/-! ### The contents of the file -/

/-- A record of the file stands for the instruction of the dump: its address, the address of its data, the instruction word
where the dump has it, the address of the instruction after it, and whether control went elsewhere than to the next word. -/
structure Reads (o : Qt.Record) (e : Expect) (after : BitVec 64) : Prop where
  addr : o.insnAddr = e.addr
  data : (if o.dataAddrValid then some o.dataAddr else none) = e.data
  word : ∀ w, e.word = some w → o.insn = w
  next : o.nextInsnAddr = after
  taken : o.branchTaken = true ↔ after ≠ e.addr + 4

/-- The address after instruction `i`. -/
def Spec.nextOf (es : List Expect) (i : Nat) (e : Expect) : BitVec 64 :=
  match es[i + 1]? with
  | some n => n.addr
  | none => e.addr + 4

/-- The file has a record for every instruction, in the same order, and nothing else. -/
def Contains (file : Qt.Bytes) (es : List Expect) : Prop := ∀ beyond,
  let R := Qt.readTrace { bytes := file, beyond := beyond } false false
  R.final = .fail ∧ R.records.length = es.length ∧
  ∀ (i : Nat) (e : Expect), es[i]? = some e → ∃ o, R.records[i]? = some o ∧ Reads o e (nextOf es i e)

theorem allShow_length {l : List Qt.Record} {es : List Expect} (h : AllShow l es) : l.length = es.length := by
  induction h with
  | nil => rfl
  | cons _ _ ih => rw [List.length_cons, List.length_cons, ih]

theorem allShow_get {l : List Qt.Record} {es : List Expect} (h : AllShow l es) : ∀ (i : Nat) (e : Expect), es[i]? = some e → ∃ r, l[i]? = some r ∧ Shows r e := by
  induction h with
  | nil => intro i e hi; cases hi
  | @cons r e l m h _ ih =>
    intro i e' hi
    cases i with
    | zero => cases hi; exact ⟨r, rfl, h⟩
    | succ i => exact ih i e' hi

theorem allShow_mem {l : List Qt.Record} {es : List Expect} (h : AllShow l es) : ∀ r ∈ l, ∃ e ∈ es, Shows r e := by
  induction h with
  | nil => intro r hr; cases hr
  | @cons r e l m h _ ih =>
    intro r' hr
    rcases List.mem_cons.1 hr with rfl | hr
    · exact ⟨e, List.mem_cons_self, h⟩
    · obtain ⟨e', he', hs⟩ := ih r' hr
      exact ⟨e', List.mem_cons_of_mem _ he', hs⟩

theorem following_nextOf {l : List Qt.Record} {es : List Expect} (h : AllShow l es) {i : Nat} {r : Qt.Record} {e : Expect} (hr : r.insnAddr = e.addr) :
    Qt.Spec.following l i r = nextOf es i e := by
  unfold Qt.Spec.following nextOf
  have hlen := allShow_length h
  cases he : es[i + 1]? with
  | none =>
    have : l[i + 1]? = none := by
      rw [List.getElem?_eq_none_iff] at he ⊢
      omega
    rw [this]
    dsimp only
    rw [hr]
  | some e' =>
    obtain ⟨r', h1, h2⟩ := allShow_get h _ _ he
    rw [h1]
    exact h2.addr

/-- Writing records that can be written. -/
theorem contains_of {l : List Qt.Record} {es : List Expect} (h : AllShow l es) (hx : Qt.Spec.Expressible l) :
    ∃ file, Qt.writeTrace 0 l = .ok file ∧ Contains file es := by
  obtain ⟨file, e1, h1⟩ := Qt.C01_roundtrip_partial 0 l hx
  obtain ⟨f2, e2, h2⟩ := Qt.C02_data_addresses 0 l hx
  obtain ⟨f3, e3, h3⟩ := Qt.C04_branches 0 l hx
  obtain rfl : file = f2 := Qt.WRes.ok.inj (e1.symm.trans e2)
  obtain rfl : file = f3 := Qt.WRes.ok.inj (e1.symm.trans e3)
  refine ⟨file, e1, fun beyond => ?_⟩
  obtain ⟨a1, a2⟩ := h1 beyond
  refine ⟨a2, ?_, ?_⟩
  · have := congrArg List.length a1
    rw [List.length_map, List.length_map] at this
    rw [this, allShow_length h]
  · intro i e he
    obtain ⟨r, hr, hs⟩ := allShow_get h i e he
    obtain ⟨o, ho, b1, b2⟩ := h2 beyond i r hr
    obtain ⟨o', ho', c1, c2, -, -⟩ := h3 beyond i r hr
    obtain rfl : o = o' := Option.some.inj (ho.symm.trans ho')
    have hi : (o.insn, o.insnAddr) = (r.insn, r.insnAddr) := by
      have := congrArg (fun l => l[i]?) a1
      rw [List.getElem?_map, List.getElem?_map, ho, hr] at this
      exact Option.some.inj this
    obtain ⟨hw, ha⟩ := Prod.mk.inj hi
    refine ⟨o, ho, ⟨ha.trans hs.addr, ?_, fun w hw' => hw.trans (hs.word w hw'), ?_, ?_⟩⟩
    · rw [← hs.data, b1]
      cases hv : r.dataAddrValid with
      | true => rw [if_pos rfl, if_pos rfl, b2 hv]
      | false => rfl
    · rw [c1]; exact following_nextOf h hs.addr
    · rw [c2, following_nextOf h hs.addr, hs.addr]

theorem chain_of_mem {α : Type} {R : α → α → Prop} : ∀ (l : List α), (∀ a ∈ l, ∀ b ∈ l, R a b) → Qt.Spec.Chain R l
  | [], _ => trivial
  | [_], _ => trivial
  | a :: b :: l, h => ⟨h a (by simp) b (by simp), chain_of_mem (b :: l) fun x hx y hy => h x (List.mem_cons_of_mem _ hx) y (List.mem_cons_of_mem _ hy)⟩

theorem expressible_of {l : List Qt.Record} (hs : ∀ r ∈ l, Storable r) (hz : ∀ r ∈ l, r.insn ≠ 0)
    (hw : ∀ a ∈ l, ∀ b ∈ l, b.insnRaValid = true → Qt.Spec.WalksCompatible a.radixData b.radixInsn) : Qt.Spec.Expressible l := by
  refine ⟨fun r hr => (hs r hr).1, chain_of_mem l fun a ha b hb => ⟨fun h0 => absurd h0 (hz b hb), fun _ _ h => hw a ha b hb h⟩, ?_⟩
  intro r hr
  have : r ∈ l := List.mem_of_mem_head? hr
  exact ⟨hz r this, (hs r this).2⟩

/-- An instruction as it was delivered. -/
def delivered (r : Qt.Record) : Expect :=
  { addr := r.insnAddr, data := if r.dataAddrValid then some r.dataAddr else none, word := some r.insn, real := if r.insnRaValid then some r.insnRa else none }

/-- **C69**, whatever the dump: if the format can express the sequence of instructions that the decoder delivers, the file
contains them. -/
theorem C69_partial {junk : Qt.Record} (hq : QuietJunk junk) {eof failing : Bool} {bytes : List (BitVec 8)} {fill phantom : BitVec 64} {l : List Qt.Record}
    (h : decoded { fn := true, private_ := true, junk := junk } eof bytes failing fill phantom = some l) (hc : Qt.Spec.Chain Qt.Spec.StepOk l)
    (h0 : ∀ r, l.head? = some r → r.insn ≠ 0) :
    ∃ file, convert junk eof bytes failing fill phantom = .file file ∧
      Contains file (l.map delivered) := by
  have hs := decoded_storable hq h
  have hshow : ∀ l : List Qt.Record, AllShow l (l.map delivered) := by
    intro l
    induction l with
    | nil => exact .nil
    | cons r l ih => exact .cons ⟨rfl, rfl, fun w hw => Option.some.inj hw, rfl, fun h => by cases h⟩ ih
  obtain ⟨file, h1, h2⟩ := contains_of (hshow l) ⟨fun r hr => (hs r hr).1, hc, fun r hr => ⟨h0 r hr, (hs r (List.mem_of_mem_head? hr)).2⟩⟩
  exact ⟨file, convert_decoded h h1, h2⟩

/-- The instructions of such a dump can be written. -/
theorem expressible10 {junk : Qt.Record} (hq : QuietJunk junk) {eof failing : Bool} {bytes : List (BitVec 8)} {fill phantom : BitVec 64} {items : List Item10}
    {l : List Qt.Record} (hd : decoded { fn := true, private_ := true, junk := junk } eof bytes failing fill phantom = some l)
    (hl : AllShow l (expect10 0 items)) (hz : ∀ e ∈ expect10 0 items, e.nonzero = true) : Qt.Spec.Expressible l := by
  have hreal : ∀ (items : List Item10) (p : BitVec 64), ∀ e ∈ expect10 p items, e.real = none := by
    intro items
    induction items with
    | nil => intro p e he; cases he
    | cons i l ih =>
      intro p e he
      rcases List.mem_append.1 he with he | he
      · unfold Item10.expect at he
        dsimp only at he
        split at he
        · rcases List.mem_singleton.1 he with rfl; rfl
        · rcases List.mem_cons.1 he with rfl | he
          · rfl
          · rcases List.mem_singleton.1 he with rfl; rfl
      · exact ih _ e he
  exact expressible_of (decoded_storable hq hd)
    (fun r hr => by obtain ⟨e, he, hs⟩ := allShow_mem hl r hr; exact hs.nonzero (hz e he))
    (fun a _ b hb hv => by
      obtain ⟨e, he, hs⟩ := allShow_mem hl b hb
      have := hs.real
      rw [hreal _ _ e he, if_pos hv] at this
      cases this)

/-- **C69**, POWER10: converting a dump without page-table walks gives a trace with exactly the instructions of the dump,
whatever stamps are between its records: addresses, data addresses, words, and where control goes. -/
theorem C69_p10 {junk : Qt.Record} (hq : QuietJunk junk) {eof failing : Bool} {bytes : List (BitVec 8)} {fill phantom : BitVec 64} (items : List Item10)
    (tail : List (BitVec 64)) (hk : AllKnown (stream bytes failing eof fill phantom)) (hi : Trace10 0 items)
    (hw : plain (stream bytes failing eof fill phantom) = items.flatMap Item10.words ++ tail) (htail : ∀ v ∈ tail, Other v)
    (hz : ∀ e ∈ expect10 0 items, e.nonzero = true) :
    ∃ file, convert junk eof bytes failing fill phantom = .file file ∧ Contains file (expect10 0 items) := by
  obtain ⟨l, hd, hl⟩ := C50_p10 { fn := true, private_ := true, junk := junk } rfl items tail hk hi hw htail
  obtain ⟨file, h1, h2⟩ := contains_of hl (expressible10 hq hd hl hz)
  exact ⟨file, convert_decoded hd h1, h2⟩

example : ∀ e ∈ expect10 0 trace10, e.nonzero = true := by decide +kernel

theorem expressible9 {junk : Qt.Record} (hq : QuietJunk junk) {eof failing : Bool} {bytes : List (BitVec 8)} {fill phantom : BitVec 64} {items : List Item9}
    {l : List Qt.Record} (hd : decoded { fn := true, private_ := true, junk := junk } eof bytes failing fill phantom = some l)
    (hl : AllShow l (expect9 0 items)) (hr : ∀ r ∈ l, r.radixInsn = junk.radixInsn ∧ r.radixData = junk.radixData) : Qt.Spec.Expressible l := by
  have hz : ∀ (items : List Item9) (p : BitVec 64), ∀ e ∈ expect9 p items, e.nonzero = true := by
    intro items
    induction items with
    | nil => intro p e he; cases he
    | cons i l ih =>
      intro p e he
      rcases List.mem_cons.1 he with rfl | he
      · rfl
      · exact ih _ e he
  exact expressible_of (decoded_storable hq hd)
    (fun r hr => by obtain ⟨e, he, hs⟩ := allShow_mem hl r hr; exact hs.nonzero (hz _ _ e he))
    (fun a ha b hb _ => Or.inl ⟨by show a.radixData.nrPtes = 0; rw [(hr a ha).2]; exact hq.data, by show b.radixInsn.nrPtes = 0; rw [(hr b hb).1]; exact hq.insn⟩)

/-- **C69**, POWER9: the same for dumps without real addresses of instructions and without segment information. -/
theorem C69_p9 {junk : Qt.Record} (hq : QuietJunk junk) {eof failing : Bool} {bytes : List (BitVec 8)} {fill phantom : BitVec 64} (items : List Item9)
    (tail : List (BitVec 64)) (hk : AllKnown (stream bytes failing eof fill phantom)) (hi : ∀ i ∈ items, i.Ok)
    (hw : plain (stream bytes failing eof fill phantom) = items.flatMap Item9.words ++ tail) (htail : ∀ v ∈ tail, Other v) :
    ∃ file, convert junk eof bytes failing fill phantom = .file file ∧ Contains file (expect9 0 items) := by
  obtain ⟨s, es, h1, hl, hr, -⟩ := loop9 (c := { fn := true, private_ := true, junk := junk }) rfl htail items
    ((items.flatMap Item9.words ++ tail).length + 1) 0 {} rfl hi (Nat.lt_succ_self _)
  have hd : decoded { fn := true, private_ := true, junk := junk } eof bytes failing fill phantom = some (instructions es) :=
    decoded_pure hk (s := s) (by rw [hw]; exact h1)
  obtain ⟨file, h1, h2⟩ := contains_of hl (expressible9 hq hd hl hr)
  exact ⟨file, convert_decoded hd h1, h2⟩

/-- The files of C50 are converted as they should be. -/
example : (convert {} false file10 false 0 0).contents =
      some [(0xe8630000, 0xc000000000001088), (0x06000000, 0xc0000000000010a0), (0x38600000, 0xc0000000000010a4)] ∧
    (convert {} false file9 false 0 0).contents = some [(0x60000000, 0x8000000000001000), (0xf8630000, 0x8000000000001004)] := by
  decide +kernel

/-- **C69 is false for instruction words 0**: an instruction with the word 0 in the middle of a dump, and the trace ends before
it. -/
theorem C69_zero_refuted :
    let dump : List (BitVec 8) :=
      [0, 0, 0, 0, 0x3a, 0xbc, 0xdf, 0,  0, 0, 0, 0, 0, 0, 0x10, 0x00,  0, 0, 0, 0, 0, 0, 0x50, 0,
       0x60, 0, 0, 0, 0x2a, 0xbc, 0xdf, 0,  0, 0, 0, 0, 0, 0, 0, 0,
       0, 0, 0, 0, 0x2a, 0xbc, 0xdf, 4,  0, 0, 0, 0, 0, 0, 0, 0,
       0x60, 0, 0, 0, 0x2a, 0xbc, 0xdf, 8,  0, 0, 0, 0, 0, 0, 0, 0]
    (decoded { fn := true, private_ := true, junk := {} } true dump false 0 0).map (·.map fun r => (r.insn, r.insnAddr)) =
      some [(0x60000000, 0x1000), (0, 0x1004), (0x60000000, 0x1008)] ∧
    (convert {} true dump false 0 0).contents = some [(0x60000000, 0x1000)] := by
  decide +kernel

end Htm
