import Verif.Qt.PropsWriter
/-
Property C92: what the header of a trace file says.
-/
namespace Qt
open Spec

theorem runWrites_prefix : ∀ (h : List (Record × Bool)) (s s' : WState) (bs : List Bool),
    runWrites s h = .ok (bs, s') → s.out <+: s'.out
  | [], s, s', bs, e => by
    obtain ⟨rfl, rfl⟩ := Prod.mk.inj (WRes.ok.inj e)
    exact List.prefix_refl _
  | (r, g) :: h, s, s', bs, e => by
    obtain ⟨b, s1, bs', e1, e2, rfl⟩ := runWrites_cons e
    have i := runWrites_prefix h s1 s' bs' e2
    rcases writeRecord_cases e1 with ⟨_, rfl, _⟩ | ⟨_, _, _, _, _, b, ho, _⟩
    · exact i
    · exact List.IsPrefix.trans ⟨b, ho.symm⟩ i

/-- Once a record has been accepted, what is stored begins with the header made from it. -/
theorem runWrites_header : ∀ (h : List (Record × Bool)) (s s' : WState) (bs : List Bool), s.headerWritten = false →
    s.out = [] → runWrites s h = .ok (bs, s') → ∀ r, (accepted h bs).head? = some r →
    ∃ b, headerBytes s.magic s.version r = .ok b ∧ b <+: s'.out
  | [], s, s', bs, _, _, e, r, hr => by
    obtain ⟨rfl, rfl⟩ := Prod.mk.inj (WRes.ok.inj e)
    cases hr
  | (r0, g) :: h, s, s', bs, hw, ho, e, r, hr => by
    obtain ⟨b, s1, bs', e1, e2, rfl⟩ := runWrites_cons e
    rcases writeRecord_cases e1 with ⟨rfl, rfl, _⟩ | ⟨rfl, _, _, _, _, b, ho1, _, _, _, hb⟩
    · exact runWrites_header h _ s' bs' hw ho e2 r hr
    · obtain rfl : r0 = r := Option.some.inj hr
      rw [hw] at hb
      refine ⟨b, hb, ?_⟩
      have := runWrites_prefix h s1 s' bs' e2
      rw [ho1, ho, List.nil_append] at this
      exact this

/-- Reading succeeds on these bytes and leaves alone what the first part of the header has told. -/
def Goes (x : Rd Unit) (m : Mem) (c : Ctx) (b : Bytes) : Prop :=
  ∃ c', Reads x m c b () c' ∧ c'.st.magic = c.st.magic ∧ c'.st.version = c.st.version ∧ c'.st.nextInsnAddr = c.st.nextInsnAddr

theorem Goes.bind {x : Rd Unit} {f : Unit → Rd Unit} {m : Mem} {c : Ctx} {b b' : Bytes} (h : Goes x m c b) (h' : ∀ c, Goes (f ()) m c b') :
    Goes (x >>= f) m c (b ++ b') := by
  obtain ⟨c1, e1, a1, a2, a3⟩ := h
  obtain ⟨c2, e2, b1, b2, b3⟩ := h' c1
  exact ⟨c2, e1.bind e2, b1.trans a1, b2.trans a2, b3.trans a3⟩

/-- The sizes of the pages, whatever bytes are there. -/
theorem goes_pages {m : Mem} {h : BitVec 16} (v : BitVec 32) (x y : Byte) (c : Ctx) :
    Goes (headerPages h) m c (putIf (has h 0x0800) (be32 v) ++ (putIf (has h 0x0040) [x] ++ putIf (has h 0x0010) [y])) := by
  have h8 : ∀ (c : Ctx) (x : Byte), Reads get8n m c [x] x.toNat c := fun c x => Reads.bindR (Reads.get8 x) (Reads.pure _ _ _)
  unfold headerPages
  refine Goes.bind ?_ fun c => Goes.bind ?_ fun c => ?_
  · cases has h 0x0800 with
    | false => exact ⟨c, Reads.when_false rfl, rfl, rfl, rfl⟩
    | true => exact ⟨_, Reads.when_true rfl (Reads.bindR (Reads.get32 v) (Reads.modSt (fun _ _ => rfl))), rfl, rfl, rfl⟩
  · cases has h 0x0040 with
    | false => exact ⟨c, Reads.when_false rfl, rfl, rfl, rfl⟩
    | true => exact ⟨_, Reads.when_true rfl (Reads.bindR (h8 c x) (Reads.modSt (fun _ _ => rfl))), rfl, rfl, rfl⟩
  · cases has h 0x0010 with
    | false => exact ⟨c, Reads.when_false rfl, rfl, rfl, rfl⟩
    | true => exact ⟨_, Reads.when_true rfl (Reads.bindR (h8 c y) (Reads.modSt (fun _ _ => rfl))), rfl, rfl, rfl⟩

/-- A walk that is stored takes more than two bytes. -/
theorem walkBytes_two {w : Walk} (x : Radix) (hw : w ≠ .none) : ∃ a b t, walkBytes w x = a :: b :: t := by
  cases w with
  | none => exact absurd rfl hw
  | single g => exact ⟨_, _, _, rfl⟩
  | nested => exact ⟨_, _, _, rfl⟩

/-- The rest of the header behind the address. -/
theorem goes_rest {magic version : BitVec 32} {r : Record} {w : Walk} {m : Mem} (hw : radixWalk r.radixInsn = .ok w) (hn : r.radixInsn.nrPtes ≠ 0 → w ≠ .none)
    (v : BitVec 32) (x y : Byte) (c : Ctx) :
    ∃ b t, b ++ t = walkBytes w r.radixInsn ++ (putIf r.insnRaValid (be32 v) ++ (putIf r.insnPageShiftValid [x] ++ putIf r.guestInsnPageShiftValid [y])) ∧
      Goes (headerWalk (0x0002 ||| bitIf (r.radixInsn.nrPtes != 0) 0x0001) (hdrFlags3 w) (hdrFlags magic version r) >>= fun _ =>
        headerPages (hdrFlags magic version r) >>= fun _ => headerTail (hdrFlags3 w) (hdrFlags magic version r)) m c b := by
  obtain ⟨-, -, -, -, -, a6, a7, a8, a9⟩ := hdrFlags_has magic version r
  obtain ⟨-, -, b3⟩ := has_hdrFlags2 (r.radixInsn.nrPtes != 0)
  obtain ⟨d1, d2, d3, d4, d5⟩ := hdrFlags3_facts w
  have hpages := fun v x y => goes_pages (m := m) (h := hdrFlags magic version r) v x y
  rw [a6, a7, a8] at hpages
  have htail : ∀ c, Goes (headerTail (hdrFlags3 w) (hdrFlags magic version r)) m c [] := fun c => ⟨c, headerTail_reads _ d1 d2 d3 a9, rfl, rfl, rfl⟩
  have hend : ∀ v x y c, Goes (headerPages (hdrFlags magic version r) >>= fun _ => headerTail (hdrFlags3 w) (hdrFlags magic version r)) m c
      (putIf r.insnRaValid (be32 v) ++ (putIf r.insnPageShiftValid [x] ++ putIf r.guestInsnPageShiftValid [y])) := fun v x y c => by
    have := (hpages v x y c).bind (f := fun _ => headerTail (hdrFlags3 w) (hdrFlags magic version r)) htail
    rwa [List.append_nil] at this
  have hskip : (r.insnRaValid && (r.radixInsn.nrPtes != 0)) = false → ∀ v x y, Goes (headerWalk (0x0002 ||| bitIf (r.radixInsn.nrPtes != 0) 0x0001) (hdrFlags3 w)
      (hdrFlags magic version r) >>= fun _ => headerPages (hdrFlags magic version r) >>= fun _ => headerTail (hdrFlags3 w) (hdrFlags magic version r)) m c
      (putIf r.insnRaValid (be32 v) ++ (putIf r.insnPageShiftValid [x] ++ putIf r.guestInsnPageShiftValid [y])) := fun h v x y => by
    refine Goes.bind (b := []) ⟨c, ?_, rfl, rfl, rfl⟩ fun c => hend v x y c
    unfold headerWalk
    exact Reads.when_false (by rw [a6, b3]; exact h)
  have hwn : r.radixInsn.nrPtes = 0 → w = .none := by
    intro h
    unfold radixWalk at hw
    simp only [h, ne_eq, not_true_eq_false, false_and, if_false, WRes.ok.injEq] at hw
    exact hw.symm
  by_cases hp : r.radixInsn.nrPtes = 0
  · obtain rfl := hwn hp
    exact ⟨_, [], by rw [List.append_nil]; rfl, hskip (by rw [hp, Bool.and_comm]; rfl) v x y⟩
  · cases hra : r.insnRaValid with
    | true =>
      refine ⟨_, [], List.append_nil _, ?_⟩
      rw [hra] at hend
      refine Goes.bind ?_ fun c => hend v x y c
      unfold headerWalk
      refine ⟨_, Reads.when_true (by rw [a6, b3, hra, bne_iff_ne.2 hp]; rfl) (Reads.getCtx_bind (fun _ => rfl)
        (Reads.bindR (walkSection_reads (st := true) w r.radixInsn _ hw (hn hp) d4 (d5 (hn hp))) (Reads.modSt (fun _ _ => rfl)))), rfl, rfl, rfl⟩
    | false =>
      obtain ⟨p, q, t, e⟩ := walkBytes_two r.radixInsn (hn hp)
      rw [e]
      have hs := hskip (by rw [hra]; rfl) v
      rw [hra] at hs
      cases h1 : r.insnPageShiftValid with
      | false =>
        rw [h1] at hs
        cases h2 : r.guestInsnPageShiftValid with
        | false => rw [h2] at hs; exact ⟨_, p :: q :: t, by simp [putIf], hs 0 0⟩
        | true => rw [h2] at hs; exact ⟨_, q :: t ++ [y], by simp [putIf], hs 0 p⟩
      | true =>
        rw [h1] at hs
        cases h2 : r.guestInsnPageShiftValid with
        | false => rw [h2] at hs; exact ⟨_, q :: t ++ [x], by simp [putIf], hs p 0⟩
        | true => rw [h2] at hs; exact ⟨_, t ++ [x, y], by simp [putIf], hs p q⟩

/-- A header that was stored is read, whatever the record it was made from, unless that has entries of a page table without a walk. -/
theorem header_told {magic version : BitVec 32} {r : Record} {b : Bytes} (hb : headerBytes magic version r = .ok b)
    (hr : r.radixInsn.nrPtes ≠ 0 → r.radixInsn.nrWalks ≠ 0) (m : Mem) (c : Ctx) (rest : Bytes) (hm : m.bytes = b ++ rest) :
    ∃ c', parseHeader m (c.at 0) = .ok () c' ∧ c'.st.magic = (if magic != 0 then magic else c.st.magic) ∧
      c'.st.version = (if version != 0 then version else c.st.version) ∧ c'.st.nextInsnAddr = r.insnAddr := by
  obtain ⟨w, hw, -, rfl⟩ := headerBytes_ok hb
  clear hb
  have hn : r.radixInsn.nrPtes ≠ 0 → w ≠ .none := by
    rintro h0 rfl
    have h1 := hr h0
    unfold radixWalk at hw
    split at hw
    · split at hw <;> cases hw
    · rename_i h2
      have h3 : r.radixInsn.nrWalks ≠ 1 := fun h3 => h2 ⟨h0, h3⟩
      rw [if_pos ⟨h0, by omega⟩] at hw
      split at hw <;> cases hw
  have hwn : r.radixInsn.nrPtes = 0 → w = .none := by
    intro h
    unfold radixWalk at hw
    simp only [h, ne_eq, not_true_eq_false, false_and, if_false, WRes.ok.injEq] at hw
    exact hw.symm
  have hg : (w != .none) = (r.radixInsn.nrPtes != 0) := by
    by_cases h : r.radixInsn.nrPtes = 0
    · simp [h, hwn h]
    · rw [bne_iff_ne.mpr h, bne_iff_ne.mpr (hn h)]
  rw [hg] at hm
  obtain ⟨a1, a2, a3, a4, a5, -, -, -, -⟩ := hdrFlags_has magic version r
  obtain ⟨b1, b2, b3⟩ := has_hdrFlags2 (r.radixInsn.nrPtes != 0)
  have e1 := headerFlags_reads (m := m) (c := c) _ (hdrFlags3 w) _ (r.radixInsn.nrPtes != 0) b1 b2 b3
    (by rw [← hg]; intro h; have : w = .none := by simpa using h
        rw [this]; rfl) a1
  have e2 := headerIds_reads (m := m) (c := c) magic version r.insnAddr a2 a3 a4 a5
  obtain ⟨d, t, hd, c', e3, m1, m2, m3⟩ := goes_rest (magic := magic) (version := version) (m := m) hw hn
    (rpnOf r.insnRa r.insnPageShiftValid r.insnPageShift) (BitVec.ofNat 8 r.insnPageShift) (BitVec.ofNat 8 r.guestInsnPageShift)
    { c with st := { c.st with
            magic := if magic != 0 then magic else c.st.magic
            version := if version != 0 then version else c.st.version
            nextInsnAddr := r.insnAddr } }
  have hp : Reads parseHeader m c ((be32 0 ++ be16 1 ++ be16 (0x0002 ||| bitIf (r.radixInsn.nrPtes != 0) 0x0001) ++ putIf (r.radixInsn.nrPtes != 0) (be16 (hdrFlags3 w)) ++
      be16 (hdrFlags magic version r)) ++ ((putIf (magic != 0) (be32 magic) ++ putIf (version != 0) (be32 version) ++ be64 r.insnAddr) ++ d)) () c' := by
    unfold parseHeader
    refine Reads.bind e1 ?_
    exact Reads.bind e2 e3
  have e := hp 0 (t ++ rest) (by
      rw [List.drop_zero, hm]
      have hd' : ∀ l, d ++ (t ++ l) = walkBytes w r.radixInsn ++ (putIf r.insnRaValid (be32 (rpnOf r.insnRa r.insnPageShiftValid r.insnPageShift)) ++
          (putIf r.insnPageShiftValid (put8n r.insnPageShift) ++ (putIf r.guestInsnPageShiftValid (put8n r.guestInsnPageShift) ++ l))) := by
        intro l
        rw [← List.append_assoc, hd]
        simp only [List.append_assoc]
        rfl
      simp only [List.append_assoc]
      rw [hd'])
  exact ⟨_, e, m1, m2, m3⟩

/-- C92. After every history of write calls in which at least one was accepted, whatever follows in the file (more records, the
closing record, the zeros left by a crash, or nothing), a reader that opens it accepts the header and is told the magic number
the file was opened with, version 7.1.0.0 of the format, and the address of the first instruction accepted.  The only condition is
that the first record does not have entries of a page table without a walk. -/
theorem C92_header_partial (magic : BitVec 32) (h : List (Record × Bool)) (bs : List Bool) (s : WState)
    (hrun : runWrites (writerOpen magic) h = .ok (bs, s)) (r : Record) (hfirst : (accepted h bs).head? = some r)
    (hr : r.radixInsn.nrPtes ≠ 0 → r.radixInsn.nrWalks ≠ 0) (rest : Bytes) (beyond : Nat → Byte) :
    ∃ c, readerInit { bytes := s.out ++ rest, beyond := beyond } = .ok () c ∧
      c.st.magic = magic ∧ c.st.version = 0x07010000 ∧ c.st.nextInsnAddr = r.insnAddr := by
  obtain ⟨b, hb, ⟨tl, ht⟩⟩ := runWrites_header h (writerOpen magic) s bs rfl rfl hrun r hfirst
  obtain ⟨c, e, h1, h2, h3⟩ := header_told hb hr { bytes := s.out ++ rest, beyond := beyond } { st := .initial, rcd := .zero } (tl ++ rest)
    (by rw [← ht, List.append_assoc])
  refine ⟨c, e, h1.trans ?_, h2, h3⟩
  show (if magic != 0 then magic else (0 : BitVec 32)) = magic
  by_cases hm : magic = 0
  · subst hm; rfl
  · rw [if_pos (bne_iff_ne.mpr hm)]

/-- What a reader is told about a file with the records. -/
def toldOf (magic : BitVec 32) (h : List (Record × Bool)) : Option (List Bool × BitVec 32 × BitVec 32 × BitVec 64) :=
  match runWrites (writerOpen magic) h with
  | .ok (bs, s) =>
    match readerInit { bytes := s.out, beyond := fun _ => 0 } with
    | .ok () c => some (bs, c.st.magic, c.st.version, c.st.nextInsnAddr)
    | _ => none
  | _ => none

/-- **C92, the exception**: a first record with entries of a page table and no walk makes a header that is read wrongly: the flags are
taken for those of the walk, and neither magic number nor version nor address are found. -/
theorem C92_walk_refuted :
    toldOf 7 [({ insn := 0x60000000, insnAddr := 0x1000 }, true)] = some ([true], 7, 0x07010000, 0x1000) ∧
    toldOf 7 [({ insn := 0x60000000, insnAddr := 0x1000, radixInsn := { nrPtes := 1 } }, true)] = some ([true], 0, 0, BitVec.allOnes 64) := by
  decide +kernel

/-- A history whose first record has a walk and no real address, and a size no page has. -/
example : ∃ r : Record, r.radixInsn.nrPtes = 4 ∧ r.radixInsn.nrWalks ≠ 0 ∧ r.insnRaValid = false ∧ ¬ RecordOk r ∧
    accepted [(r, true), ({ insn := 0x60000001, insnAddr := 0x1004 }, true)] [true, true] = [r, { insn := 0x60000001, insnAddr := 0x1004 }] ∧
    toldOf 0xcafe [(r, true), ({ insn := 0x60000001, insnAddr := 0x1004 }, true)] = some ([true, true], 0xcafe, 0x07010000, 0x1000) :=
  ⟨{ insn := 0x60000000, insnAddr := 0x1000, insnPageShift := 80, insnPageShiftValid := true, radixInsn := { nrPtes := 4, nrWalks := 3 } }, rfl, (by decide), rfl,
    fun h => absurd (h.1.1 rfl) (by decide), rfl, by decide +kernel⟩

/-- A file that nothing was written to before it was closed tells the same, and the address 4. -/
theorem C92_empty (magic : BitVec 32) (beyond : Nat → Byte) :
    ∃ file c, writeTrace magic [] = .ok file ∧ readerInit { bytes := file, beyond := beyond } = .ok () c ∧
      c.st.magic = magic ∧ c.st.version = 0x07010000 ∧ c.st.nextInsnAddr = 4 := by
  obtain ⟨w, b, hw, hh, hx⟩ := headerBytes_total (magic := magic) (version := QTWRITER_VERSION)
    (closer_ok .zero) (by simp [NoWalk, closer, Record.zero])
  obtain ⟨s1, e1, _, _, _⟩ := writeRecord_hdr (s := writerOpen magic) (r := closer .zero) rfl hh
  have hrun : runWrites (writerOpen magic) [(closer .zero, true)] = .ok ([true], s1) := by
    rw [runWrites, e1]; rfl
  obtain ⟨c, h1, h2, h3, h4⟩ := C92_header_partial magic [(closer .zero, true)] [true] s1 hrun (closer .zero) rfl
    (by simp [closer, Record.zero]) [] beyond
  rw [List.append_nil] at h1
  refine ⟨s1.out, c, ?_, h1, h2, h3, h4⟩
  have : writeTrace magic [] = writerClose (writerOpen magic) true := by
    simp only [writeTrace, writeAll, bind, WRes.bind]
  rw [this]
  unfold writerClose
  rw [show ({ Record.zero with insnAddr := (writerOpen magic).prev.insnAddr + 4 } : Record) = closer .zero from rfl, e1]
  rfl

end Qt
