import Verif.Htm.Real9Loop
import Verif.Htm.PropsConvert
import Verif.Htm.PropsCounts
import Verif.Qt.Refill
import Verif.Qt.PropsTranslation
/-!
C98: real addresses of instructions in POWER9 dumps.
-/
namespace Htm
open Htm.Spec

/-- **C98**: whatever the instructions of a POWER9 trace are, the callback gets each of them, in order, with the real address and the size of its
page, if the trace has the page, or had it before with an instruction that has its address in the trace, or addresses are not translated; and with the real address and the page size
of its data, if the trace has them.  Pages may move while the trace is taken: the place that the trace had last is the one that counts. -/
theorem C98_decoded (t : Layout) (c : Conf) (hc : c.full = true) {eof failing : Bool} {bytes : List (BitVec 8)} {fill phantom : BitVec 64} (items : List Item9r)
    (tail : List (BitVec 64)) (hk : AllKnown (stream bytes failing eof fill phantom)) (hi : Trace9 t 0 items)
    (hw : plain (stream bytes failing eof fill phantom) = items.flatMap Item9r.words ++ tail) (htail : ∀ v ∈ tail, Other v) :
    ∃ l, decoded c eof bytes failing fill phantom = some l ∧ AllShow l (expect9r t [] 0 items) ∧ l.map pagesOf = pages9r t [] 0 items ∧
      ∀ r ∈ l, r.insnPageShiftValid = r.insnRaValid ∧ r.dataPageShiftValid = r.dataRaValid := by
  obtain ⟨s, es, h1, h2, h3, h4, -⟩ := loop9r hc htail items ((items.flatMap Item9r.words ++ tail).length + 1) 0 {} [] (Cached.empty t) hi (Nat.lt_succ_self _)
  refine ⟨instructions es, decoded_pure hk (s := s) ?_, h2, h4, fun r hr => ⟨(h3 r hr).insnSize, (h3 r hr).dataSize⟩⟩
  rw [hw]; exact h1

theorem latest_steady {t : PageTable} {a f : Nat} : ∀ {seen : List (Nat × Nat)}, (∀ p ∈ seen, p.2 = t.frame p.1) → t.latest a seen = some f → f = t.frame a
  | [], _, h => by cases h
  | p :: l, hs, h => by
    unfold Layout.latest at h
    by_cases g : t.SamePage a p.1
    · rw [if_pos g] at h
      rw [← Option.some.inj h, hs p (List.mem_cons_self ..)]
      exact t.one a p.1 g
    · rw [if_neg g] at h
      exact latest_steady (fun q hq => hs q (List.mem_cons_of_mem _ hq)) h

theorem real_steady (t : PageTable) (i : Item9r) {seen : List (Nat × Nat)} {prev : BitVec 64} (hw : i.Within t.toLayout prev)
    (hf : i.Translated → ∀ v, i.ira = some v → irFrame v = t.frame (i.addr prev).toNat) (hs : ∀ p ∈ seen, p.2 = t.frame p.1) (ht : i.Translated) {x : Nat × Nat}
    (h : i.real t.toLayout seen prev = some x) : x = (t.real (i.addr prev).toNat, t.size (i.addr prev).toNat) := by
  obtain ⟨v, hv, hb⟩ := ht
  unfold Item9r.real at h
  cases hseg : i.segmented with
  | true => rw [hseg, if_pos rfl] at h; cases h
  | false =>
  rw [hseg, if_neg (by decide)] at h
  unfold Item9r.known at h
  cases hr : i.ira with
  | some u =>
    rw [hr] at h
    have h1 := hw.page ⟨v, hv, hb⟩ u hr
    have h2 := hf ⟨v, hv, hb⟩ u hr
    dsimp only at h
    rw [h1, h2] at h
    exact (Option.some.inj h).symm
  | none =>
    rw [hr, hv] at h
    dsimp only at h
    rw [if_neg (by omega)] at h
    obtain ⟨f, g1, g2⟩ := Option.map_eq_some_iff.1 h
    rw [← g2, latest_steady hs g1]
    rfl

theorem pages_steady (t : PageTable) : ∀ (items : List Item9r) {seen : List (Nat × Nat)} {prev : BitVec 64}, Trace9 t.toLayout prev items → Steady t prev items →
    (∀ p ∈ seen, p.2 = t.frame p.1) → ∀ (k : Nat) x y, (pages9r t.toLayout seen prev items)[k]?.map (·.1) = some (some x) → (steady9r t prev items)[k]? = some (some y) → x = y
  | [], _, _, _, _, _, k, x, y, h, _ => by cases k <;> cases h
  | i :: l, seen, prev, ht, hf, hs, 0, x, y, h, g => by
    have h : some (i.real t.toLayout seen prev) = some (some x) := h
    have g : some (if i.Translated then some (t.real (i.addr prev).toNat, t.size (i.addr prev).toNat) else none) = some (some y) := g
    by_cases hi : i.Translated
    · rw [if_pos hi] at g
      rw [real_steady t i ht.2.1 hf.1 hs hi (Option.some.inj h)]
      exact Option.some.inj (Option.some.inj g)
    · rw [if_neg hi] at g
      cases Option.some.inj g
  | i :: l, seen, prev, ht, hf, hs, k + 1, x, y, h, g => by
    refine pages_steady t l (seen := i.seen seen prev) (prev := i.addr prev) ht.2.2 hf.2 ?_ k x y h g
    unfold Item9r.seen
    cases hr : i.ira with
    | none => exact hs
    | some v =>
      dsimp only
      by_cases hi : i.Translated
      · rw [if_pos hi]
        intro p hp
        rcases List.mem_cons.1 hp with rfl | hp
        · exact hf.1 hi v hr
        · exact hs p hp
      · rw [if_neg hi]; exact hs

/-- **C98**: if the page table does not change while the trace is taken, what is known of a translated instruction is what the table says. -/
theorem C98_sound (t : PageTable) (items : List Item9r) (hi : Trace9 t.toLayout 0 items) (hf : Steady t 0 items) (k : Nat) (x y : Nat × Nat)
    (hx : (pages9r t.toLayout [] 0 items)[k]?.map (·.1) = some (some x)) (hy : (steady9r t 0 items)[k]? = some (some y)) : x = y :=
  pages_steady t items hi hf (fun p hp => by cases hp) k x y hx hy

theorem expressible9r {junk : Qt.Record} (hq : QuietJunk junk) {c : Conf} (hcj : c.junk = junk) {t : Layout} {seen : List (Nat × Nat)} {prev : BitVec 64} {items : List Item9r}
    {l : List Qt.Record} (hs : ∀ r ∈ l, Storable r)
    (hl : AllShow l (expect9r t seen prev items)) (hr : ∀ r ∈ l, Plain9 c r) : Qt.Spec.Expressible l := by
  have hz : ∀ (items : List Item9r) (seen : List (Nat × Nat)) (p : BitVec 64), ∀ e ∈ expect9r t seen p items, e.nonzero = true := by
    intro items
    induction items with
    | nil => intro _ p e he; cases he
    | cons i l ih =>
      intro _ p e he
      rcases List.mem_cons.1 he with rfl | he
      · rfl
      · exact ih _ _ e he
  exact expressible_of hs
    (fun r hr => by obtain ⟨e, he, hs⟩ := allShow_mem hl r hr; exact hs.nonzero (hz _ _ _ e he))
    (fun a ha b hb _ => Or.inl ⟨by show a.radixData.nrPtes = 0; rw [(hr a ha).data, hcj]; exact hq.data, by show b.radixInsn.nrPtes = 0; rw [(hr b hb).insn, hcj]; exact hq.insn⟩)

/-- **C98**, the file: converting the dump gives a trace with exactly its instructions. -/
theorem C98_contents (t : Layout) {junk : Qt.Record} (hq : QuietJunk junk) {eof failing : Bool} {bytes : List (BitVec 8)} {fill phantom : BitVec 64} (items : List Item9r)
    (tail : List (BitVec 64)) (hk : AllKnown (stream bytes failing eof fill phantom)) (hi : Trace9 t 0 items)
    (hw : plain (stream bytes failing eof fill phantom) = items.flatMap Item9r.words ++ tail) (htail : ∀ v ∈ tail, Other v) :
    ∃ file, convert junk eof bytes failing fill phantom = .file file ∧ Contains file (expect9r t [] 0 items) := by
  obtain ⟨s, es, h1, hl, hr, -⟩ := loop9r (c := { fn := true, private_ := true, junk := junk }) rfl htail items
    ((items.flatMap Item9r.words ++ tail).length + 1) 0 {} [] (Cached.empty t) hi (Nat.lt_succ_self _)
  have hd : decoded { fn := true, private_ := true, junk := junk } eof bytes failing fill phantom = some (instructions es) :=
    decoded_pure hk (s := s) (by rw [hw]; exact h1)
  obtain ⟨file, h1, h2⟩ := contains_of hl (expressible9r hq rfl (decoded_storable hq hd) hl hr)
  exact ⟨file, convert_decoded hd h1, h2⟩

/-! ### Real addresses in the file -/

/-- A record with the translation that the machine had. -/
structure Full (x : Nat × Nat) (a : BitVec 64) (r : Qt.Record) : Prop where
  addr : r.insnAddr = a
  valid : r.insnRaValid = true
  real : r.insnRa.toNat = x.1
  sized : r.insnPageShiftValid = true
  size : r.insnPageShift = x.2
  guest : r.guestInsnPageShiftValid = false

/-- A record of a POWER9 trace whose data are as the trace says. -/
structure Part (c : Conf) (i : Item9r) (r : Qt.Record) : Prop where
  storable : Storable r
  plain : Plain9 c r
  data : (if r.dataAddrValid then some r.dataAddr else none) = i.data
  dataReal : (if r.dataRaValid then some (r.dataRa.toNat, r.dataPageShift) else none) = i.dataReal

theorem Full.pages {x : Nat × Nat} {a : BitVec 64} {r : Qt.Record} (h : Full x a r) :
    (if r.insnRaValid then some (r.insnRa.toNat, r.insnPageShift) else none) = some x := by
  rw [if_pos h.valid, h.real, h.size]

theorem dataReal_mod {i : Item9r} (hf : i.Format) {x : Nat × Nat} (h : i.dataReal = some x) :
    x.1 % 2 ^ x.2 = (match i.data with | some d => d.toNat | none => 0) % 2 ^ x.2 := by
  unfold Item9r.dataReal at h
  cases hseg : i.segmented with
  | true => rw [hseg, if_pos rfl] at h; cases h
  | false =>
  rw [hseg, if_neg (by decide)] at h
  rw [show i.data = i.dea from by unfold Item9r.data; rw [hseg]; rfl]
  cases hd : i.dra with
  | none => rw [hd] at h; cases h
  | some v =>
    rw [hd] at h
    have h := (Option.some.inj h).symm
    subst h
    have := (hf.dpage hseg v hd).2
    dsimp only
    rw [Nat.add_mod, this, Nat.zero_add, Nat.mod_mod]
    cases i.dea with
    | none => rfl
    | some d => exact Nat.mod_mod ..

theorem translationOk9 {x : Nat × Nat} {a : BitVec 64} {c : Conf} {i : Item9r} {r : Qt.Record} (hf : i.Format) (hm : Maps a x) (h1 : Full x a r) (h2 : Part c i r)
    (hs : Small (some x)) (hd : Small i.dataReal) : Qt.Spec.TranslationOk r := by
  refine ⟨fun _ => ?_, fun hv => ?_⟩
  · unfold Qt.Spec.RaOk Qt.Spec.pageShift
    rw [if_pos h1.sized, h1.real, h1.size, h1.addr]
    exact ⟨hs _ rfl, hm.offset⟩
  · have hx := h2.dataReal
    rw [if_pos hv] at hx
    have h3 := hd _ hx.symm
    have h4 := dataReal_mod hf hx.symm
    have h5 : r.dataPageShiftValid = true := by rw [h2.plain.dataSize]; exact hv
    unfold Qt.Spec.RaOk Qt.Spec.pageShift
    rw [if_pos h5]
    refine ⟨h3, h4.trans ?_⟩
    have h6 := h2.data
    congr 1
    rw [← h6]
    cases r.dataAddrValid <;> rfl

theorem step_same {x : Nat × Nat} {a : BitVec 64} {p r : Qt.Record} (h1 : Full x a p) {y : Nat × Nat} {b : BitVec 64} (h2 : Full y b r)
    (hn : b = a + 4 → y.2 = x.2 ∧ b.toNat / 2 ^ x.2 = a.toNat / 2 ^ x.2 ∧ y.1 / 2 ^ x.2 = x.1 / 2 ^ x.2) : Qt.Spec.TranslationStep p r := by
  refine ⟨fun hj => ?_, fun _ => h2.valid, fun _ => h2.sized, fun h => ?_, fun _ _ h => ?_⟩
  · have hb : b = a + 4 := by
      rw [← h1.addr, ← h2.addr]; exact Classical.byContradiction hj
    obtain ⟨s1, -, s2⟩ := hn hb
    refine ⟨by rw [h1.valid, h2.valid], by rw [h1.sized, h2.sized], fun _ => by rw [h1.size, h2.size, s1], by rw [h1.guest, h2.guest],
      (fun h => by rw [h1.guest] at h; cases h), fun _ => ?_⟩
    unfold Qt.Spec.pageShift
    rw [if_pos h1.sized, if_pos h2.sized, h1.size, h2.size, s1, h1.real, h2.real, s2]
  · rw [h1.guest] at h; cases h
  · rw [h2.guest] at h; cases h

/-- Records with the translations that the machine had give the same file. -/
theorem fill9 {t : Layout} {c : Conf} (hq : QuietJunk c.junk) : ∀ (items : List Item9r) (had : List (Nat × Nat)) (l : List Qt.Record) (seen : List (Nat × Nat)) (last : Nat × Nat) (prev : BitVec 64)
    (p : Qt.Record), Full last prev p → Trace9 t prev items → Told t seen last prev items had → (∀ x ∈ actual9r items had, Small x.1 ∧ Small x.2) →
    AllShow l (expect9r t seen prev items) → l.map pagesOf = pages9r t seen prev items → (∀ r ∈ l, Plain9 c r ∧ Storable r) →
    ∃ l', Qt.Refilled prev l l' ∧ Qt.Spec.Chain Qt.Spec.TranslationStep (p :: l') ∧ (∀ r ∈ l', Qt.Spec.TranslationOk r ∧ Plain9 c r ∧ Storable r) ∧
      l'.map pagesOf = actual9r items had ∧ (∀ r ∈ l', r.insnRaValid = true ∧ r.insnPageShiftValid = true) ∧
      ∀ r ∈ l', r.insn ≠ 0
  | [], had, l, seen, last, prev, p, hp, _, _, _, hl, _, _ => by
    cases hl
    exact ⟨[], .nil, trivial, fun r hr => (by cases hr), rfl, fun r hr => (by cases hr), fun r hr => by cases hr⟩
  | _ :: _, [], _, _, _, _, _, _, _, htold, _, _, _, _ => absurd htold id
  | i :: items, x :: had, l, seen, last, prev, p, hp, ht, htold, hsmall, hl, hpages, hr => by
    obtain ⟨hf, hwi, ht⟩ := ht
    obtain ⟨hmap, hnow, htold⟩ := htold
    cases hl with
    | @cons r e l m hshow hl =>
      rw [List.map_cons] at hpages
      obtain ⟨hpg, hpages⟩ := List.cons.inj hpages
      obtain ⟨hpi, hpd⟩ := Prod.mk.inj hpg
      obtain ⟨hplain, hstor⟩ := hr r (List.mem_cons_self ..)
      obtain ⟨hs1, hs2⟩ := hsmall _ (List.mem_cons_self ..)
      have haddr : r.insnAddr = i.addr prev := hshow.addr
      have hpart : Part c i r := ⟨hstor, hplain, hshow.data, hpd⟩
      have hnz : r.insn ≠ 0 := hshow.nonzero rfl
      have hlt : x.1 < 2 ^ 64 := by
        have h1 := hs1 _ rfl
        have hsz := hmap.size
        have := Nat.div_lt_iff_lt_mul (Nat.two_pow_pos _) |>.1 h1
        refine Nat.lt_of_lt_of_le this ?_
        have : 2 ^ x.2 ≤ 2 ^ 24 := Nat.pow_le_pow_right (by decide) (by omega)
        omega
      -- the rest
      have go : ∀ r', Full x (i.addr prev) r' → Part c i r' → r'.insn ≠ 0 → (∀ l', Qt.Refilled (i.addr prev) l l' → Qt.Refilled prev (r :: l) (r' :: l')) →
          (i.addr prev = prev + 4 → x.2 = last.2 ∧ (i.addr prev).toNat / 2 ^ last.2 = prev.toNat / 2 ^ last.2 ∧ x.1 / 2 ^ last.2 = last.1 / 2 ^ last.2) →
          ∃ l', Qt.Refilled prev (r :: l) l' ∧ Qt.Spec.Chain Qt.Spec.TranslationStep (p :: l') ∧ (∀ r ∈ l', Qt.Spec.TranslationOk r ∧ Plain9 c r ∧ Storable r) ∧
            l'.map pagesOf = actual9r (i :: items) (x :: had) ∧ (∀ r ∈ l', r.insnRaValid = true ∧ r.insnPageShiftValid = true) ∧ ∀ r ∈ l', r.insn ≠ 0 := by
        intro r' h1 h2 h3 h4 h5
        obtain ⟨l', q1, q2, q3, q4, q5, q6⟩ := fill9 hq items had l _ _ _ r' h1 ht htold (fun x hx => hsmall x (List.mem_cons_of_mem _ hx)) hl hpages
          (fun r hr' => hr r (List.mem_cons_of_mem _ hr'))
        refine ⟨r' :: l', h4 l' q1, ⟨step_same hp h1 h5, q2⟩, ?_, ?_, ?_, ?_⟩
        · intro x hx
          rcases List.mem_cons.1 hx with rfl | hx
          · exact ⟨translationOk9 hf hmap h1 h2 hs1 hs2, h2.plain, h2.storable⟩
          · exact q3 x hx
        · rw [List.map_cons, q4]
          unfold pagesOf
          rw [h1.pages, h2.dataReal]
          rfl
        · intro x hx
          rcases List.mem_cons.1 hx with rfl | hx
          · exact ⟨h1.valid, h1.sized⟩
          · exact q5 x hx
        · intro x hx
          rcases List.mem_cons.1 hx with rfl | hx
          · exact h3
          · exact q6 x hx
      by_cases hn : i.addr prev = prev + 4
      · rw [if_pos hn] at hnow
        have hsz := hmap.size
        refine go { r with insnRaValid := true, insnRa := BitVec.ofNat 64 x.1, insnPageShiftValid := true,
                           insnPageShift := x.2 } ?_ ?_ hnz ?_ (fun _ => hnow)
        · refine ⟨haddr, rfl, ?_, rfl, rfl, ?_⟩
          · show (BitVec.ofNat 64 _).toNat = _
            rw [BitVec.toNat_ofNat, Nat.mod_eq_of_lt hlt]
          · show r.guestInsnPageShiftValid = false
            rw [hplain.insnGuest]; exact hq.guestInsn
        · refine ⟨?_, ⟨hplain.insn, hplain.data, rfl, hplain.dataSize, hplain.insnGuest, hplain.dataGuest⟩, hshow.data, hpd⟩
          obtain ⟨⟨⟨s1, s2, s3, s4⟩, s5, s6⟩, s7⟩ := hstor
          refine ⟨⟨⟨fun _ => ?_, s2, s3, s4⟩, fun _ => ?_, s6⟩, fun _ => rfl⟩
          · show x.2 < 64
            omega
          · refine Or.inl ?_
            show r.radixInsn.nrPtes = 0
            rw [hplain.insn]; exact hq.insn
        · intro l' h
          exact .next (by rw [haddr, hn]) rfl (by rw [haddr]; exact h)
      · rw [if_neg hn] at hnow
        rw [hnow] at hpi
        have hv : r.insnRaValid = true := by
          by_cases h : r.insnRaValid = true
          · exact h
          · rw [if_neg h] at hpi; cases hpi
        rw [if_pos hv] at hpi
        obtain ⟨x1, x2⟩ := Prod.mk.inj (Option.some.inj hpi)
        refine go r ⟨haddr, hv, x1, by rw [hplain.insnSize]; exact hv, x2, by rw [hplain.insnGuest]; exact hq.guestInsn⟩ hpart hnz ?_ (fun h => absurd h hn)
        intro l' h
        exact .same (by rw [haddr]; exact h)

/-- **C98**, the real addresses in the file.  Let the machine have had the translations `had`, one for each instruction.  If the page does not change from an instruction to the next one in memory, if the trace has or had the page of all others, and page numbers have at most
32 bits, then each instruction of the file has the real address and the page size that the machine had, and its data those of the trace. -/
theorem C98_file_partial (t : Layout) {junk : Qt.Record} (hq : QuietJunk junk) {eof failing : Bool} {bytes : List (BitVec 8)} {fill phantom : BitVec 64} (items : List Item9r)
    (tail : List (BitVec 64)) (hk : AllKnown (stream bytes failing eof fill phantom)) (hi : Trace9 t 0 items)
    (hw : plain (stream bytes failing eof fill phantom) = items.flatMap Item9r.words ++ tail) (htail : ∀ v ∈ tail, Other v)
    (had : List (Nat × Nat)) (htold : Told9 t items had) (hsmall : ∀ x ∈ actual9r items had, Small x.1 ∧ Small x.2) :
    ∃ file, convert junk eof bytes failing fill phantom = .file file ∧ Contains file (expect9r t [] 0 items) ∧
      ∀ (beyond : Nat → BitVec 8) (k : Nat) x, (actual9r items had)[k]? = some x →
        ∃ o, (Qt.readTrace { bytes := file, beyond := beyond } false false).records[k]? = some o ∧ pagesOf o = x ∧
          o.insnPageShiftValid = o.insnRaValid ∧ o.dataPageShiftValid = o.dataRaValid := by
  obtain ⟨s, es, h1, hl, hr, hpages, -⟩ := loop9r (c := { fn := true, private_ := true, junk := junk }) rfl htail items
    ((items.flatMap Item9r.words ++ tail).length + 1) 0 {} [] (Cached.empty t) hi (Nat.lt_succ_self _)
  have hd : decoded { fn := true, private_ := true, junk := junk } eof bytes failing fill phantom = some (instructions es) :=
    decoded_pure hk (s := s) (by rw [hw]; exact h1)
  have hstor := decoded_storable hq hd
  obtain ⟨file, e1, hcont⟩ := contains_of hl (expressible9r hq rfl hstor hl hr)
  refine ⟨file, convert_decoded hd e1, hcont, ?_⟩
  replace hl : AllShow (instructions es) (expect9r t [] 0 items) := hl
  replace hpages : (instructions es).map pagesOf = pages9r t [] 0 items := hpages
  generalize instructions es = l at *
  cases items with
  | nil => intro _ k x hx; cases hx
  | cons i items =>
    cases had with
    | nil => exact absurd htold id
    | cons w had =>
    obtain ⟨hf, hwi, ht⟩ := hi
    obtain ⟨hmap, hnow, htold⟩ := htold
    cases hl with
    | @cons r e l m hshow hl =>
      rw [List.map_cons] at hpages
      obtain ⟨hpg, hpages⟩ := List.cons.inj hpages
      obtain ⟨hpi, hpd⟩ := Prod.mk.inj hpg
      have hplain := hr r (List.mem_cons_self ..)
      obtain ⟨hs1, hs2⟩ := hsmall _ (List.mem_cons_self ..)
      have haddr : r.insnAddr = i.addr 0 := hshow.addr
      rw [hnow] at hpi
      have hv : r.insnRaValid = true := by
        by_cases h : r.insnRaValid = true
        · exact h
        · rw [if_neg h] at hpi; cases hpi
      rw [if_pos hv] at hpi
      obtain ⟨x1, x2⟩ := Prod.mk.inj (Option.some.inj hpi)
      have hfull : Full w (i.addr 0) r :=
        ⟨haddr, hv, x1, by rw [hplain.insnSize]; exact hv, x2, by rw [hplain.insnGuest]; exact hq.guestInsn⟩
      obtain ⟨l', q1, q2, q3, q4, q5, q6⟩ := fill9 (c := { fn := true, private_ := true, junk := junk }) hq items had l _ _ _ r hfull ht htold
        (fun x hx => hsmall x (List.mem_cons_of_mem _ hx)) hl hpages (fun r hr' => ⟨hr r (List.mem_cons_of_mem _ hr'), hstor r (List.mem_cons_of_mem _ hr')⟩)
      have e2 : Qt.writeTrace 0 (r :: l') = .ok file := by rw [Qt.writeTrace_refilled 0 r (by rw [haddr]; exact q1)]; exact e1
      have hall : ∀ x ∈ r :: l', Qt.Spec.TranslationOk x ∧ Plain9 { fn := true, private_ := true, junk := junk } x ∧ Storable x := by
        intro x hx
        rcases List.mem_cons.1 hx with rfl | hx
        · exact ⟨translationOk9 hf hmap hfull ⟨hstor x (List.mem_cons_self ..), hplain, hshow.data, hpd⟩ hs1 hs2, hplain, hstor x (List.mem_cons_self ..)⟩
        · exact q3 x hx
      have hx : Qt.Spec.Expressible (r :: l') := by
        refine expressible_of (fun x hx => (hall x hx).2.2) (fun x hx => ?_) (fun a ha b hb _ => Or.inl ⟨?_, ?_⟩)
        · rcases List.mem_cons.1 hx with rfl | hx
          · exact hshow.nonzero rfl
          · exact q6 x hx
        · show a.radixData.nrPtes = 0
          rw [(hall a ha).2.1.data]; exact hq.data
        · show b.radixInsn.nrPtes = 0
          rw [(hall b hb).2.1.insn]; exact hq.insn
      obtain ⟨f2, e3, h2⟩ := Qt.C03_translations_partial 0 (r :: l') hx (fun x hx => (hall x hx).1) q2
      obtain rfl : file = f2 := Qt.WRes.ok.inj (e2.symm.trans e3)
      have hp' : (r :: l').map pagesOf = actual9r (i :: items) (w :: had) := by
        rw [List.map_cons, q4]
        unfold pagesOf
        rw [hfull.pages, hpd]
        rfl
      intro beyond k x hk
      rw [← hp', List.getElem?_map] at hk
      obtain ⟨a, ha, hax⟩ := Option.map_eq_some_iff.1 hk
      obtain ⟨o, ho, o1, o2, o3, o4, o5, o6, o7, o8, o9, o10, o11, o12⟩ := h2 beyond k a ha
      have hpl := (hall a (List.mem_of_getElem? ha)).2.1
      refine ⟨o, ho, ?_, by rw [o3, o1]; exact hpl.insnSize, by rw [o9, o7]; exact hpl.dataSize⟩
      rw [← hax]
      unfold pagesOf
      rw [o1, o7]
      refine Prod.ext ?_ ?_
      · dsimp only
        by_cases h : a.insnRaValid = true
        · rw [if_pos h, if_pos h, o2 h, o4 (by rw [hpl.insnSize]; exact h)]
        · rw [if_neg h, if_neg h]
      · dsimp only
        by_cases h : a.dataRaValid = true
        · rw [if_pos h, if_pos h, o8 h, o10 (by rw [hpl.dataSize]; exact h)]
        · rw [if_neg h, if_neg h]

/-! ### Counting -/

theorem format9 {t : Layout} : ∀ {items : List Item9r} {prev : BitVec 64}, Trace9 t prev items → ∀ i ∈ items, i.Format
  | _ :: _, _, h, j, hj => by
    rcases List.mem_cons.1 hj with rfl | hj
    · exact h.1
    · exact format9 h.2.2 j hj

/-- **C93**, POWER9 dumps with real addresses of instructions. -/
theorem C93_p9_real (t : Layout) {junk : Qt.Record} {eof failing : Bool} {bytes : List (BitVec 8)} {fill phantom : BitVec 64} (items : List Item9r)
    (tail : List (BitVec 64)) (hk : AllKnown (stream bytes failing eof fill phantom)) (hi : Trace9 t 0 items)
    (hw : plain (stream bytes failing eof fill phantom) = items.flatMap Item9r.words ++ tail) (htail : ∀ v ∈ tail, Other v) :
    ∃ l, decoded { fn := true, private_ := true, junk := junk } eof bytes failing fill phantom = some l ∧ AllShow l (expect9r t [] 0 items) ∧
      counting eof bytes failing fill phantom = some (l.map (fun r => ⟨r.insnAddr, r.insn⟩), l.map (·.insnAddr)) := by
  obtain ⟨s, es, a1, a2, -, -, a3, -⟩ := loop9r (c := { fn := true, private_ := true, junk := junk }) rfl htail items
    ((items.flatMap Item9r.words ++ tail).length + 1) 0 {} [] (Cached.empty t) hi (Nat.lt_succ_self _)
  obtain ⟨s', es', b1, b2, b3⟩ := loop9r_count (c := { fn := false, private_ := false, junk := {} }) rfl htail items
    ((items.flatMap Item9r.words ++ tail).length + 1) 0 {} (format9 hi) (Nat.lt_succ_self _)
  refine ⟨instructions es, decoded_pure hk (s := s) (by rw [hw]; exact a1), a2, ?_⟩
  rw [counting_pure hk (s := s') (by rw [hw]; exact b1), b2, b3, ← a3, List.map_map, List.map_map]
  rfl

/-- **C93**, POWER9 dumps with real addresses of instructions: the programs agree. -/
theorem C93_agree_p9_real_partial (t : Layout) {junk : Qt.Record} (hq : QuietJunk junk) {eof failing : Bool} {bytes : List (BitVec 8)} {fill phantom : BitVec 64} (items : List Item9r)
    (tail : List (BitVec 64)) (hk : AllKnown (stream bytes failing eof fill phantom)) (hi : Trace9 t 0 items)
    (hw : plain (stream bytes failing eof fill phantom) = items.flatMap Item9r.words ++ tail) (htail : ∀ v ∈ tail, Other v)
    (hx : ∀ m, counting eof bytes failing fill phantom = some m → ∀ x ∈ m.1, ¬ DisSpec.IsPrefix x.insn) :
    ∃ file, convert junk eof bytes failing fill phantom = .file file ∧ ∀ beyond, Agree eof bytes failing fill phantom { bytes := file, beyond := beyond } := by
  obtain ⟨s, es, a1, a2, a3, -⟩ := loop9r (c := { fn := true, private_ := true, junk := junk }) rfl htail items
    ((items.flatMap Item9r.words ++ tail).length + 1) 0 {} [] (Cached.empty t) hi (Nat.lt_succ_self _)
  have hd : decoded { fn := true, private_ := true, junk := junk } eof bytes failing fill phantom = some (instructions es) :=
    decoded_pure hk (s := s) (by rw [hw]; exact a1)
  obtain ⟨l, hd', -, hm⟩ := C93_p9_real t (junk := junk) items tail hk hi hw htail
  rw [hd] at hd'
  obtain rfl := Option.some.inj hd'
  obtain ⟨file, h3, h4⟩ := agree_of (expressible9r hq rfl (decoded_storable hq hd) a2 a3) hm
    (fun r hr => hx _ hm _ (List.mem_map_of_mem (f := fun r : Qt.Record => (⟨r.insnAddr, r.insn⟩ : Stats.Insn)) hr))
  exact ⟨file, convert_decoded hd h3, h4⟩

end Htm

/-! ### Examples -/
namespace Htm
open Htm.Spec

/-- A large page for the kernel and small ones for everything else. -/
def layout9 : Layout where
  size a := if a / 2 ^ 24 = 0xc000000000 then 24 else 12
  sizes a := by by_cases h : a / 2 ^ 24 = 0xc000000000 <;> simp [h]
  same a b h := by
    by_cases g : a / 2 ^ 24 = 0xc000000000
    · simp only [g, if_true] at h
      rw [if_pos h, if_pos g]
    · simp only [g, if_false] at h
      have : b / 2 ^ 24 = a / 2 ^ 24 := by omega
      rw [if_neg (by omega), if_neg g]

def table9 : PageTable where
  toLayout := layout9
  frame a := if a / 2 ^ 24 = 0xc000000000 then 5 * 2 ^ 24 else (a / 4096 % 2 ^ 20 + 7) * 4096
  one a b h := by
    have h : b / 2 ^ (if a / 2 ^ 24 = 0xc000000000 then 24 else 12) = a / 2 ^ (if a / 2 ^ 24 = 0xc000000000 then 24 else 12) := h
    by_cases g : a / 2 ^ 24 = 0xc000000000
    · simp only [g, if_true] at h
      rw [if_pos h, if_pos g]
    · simp only [g, if_false] at h
      have h : b / 4096 = a / 4096 := h
      rw [if_neg (by omega), if_neg g, h]

/-- A fetch from a page that the trace has, a store after it, one from another page, and one from the first page again. -/
def trace9r : List Item9r :=
  [{ info := 0x600000000abcdee0, iea := some 0xc000000000001001, ira := some 0x0000014003000000, dea := none, dra := none },
   { info := 0xf86300000abcde98, iea := none, ira := none, dea := some 0xc00000000000f008, dra := some 0x0000000005000000 },
   { info := 0x600000000abcdee0, iea := some 0x0000000010000001, ira := some 0x000004001d000000, dea := none, dra := none },
   { info := 0x600000000abcdec0, iea := some 0xc000000000f00005, ira := none, dea := none, dra := none }]

def bytes9 (l : List Item9r) : List (BitVec 8) :=
  (l.flatMap Item9r.words).flatMap fun v => (List.range 8).map fun k => BitVec.ofNat 8 (v.toNat / 2 ^ (8 * (7 - k)))

theorem format_of {i : Item9r} (h1 : (i.words.all fun v => decide (Htm.Spec.fld v 0 19 ≠ 0xaceff)) = true)
    (h2 : Htm.Spec.fld i.info 36 55 = 0xABCDE ∧ Htm.Spec.fld i.info 56 56 = 1) (h3 : Htm.Spec.fld i.info 0 31 ≠ 0)
    (h4 : i.iea.isSome = decide (Htm.Spec.fld i.info 57 57 = 1) ∧ i.ira.isSome = decide (Htm.Spec.fld i.info 58 58 = 1) ∧ i.dea.isSome = decide (Htm.Spec.fld i.info 59 59 = 1) ∧
      i.dra.isSome = decide (Htm.Spec.fld i.info 60 60 = 1))
    (h5 : ((i.iea.toList ++ i.dea.toList ++ i.dra.toList).all fun v => decide (Htm.Spec.fld v 36 55 ≠ 0xABCDE)) = true)
    (h6 : (i.ira.toList.all fun v => decide (Htm.Spec.fld v 41 63 = 0 ∧ Htm.Spec.fld v 38 39 ≠ 0 ∧ irFrame v % 2 ^ irSize v = 0)) = true)
    (h7 : i.segmented = true ∨ (i.dra.toList.all fun v => decide (Htm.Spec.fld v 0 1 ≠ 2 ∧ drFrame v % 2 ^ drSize v = 0)) = true) : i.Format :=
  ⟨fun v hv => of_decide_eq_true (List.all_eq_true.1 h1 v hv), h2, h3, h4.1, h4.2.1, h4.2.2.1, h4.2.2.2, fun v hv => of_decide_eq_true (List.all_eq_true.1 h5 v hv),
    fun v hv => of_decide_eq_true (List.all_eq_true.1 h6 v (by rw [hv]; simp)), fun hs v hv => of_decide_eq_true (List.all_eq_true.1 (h7.resolve_left (by rw [hs]; decide)) v (by rw [hv]; simp))⟩

theorem within_of {i : Item9r} {t : Layout} {prev : BitVec 64}
    (h1 : (i.ira.toList.all fun v => decide (irSize v = t.size (i.addr prev).toNat)) = true)
    (h2 : ((i.addr prev).toNat / 2 ^ t.size (i.addr prev).toNat + 1) * 2 ^ t.size (i.addr prev).toNat < 2 ^ 64) : i.Within t prev :=
  ⟨fun _ v hv => of_decide_eq_true (List.all_eq_true.1 h1 v (by rw [hv]; simp)), fun _ => h2⟩

theorem trace9r_ok : Trace9 layout9 0 trace9r :=
  ⟨format_of (by decide +kernel) (by decide +kernel) (by decide +kernel) (by decide +kernel) (by decide +kernel) (by decide +kernel) (.inr (by decide +kernel)),
    within_of (by decide +kernel) (by decide +kernel),
    format_of (by decide +kernel) (by decide +kernel) (by decide +kernel) (by decide +kernel) (by decide +kernel) (by decide +kernel) (.inr (by decide +kernel)),
    within_of (by decide +kernel) (by decide +kernel),
    format_of (by decide +kernel) (by decide +kernel) (by decide +kernel) (by decide +kernel) (by decide +kernel) (by decide +kernel) (.inr (by decide +kernel)),
    within_of (by decide +kernel) (by decide +kernel),
    format_of (by decide +kernel) (by decide +kernel) (by decide +kernel) (by decide +kernel) (by decide +kernel) (by decide +kernel) (.inr (by decide +kernel)),
    within_of (by decide +kernel) (by decide +kernel), trivial⟩

/-- The conditions of C98 hold for this trace: the real address of the last instruction is the one of its page, which only the first had. -/
example : Trace9 layout9 0 trace9r ∧ Steady table9 0 trace9r ∧ Told9 layout9 trace9r [(0x5001000, 24), (0x5001004, 24), (0x10007000, 12), (0x5f00004, 24)] ∧
    (∀ x ∈ actual9r trace9r [(0x5001000, 24), (0x5001004, 24), (0x10007000, 12), (0x5f00004, 24)], Small x.1 ∧ Small x.2) ∧
    plain (stream (bytes9 trace9r) false false 0 0) = trace9r.flatMap Item9r.words ++ [0] ∧
    pages9r layout9 [] 0 trace9r = [(some (0x5001000, 24), none), (none, some (0x5008, 12)), (some (0x10007000, 12), none), (some (0x5f00004, 24), none)] ∧
    steady9r table9 0 trace9r = [some (0x5001000, 24), none, some (0x10007000, 12), some (0x5f00004, 24)] := by
  refine ⟨trace9r_ok, ⟨?_, ?_, ?_, ?_, trivial⟩, ⟨⟨?_, ?_⟩, ?_, ⟨⟨?_, ?_⟩, ?_, ⟨?_, ?_⟩, ?_, ⟨?_, ?_⟩, ?_, rfl⟩⟩, ?_, ?_, ?_, ?_⟩
  case refine_17 =>
    rw [show actual9r trace9r [(0x5001000, 24), (0x5001004, 24), (0x10007000, 12), (0x5f00004, 24)] =
      [(some (0x5001000, 24), none), (some (0x5001004, 24), some (0x5008, 12)), (some (0x10007000, 12), none), (some (0x5f00004, 24), none)] from by decide +kernel]
    intro x hx
    simp only [List.mem_cons, List.not_mem_nil, or_false] at hx
    rcases hx with rfl | rfl | rfl | rfl <;> refine ⟨?_, ?_⟩ <;> intro p hp <;> first | (cases hp; decide) | cases hp
  all_goals first
    | (intro _ v hv; cases hv; done)
    | (intro _ v hv; obtain rfl := Option.some.inj hv; decide +kernel)
    | decide +kernel

/-- A page that moves: the trace has it at one place, then at another, and then goes there without saying where it is. -/
def moved9 : List Item9r :=
  [{ info := 0x600000000abcdee0, iea := some 0x0000000010000001, ira := some 0x000004001d000000, dea := none, dra := none },
   { info := 0x600000000abcdee0, iea := some 0x0000000010000101, ira := some 0x0000040021000000, dea := none, dra := none },
   { info := 0x600000000abcdec0, iea := some 0x0000000010000201, ira := none, dea := none, dra := none }]

example : Trace9 layout9 0 moved9 ∧ ¬ (∃ t : PageTable, t.toLayout = layout9 ∧ Steady t 0 moved9) ∧
    pages9r layout9 [] 0 moved9 = [(some (0x10007000, 12), none), (some (0x10008100, 12), none), (some (0x10008200, 12), none)] := by
  refine ⟨⟨format_of ?_ ?_ ?_ ?_ ?_ ?_ (.inr ?_), within_of ?_ ?_, format_of ?_ ?_ ?_ ?_ ?_ ?_ (.inr ?_), within_of ?_ ?_, format_of ?_ ?_ ?_ ?_ ?_ ?_ (.inr ?_), within_of ?_ ?_, trivial⟩, ?_, ?_⟩
  case refine_28 =>
    rintro ⟨t, ht, h1, h2, -⟩
    have e1 : irFrame 0x000004001d000000 = t.frame 0x10000000 := h1 ⟨_, rfl, by decide +kernel⟩ _ rfl
    have e2 : irFrame 0x0000040021000000 = t.frame 0x10000100 := h2 ⟨_, rfl, by decide +kernel⟩ _ rfl
    have e3 := t.one 0x10000000 0x10000100 (by rw [ht]; decide +kernel)
    rw [← e1, ← e2] at e3
    revert e3
    decide +kernel
  all_goals decide +kernel

/-- A load with segment information and with its page, and an instruction in the same page. -/
def seg9 : List Item9r :=
  [{ info := 0xe86300000abcdefc, iea := some 0x0000000010000001, ira := some 0x000004001d000000, dea := some 0x0000000120000000, dra := some 0x4000000345000000 },
   { info := 0x600000000abcdec0, iea := some 0x0000000010000101, ira := none, dea := none, dra := none }]

theorem seg9_ok : Trace9 layout9 0 seg9 := by
  refine ⟨format_of ?_ ?_ ?_ ?_ ?_ ?_ (.inl ?_), within_of ?_ ?_, format_of ?_ ?_ ?_ ?_ ?_ ?_ (.inr ?_), within_of ?_ ?_, trivial⟩ <;> decide +kernel

/-- The page is remembered, but not reported for the instruction that has it. -/
example : Trace9 layout9 0 seg9 ∧ plain (stream (bytes9 seg9) false true 0 0) = seg9.flatMap Item9r.words ∧
    (expect9r layout9 [] 0 seg9).map (fun e => (e.addr, e.data, e.real)) = [(0x10000000, some 0, none), (0x10000100, none, some 0x10007100)] ∧
    pages9r layout9 [] 0 seg9 = [(none, none), (some (0x10007100, 12), none)] := by
  refine ⟨seg9_ok, ?_, ?_, ?_⟩ <;> decide +kernel

/-- **C98 is false for instructions with segment information**: the trace has the real page of the first instruction, but its real address is not reported. -/
theorem C98_segment_refuted :
    Trace9 layout9 0 seg9 ∧ (seg9.map fun i => i.ira.map fun v => (irFrame v, irSize v)) = [some (0x10007000, 12), none] ∧
    (decoded { fn := true, private_ := true, junk := {} } true (bytes9 seg9) false 0 0).map (·.map fun r => (r.insnAddr, (pagesOf r).1)) =
      some [(0x10000000, none), (0x10000100, some (0x10007100, 12))] := by
  refine ⟨seg9_ok, ?_, ?_⟩ <;> decide +kernel

/-- **C98 is false for pages that are reached without a jump**: an instruction after the one before it brings the page with it, and later the trace jumps to that page.
The decoder has not remembered it, so that no real address is known, although the trace had it. -/
theorem C98_next_refuted :
    let items : List Item9r :=
      [{ info := 0x600000000abcdee0, iea := some 0x0000000010000ffd, ira := some 0x000004001d000000, dea := none, dra := none },
       { info := 0x600000000abcdea0, iea := none, ira := some 0x0000040021000000, dea := none, dra := none },
       { info := 0x600000000abcdec0, iea := some 0x0000000010001021, ira := none, dea := none, dra := none }]
    Trace9 layout9 0 items ∧ layout9.SamePage 0x10001000 0x10001020 ∧
    (decoded { fn := true, private_ := true, junk := {} } true (bytes9 items) false 0 0).map (·.map fun r => (r.insnAddr, (pagesOf r).1)) =
      some [(0x10000ffc, some (0x10007ffc, 12)), (0x10001000, some (0x10008000, 12)), (0x10001020, none)] := by
  refine ⟨⟨format_of ?_ ?_ ?_ ?_ ?_ ?_ (.inr ?_), within_of ?_ ?_, format_of ?_ ?_ ?_ ?_ ?_ ?_ (.inr ?_), within_of ?_ ?_, format_of ?_ ?_ ?_ ?_ ?_ ?_ (.inr ?_), within_of ?_ ?_, trivial⟩, ?_, ?_⟩ <;> decide +kernel

/-- **C98 is false for the last page of the address space**: the decoder ends with a failed assertion when the trace goes back there. -/
theorem C98_last_refuted :
    decoded { fn := true, private_ := true, junk := {} } true
      (bytes9 [{ info := 0x600000000abcdee0, iea := some 0xfffffffffffff001, ira := some 0x000004001d000000, dea := none, dra := none },
               { info := 0x600000000abcdec0, iea := some 0xfffffffffffff021, ira := none, dea := none, dra := none }]) false 0 0 = none := by
  decide +kernel

/-- **C98 is false when the size of pages changes**: a page becomes part of a larger one, and the decoder ends with a failed assertion. -/
theorem C98_size_refuted :
    let items : List Item9r :=
      [{ info := 0x600000000abcdee0, iea := some 0x0000000000010001, ira := some 0x000004001d000000, dea := none, dra := none },
       { info := 0x600000000abcdee0, iea := some 0x0000000000015001, ira := some 0x0000400002000000, dea := none, dra := none }]
    (∀ i ∈ items, i.Format) ∧ decoded { fn := true, private_ := true, junk := {} } true (bytes9 items) false 0 0 = none := by
  refine ⟨?_, by decide +kernel⟩
  intro i hi
  rcases List.mem_cons.1 hi with rfl | hi
  · refine format_of ?_ ?_ ?_ ?_ ?_ ?_ (.inr ?_) <;> decide +kernel
  · rcases List.mem_cons.1 hi with rfl | hi
    · refine format_of ?_ ?_ ?_ ?_ ?_ ?_ (.inr ?_) <;> decide +kernel
    · cases hi

/-- **C98 is false when the page changes between instructions**: the file has the second instruction in the page of the first, although the trace has its page. -/
theorem C98_cross_refuted :
    let items : List Item9r :=
      [{ info := 0x600000000abcdee0, iea := some 0x0000000010000ffd, ira := some 0x000004001d000000, dea := none, dra := none },
       { info := 0x600000000abcdea0, iea := none, ira := some 0x0004000021000000, dea := none, dra := none }]
    (∀ i ∈ items, i.Format) ∧
    (decoded { fn := true, private_ := true, junk := {} } true (bytes9 items) false 0 0).map (·.map fun r => (r.insnAddr, (pagesOf r).1)) =
      some [(0x10000ffc, some (0x10007ffc, 12)), (0x10001000, some (0x1000008000, 12))] ∧
    ∃ file, convert {} true (bytes9 items) false 0 0 = .file file ∧ ((Qt.readTrace { bytes := file, beyond := fun _ => 0 } false false).records.map fun r => (r.insnAddr, (pagesOf r).1)) =
      [(0x10000ffc, some (0x10007ffc, 12)), (0x10001000, some (0x10007000, 12))] := by
  refine ⟨?_, by decide +kernel, ⟨_, rfl, by decide +kernel⟩⟩
  intro i hi
  rcases List.mem_cons.1 hi with rfl | hi
  · refine format_of ?_ ?_ ?_ ?_ ?_ ?_ (.inr ?_) <;> decide +kernel
  · rcases List.mem_cons.1 hi with rfl | hi
    · refine format_of ?_ ?_ ?_ ?_ ?_ ?_ (.inr ?_) <;> decide +kernel
    · cases hi

end Htm
