import Verif.Htm.SpecGuestSummary
import Verif.Htm.PropsGuestCounts
import Verif.Htm.PropsSummary
/-!
C99: the summary of dumps of guest processes with page-table walks.
-/
namespace Htm.Guest
open Htm Htm.Spec

/-- The translation of the line is known only after a walk. -/
def Sane (c : Ctx) : Prop := c.known → c.walked ≠ []

theorem inPages_ne {P : Space} {l : List (BitVec 64)} {a : BitVec 64} (h : P.InPages l a) : l ≠ [] := by
  rintro rfl
  obtain ⟨b, hb, _⟩ := h
  cases hb

theorem begun_of {P : Space} {c : Ctx} {i : Item} (hc : Sane c) (h : InsnKnown P c i) : Begun P c i := by
  intro h'
  obtain ⟨h1, h2, -⟩ := after_walked.1 h'
  unfold InsnKnown Item.fetched at h
  dsimp only at h
  rw [h2] at h
  split at h
  · exact inPages_ne h h1
  · exact hc h h1

theorem begun_data {P : Space} {c : Ctx} {i : Item} (h : DataKnown P c i) : Begun P c i := by
  intro h'
  obtain ⟨h1, h2, h3⟩ := after_walked.1 h'
  obtain ⟨d, hd, h⟩ := h
  apply inPages_ne h
  rw [h3 d (List.mem_of_mem_head? hd)]
  show (c.walk P i.walk).walked = []
  rw [h2]
  exact h1

theorem Sane.after {P : Space} {c : Ctx} (hc : Sane c) (i : Item) : Sane (i.after P c) := by
  intro h
  refine begun_of hc ?_
  unfold InsnKnown
  unfold Item.after at h
  rw [(foldl_prev i.data _).2] at h
  exact h

/-- A counter is that of the instructions of a kind. -/
theorem count_number {P : Space} {k : Counter} {p : Ctx → Item → Prop} (h0 : [Counter.recordsProcessed, .instructionsScanned, .instructionsProcessed].count k = 0)
    (h1 : ∀ c i, Sane c → i.Ok P c → p c i → (i.counts P c).count k = 1) (h2 : ∀ c i, Sane c → i.Ok P c → ¬ p c i → (i.counts P c).count k = 0) :
    ∀ (items : List Item) (c : Ctx), Sane c → Trace P c items → (allCounts P c items).count k = number p (each P c items)
  | [], _, _, _ => rfl
  | i :: l, c, hc, ht => by
    have ih := count_number h0 h1 h2 l (i.after P c) (hc.after i) ht.2
    rw [allCounts, List.count_append, List.count_append, h0, ih]
    unfold number
    rw [each, List.countP_cons]
    by_cases h : p c i
    · rw [h1 c i hc ht.1 h, if_pos (by simpa using h)]; omega
    · rw [h2 c i hc ht.1 h, if_neg (by simpa using h)]; omega

theorem count_one {P : Space} {k : Counter} (h0 : [Counter.recordsProcessed, .instructionsScanned, .instructionsProcessed].count k = 1)
    (h1 : ∀ c (i : Item), i.Ok P c → (i.counts P c).count k = 0) : ∀ (items : List Item) (c : Ctx), Trace P c items → (allCounts P c items).count k = items.length
  | [], _, _ => rfl
  | i :: l, c, ht => by
    rw [allCounts, List.count_append, List.count_append, h0, count_one h0 h1 l _ ht.2, h1 c i ht.1, List.length_cons]
    omega

theorem count_none {P : Space} {k : Counter} (h0 : [Counter.recordsProcessed, .instructionsScanned, .instructionsProcessed].count k = 0)
    (h1 : ∀ c (i : Item), i.Ok P c → (i.counts P c).count k = 0) : ∀ (items : List Item) (c : Ctx), Trace P c items → (allCounts P c items).count k = 0
  | [], _, _ => rfl
  | i :: l, c, ht => by
    rw [allCounts, List.count_append, List.count_append, h0, count_none h0 h1 l _ ht.2, h1 c i ht.1]

theorem counts_none {P : Space} {c : Ctx} {i : Item} (h : ¬ Begun P c i) : i.counts P c = [] := if_pos (Classical.not_not.1 h)

theorem counts_some {P : Space} {c : Ctx} {i : Item} (h : Begun P c i) : i.counts P c =
    lineCounts P (InsnKnown P c i) i.walk i.line.isSome (i.base.addr c.prev) ++ firstCounts P (i.fetched P c) i.data := if_neg h

theorem line_cases {P : Space} {c : Ctx} {i : Item} (hi : i.Ok P c) :
    (∃ w p, i.walk = some w ∧ i.line = some p ∧ InsnKnown P c i ∧
      lineCounts P (InsnKnown P c i) i.walk i.line.isSome (i.base.addr c.prev) = [.withIXlate, .insnPages (P.hostSize (i.base.addr c.prev))]) ∨
    (i.walk = none ∧ InsnKnown P c i ∧ lineCounts P (InsnKnown P c i) i.walk i.line.isSome (i.base.addr c.prev) = [.withIXlate]) ∨
    (∃ p, i.walk = none ∧ i.line = some p ∧ ¬ InsnKnown P c i ∧ lineCounts P (InsnKnown P c i) i.walk i.line.isSome (i.base.addr c.prev) = [.withoutIXlateErat]) ∨
    (i.walk = none ∧ i.line = none ∧ ¬ InsnKnown P c i ∧ lineCounts P (InsnKnown P c i) i.walk i.line.isSome (i.base.addr c.prev) = [.withoutIXlateIeara]) := by
  unfold lineCounts
  cases hw : i.walk with
  | some w =>
    obtain ⟨p, hp⟩ := Option.isSome_iff_exists.1 (hi.line (by rw [hw]; rfl))
    refine .inl ⟨w, p, rfl, hp, ?_, rfl⟩
    unfold InsnKnown Item.fetched
    dsimp only
    rw [hp, if_pos (by rfl), hw]
    exact ⟨_, List.mem_cons_self .., by rw [(hi.walk p w hp hw).address]⟩
  | none =>
    refine .inr ?_
    dsimp only
    by_cases h : InsnKnown P c i
    · exact .inl ⟨rfl, h, if_pos h⟩
    · rw [if_neg h]
      cases hl : i.line with
      | some p => exact .inr (.inl ⟨p, rfl, rfl, h, rfl⟩)
      | none => exact .inr (.inr ⟨rfl, rfl, h, rfl⟩)

theorem first_cases {P : Space} {c : Ctx} {i : Item} (hi : i.Ok P c) :
    (i.data = [] ∧ ¬ DataKnown P c i ∧ firstCounts P (i.fetched P c) i.data = []) ∨
    (∃ d l w, i.data = d :: l ∧ d.walk = some w ∧ DataKnown P c i ∧ firstCounts P (i.fetched P c) i.data = [.withDXlate, .dataPages (P.hostSize d.ea)]) ∨
    (∃ d l, i.data = d :: l ∧ d.walk = none ∧ DataKnown P c i ∧ firstCounts P (i.fetched P c) i.data = [.withDXlate]) ∨
    (∃ d l, i.data = d :: l ∧ d.walk = none ∧ ¬ DataKnown P c i ∧ firstCounts P (i.fetched P c) i.data = [.withoutDXlateErat]) := by
  have hd := hi.data
  unfold DataKnown
  cases hdata : i.data with
  | nil => exact .inl ⟨rfl, (by rintro ⟨d, h, _⟩; cases h), rfl⟩
  | cons d l =>
    refine .inr ?_
    rw [hdata] at hd
    have e : firstCounts P (i.fetched P c) (d :: l) = dataCounts P (P.InPages ((i.fetched P c).walk P d.walk).walked d.ea) d.walk d.ea := rfl
    rw [e]
    cases hw : d.walk with
    | some w =>
      refine .inl ⟨d, l, w, rfl, hw, ⟨d, rfl, ?_⟩, rfl⟩
      rw [hw]
      exact ⟨_, List.mem_cons_self .., by rw [(hd.1.2 w hw).address]⟩
    | none =>
      by_cases h : P.InPages ((i.fetched P c).walk P none).walked d.ea
      · exact .inr (.inl ⟨d, l, rfl, hw, ⟨d, rfl, by rw [hw]; exact h⟩, if_pos h⟩)
      · refine .inr (.inr ⟨d, l, rfl, hw, ?_, if_neg h⟩)
        rintro ⟨d', h1, h2⟩
        cases h1
        rw [hw] at h2
        exact h h2

/-- Counters that instructions have nothing to do with. -/
theorem counts_other {P : Space} {k : Counter} (h1 : k ≠ .withIXlate ∧ k ≠ .withoutIXlateErat ∧ k ≠ .withoutIXlateIeara ∧ k ≠ .withDXlate ∧ k ≠ .withoutDXlateErat)
    (h2 : (∀ n, k ≠ .insnPages n) ∧ ∀ n, k ≠ .dataPages n) (c : Ctx) (i : Item) (hi : i.Ok P c) : (i.counts P c).count k = 0 := by
  by_cases hb : Begun P c i
  · rw [counts_some hb, List.count_eq_zero]
    obtain ⟨k1, k2, k3, k4, k5⟩ := h1
    obtain ⟨k6, k7⟩ := h2
    rcases line_cases hi with ⟨w, p, a1, a2, a3, a4⟩ | ⟨a1, a3, a4⟩ | ⟨p, a1, a2, a3, a4⟩ | ⟨a1, a2, a3, a4⟩ <;>
    rcases first_cases hi with ⟨b1, b3, b4⟩ | ⟨d, l, w, b1, b2, b3, b4⟩ | ⟨d, l, b1, b2, b3, b4⟩ | ⟨d, l, b1, b2, b3, b4⟩ <;>
    rw [a4, b4] <;> simp [k1, k2, k3, k4, k5, k6, k7]
  · rw [counts_none hb]; rfl

theorem counts_insn {P : Space} (c : Ctx) (i : Item) (hc : Sane c) (hi : i.Ok P c) :
    (InsnKnown P c i → (i.counts P c).count .withIXlate = 1) ∧ (¬ InsnKnown P c i → (i.counts P c).count .withIXlate = 0) ∧
    ((Begun P c i ∧ i.line ≠ none ∧ ¬ InsnKnown P c i) → (i.counts P c).count .withoutIXlateErat = 1) ∧
    (¬ (Begun P c i ∧ i.line ≠ none ∧ ¬ InsnKnown P c i) → (i.counts P c).count .withoutIXlateErat = 0) ∧
    ((Begun P c i ∧ i.line = none ∧ ¬ InsnKnown P c i) → (i.counts P c).count .withoutIXlateIeara = 1) ∧
    (¬ (Begun P c i ∧ i.line = none ∧ ¬ InsnKnown P c i) → (i.counts P c).count .withoutIXlateIeara = 0) ∧
    ∀ n, ((i.walk ≠ none ∧ P.hostSize (i.base.addr c.prev) = n) → (i.counts P c).count (.insnPages n) = 1) ∧
      (¬ (i.walk ≠ none ∧ P.hostSize (i.base.addr c.prev) = n) → (i.counts P c).count (.insnPages n) = 0) := by
  by_cases hb : Begun P c i
  · rw [counts_some hb]
    rcases line_cases hi with ⟨w, p, a1, a2, a3, a4⟩ | ⟨a1, a3, a4⟩ | ⟨p, a1, a2, a3, a4⟩ | ⟨a1, a2, a3, a4⟩ <;>
    rcases first_cases hi with ⟨b1, b3, b4⟩ | ⟨d, l, w, b1, b2, b3, b4⟩ | ⟨d, l, b1, b2, b3, b4⟩ | ⟨d, l, b1, b2, b3, b4⟩ <;>
    rw [a4, b4] <;> simp_all [List.count_cons]
  · rw [counts_none hb]
    have h1 : ¬ InsnKnown P c i := fun h => hb (begun_of hc h)
    have h2 : i.walk = none := by
      cases h : i.walk with
      | none => rfl
      | some w => exact absurd (fun h' => by rw [(after_walked.1 h').2.1] at h; cases h) hb
    simp [hb, h1, h2]

theorem counts_data {P : Space} (c : Ctx) (i : Item) (hi : i.Ok P c) :
    (DataKnown P c i → (i.counts P c).count .withDXlate = 1) ∧ (¬ DataKnown P c i → (i.counts P c).count .withDXlate = 0) ∧
    ((Begun P c i ∧ i.data ≠ [] ∧ ¬ DataKnown P c i) → (i.counts P c).count .withoutDXlateErat = 1) ∧
    (¬ (Begun P c i ∧ i.data ≠ [] ∧ ¬ DataKnown P c i) → (i.counts P c).count .withoutDXlateErat = 0) ∧
    ∀ n, ((∃ d, i.data.head? = some d ∧ d.walk ≠ none ∧ P.hostSize d.ea = n) → (i.counts P c).count (.dataPages n) = 1) ∧
      (¬ (∃ d, i.data.head? = some d ∧ d.walk ≠ none ∧ P.hostSize d.ea = n) → (i.counts P c).count (.dataPages n) = 0) := by
  by_cases hb : Begun P c i
  · rw [counts_some hb]
    rcases line_cases hi with ⟨w, p, a1, a2, a3, a4⟩ | ⟨a1, a3, a4⟩ | ⟨p, a1, a2, a3, a4⟩ | ⟨a1, a2, a3, a4⟩ <;>
    rcases first_cases hi with ⟨b1, b3, b4⟩ | ⟨d, l, w, b1, b2, b3, b4⟩ | ⟨d, l, b1, b2, b3, b4⟩ | ⟨d, l, b1, b2, b3, b4⟩ <;>
    rw [a4, b4] <;> simp_all [List.count_cons]
  · rw [counts_none hb]
    have h1 : ¬ DataKnown P c i := fun h => hb (begun_data h)
    have h2 : ∀ d, i.data.head? = some d → d.walk = none := by
      intro d hd
      cases h : d.walk with
      | none => rfl
      | some w => exact absurd (fun h' => by rw [(after_walked.1 h').2.2 d (List.mem_of_mem_head? hd)] at h; cases h) hb
    refine ⟨fun h => absurd h h1, fun _ => rfl, fun h => absurd h.1 hb, fun _ => rfl, fun n => ⟨?_, fun _ => rfl⟩⟩
    rintro ⟨d, h3, h4, _⟩
    exact absurd (h2 d h3) h4

/-- **C99**, POWER10: the dump of a guest process with page-table walks. -/
theorem C99_guest_partial (P : Space) (hS : P.tables.Ok) (c : Conf) (hc : c.full = true) {eof failing : Bool} {bytes : List (BitVec 8)} {fill phantom : BitVec 64} (items : List Item)
    (tail : List (BitVec 64)) (tlb : List Char) (hk : AllKnown (stream bytes failing eof fill phantom)) (hi : Trace P {} items)
    (hw : plain (stream bytes failing eof fill phantom) = items.flatMap Item.words ++ tail) (htail : ∀ v ∈ tail, Other v) :
    ∃ text ss, printed c eof bytes failing fill phantom tlb = some text ∧ Reported (stream bytes failing eof fill phantom) ss ∧
      entries text = summary (stream bytes failing eof fill phantom) ss items.length (numbersG P items) := by
  obtain ⟨s, es, h1, -, -, h2, -⟩ := loop_ok hS hc htail items ((items.flatMap Item.words ++ tail).length + 1) 0 {} {}
    ⟨Caches.init P, rfl, ⟨fun _ => ⟨rfl, fun h => h⟩, fun h => (by cases h)⟩, ⟨⟨{ ok := false }, Or.inr ⟨fun h => h, rfl, rfl⟩, rfl, rfl, rfl⟩, fun h => h.elim⟩⟩ hi (Nat.lt_succ_self _)
  have h3 := decode_pure c eof bytes failing fill phantom hk
  rw [hw, h1] at h3
  obtain ⟨r, h4, h5⟩ := h3
  have hf : ∀ k, ofInsn (.count k) = true → counted k r.out = (allCounts P {} items).count k := by
    intro k hk
    rw [← counted_insnEvents hk, h5, counted_insnEvents hk, counted_counters, h2]
  have hs : Sane {} := fun h => h.elim
  have ho : ∀ k, [Counter.recordsProcessed, .instructionsScanned, .instructionsProcessed].count k = 1 →
      (k ≠ .withIXlate ∧ k ≠ .withoutIXlateErat ∧ k ≠ .withoutIXlateIeara ∧ k ≠ .withDXlate ∧ k ≠ .withoutDXlateErat) →
      ((∀ n, k ≠ .insnPages n) ∧ ∀ n, k ≠ .dataPages n) → (allCounts P {} items).count k = items.length :=
    fun k a b d => count_one a (fun c i hi => counts_other b d c i hi) items {} hi
  have hz : ∀ k, [Counter.recordsProcessed, .instructionsScanned, .instructionsProcessed].count k = 0 →
      (k ≠ .withIXlate ∧ k ≠ .withoutIXlateErat ∧ k ≠ .withoutIXlateIeara ∧ k ≠ .withDXlate ∧ k ≠ .withoutDXlateErat) →
      ((∀ n, k ≠ .insnPages n) ∧ ∀ n, k ≠ .dataPages n) → (allCounts P {} items).count k = 0 :=
    fun k a b d => count_none a (fun c i hi => counts_other b d c i hi) items {} hi
  obtain ⟨ss, g1, g2⟩ := entries_counted (tlb := tlb) h4 (n := items.length) (m := items.length) (x := numbersG P items) (fun k => (allCounts P {} items).count k) hf
    ⟨ho _ rfl (by simp) (by simp), ho _ rfl (by simp) (by simp)⟩ ⟨hz _ rfl (by simp) (by simp), hz _ rfl (by simp) (by simp)⟩
    ⟨hz _ rfl (by simp) (by simp), hz _ rfl (by simp) (by simp), hz _ rfl (by simp) (by simp), hz _ rfl (by simp) (by simp)⟩
    ⟨hz _ rfl (by simp) (by simp), hz _ rfl (by simp) (by simp), fun j _ => hz _ rfl (by simp) (by simp)⟩
    ⟨count_number rfl (fun c i hc hi => (counts_insn c i hc hi).1) (fun c i hc hi => (counts_insn c i hc hi).2.1) items {} hs hi,
      count_number rfl (fun c i hc hi => (counts_insn c i hc hi).2.2.1) (fun c i hc hi => (counts_insn c i hc hi).2.2.2.1) items {} hs hi,
      hz _ rfl (by simp) (by simp),
      count_number rfl (fun c i hc hi => (counts_insn c i hc hi).2.2.2.2.1) (fun c i hc hi => (counts_insn c i hc hi).2.2.2.2.2.1) items {} hs hi⟩
    ⟨count_number rfl (fun c i _ hi => (counts_data c i hi).1) (fun c i _ hi => (counts_data c i hi).2.1) items {} hs hi,
      count_number rfl (fun c i _ hi => (counts_data c i hi).2.2.1) (fun c i _ hi => (counts_data c i hi).2.2.2.1) items {} hs hi,
      hz _ rfl (by simp) (by simp),
      fun j => count_number rfl (fun c i _ hi => ((counts_data c i hi).2.2.2.2 j).1) (fun c i _ hi => ((counts_data c i hi).2.2.2.2 j).2) items {} hs hi⟩
    (fun j => count_number rfl (fun c i hc hi => ((counts_insn c i hc hi).2.2.2.2.2.2 j).1) (fun c i hc hi => ((counts_insn c i hc hi).2.2.2.2.2.2 j).2) items {} hs hi)
  refine ⟨printStat r tlb, ss, ?_, g1, g2⟩
  unfold printed
  rw [h4]

/-! ### An example -/

/-- The dump of C73: there are two instructions of one line, with a walk for the first, and two accesses to one page of data, with a walk for the first. -/
example : Trace exP {} exItems ∧ plain (stream exFile false true 0 0) = exItems.flatMap Item.words ++ [] ∧
    (["Total Instructions Processed", "Total Instructions With I-XLATEs", "Total Instructions missing I-XLATEs ERAT", "Total Instructions With D-XLATEs",
      "64K instruction pages", "64K data pages", "2M data pages"].map fun l => said exFile l) =
    [some ['2'], some ['2'], some ['0'], some ['2'], some ['1'], some ['1'], some ['0']] :=
  ⟨exItems_ok, by decide +kernel, by decide +kernel⟩

/-- **C99**: the numbers of instructions with and without translations do not add up to the number of instructions: those before the first walk are in
neither, although they are translated. -/
theorem C99_missing_refuted : (∀ i ∈ exItems, Htm.Spec.fld i.msr 2 2 = 1) ∧
    (["Total Instructions Processed", "Total Instructions With I-XLATEs", "Total Instructions missing I-XLATEs ERAT", "Total Instructions missing I-XLATEs PWC",
      "Total Instructions missing I-XLATEs without IEARA"].map fun l => said (([exItems[1]].flatMap Item.words ++ exItems.flatMap Item.words).flatMap bytesOf) l) =
    [some ['3'], some ['2'], some ['0'], some ['0'], some ['0']] :=
  ⟨fun i h => (by simp only [exItems, List.mem_cons, List.not_mem_nil, or_false] at h; rcases h with rfl | rfl <;> rfl), by decide +kernel⟩

end Htm.Guest
