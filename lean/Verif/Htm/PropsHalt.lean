import Verif.Htm.Safe
/-! Property C102: what htmdecode stops at. -/
namespace Htm
open Htm.Spec

/-! ### Instructions of a POWER9 -/

/-- The cache has pages of one size. -/
def OneSize (size : Nat) (t : Tlb.Cache) : Prop :=
  ∃ s : List TlbSpec.Page, Tlb.Rel t s ∧ ∀ p ∈ s, p.size = 2 ^ size ∧ p.ea % 2 ^ size = 0

theorem oneSize_empty (size : Nat) : OneSize size {} := ⟨[], Tlb.Rel.empty, by simp⟩

theorem oneSize_set {size : Nat} (hs : size = 12 ∨ size = 16 ∨ size = 24) {t : Tlb.Cache} (h : OneSize size t) (ea ra : BitVec 64) (b : Bool) :
    ∃ t', Tlb.raSet t ea (reloc b) ra (BitVec.twoPow 64 size) = some t' ∧ OneSize size t' := by
  cases b with
  | false => exact ⟨t, by unfold Tlb.raSet reloc; rw [if_pos (by decide)], h⟩
  | true =>
    obtain ⟨s, hr, hp⟩ := h
    have hn : (BitVec.twoPow 64 size).toNat = 2 ^ size := by rcases hs with rfl | rfl | rfl <;> rfl
    have hps : TlbSpec.PageSize (BitVec.twoPow 64 size).toNat := by
      rw [hn]; rcases hs with rfl | rfl | rfl
      · exact .inl rfl
      · exact .inr (.inl rfl)
      · exact .inr (.inr rfl)
    have hpr := Tlb.single_proper hps [(ea, ra)] s (by rw [hn]; exact hp)
    rcases hpr with ⟨h0, _⟩ | ⟨_, _, hov, _⟩
    · exact absurd h0 (by decide)
    · obtain ⟨t', e, r⟩ := Tlb.raSet_proper hr hps hov
      refine ⟨t', e, _, r, fun p hp' => ?_⟩
      rcases List.mem_cons.1 hp' with rfl | hp'
      · exact ⟨hn, by rw [← hn]; exact Tlb.mod_self_sub ..⟩
      · exact hp p (List.mem_filter.1 hp').1

theorem oneSize_get {size : Nat} {t : Tlb.Cache} (h : OneSize size t) (a : BitVec 64) (ha : a.toNat < 2 ^ 64 - 2 ^ size) (b : Bool) :
    Tlb.raGet t a (reloc b) ≠ none := by
  cases b with
  | false => unfold Tlb.raGet reloc; rw [if_pos (by decide)]; exact fun h => by cases h
  | true =>
    obtain ⟨s, hr, hp⟩ := h
    by_cases hc : ∃ p ∈ s, p.Covers a.toNat
    · obtain ⟨p, hps, hc⟩ := hc
      obtain ⟨ra, sz, e, _, _⟩ := Tlb.raGet_hit hr hps hc (by
        have := (hp p hps).1
        unfold TlbSpec.Page.Covers at hc
        omega)
      show Tlb.raGet t a 1 ≠ none
      rw [e]; exact fun h => by cases h
    · show Tlb.raGet t a 1 ≠ none
      rw [Tlb.raGet_miss hr fun p hps hcv => hc ⟨p, hps, hcv⟩]; exact fun h => by cases h

/-- The records of the dump: with a callback, which uses the translation cache, of one page size. -/
def Kind (c : Conf) (size : Nat) (v : BitVec 64) : Prop := if c.full then Plain size v else Simple v

theorem Kind.simple {c : Conf} {size : Nat} {v : BitVec 64} (h : Kind c size v) : Simple v := by
  unfold Kind at h
  split at h
  · exact h.toSimple
  · exact h

/-- No walk has been seen. -/
structure Calm (c : Conf) (size : Nat) (s : Dec) : Prop where
  rpt : s.rpt = false
  tlb : c.full = true → OneSize size s.tlb

section
variable {c : Conf} {size : Nat}

theorem safe_finish9 {s : Dec} (h : Calm c size s) (i : I9) : (finish9 c s i).Safe (Kind c size) (fun p => Calm c size p.1) := by
  unfold finish9
  split
  · exact h
  · show Prog.Safe _ _ (if _ then _ else _)
    split
    · refine safe_tellAll (p := Prog.tell _ (Prog.done _)) ?_ _
      simp only [Prog.Safe]
      exact ⟨h.rpt, h.tlb⟩
    · exact ⟨h.rpt, h.tlb⟩

theorem safe_draStep9 {s : Dec} (h : Calm c size s) (i : I9) : (draStep9 c s i).Safe (Kind c size) (fun p => Calm c size p.1) := by
  unfold draStep9
  split
  · refine ⟨h, fun v _ => ?_⟩
    dsimp only
    split
    · exact safe_finish9 h _
    · split
      · split
        · exact safe_finish9 h _
        · exact safe_finish9 h _
      · split
        · exact safe_finish9 h _
        · refine safe_tellAll (p := Prog.tell _ _) ?_ _
          exact safe_finish9 h _
  · exact safe_finish9 h _

theorem safe_deaStep9 {s : Dec} (h : Calm c size s) (i : I9) : (deaStep9 c s i).Safe (Kind c size) (fun p => Calm c size p.1) := by
  unfold deaStep9
  split
  · refine ⟨h, fun v _ => ?_⟩
    dsimp only
    split
    · exact safe_draStep9 h _
    · split
      · exact safe_finish9 h _
      · split
        · exact safe_draStep9 h _
        · exact safe_draStep9 h _
  · exact safe_draStep9 h _

theorem ira9_realSize {v a ra : BitVec 64} {n : Nat} (h : ira9 v a = some (ra, n)) : realSize v = some n ∧ (n = 12 ∨ n = 16 ∨ n = 24) := by
  unfold ira9 at h
  split at h
  · cases h
  · split at h
    · cases h
    · rename_i h1
      have h1 : fld v 41 63 = 0 := (u32_eq (by decide) (by decide) (by decide) _).1 (Decidable.not_not.1 h1)
      dsimp only at h
      have e1 : (u32 v 38 39 = 1) ↔ fld v 38 39 = 1 := u32_eq (by decide) (by decide) (by decide) _
      have e2 : (u32 v 38 39 = 2) ↔ fld v 38 39 = 2 := u32_eq (by decide) (by decide) (by decide) _
      have e3 : (u32 v 38 39 = 3) ↔ fld v 38 39 = 3 := u32_eq (by decide) (by decide) (by decide) _
      simp only [e1, e2, e3] at h
      unfold realSize
      rw [if_pos h1]
      by_cases g1 : fld v 38 39 = 1
      · simp only [if_pos g1] at h ⊢
        cases h; exact ⟨rfl, .inl rfl⟩
      · simp only [if_neg g1] at h ⊢
        by_cases g2 : fld v 38 39 = 2
        · simp only [if_pos g2] at h ⊢
          cases h; exact ⟨rfl, .inr (.inl rfl)⟩
        · simp only [if_neg g2] at h ⊢
          by_cases g3 : fld v 38 39 = 3
          · simp only [if_pos g3] at h ⊢
            cases h; exact ⟨rfl, .inr (.inr rfl)⟩
          · simp only [if_neg g3] at h
            cases h

theorem safe_iraStep9 {s : Dec} (h : Calm c size s) (i : I9) : (iraStep9 c s i).Safe (Kind c size) (fun p => Calm c size p.1) := by
  unfold iraStep9
  show Prog.Safe _ _ (if _ then _ else _)
  split
  · refine ⟨h, fun v hv => ?_⟩
    dsimp only
    split
    · exact safe_deaStep9 h _
    · rename_i hf
      have hf : c.full = true := by revert hf; cases c.full <;> simp
      split
      · exact safe_finish9 h _
      · rename_i a n hi
        obtain ⟨h1, h2⟩ := ira9_realSize hi
        have hk : Plain size v := by unfold Kind at hv; rw [if_pos hf] at hv; exact hv
        have hn := hk.real n h1
        subst hn
        obtain ⟨t, e, ht⟩ := oneSize_set h2 (h.tlb hf) s.insnAddr a i.msrir
        show Prog.Safe _ _ (match Tlb.raSet s.tlb s.insnAddr (reloc i.msrir) a (BitVec.twoPow 64 n) with
            | none => .stop .assert
            | some t => .tell (.count .withIra) (deaStep9 c { s with tlb := t } { i with iraAddr := a, iraSize := n }))
        rw [e]
        exact safe_deaStep9 (s := { s with tlb := t }) ⟨h.rpt, fun _ => ht⟩ _
  · exact safe_deaStep9 h _

theorem safe_cached9 {s : Dec} (h : Calm c size s) (ha : c.full = true → s.insnAddr.toNat < 2 ^ 64 - 2 ^ size) (i : I9) :
    (cached9 c s i).Safe (Kind c size) (fun p => Calm c size p.1) := by
  unfold cached9
  split
  · rename_i hf
    have hf : c.full = true := by revert hf; cases c.full <;> simp
    show Prog.Safe _ _ (match Tlb.raGet s.tlb s.insnAddr (reloc i.msrir) with
      | none => .stop .assert
      | some none => iraStep9 c s i
      | some (some (a, size)) => iraStep9 c s { i with ira := true, soft := true, iraAddr := a, iraSize := shiftOf size })
    have := oneSize_get (h.tlb hf) s.insnAddr (ha hf) i.msrir
    split
    · rename_i hg; exact absurd hg this
    · exact safe_iraStep9 h _
    · exact safe_iraStep9 h _
  · exact safe_iraStep9 h _

theorem safe_insn9 {s : Dec} (h : Calm c size s) (v : BitVec 64) : (insn9 c s v).Safe (Kind c size) (fun p => Calm c size p.1) := by
  unfold insn9
  show Prog.Safe _ _ (match info9 v with
    | none => .done (s, false)
    | some i => if i.valid then .tell (.count .instructionsProcessed) (ieaStep9 c s i) else .done (s, true))
  split
  · exact h
  · rename_i i _
    split
    · show (ieaStep9 c s i).Safe _ _
      unfold ieaStep9
      split
      · refine ⟨h, fun v hv => ?_⟩
        dsimp only
        split
        · exact safe_finish9 (s := { s with insnAddr := s.insnAddr + 4 }) ⟨h.rpt, h.tlb⟩ _
        · refine safe_cached9 (s := { s with insnAddr := v &&& 0xfffffffffffffffc }) ⟨h.rpt, h.tlb⟩ (fun hf => ?_) _
          have hk : Plain size v := by unfold Kind at hv; rw [if_pos hf] at hv; exact hv
          have h1 := hk.last
          have h2 : (v &&& 0xfffffffffffffffc).toNat ≤ v.toNat := by rw [BitVec.toNat_and]; exact Nat.and_le_left
          show (v &&& 0xfffffffffffffffc).toNat < _
          omega
      · exact safe_iraStep9 (s := { s with insnAddr := s.insnAddr + 4 }) ⟨h.rpt, h.tlb⟩ _
    · exact h

/-! ### Instructions of a POWER10 -/

theorem not_walk {v : BitVec 64} (h : Kind c size v) : recType v ≠ 1 := by
  intro h1
  refine h.simple.walk ?_
  unfold recType at h1
  split at h1
  · rename_i ht
    exact ⟨(u32_eq (by decide) (by decide) (by decide) _).1 ht, (bits_eq (by decide) (by decide) _).1 h1⟩
  · exact absurd h1 (by decide)

/-- No walks are kept. -/
def Empty (l : I10) : Prop := l.ixlate = none ∧ l.ndxlates = 0

theorem safe_head10 : ∀ (n : Nat) {s : Dec} (_ : Calm c size s) {l : I10} (_ : Empty l) (v : BitVec 64) (_ : Kind c size v),
    (head10 n s [] l v).Safe (Kind c size) (fun p => Calm c size p.1 ∧ ∀ q, p.2 = some q → Empty q.1)
  | 0, _, _, _, _, _, _ => rfl
  | n + 1, s, h, l, hl, v, hv => by
    unfold head10
    split
    · refine ⟨⟨h, fun q hq => (by cases hq)⟩, fun v1 _ => ⟨⟨h, fun q hq => (by cases hq)⟩, fun v2 _ => ?_⟩⟩
      have hg : gotIeara s [] l (bits v1 0 56 <<< 7) (bits v2 0 39 <<< 12) =
          .ok (s, { l with ieara := some (bits v1 0 56 <<< 7, bits v2 0 39 <<< 12), ixlate := none, ndxlates := 0 }) := by
        unfold gotIeara matchI selectI
        rw [hl.2]
        rfl
      show Prog.Safe _ _ (match gotIeara s [] l (bits v1 0 56 <<< 7) (bits v2 0 39 <<< 12) with
          | .error e => .stop (badHalt e)
          | .ok (s, l) =>
            .fetch fun
              | none => .done (s, none)
              | some v => head10 n s [] l v)
      rw [hg]
      refine ⟨⟨h, fun q hq => (by cases hq)⟩, fun v3 hv3 => ?_⟩
      exact safe_head10 n h ⟨rfl, rfl⟩ v3 hv3
    · rw [if_neg (not_walk hv)]
      exact ⟨h, fun q hq => (by cases hq; exact hl)⟩

theorem safe_emit10 {s : Dec} (h : Calm c size s) {l : I10} (_ : Empty l) : (emit10 c s l).Safe (Kind c size) (fun p => Calm c size p.1) := by
  unfold emit10
  have h1 : iside { s with prevAddr := s.insnAddr, prevBranch := l.branch || isCall s.insn } l =
      .ok ({ s with prevAddr := s.insnAddr, prevBranch := l.branch || isCall s.insn }, []) := by
    unfold iside; rw [if_neg (by show ¬ s.rpt = true; rw [h.rpt]; decide)]
  rw [h1]
  dsimp only
  have h2 : dside0 { s with prevAddr := s.insnAddr, prevBranch := l.branch || isCall s.insn } l = .ok ({ ok := true }, [], s.xl, l) := by
    unfold dside0; rw [if_neg (by show ¬ (s.rpt && _) = true; rw [h.rpt]; simp)]
  rw [h2]
  dsimp only
  have h3 : dside1 s.rpt s.xl l = .ok (s.xl, l) := by unfold dside1; rw [if_neg (by rw [h.rpt]; simp)]
  rw [h3]
  dsimp only
  have h4 : keepData s.rpt s.xl l = .ok s.xl := by unfold keepData; rw [if_neg (by rw [h.rpt]; simp)]
  rw [h4]
  dsimp only
  refine safe_tellAll (p := Prog.done _) ?_ _
  simp only [Prog.Safe]
  exact ⟨h.rpt, h.tlb⟩

theorem calm_place {s : Dec} (h : Calm c size s) (l : I10) : Calm c size (place s l) := by
  unfold place
  cases l.ieara with
  | none => exact ⟨h.rpt, h.tlb⟩
  | some p => exact ⟨h.rpt, h.tlb⟩

theorem safe_finish10 {s : Dec} (h : Calm c size s) {l : I10} (hl : Empty l) : (finish10 c s l).Safe (Kind c size) (fun p => Calm c size p.1) := by
  have hp := calm_place h l
  unfold finish10
  split
  · exact hp
  · rename_i w _
    show Prog.Safe _ _ (if c.full then emit10 c { place s l with insn := w } l else .done ({ place s l with insn := w }, true))
    split
    · exact safe_emit10 (s := { place s l with insn := w }) ⟨hp.rpt, hp.tlb⟩ hl
    · exact ⟨hp.rpt, hp.tlb⟩

theorem safe_draStep10 {l : I10} (hl : Empty l) (i : Nat) :
    (draStep10 c i l).Safe (Kind c size) (fun o => ∀ q, o = some q → Empty q.2) := by
  unfold draStep10
  split
  · refine ⟨fun q hq => (by cases hq), fun v _ => ?_⟩
    dsimp only
    repeat' split
    all_goals exact fun q hq => (by cases hq; exact hl)
  · exact fun q hq => (by cases hq; exact hl)

theorem safe_dataStep10 {l : I10} (hl : Empty l) (i : Nat) :
    (dataStep10 c i l).Safe (Kind c size) (fun o => ∀ q, o = some q → Empty q.2) := by
  unfold dataStep10
  split
  · refine ⟨fun q hq => (by cases hq), fun v _ => ?_⟩
    dsimp only
    split
    · exact safe_draStep10 (l := { l with dea := 0 }) hl i
    · split
      · split
        · exact fun q hq => (by cases hq; exact hl)
        · exact safe_draStep10 hl i
      · split
        · exact safe_draStep10 (l := { l with dea0 := v }) hl i
        · exact safe_draStep10 (l := { l with dea1 := v }) hl i
  · exact safe_draStep10 hl i

theorem safe_body10 {s : Dec} (h : Calm c size s) {l : I10} (hl : Empty l) : (body10 c s l).Safe (Kind c size) (fun p => Calm c size p.1) := by
  unfold body10
  refine safe_bind (P := fun o => ∀ q, o = some q → Empty q) ?_ _ ?_
  · intro o ho
    cases o with
    | none => exact h
    | some l => exact safe_finish10 h (ho l rfl)
  · unfold data10
    split
    · refine safe_bind (P := fun o => ∀ q, o = some q → Empty q.2) ?_ _ (safe_dataStep10 hl 0)
      intro o ho
      match o, ho with
      | none, _ => exact fun q hq => (by cases hq)
      | some (true, l), ho => exact fun q hq => (by cases hq; exact ho _ rfl)
      | some (false, l), ho =>
        show Prog.Safe _ _ (if 1 < l.dea ∨ 1 < l.dra then (dataStep10 c 1 l).bind fun r => .done (r.map (·.2)) else .done (some l))
        split
        · refine safe_bind ?_ _ (safe_dataStep10 (ho _ rfl) 1)
          intro o ho
          cases o with
          | none => exact fun q hq => (by cases hq)
          | some p => exact fun q hq => (by cases hq; exact ho _ rfl)
        · exact fun q hq => (by cases hq; exact ho _ rfl)
    · exact fun q hq => (by cases hq; exact hl)

theorem safe_insn10 (n : Nat) {s : Dec} (h : Calm c size s) {v : BitVec 64} (hv : Kind c size v) :
    (insn10 c n s v).Safe (Kind c size) (fun p => Calm c size p.1) := by
  unfold insn10
  refine safe_bind ?_ _ (safe_head10 n h (l := {}) ⟨rfl, rfl⟩ v hv)
  intro p hp
  match p, hp with
  | (s, none), hp => exact hp.1
  | (s, some (l, v)), hp =>
    have hl := hp.2 _ rfl
    show Prog.Safe _ _ (match info10 l v with
      | none => .done (s, false)
      | some l => .tell (.count .instructionsProcessed) (msr10 c s l))
    cases hi : info10 l v with
    | none => exact hp.1
    | some l' =>
      have hl' : Empty l' := by
        unfold info10 at hi
        split at hi
        · cases hi
        · cases hi; exact hl
      show (msr10 c s l').Safe _ _
      unfold msr10
      refine ⟨hp.1, fun v _ => ?_⟩
      show (prefix10 c s { l' with hv := bit v 0, ir := bit v 2, dr := bit v 3 }).Safe _ _
      unfold prefix10
      split
      · refine ⟨hp.1, fun v _ => ?_⟩
        refine safe_body10 hp.1 ?_
        split
        · exact hl'
        · exact hl'
      · exact safe_body10 hp.1 (l := { l' with hv := bit v 0, ir := bit v 2, dr := bit v 3 }) hl'

end

/-! ### C102 -/

theorem simple_zero : Simple 0 := ⟨by unfold IsWalk; decide, by unfold BadMark; decide⟩

/-- **C102**, with a callback: a dump of any contents without records of page-table walks, malformed marks, real addresses of
instructions with different page sizes or addresses in the last page, is decoded to the end, unless there are too many errors
in a row.  Missing: dumps with walks. -/
theorem C102_plain_partial (c : Conf) (size : Nat) (hs : size < 64) (eof : Bool) (bytes : List (BitVec 8)) (failing : Bool) (fill phantom : BitVec 64)
    (hw : ∀ v ∈ stream bytes failing eof fill phantom, Plain size v) {h : Halt} (hd : decode c eof bytes failing fill phantom = .error h) :
    h = .tooManyErrors := by
  have h0 : Plain size 0 := by
    refine { toSimple := simple_zero, real := fun n hn => ?_, last := ?_ }
    · have : realSize 0 = none := by decide
      rw [this] at hn; cases hn
    · have : 2 ^ size < 2 ^ 64 := Nat.pow_lt_pow_right (by decide) hs
      show 0 < _
      omega
  refine safe_decode (W := Kind c size) (I := Calm c size) (fun v hv => hv.simple.mark) ?_ ⟨rfl, fun _ => oneSize_empty size⟩
    (fun s v h _ => safe_insn9 h v) (fun n s v h hv => safe_insn10 n h hv) (fun v hv => ?_) hd
  · unfold Kind; split
    · exact h0
    · exact simple_zero
  · unfold Kind; split
    · exact hw v hv
    · exact (hw v hv).toSimple

/-- **C102**, without a callback (options `-s`, `-i` and `-b`): page sizes and addresses do not matter. -/
theorem C102_statistics_partial (c : Conf) (hc : c.full = false) (eof : Bool) (bytes : List (BitVec 8)) (failing : Bool) (fill phantom : BitVec 64)
    (hw : ∀ v ∈ stream bytes failing eof fill phantom, Simple v) {h : Halt} (hd : decode c eof bytes failing fill phantom = .error h) :
    h = .tooManyErrors := by
  have hk : ∀ v, Kind c 0 v ↔ Simple v := fun v => by unfold Kind; rw [hc]; exact Iff.rfl
  refine safe_decode (W := Kind c 0) (I := Calm c 0) (fun v hv => hv.simple.mark) ((hk 0).2 simple_zero) ⟨rfl, fun h => (by rw [hc] at h; cases h)⟩
    (fun s v h _ => safe_insn9 h v) (fun n s v h hv => safe_insn10 n h hv) (fun v hv => (hk v).2 (hw v hv)) hd

/-- A dump with these records. -/
def dumpOf (l : List (BitVec 64)) : List (BitVec 8) := l.flatMap Qt.be64

instance (v : BitVec 64) : Decidable (IsWalk v) := by unfold IsWalk; infer_instance
instance (v : BitVec 64) : Decidable (BadMark v) := by unfold BadMark; infer_instance

/-- `Plain`, as a test. -/
def plainB (size : Nat) (v : BitVec 64) : Bool :=
  decide (¬ IsWalk v) && decide (¬ BadMark v) && (realSize v).all (fun n => n == size) && decide (v.toNat < 2 ^ 64 - 2 ^ size)

theorem plainB_iff {size : Nat} {v : BitVec 64} (h : plainB size v = true) : Plain size v := by
  unfold plainB at h
  simp only [Bool.and_eq_true, decide_eq_true_eq] at h
  refine { walk := h.1.1.1, mark := h.1.1.2, real := fun n hn => ?_, last := h.2 }
  have := h.1.2
  rw [hn] at this
  exact eq_of_beq this

def exConf : Conf := { fn := true, private_ := true, junk := {} }

/-- POWER10 and POWER9 instructions, marks and garbage. -/
def exPlain : List (BitVec 64) :=
  [0x000000003abcdf00, 0xc000000000ea0780, 0x0000000ea0000000, 0x7f8438002abcdf54, 0xb8c0000000000000,
   0xACEFF34000000001, 0x600000000abcdee0, 0x0000000010000001, 0x0000001001000000, 0x1234567812345678, 0xACEFF9abcdefabcd,
   0x600000000abcdee0, 0x0000000010001001, 0x0000002001000000, 0x600000000abcdec0, 0x0000000010000011]

example : (∀ v ∈ stream (dumpOf exPlain) false false 0 0, Plain 12 v) ∧ (decode exConf false (dumpOf exPlain) false 0 0).toOption.isSome = true := by
  refine ⟨fun v hv => plainB_iff ?_, by decide +kernel⟩
  have : (stream (dumpOf exPlain) false false 0 0).all (plainB 12) = true := by decide +kernel
  exact List.all_eq_true.1 this v hv

/-- How decoding stops, if it does. -/
def halt (l : List (BitVec 64)) : Option Halt :=
  match decode exConf false (dumpOf l) false 0 0 with
  | .error h => some h
  | .ok _ => none

/-- **C102** does not hold of dumps of a system without a hypervisor below it: the dump `htm/tests/dumps/08.htm` of the project, a
walk and the instruction it is for, ends decoding with an assertion. -/
theorem C102_hypervisor_refuted :
    halt [0x000000019abcdf00, 0x1e00301ffffd0000, 0x2e00301ffe000030, 0x1c00000001e50300, 0x1800301ffffe03f8,
      0x3e00301ffe000030, 0x1c000000494a0000, 0x180000005da98020, 0x14000000f7252f08, 0x100000002b2a0328,
      0xb2000002f5f20000, 0x0100000000000000, 0x000000003abcdf00, 0x000000013c250780, 0x00002f5f20000000,
      0x000000006abcdf5c, 0xf8c0000000000000, 0x0700000000000000] = some .assert := by
  decide +kernel

/-- **C102** does not hold of a third walk before an instruction: it is stored behind the end of an array. -/
theorem C102_walks_refuted :
    halt [0x000000001abcdf00, 0x0100000000000000, 0x000000001abcdf00, 0x0100000000000000, 0x000000001abcdf00, 0x0100000000000000] =
      some .undefined ∧
    halt [0x800000001abcdf00, 0x0100000000000000, 0x800000001abcdf00, 0x0100000000000000, 0x800000001abcdf00, 0x0100000000000000] =
      some .undefined := by
  decide +kernel

/-- **C102** does not hold of a mark with a reserved bit set. -/
theorem C102_mark_refuted : halt [0xACEFF30000000002] = some .assert := by decide +kernel

/-- **C102** does not hold of POWER9 dumps with pages of 4 and 64 kilobytes in the same 64 kilobytes, or with an instruction in the last page. -/
theorem C102_pages_refuted :
    halt [0x600000000abcdee0, 0x0000000000010001, 0x0000001001000000, 0x600000000abcdee0, 0x0000000000015001, 0x0000010002000000] =
      some .assert ∧
    halt [0x600000000abcdee0, 0xfffffffffffff001, 0x0000001001000000, 0x600000000abcdec0, 0xfffffffffffff001] = some .assert := by
  decide +kernel

/-- **C102** does not hold of a dump with 102 records in a row that are not understood. -/
theorem C102_errors_refuted : halt (List.replicate 102 0xACEFF50000000000) = some .tooManyErrors ∧
    halt (List.replicate 101 0xACEFF50000000000) = none := by
  decide +kernel

end Htm
