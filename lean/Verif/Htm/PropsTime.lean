import Verif.Htm.StampLemmas
/-!
C72: every stamp of a trace is reported, once and in order.
-/
namespace Htm

theorem reported_of (cf : Conf) : ∀ (S : List (BitVec 64)) (L : List Ev), L.map some = S.flatMap (due cf) →
    ∃ ss, Reported S ss ∧ L = ss.flatMap (tellsOf cf) ∧ ∀ v ∈ S, ¬ Unfit v
  | [], L, h => ⟨[], .nil, List.map_eq_nil_iff.1 h, fun _ h => by cases h⟩
  | v :: S, L, h => by
    rw [List.flatMap_cons] at h
    obtain ⟨L1, L2, hL, h1, h2⟩ := List.map_eq_append_iff.1 h
    obtain ⟨ss, hr, hs, hu⟩ := reported_of cf S L2 h2
    have hall : ¬ Unfit v → ∀ w ∈ v :: S, ¬ Unfit w := fun h0 w hw => by
      rcases List.mem_cons.1 hw with hw | hw
      · rw [hw]; exact h0
      · exact hu w hw
    unfold due at h1
    cases hv : isStamp v with
    | false =>
      rw [hv, if_neg (by decide)] at h1
      have : L1 = [] := List.map_eq_nil_iff.1 h1
      have h0 : ¬ Unfit v := fun x => by
        have := (isStamp_div v).2 (by have := x.1; omega)
        rw [hv] at this; cases this
      refine ⟨ss, .other (fun s hs => ?_) hr, by rw [hL, this, hs]; rfl, hall h0⟩
      have := says_stamp hs
      rw [hv] at this; cases this
    | true =>
      rw [hv, if_pos rfl] at h1
      have hc := stampOf_cases hv
      cases hq : stampOf v with
      | error e =>
        rw [hq] at h1
        cases L1 with
        | nil => cases h1
        | cons a b => cases h1
      | ok o =>
        rw [hq] at h1 hc
        cases o with
        | none =>
          have : L1 = [] := List.map_eq_nil_iff.1 h1
          exact ⟨ss, .other hc.1 hr, by rw [hL, this, hs]; rfl, hall hc.2⟩
        | some s =>
          have : L1 = tellsOf cf s := (List.map_inj_right (fun _ _ h => Option.some.inj h)).1 h1
          refine ⟨s :: ss, .stamp hc hr, by rw [hL, this, hs]; rfl, hall fun x => ?_⟩
          have hx := x.1
          have hy := x.2
          cases hc with
          | mark g c u i d _ _ _ _ hq =>
            have : d.toNat ≤ 1 := Bool.toNat_le d
            omega
          | _ => omega

theorem stamps_filter (l : List Ev) : stamps (l.filter ofStamp) = stamps l := by
  induction l with
  | nil => rfl
  | cons e l ih =>
    unfold stamps at ih ⊢
    rw [List.filter_cons]
    split
    · rw [List.filterMap_cons, List.filterMap_cons, ih]
    · rename_i h
      rw [List.filterMap_cons, ih]
      cases e with
      | stamp s => exact absurd rfl h
      | _ => rfl

theorem cycles_filter (l : List Ev) : cycles (l.filter ofStamp) = cycles l := by
  induction l with
  | nil => rfl
  | cons e l ih =>
    unfold cycles at ih ⊢
    rw [List.filter_cons]
    split
    · rw [List.filterMap_cons, List.filterMap_cons, ih]
    · rename_i h
      rw [List.filterMap_cons, ih]
      cases e with
      | cycles s => exact absurd rfl h
      | _ => rfl

theorem counted_filter {k : Counter} (hk : ofStamp (.count k) = true) (l : List Ev) : counted k (l.filter ofStamp) = counted k l := by
  induction l with
  | nil => rfl
  | cons e l ih =>
    unfold counted at ih ⊢
    rw [List.filter_cons]
    split
    · rw [List.countP_cons, List.countP_cons, ih]
    · rename_i h
      rw [List.countP_cons, ih]
      cases e with
      | count c =>
        have : c ≠ k := fun x => by rw [x] at h; exact h hk
        simp [this]
      | _ => rfl

theorem stamps_tells (cf : Conf) (s : Stamp) : stamps (tellsOf cf s) = if cf.fn then [s] else [] := by
  unfold tellsOf
  cases s with
  | time i e k =>
    unfold timeEvents
    dsimp only
    by_cases hi : i = 0x80
    · rw [if_pos hi]; cases cf.fn <;> rfl
    · rw [if_neg hi]; cases cf.fn <;> rfl
  | _ => cases cf.fn <;> rfl

theorem cycles_tells (cf : Conf) (s : Stamp) : cycles (tellsOf cf s) = s.cycles.toList := by
  unfold tellsOf
  cases s with
  | time i e k =>
    unfold timeEvents Stamp.cycles
    dsimp only
    by_cases hi : i = 0x80
    · rw [if_pos hi, if_pos hi]; cases cf.fn <;> rfl
    · rw [if_neg hi, if_neg hi]; cases cf.fn <;> rfl
  | _ => cases cf.fn <;> rfl

theorem counted_tells (cf : Conf) (s : Stamp) : counted .timestampsScanned (tellsOf cf s) = s.isTime.toNat ∧
    counted .timestampsProcessed (tellsOf cf s) = s.isTime.toNat := by
  unfold tellsOf
  cases s with
  | time i e k =>
    unfold timeEvents
    dsimp only
    by_cases hi : i = 0x80
    · rw [if_pos hi]; cases cf.fn <;> exact ⟨rfl, rfl⟩
    · rw [if_neg hi]; cases cf.fn <;> exact ⟨rfl, rfl⟩
  | _ => cases cf.fn <;> exact ⟨rfl, rfl⟩

theorem all_tells (cf : Conf) : ∀ ss : List Stamp,
    stamps (ss.flatMap (tellsOf cf)) = (if cf.fn then ss else []) ∧ cycles (ss.flatMap (tellsOf cf)) = ss.filterMap Stamp.cycles ∧
    counted .timestampsScanned (ss.flatMap (tellsOf cf)) = ss.countP Stamp.isTime ∧
    counted .timestampsProcessed (ss.flatMap (tellsOf cf)) = ss.countP Stamp.isTime
  | [] => by cases cf.fn <;> exact ⟨rfl, rfl, rfl, rfl⟩
  | s :: ss => by
    obtain ⟨h1, h2, h3, h4⟩ := all_tells cf ss
    rw [List.flatMap_cons]
    refine ⟨?_, ?_, ?_, ?_⟩
    · rw [show stamps (tellsOf cf s ++ ss.flatMap (tellsOf cf)) = stamps (tellsOf cf s) ++ stamps (ss.flatMap (tellsOf cf)) from List.filterMap_append,
        stamps_tells, h1]
      cases cf.fn <;> rfl
    · rw [show cycles (tellsOf cf s ++ ss.flatMap (tellsOf cf)) = cycles (tellsOf cf s) ++ cycles (ss.flatMap (tellsOf cf)) from List.filterMap_append,
        cycles_tells, h2, List.filterMap_cons]
      cases s.cycles <;> rfl
    · rw [show counted .timestampsScanned (tellsOf cf s ++ ss.flatMap (tellsOf cf)) = counted .timestampsScanned (tellsOf cf s) +
        counted .timestampsScanned (ss.flatMap (tellsOf cf)) from List.countP_append, (counted_tells cf s).1, h3, List.countP_cons]
      cases s.isTime <;> simp [Nat.add_comm]
    · rw [show counted .timestampsProcessed (tellsOf cf s ++ ss.flatMap (tellsOf cf)) = counted .timestampsProcessed (tellsOf cf s) +
        counted .timestampsProcessed (ss.flatMap (tellsOf cf)) from List.countP_append, (counted_tells cf s).2, h4, List.countP_cons]
      cases s.isTime <;> simp [Nat.add_comm]

/-- **C72**: when a trace was decoded, the callback was given every stamp among its records, with the contents of the record,
once and in order; the cycles are those of the time stamps with a time, and the time stamps are counted, with and
without a callback.  No record was a marker with something in the reserved bits: such a record ends the program. -/
theorem C72_stamps_partial (c : Conf) (eof : Bool) (bytes : List (BitVec 8)) (failing : Bool) (fill phantom : BitVec 64) {s : Dec} {r : Rd}
    (h : decode c eof bytes failing fill phantom = .ok (s, r)) :
    ∃ ss, Reported (stream bytes failing eof fill phantom) ss ∧
      stamps r.out = (if c.fn then ss else []) ∧
      cycles r.out = ss.filterMap Stamp.cycles ∧
      counted .timestampsScanned r.out = ss.countP Stamp.isTime ∧ counted .timestampsProcessed r.out = ss.countP Stamp.isTime ∧
      ∀ v ∈ stream bytes failing eof fill phantom, ¬ Unfit v := by
  have h1 := decode_spec c eof bytes failing fill phantom
  rw [h] at h1
  have h2 : total c r = total c (start eof bytes failing fill phantom) :=
    total_decodeLoop c _ (between_start eof bytes failing fill phantom) h
  unfold total at h2
  have h3 : pending (start eof bytes failing fill phantom) = stream bytes failing eof fill phantom := by
    have := (acc_start eof bytes failing fill phantom).rest
    exact this.symm
  rw [h1.2, h3] at h2
  have h4 : (r.out.filter ofStamp).map some = (stream bytes failing eof fill phantom).flatMap (due c) := by
    simpa [start] using h2
  obtain ⟨ss, hr, hs, hu⟩ := reported_of c _ _ h4
  obtain ⟨a1, a2, a3, a4⟩ := all_tells c ss
  refine ⟨ss, hr, ?_, ?_, ?_, ?_, hu⟩
  · rw [← stamps_filter, hs, a1]
  · rw [← cycles_filter, hs, a2]
  · rw [← counted_filter rfl, hs, a3]
  · rw [← counted_filter rfl, hs, a4]

/-- **C72**: what is reported is determined by the records. -/
theorem C72_unique {S : List (BitVec 64)} {ss ss' : List Stamp} (h : Reported S ss) (h' : Reported S ss') : ss = ss' := by
  have hu : ∀ {v : BitVec 64} {s s' : Stamp}, Says v s → Says v s' → s = s' := by
    intro v s s' h1 h2
    cases h1 with
    | record c l _ _ e1 =>
      cases h2 with
      | record c' l' _ _ e2 => have : c = c' := by omega
                               rw [this]
      | mark g c u i d _ _ _ _ hq => have : d.toNat ≤ 1 := Bool.toNat_le d
                                     omega
      | _ => omega
    | complete c l _ _ e1 =>
      cases h2 with
      | complete c' l' _ _ e2 => have : l = l' := by omega
                                 rw [this]
      | mark g c u i d _ _ _ _ hq => have : d.toNat ≤ 1 := Bool.toNat_le d
                                     omega
      | _ => omega
    | pause c l _ _ e1 =>
      cases h2 with
      | pause c' l' _ _ e2 => have : l = l' := by omega
                              rw [this]
      | mark g c u i d _ _ _ _ hq => have : d.toNat ≤ 1 := Bool.toNat_le d
                                     omega
      | _ => omega
    | sync l _ e1 =>
      cases h2 with
      | sync => rfl
      | mark g c u i d _ _ _ _ hq => have : d.toNat ≤ 1 := Bool.toNat_le d
                                     omega
      | _ => omega
    | mark g c u i d _ _ _ _ e1 =>
      have hd : d.toNat ≤ 1 := Bool.toNat_le d
      cases h2 with
      | mark g' c' u' i' d' _ _ _ _ e2 =>
        have hd' : d'.toNat ≤ 1 := Bool.toNat_le d'
        have h1 : g = g' := by omega
        have h2 : c = c' := by omega
        have h3 : u = u' := by omega
        have h4 : i = i' := by omega
        have h5 : d.toNat = d'.toNat := by omega
        have h6 : d = d' := by cases d <;> cases d' <;> first | rfl | cases h5
        rw [h1, h2, h3, h4, h6]
      | _ => omega
    | time i c e _ _ _ _ e1 =>
      cases h2 with
      | time i' c' e' _ _ _ _ e2 =>
        have h1 : i = i' := by omega
        have h2 : c = c' := by omega
        have h3 : e = e' := by omega
        rw [h1, h2, h3]
      | mark g c u i d _ _ _ _ hq => have : d.toNat ≤ 1 := Bool.toNat_le d
                                     omega
      | _ => omega
  induction h generalizing ss' with
  | nil => cases h'; rfl
  | stamp hs _ ih =>
    cases h' with
    | stamp hs' hl' => rw [hu hs hs', ih hl']
    | other hn _ => exact absurd hs (hn _)
  | other hn _ ih =>
    cases h' with
    | stamp hs' _ => exact absurd hs' (hn _)
    | other _ hl' => exact ih hl'

/-- A trace with a stamp of every kind and one that is unknown, between instructions and between the records of one. -/
def exStamps : List (BitVec 8) :=
  [0xAC, 0xEF, 0xF0, 7, 0, 0, 0, 1, 0x60, 0, 0, 0, 0x0a, 0xbc, 0xde, 0xc0, 0xAC, 0xEF, 0xF8, 0, 0, 0, 0, 5, 0, 0, 0, 0, 0, 0, 0x10, 0,
   0xAC, 0xEF, 0xFA, 0x03, 0x40, 0, 0, 5, 0xAC, 0xEF, 0xF4, 0, 0, 0, 0, 0, 0xAC, 0xEF, 0xF5, 0, 0, 0, 0, 0,
   0xAC, 0xEF, 0xF3, 0x12, 0, 0x80, 8, 1, 0xAC, 0xEF, 0xF2, 0, 0xF0, 0, 0, 6, 0xAC, 0xEF, 0xF1, 0, 0, 0, 0, 9]

example : (decode { fn := true, private_ := true, junk := {} } true exStamps false 0 0).toOption.map (fun p => (stamps p.2.out, cycles p.2.out)) =
    some ([.record 7, .time 0x80 5 0, .time 0xA0 0 0x34, .sync, .mark 1 1 1 1 true, .pause 6, .complete 9], [5]) := by decide +kernel

/-- **C72, the exception**: a marker with something in the reserved bits ends the program, whatever follows. -/
theorem C72_reserved_refuted : (decode { fn := true, private_ := true, junk := {} } true [0xAC, 0xEF, 0xF3, 0x12, 0, 0x80, 8, 2] false 0 0).toOption.isNone = true := by
  decide +kernel

end Htm
