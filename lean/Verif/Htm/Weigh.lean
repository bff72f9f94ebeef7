import Verif.Htm.SummaryLemmas
import Verif.Htm.Sat
/-!
How much the decoder counts for each instruction, for every dump: the counters are weighed, and what an instruction adds is bounded.
-/
namespace Htm
open Htm.Spec

/-- The sum of the weights of what is counted. -/
def weigh (w : Counter → Int) : List Ev → Int
  | [] => 0
  | .count k :: l => w k + weigh w l
  | _ :: l => weigh w l

def evWeight (w : Counter → Int) : Ev → Int
  | .count k => w k
  | _ => 0

theorem weigh_cons (w : Counter → Int) (e : Ev) (l : List Ev) : weigh w (e :: l) = evWeight w e + weigh w l := by
  cases e with
  | count k => rfl
  | _ => exact (Int.zero_add _).symm

theorem weigh_append (w : Counter → Int) : ∀ a b : List Ev, weigh w (a ++ b) = weigh w a + weigh w b
  | [], b => (Int.zero_add _).symm
  | e :: a, b => by rw [List.cons_append, weigh_cons, weigh_cons, weigh_append w a b, Int.add_assoc]

/-- What a program counts, if it ends, weighs at most `n`. -/
def Light (w : Counter → Int) {α : Type} : Int → Prog α → Prop
  | n, .done _ => 0 ≤ n
  | _, .stop _ => True
  | n, .fetch k => ∀ v, Light w n (k v)
  | n, .back _ k => Light w n k
  | n, .tell e k => Light w (n - evWeight w e) k

/-- A program that counts nothing and does nothing else that others can see. -/
def Silent {α : Type} : Prog α → Prop
  | .done _ => True
  | .stop _ => True
  | .fetch k => ∀ v, Silent (k v)
  | .back _ k => Silent k
  | .tell _ _ => False

variable {w : Counter → Int}

theorem light_mono {α : Type} : ∀ (p : Prog α) {n m : Int}, n ≤ m → Light w n p → Light w m p
  | .done _, _, _, h, hp => Int.le_trans hp h
  | .stop _, _, _, _, _ => trivial
  | .fetch k, _, _, h, hp => fun v => light_mono (k v) h (hp v)
  | .back _ k, _, _, h, hp => light_mono k h hp
  | .tell _ k, _, _, h, hp => light_mono k (Int.sub_le_sub_right h _) hp

theorem light_silent {α β : Type} {n : Int} {f : α → Prog β} (hf : ∀ a, Light w n (f a)) : ∀ p : Prog α, Silent p → Light w n (p.bind f)
  | .done a, _ => hf a
  | .stop _, _ => trivial
  | .fetch k, h => fun v => light_silent hf (k v) (h v)
  | .back _ k, h => light_silent hf k h
  | .tell _ _, h => h.elim

theorem silent_bind {α β : Type} {f : α → Prog β} (hf : ∀ a, Silent (f a)) : ∀ p : Prog α, Silent p → Silent (p.bind f)
  | .done a, _ => hf a
  | .stop _, _ => trivial
  | .fetch k, h => fun v => silent_bind hf (k v) (h v)
  | .back _ k, h => silent_bind hf k h
  | .tell _ _, h => h.elim

/-- Something is counted, and then the rest is weighed. -/
theorem light_count {α : Type} {p : Prog α} {n m : Int} {k : Counter} (h : Light w m p) (hm : m ≤ n - w k) : Light w n (.tell (.count k) p) := light_mono p hm h

theorem light_event {α : Type} {p : Prog α} {n : Int} {e : Ev} (he : evWeight w e = 0) (h : Light w n p) : Light w n (.tell e p) :=
  light_mono p (by rw [he]; omega) h

theorem light_tellAll {α : Type} {p : Prog α} : ∀ (l : List Ev) {n : Int}, Light w (n - weigh w l) p → Light w n (tellAll l p)
  | [], n, h => by rw [weigh, Int.sub_zero] at h; exact h
  | e :: l, n, h => by
    show Light w (n - evWeight w e) (tellAll l p)
    refine light_tellAll l ?_
    rw [weigh_cons] at h
    rw [show n - evWeight w e - weigh w l = n - (evWeight w e + weigh w l) by omega]; exact h

/-! ### POWER9 -/

/-- The last of the steps counts a jump at most. -/
theorem light_finish9 {J : Int} (h0 : 0 ≤ J) (h1 : w .interrupts ≤ J) (h2 : w .branchesAfterNonbranches ≤ J) (c : Conf) (s : Dec) (i : I9) : Light w J (finish9 c s i) := by
  unfold finish9
  split
  · exact h0
  · show Light w (J - 0) _
    rw [Int.sub_zero]
    split
    · refine light_tellAll _ ?_
      show 0 ≤ J - weigh w (jumpEvents s) - 0
      unfold jumpEvents
      repeat' split
      all_goals simp only [weigh]; omega
    · exact h0

/-- What a page of data counts, weighed together with the counter of such pages. -/
structure DataBound (w : Counter → Int) (D : Int) : Prop where
  zero : 0 ≤ D
  segment : ∀ n : BitVec 32, n = 0#32 ∨ n = 1#32 ∨ n = 2#32 ∨ n = 3#32 → w (.segment n) + w .withDVsid ≤ D
  page : ∀ n, w (.dataPages n) + w .withoutDVsid ≤ D
  none : w .withoutDVsid ≤ D

theorem light_draStep9 {J D : Int} (h0 : 0 ≤ J) (h1 : w .interrupts ≤ J) (h2 : w .branchesAfterNonbranches ≤ J) (hd : DataBound w D) (c : Conf) (s : Dec) (i : I9) :
    Light w (D + J) (draStep9 c s i) := by
  have hf : ∀ s i, Light w (D + J) (finish9 c s i) := fun s i => light_mono _ (by have := hd.zero; omega) (light_finish9 h0 h1 h2 c s i)
  have h00 : 0 ≤ D + J := by have := hd.zero; omega
  unfold draStep9
  split
  · intro o
    cases o with
    | none => exact h00
    | some v =>
      dsimp only
      split
      · exact hf _ _
      · split
        · split
          · exact hf _ _
          · refine light_count (light_count (n := J + w .withDVsid) (light_finish9 h0 h1 h2 c s i) (by omega)) ?_
            have hn : (u32 v 0 1).toNat < 4 := by rw [u32_fld (by omega) (by omega) (by omega)]; exact fld_lt ..
            have := hd.segment (u32 v 0 1) (by
              have : (u32 v 0 1).toNat = 0 ∨ (u32 v 0 1).toNat = 1 ∨ (u32 v 0 1).toNat = 2 ∨ (u32 v 0 1).toNat = 3 := by omega
              rcases this with h | h | h | h
              · exact .inl (BitVec.eq_of_toNat_eq h)
              · exact .inr (.inl (BitVec.eq_of_toNat_eq h))
              · exact .inr (.inr (.inl (BitVec.eq_of_toNat_eq h)))
              · exact .inr (.inr (.inr (BitVec.eq_of_toNat_eq h))))
            omega
        · split
          · exact hf _ _
          · refine light_tellAll _ ?_
            refine light_count (light_finish9 h0 h1 h2 c s _) ?_
            unfold dataPages9
            have h12 := hd.page 12
            have h16 := hd.page 16
            have h24 := hd.page 24
            have hn := hd.none
            repeat' split
            all_goals simp only [weigh]; omega
  · exact hf _ _

theorem light_deaStep9 {J D : Int} (h0 : 0 ≤ J) (h1 : w .interrupts ≤ J) (h2 : w .branchesAfterNonbranches ≤ J) (hd : DataBound w D) (c : Conf) (s : Dec) (i : I9) :
    Light w (D + J) (deaStep9 c s i) := by
  have hf : ∀ s i, Light w (D + J) (finish9 c s i) := fun s i => light_mono _ (by have := hd.zero; omega) (light_finish9 h0 h1 h2 c s i)
  have h00 : 0 ≤ D + J := by have := hd.zero; omega
  unfold deaStep9
  split
  · intro o
    cases o with
    | none => exact h00
    | some v =>
      dsimp only
      split
      · exact light_draStep9 h0 h1 h2 hd ..
      · split
        · exact hf _ _
        · split <;> exact light_draStep9 h0 h1 h2 hd ..
  · exact light_draStep9 h0 h1 h2 hd ..

/-- What the page of an instruction counts. -/
structure InsnBound (w : Counter → Int) (I : Int) : Prop where
  zero : 0 ≤ I
  without : w .withoutIra ≤ I
  page : ∀ n, w (.insnPages n) + w .withIVsid + w .withIra ≤ I
  page' : ∀ n, w (.insnPages n) + w .withoutIVsid + w .withIra ≤ I

theorem light_iraStep9 {J D I : Int} (h0 : 0 ≤ J) (h1 : w .interrupts ≤ J) (h2 : w .branchesAfterNonbranches ≤ J) (hd : DataBound w D) (hi : InsnBound w I) (c : Conf)
    (s : Dec) (i : I9) : Light w (I + D + J) (iraStep9 c s i) := by
  have z1 := hi.zero
  have z2 := hd.zero
  have hf : ∀ s i, Light w (I + D + J) (finish9 c s i) := fun s i => light_mono _ (by omega) (light_finish9 h0 h1 h2 c s i)
  have hr : ∀ s i, Light w (D + J) (deaStep9 c s i) := light_deaStep9 h0 h1 h2 hd c
  unfold iraStep9
  show Light w (I + D + J - 0) _
  rw [Int.sub_zero]
  split
  · intro o
    cases o with
    | none => exact (by omega : 0 ≤ I + D + J)
    | some v =>
      dsimp only
      split
      · exact light_mono _ (by omega) (hr _ _)
      · split
        · exact hf _ _
        · rename_i a n hv
          refine light_count (m := I + D + J - w (.insnPages n)) ?_ (Int.le_refl _)
          refine light_count (m := D + J + w .withIra) ?_ (by
            have a1 := hi.page n
            have a2 := hi.page' n
            split <;> omega)
          refine light_event rfl ?_
          split
          · trivial
          · exact light_count (hr _ _) (by omega)
  · refine light_count (hr _ _) ?_
    have := hi.without
    omega

theorem light_cached9 {J D I : Int} (h0 : 0 ≤ J) (h1 : w .interrupts ≤ J) (h2 : w .branchesAfterNonbranches ≤ J) (hd : DataBound w D) (hi : InsnBound w I) (c : Conf)
    (s : Dec) (i : I9) : Light w (I + D + J) (cached9 c s i) := by
  unfold cached9
  split
  · show Light w (I + D + J - 0) _
    rw [Int.sub_zero]
    split
    · trivial
    · exact light_iraStep9 h0 h1 h2 hd hi ..
    · exact light_iraStep9 h0 h1 h2 hd hi ..
  · exact light_iraStep9 h0 h1 h2 hd hi ..

/-- What a POWER9 instruction counts. -/
theorem light_insn9 {J D I N : Int} (h0 : 0 ≤ J) (h1 : w .interrupts ≤ J) (h2 : w .branchesAfterNonbranches ≤ J) (hd : DataBound w D) (hi : InsnBound w I)
    (hr : w .recordsProcessed = 0) (hs : w .instructionsScanned ≤ N) (hp : w .instructionsScanned + w .instructionsProcessed + I + D + J ≤ N) (c : Conf) (s : Dec) (v : BitVec 64) :
    Light w N (insn9 c s v) := by
  have z1 := hi.zero
  have z2 := hd.zero
  unfold insn9
  show Light w (N - w .recordsProcessed - w .instructionsScanned) _
  rw [hr]
  split
  · exact (by omega : 0 ≤ N - 0 - w .instructionsScanned)
  · split
    · show Light w (N - 0 - w .instructionsScanned - w .instructionsProcessed) _
      unfold ieaStep9
      split
      · intro o
        cases o with
        | none => exact (by omega : 0 ≤ N - 0 - w .instructionsScanned - w .instructionsProcessed)
        | some v =>
          dsimp only
          split
          · exact light_mono _ (by omega) (light_finish9 h0 h1 h2 ..)
          · exact light_mono _ (by omega) (light_cached9 h0 h1 h2 hd hi ..)
      · exact light_mono _ (by omega) (light_iraStep9 h0 h1 h2 hd hi ..)
    · exact (by omega : 0 ≤ N - 0 - w .instructionsScanned)

/-! ### POWER10 -/

theorem silent_walks10 : ∀ (k : Nat) (x : Pwc.Xlate) (i : Nat), Silent (walks10 x k i)
  | 0, _, _ => trivial
  | k + 1, x, i => by
    unfold walks10
    intro v
    cases v with
    | none => trivial
    | some v =>
      dsimp only
      split
      · trivial
      · exact silent_walks10 k _ _

theorem silent_ieara10 : Silent ieara10 := by
  unfold ieara10
  intro v
  cases v with
  | none => trivial
  | some v =>
    intro w
    cases w <;> trivial

theorem silent_head10 : ∀ (k : Nat) (s : Dec) (ix : List Pwc.Xlate) (i : I10) (v : BitVec 64), Silent (head10 k s ix i v)
  | 0, _, _, _, _ => trivial
  | k + 1, s, ix, i, v => by
    unfold head10
    split
    · refine silent_bind ?_ _ silent_ieara10
      intro a
      split
      · trivial
      · split
        · trivial
        · intro v
          cases v with
          | none => trivial
          | some v => exact silent_head10 k _ _ _ _
    · split
      · split
        · split
          · refine silent_bind ?_ _ (silent_walks10 ..)
            intro a
            split
            · trivial
            · intro v
              cases v with
              | none => trivial
              | some v => exact silent_head10 k _ _ _ _
          · trivial
        · split
          · refine silent_bind ?_ _ (silent_walks10 ..)
            intro a
            split
            · trivial
            · intro v
              cases v with
              | none => trivial
              | some v => exact silent_head10 k _ _ _ _
          · trivial
      · trivial

theorem silent_draStep10 (c : Conf) (i : Nat) (x : I10) : Silent (draStep10 c i x) := by
  unfold draStep10
  split
  · intro v
    cases v with
    | none => trivial
    | some v =>
      dsimp only
      repeat' split
      all_goals trivial
  · trivial

theorem silent_dataStep10 (c : Conf) (i : Nat) (x : I10) : Silent (dataStep10 c i x) := by
  unfold dataStep10
  split
  · intro v
    cases v with
    | none => trivial
    | some v =>
      dsimp only
      repeat' split
      all_goals first | trivial | exact silent_draStep10 ..
  · exact silent_draStep10 ..

theorem silent_data10 (c : Conf) (x : I10) : Silent (data10 c x) := by
  unfold data10
  split
  · refine silent_bind ?_ _ (silent_dataStep10 ..)
    intro a
    split
    · trivial
    · trivial
    · split
      · refine silent_bind ?_ _ (silent_dataStep10 ..)
        intro a; trivial
      · trivial
  · trivial

/-- What the translation of an instruction counts. -/
structure InsnBound10 (w : Counter → Int) (I : Int) : Prop where
  zero : 0 ≤ I
  found : w .withIXlate ≤ I
  missing : w .withoutIXlateErat ≤ I
  line : w .withoutIXlateIeara ≤ I
  incomplete : w .withoutIXlatePwc ≤ I
  page : ∀ n, w .withIXlate + w (.insnPages n) ≤ I
  page' : ∀ n, w .withoutIXlatePwc + w (.insnPages n) ≤ I

structure DataBound10 (w : Counter → Int) (D : Int) : Prop where
  zero : 0 ≤ D
  found : w .withDXlate ≤ D
  missing : w .withoutDXlateErat ≤ D
  incomplete : w .withoutDXlatePwc ≤ D
  page : ∀ n, w .withDXlate + w (.dataPages n) ≤ D
  page' : ∀ n, w .withoutDXlatePwc + w (.dataPages n) ≤ D

theorem weigh_iside {I : Int} (hi : InsnBound10 w I) {s s' : Dec} {l : I10} {es : List Ev} (h : iside s l = .ok (s', es)) : weigh w es ≤ I := by
  have a0 := hi.zero
  have a1 := hi.found
  have a2 := hi.missing
  have a3 := hi.line
  have a4 := hi.incomplete
  unfold iside at h
  split at h
  · split at h
    · unfold newLine at h
      dsimp only at h
      split at h
      · split at h
        · cases h
        · rename_i res y xl hx
          cases h
          have a5 := hi.page res.host
          have a6 := hi.page' res.host
          rw [weigh_cons]
          show w (if res.ok = true then .withIXlate else .withoutIXlatePwc) + _ ≤ I
          unfold pageEvents
          split <;> split <;> simp only [weigh] <;> omega
      · split at h
        · cases h
        · rename_i res hx
          cases h
          rw [weigh_cons]
          show w (if res.ok = true then .withIXlate else .withoutIXlateErat) + 0 ≤ I
          split <;> omega
    · unfold sameLine at h
      repeat' split at h
      all_goals first | (cases h; done) | (cases h; simp only [weigh]; omega)
  · cases h; exact a0

theorem weigh_dside {D : Int} (hd : DataBound10 w D) {x x' : Xl.St} {l l' : I10} {a b : BitVec 64} {res : Xl.Res} {es : List Ev}
    (h : dside x l a b = .ok (res, es, x', l')) : weigh w es ≤ D := by
  have a1 := hd.found
  have a2 := hd.missing
  have a4 := hd.incomplete
  unfold dside at h
  dsimp only at h
  split at h
  · split at h
    · cases h
    · rename_i res y xl hx
      cases h
      have a5 := hd.page res.host
      have a6 := hd.page' res.host
      rw [weigh_cons]
      show w (if res.ok = true then .withDXlate else .withoutDXlatePwc) + _ ≤ D
      unfold pageEvents
      split <;> split <;> simp only [weigh] <;> omega
  · split at h
    · cases h
    · rename_i res hx
      cases h
      rw [weigh_cons]
      show w (if res.ok = true then .withDXlate else .withoutDXlateErat) + 0 ≤ D
      split <;> omega

theorem light_emit10 {I D : Int} (hi : InsnBound10 w I) (hd : DataBound10 w D) (c : Conf) (s : Dec) (l : I10) : Light w (I + D) (emit10 c s l) := by
  unfold emit10
  split
  · trivial
  · rename_i s1 e1 h1
    have b1 := weigh_iside hi h1
    split
    · trivial
    · rename_i d e2 xl l2 h2
      have b2 : weigh w e2 ≤ D := by
        unfold dside0 at h2
        split at h2
        · exact weigh_dside hd h2
        · cases h2; exact hd.zero
      split
      · trivial
      · split
        · trivial
        · refine light_tellAll _ ?_
          rw [weigh_append, weigh_append, weigh_append]
          have b3 : weigh w (suffix10 s1 l2) = 0 := by
            unfold suffix10; split <;> rfl
          refine (?_ : 0 ≤ I + D - (weigh w e1 + weigh w e2 + 0 + weigh w (suffix10 _ _)))
          have b3 : ∀ s l, weigh w (suffix10 s l) = 0 := by
            intro s l
            unfold suffix10; split <;> rfl
          rw [b3]
          omega

theorem light_finish10 {I D : Int} (hi : InsnBound10 w I) (hd : DataBound10 w D) (c : Conf) (s : Dec) (l : I10) : Light w (I + D) (finish10 c s l) := by
  have z1 := hi.zero
  have z2 := hd.zero
  unfold finish10
  split
  · exact (by omega : 0 ≤ I + D)
  · refine light_event rfl (light_event rfl ?_)
    split
    · exact light_emit10 hi hd ..
    · exact (by omega : 0 ≤ I + D)

/-- What a POWER10 instruction counts. -/
theorem light_insn10 {I D N : Int} (hi : InsnBound10 w I) (hd : DataBound10 w D) (hr : w .recordsProcessed = 0) (hs : w .instructionsScanned ≤ N)
    (hp : w .instructionsScanned + w .instructionsProcessed + I + D ≤ N) (c : Conf) (n : Nat) (s : Dec) (v : BitVec 64) : Light w N (insn10 c n s v) := by
  have z1 := hi.zero
  have z2 := hd.zero
  have hb : ∀ s l, Light w (I + D) (body10 c s l) := by
    intro s l
    unfold body10
    refine light_silent ?_ _ (silent_data10 c l)
    intro o
    cases o with
    | none => exact (by omega : 0 ≤ I + D)
    | some l => exact light_finish10 hi hd ..
  unfold insn10
  refine light_count (m := N) (light_count (m := N - w .instructionsScanned) ?_ (Int.le_refl _)) (by omega)
  refine light_silent ?_ _ (silent_head10 ..)
  rintro ⟨s1, o⟩
  cases o with
  | none => exact (by omega : 0 ≤ N - w .instructionsScanned)
  | some p =>
    dsimp only
    split
    · exact (by omega : 0 ≤ N - w .instructionsScanned)
    · refine light_count (m := I + D) ?_ (by omega)
      unfold msr10
      intro o
      cases o with
      | none => exact (by omega : 0 ≤ I + D)
      | some v =>
        dsimp only
        unfold prefix10
        split
        · intro o
          cases o with
          | none => exact (by omega : 0 ≤ I + D)
          | some v => exact hb _ _
        · exact hb _ _

/-! ### Dumps -/

/-- Stamps weigh nothing. -/
structure Stampless (w : Counter → Int) : Prop where
  records : w .recordsProcessed = 0
  scanned : w .timestampsScanned = 0
  processed : w .timestampsProcessed = 0

theorem weigh_stamp (hw : Stampless w) {c : Conf} {r r' : Rd} {v : BitVec 64} {b : Bool} (h : stamp c r v = .ok (b, r')) : weigh w r'.out = weigh w r.out := by
  unfold stamp at h
  split at h
  · cases h
  · cases h
    show weigh w (r.out ++ [_]) = _
    rw [weigh_append]
    show _ + (w .recordsProcessed + 0) = _
    rw [hw.records]; omega
  · rename_i s hs
    cases h
    show weigh w (r.out ++ _) = _
    rw [weigh_append, weigh_append, weigh_append]
    have h1 : weigh w (if c.fn = true then [Ev.stamp s] else []) = 0 := by split <;> rfl
    have h2 : weigh w (timeEvents s) = 0 := by
      cases s with
      | time i e k =>
        show weigh w ((if i = 0x80 then [Ev.cycles e] else []) ++ [.count .timestampsScanned, .count .timestampsProcessed]) = 0
        rw [weigh_append]
        have h3 : weigh w (if i = 0x80 then [Ev.cycles e] else []) = 0 := by split <;> rfl
        rw [h3]
        show 0 + (w .timestampsScanned + (w .timestampsProcessed + 0)) = 0
        rw [hw.scanned, hw.processed]; rfl
      | _ => rfl
    rw [h1, h2]
    show _ + (w .recordsProcessed + 0 + 0 + 0) = _
    rw [hw.records]; omega

theorem weigh_fetchLoop (hw : Stampless w) {c : Conf} : ∀ (n : Nat) {r r' : Rd} {o : Option (BitVec 64)}, fetchLoop c n r = .ok (o, r') → weigh w r'.out = weigh w r.out
  | 0, _, _, _, h => by cases h
  | n + 1, r, r', o, h => by
    rw [fetchLoop] at h
    split at h
    · rename_i hf
      cases h
      rw [fetchInternal_out hf]
    · rename_i v r1 hf
      have h1 : weigh w r1.out = weigh w r.out := by rw [fetchInternal_out hf]
      split at h
      · split at h
        · cases h
        · rename_i hs; cases h; rw [weigh_stamp hw hs, h1]
        · rename_i hs; rw [weigh_fetchLoop hw n h, weigh_stamp hw hs, h1]
      · cases h; exact h1

theorem light_run (hw : Stampless w) {α : Type} {c : Conf} : ∀ (p : Prog α) (r r' : Rd) (a : α) (n : Int), Light w n p → p.run c r = .ok (a, r') →
    weigh w r'.out ≤ weigh w r.out + n
  | .done a, r, r', b, n, h, hr => by cases hr; have : 0 ≤ n := h; omega
  | .stop _, _, _, _, _, _, hr => by cases hr
  | .fetch k, r, r', b, n, h, hr => by
    unfold Prog.run at hr
    cases hf : Htm.fetch c r with
    | error e => rw [hf] at hr; cases hr
    | ok q =>
      rw [hf] at hr
      have := light_run hw (k q.1) q.2 r' b n (h q.1) hr
      rw [weigh_fetchLoop hw _ hf] at this
      exact this
  | .back v k, r, r', b, n, h, hr => by
    unfold Prog.run at hr
    cases hf : Htm.rewind r v with
    | error e => rw [hf] at hr; cases hr
    | ok q =>
      rw [hf] at hr
      have := light_run hw k q r' b n h hr
      rw [rewind_out hf] at this
      exact this
  | .tell e k, r, r', b, n, h, hr => by
    unfold Prog.run at hr
    have := light_run hw k _ r' b _ h hr
    rw [show (r.tell e).out = r.out ++ [e] from rfl, weigh_append, weigh_cons] at this
    have h0 : weigh w [] = 0 := rfl
    omega

theorem light_decodeLoop (hw : Stampless w) {c : Conf} (h9 : ∀ s v, Light w 0 (insn9 c s v)) (h10 : ∀ n s v, Light w 0 (insn10 c n s v)) :
    ∀ (n e : Nat) (s s' : Dec) (r r' : Rd), decodeLoop c n e s r = .ok (s', r') → weigh w r'.out ≤ weigh w r.out
  | 0, _, _, _, _, _, h => by cases h
  | n + 1, e, s, s', r, r', h => by
    rw [decodeLoop] at h
    have key : ∀ q, decodeOne c e s r = .ok q → weigh w q.2.2.2.out ≤ weigh w r.out := by
      intro q hq
      unfold decodeOne at hq
      split at hq
      · rename_i hf; cases hq; rw [fetchInternal_out hf]; exact Int.le_refl _
      · rename_i v r1 hf
        have h1 : weigh w r1.out = weigh w r.out := by rw [fetchInternal_out hf]
        split at hq
        · cases hq; exact Int.le_of_eq h1
        · have hd : ∀ d, dispatch c s r1 v = .ok d → weigh w d.2.out ≤ weigh w r.out := by
            intro d hd
            unfold dispatch at hd
            split at hd
            · split at hd
              · cases hd
              · rename_i hst; cases hd; dsimp only; rw [weigh_stamp hw hst, h1]; exact Int.le_refl _
            · split at hd
              · have := light_run hw _ r1 d.2 d.1 0 (h9 s v) hd
                omega
              · split at hd
                · have := light_run hw _ r1 d.2 d.1 0 (h10 _ s v) hd
                  omega
                · cases hd; exact Int.le_of_eq h1
          split at hq
          · cases hq
          · rename_i hdd; cases hq; exact hd _ hdd
          · rename_i hdd
            split at hq
            · cases hq
            · cases hq; exact hd _ hdd
    split at h
    · cases h
    · rename_i hq; cases h; exact key _ hq
    · rename_i hq
      exact Int.le_trans (light_decodeLoop hw h9 h10 n _ _ s' _ r' h) (key _ hq)

theorem light_decode (hw : Stampless w) {c : Conf} (h9 : ∀ s v, Light w 0 (insn9 c s v)) (h10 : ∀ n s v, Light w 0 (insn10 c n s v)) {eof : Bool} {bytes : List (BitVec 8)}
    {failing : Bool} {fill phantom : BitVec 64} {s : Dec} {r : Rd} (h : decode c eof bytes failing fill phantom = .ok (s, r)) : weigh w r.out ≤ 0 :=
  light_decodeLoop hw h9 h10 _ _ _ _ _ _ h

end Htm
