import Verif.Qt.Branches

/-! # What reading a record leaves alone (helper lemmas) -/

namespace Dis
open Qt

/-- A part of the reader's state that does not depend on the position in the trace. -/
class PosFree {κ : Type} (K : Ctx → κ) : Prop where
  adv : ∀ c n, K (Qt.advance c n) = K c

/-- Leaves the part `K` of the reader's state alone. -/
def KeepK {κ α : Type} (K : Ctx → κ) (x : Rd α) : Prop := ∀ m c a c', x m c = .ok a c' → K c' = K c

section
variable {κ : Type} {K : Ctx → κ} [P : PosFree K]

theorem kbind {α β} {x : Rd α} {f : α → Rd β} (hx : KeepK K x) (hf : ∀ a, KeepK K (f a)) : KeepK K (x >>= f) := by
  intro m c b c' h
  obtain ⟨a, c1, h1, h2⟩ := Rd.bind_inv h
  exact (hf a _ _ _ _ h2).trans (hx _ _ _ _ h1)
theorem kpure {α} (a : α) : KeepK K (pure a : Rd α) := by intro m c a c' h; cases h; rfl
theorem kgetCtx : KeepK K getCtx := by intro m c a c' h; cases h; rfl
theorem kthrow {α} (e) : KeepK K (throwErr e : Rd α) := by intro m c a c' h; cases h
theorem kwhen {b x} (h : KeepK K x) : KeepK K (whenR b x) := by
  cases b
  · exact kpure ()
  · exact h
theorem kite {α} {p : Prop} [Decidable p] {x y : Rd α} (hx : KeepK K x) (hy : KeepK K y) : KeepK K (if p then x else y) := by
  split
  · exact hx
  · exact hy
theorem kmodSt {f} (h : ∀ c : Ctx, K { c with st := f c.st } = K c) : KeepK K (modSt f) := by
  intro m c a c' e; cases e; exact h c
theorem kmodRec {f} (h : ∀ c : Ctx, K { c with rcd := f c.rcd } = K c) : KeepK K (modRec f) := by
  intro m c a c' e; cases e; exact h c
theorem kget8 : KeepK K get8 := by
  intro m c a c' h; unfold Qt.get8 at h; split at h <;> cases h <;> exact P.adv ..
theorem kget16 : KeepK K get16 := by
  intro m c a c' h; unfold Qt.get16 at h; split at h <;> cases h <;> exact P.adv ..
theorem kget32 : KeepK K get32 := by
  intro m c a c' h; unfold Qt.get32 at h; split at h <;> cases h <;> exact P.adv ..
theorem kget64 : KeepK K get64 := by
  intro m c a c' h; unfold Qt.get64 at h; split at h <;> cases h <;> exact P.adv ..
theorem kskip (n) : KeepK K (skipN n) := by
  intro m c a c' h; unfold Qt.skipN at h; split at h <;> cases h <;> exact P.adv ..
theorem kbump (n) : KeepK K (bump n) := by intro m c a c' h; cases h; exact P.adv ..
theorem kget8n : KeepK K get8n := kbind kget8 fun _ => kpure _

theorem kreadInto (cap) : ∀ n k f, KeepK K (readInto cap n k f)
  | 0, _, _ => kpure _
  | n + 1, _, _ => by
    unfold Qt.readInto
    exact kbind kget64 fun _ => kite (kreadInto cap n _ _) (kthrow _)
theorem kreadRows (nr) : ∀ n k f, KeepK K (readRows nr n k f)
  | 0, _, _ => kpure _
  | n + 1, _, _ => by
    unfold Qt.readRows
    exact kbind (kreadInto _ _ _ _) fun _ => kreadRows nr n _ _
theorem kreadRegs8 (cap) : ∀ n k, KeepK K (readRegs8 cap n k)
  | 0, _ => kpure _
  | n + 1, _ => by
    unfold Qt.readRegs8
    exact kbind kget8 fun _ => kite (kbind kget64 fun _ => kbind (kreadRegs8 cap n _) fun _ => kpure _) (kthrow _)
theorem kreadRegs16 (cap) : ∀ n k, KeepK K (readRegs16 cap n k)
  | 0, _ => kpure _
  | n + 1, _ => by
    unfold Qt.readRegs16
    exact kbind kget16 fun _ => kite (kbind kget64 fun _ => kbind (kreadRegs16 cap n _) fun _ => kpure _) (kthrow _)
theorem kradixCount (hs gs d f3) : KeepK K (getRadixCount hs gs d f3) := by
  intro m c a c' h
  unfold Qt.getRadixCount at h
  split at h
  · cases hg : Qt.get8 m c with
    | ok b c1 => rw [hg] at h; cases h; exact kget8 _ _ _ _ hg
    | err e c1 =>
      rw [hg] at h; cases h
      unfold Qt.get8 at hg; split at hg <;> cases hg; rfl
  · split at h <;> cases h <;> rfl
theorem kwalk (hs gs st f3 x) : KeepK K (walkSection hs gs st f3 x) := by
  rw [walkSection_eq]
  refine kbind (kradixCount _ _ _ _) fun _ => kbind (kradixCount _ _ _ _) fun _ => ?_
  unfold walkRest parseRadix parseRadixOnRadix
  exact kite (kbind (kreadInto _ _ _ _) fun _ => kpure _) (kite (kbind (kreadRows _ _ _ _) fun _ =>
    kbind (kreadInto _ _ _ _) fun _ => kbind (kreadInto _ _ _ _) fun _ => kpure _) (kpure _))
theorem kvsx : KeepK K vsxCount := kbind kgetCtx fun _ => kite kget8n (kpure _)
theorem kregs : KeepK K parseRegs := by
  unfold Qt.parseRegs
  refine kbind kget8n fun _ => kbind kget8n fun _ => kbind kget8n fun _ => kbind kvsx fun _ =>
    kbind kget8n fun _ => kbind kget8n fun _ => kbind kget8n fun _ => kbind kget8n fun _ =>
    kbind kvsx fun _ => kbind kget8n fun _ => ?_
  refine kbind (kreadRegs8 _ _ _) fun _ => kbind (kreadRegs8 _ _ _) fun _ => kbind (kbump _) fun _ =>
    kbind (kbump _) fun _ => kbind (kreadRegs16 _ _ _) fun _ => ?_
  exact kbind (kreadRegs8 _ _ _) fun _ => kbind (kreadRegs8 _ _ _) fun _ => kbind (kbump _) fun _ =>
    kbind (kbump _) fun _ => kbind (kreadRegs16 _ _ _) fun _ => kbind (kskip _) fun _ => kpure _
theorem kcombine (a b c) : KeepK K (combineRa a b c) := kite (kpure _) (kthrow _)
end

/-- The instruction word being read, the two words kept for prefixed instructions, and the caller's wishes. -/
def wordKey (c : Ctx) : BitVec 32 × Bool × BitVec 32 × Bool × Bool :=
  (c.rcd.insn, c.st.prefixed, c.st.suffix, c.st.wantBranch, c.st.wantTlbie)
instance : PosFree wordKey := ⟨fun _ _ => rfl⟩

/-- The address of the next instruction, in the state and in the record. -/
def nextKey (c : Ctx) : BitVec 64 × BitVec 64 := (c.rcd.nextInsnAddr, c.st.nextInsnAddr)
instance : PosFree nextKey := ⟨fun _ _ => rfl⟩

macro "keepk" : tactic => `(tactic| repeat' (first
  | exact kget8 | exact kget16 | exact kget32 | exact kget64 | exact kskip _ | exact kget8n
  | exact kbump _ | exact kwalk _ _ _ _ _ | exact kregs | exact kcombine _ _ _ | assumption
  | exact kpure _ | exact kgetCtx | exact kthrow _
  | exact kmodSt (fun _ => rfl)
  | exact kmodRec (fun _ => rfl)
  | exact kmodSt (fun c => by cases hv : c.st.nextInsnRpnValid <;> simp only [hv, wordKey, nextKey] <;> rfl)
  | apply kwhen | apply kite | refine kbind ?_ (fun _ => ?_)))

theorem kheader : KeepK wordKey parseHeader := by
  unfold Qt.parseHeader
  refine kbind (by unfold Qt.headerFlags; keepk) fun a => ?_
  obtain ⟨f2, f3, h⟩ := a
  exact kbind (by unfold Qt.headerIds; keepk) fun _ => kbind (by unfold Qt.headerWalk; keepk) fun _ =>
    kbind (by unfold Qt.headerPages; keepk) fun _ => by unfold Qt.headerTail; keepk

theorem kpeek : KeepK wordKey peekInsn := by intro m c a c' h; cases h; rfl

theorem kheaders : ∀ fuel, KeepK wordKey (skipHeaders fuel)
  | 0 => kthrow _
  | fuel + 1 => by
    unfold Qt.skipHeaders
    exact kbind kpeek fun _ => kbind kgetCtx fun _ => kite (kbind kheader fun _ => kheaders fuel) (kpure _)

theorem applyNext_st (c : Ctx) : (applyNext c).st.prefixed = c.st.prefixed ∧ (applyNext c).st.suffix = c.st.suffix ∧
    (applyNext c).st.wantBranch = c.st.wantBranch ∧ (applyNext c).st.wantTlbie = c.st.wantTlbie := by
  unfold applyNext
  dsimp only
  repeat' split
  all_goals exact ⟨rfl, rfl, rfl, rfl⟩

theorem kapply : KeepK wordKey (fun _ c => .ok () (applyNext c) : Rd Unit) := by
  intro m c a c' h
  have hk := Keep.applyNext m c a c' h
  cases h
  obtain ⟨h1, h2, h3, h4⟩ := applyNext_st c
  have h0 : (applyNext c).rcd.insn = c.rcd.insn := congrArg Prod.fst hk
  unfold wordKey
  rw [h0, h1, h2, h3, h4]

/-- Nothing is annotated unless asked for. -/
theorem annotate_off {m : Mem} {c c' : Ctx} (h : annotateSection m c = .ok () c') (h1 : c.st.wantBranch = false)
    (h2 : c.st.wantTlbie = false) : c' = c := by
  have e : annotateSection m c = .ok () c := by
    unfold annotateSection
    refine (Rd.bind_ok (a := c) (c' := c) rfl).trans ?_
    rw [h1, Bool.and_false]
    refine (Rd.bind_ok (a := ()) (c' := c) rfl).trans ?_
    refine (Rd.bind_ok (a := c) (c' := c) rfl).trans ?_
    rw [h2]; rfl
  rw [e] at h; cases h; rfl

/-- The body of a record behind its flags, without the annotation, up to the next instruction address. -/
def bodyFront (f f2 f3 : BitVec 16) : Rd Unit := do
  nodeSection f
  termSection f
  dataAddrSection f
  dataWalkSection f f2 f3
  dataRpnSection f

/-- The rest of the body of a record. -/
def bodyBack (f f2 f3 : BitVec 16) : Rd Unit := do
  branchSection f
  insnWalkSection f f2 f3
  insnRpnSection f
  regsSection f
  seqSection f2
  insnPageSection f2
  dataPageSection f2
  guestPageSection f2

theorem body_split : bodySection = flagsSection >>= fun x => bodyFront x.1 x.2.1 x.2.2 >>= fun _ => iarSection x.1 >>= fun _ =>
    bodyBack x.1 x.2.1 x.2.2 >>= fun _ => annotateSection := by
  unfold bodySection bodyFront bodyBack
  simp only [Rd.bind_assoc]

theorem kflags : KeepK wordKey flagsSection := by unfold Qt.flagsSection; keepk
theorem kfront (f f2 f3) : KeepK wordKey (bodyFront f f2 f3) := by
  unfold bodyFront nodeSection termSection termCheck dataAddrSection dataWalkSection dataRpnSection; keepk
theorem kiar (f) : KeepK wordKey (iarSection f) := by unfold iarSection iarFetch; keepk
theorem kback (f f2 f3) : KeepK wordKey (bodyBack f f2 f3) := by
  unfold bodyBack branchSection insnWalkSection insnRpnSection regsSection seqSection insnPageSection dataPageSection
    guestPageSection guestInsnPage; keepk
theorem kback2 (f f2 f3) : KeepK nextKey (bodyBack f f2 f3) := by
  unfold bodyBack branchSection insnWalkSection insnRpnSection regsSection seqSection insnPageSection dataPageSection
    guestPageSection guestInsnPage; keepk

theorem iar_next {f : BitVec 16} {m : Mem} {c c' : Ctx} (h : iarSection f m c = .ok () c') :
    c'.rcd.nextInsnAddr = c'.st.nextInsnAddr := by
  unfold iarSection at h
  obtain ⟨a, c1, -, h⟩ := Rd.bind_inv h
  obtain ⟨c2, c3, h3, h⟩ := Rd.bind_inv h
  cases h3; cases h; rfl

/-- What reading a record leaves in the state: whether the word was a prefix, and the second word of the last prefixed
instruction; and the address of the next instruction. -/
theorem nextRecord_words {m : Mem} {s : RState} {c : Ctx} (h : nextRecord m s = .ok () c) (hb : s.wantBranch = false)
    (ht : s.wantTlbie = false) :
    c.st.prefixed = (c.rcd.insn >>> 26 == 1) ∧ c.st.suffix = (if s.prefixed then c.rcd.insn else s.suffix) ∧
    c.st.wantBranch = false ∧ c.st.wantTlbie = false ∧ c.rcd.nextInsnAddr = c.st.nextInsnAddr := by
  unfold nextRecord nextRecordRd at h
  obtain ⟨_, c1, h1, h⟩ := Rd.bind_inv h
  cases h1
  obtain ⟨_, c2, h2, h⟩ := Rd.bind_inv h
  have k2 := kheaders _ _ _ _ _ h2
  unfold readOne at h
  obtain ⟨_, c3, h3, h⟩ := Rd.bind_inv h
  have k3 := kapply m _ _ _ h3
  obtain ⟨_, c4, h4, h⟩ := Rd.bind_inv h
  have k4 : wordKey c4 = wordKey c3 := by
    refine (show KeepK wordKey insnRaSection from ?_) _ _ _ _ h4
    unfold insnRaSection; keepk
  obtain ⟨_, c5, h5, h⟩ := Rd.bind_inv h
  have k : wordKey c4 = (0, s.prefixed, s.suffix, s.wantBranch, s.wantTlbie) := (k4.trans k3).trans k2
  have k5 : wordKey c5 = (c5.rcd.insn, c5.rcd.insn >>> 26 == 1, (if c4.st.prefixed then c5.rcd.insn else c4.st.suffix),
      c4.st.wantBranch, c4.st.wantTlbie) := by
    unfold insnSection at h5
    obtain ⟨w, c6, h6, h5⟩ := Rd.bind_inv h5
    obtain ⟨_, c7, h7, h5⟩ := Rd.bind_inv h5
    have k6 := kget32 (K := wordKey) _ _ _ _ h6
    unfold wordKey at k6
    simp only [Prod.mk.injEq] at k6
    cases h7; cases h5
    unfold wordKey
    dsimp only
    rw [k6.2.1, k6.2.2.1, k6.2.2.2.1, k6.2.2.2.2]
  rw [body_split] at h
  obtain ⟨x, d1, g1, h⟩ := Rd.bind_inv h
  obtain ⟨_, d2, g2, h⟩ := Rd.bind_inv h
  obtain ⟨_, d3, g3, h⟩ := Rd.bind_inv h
  obtain ⟨_, d4, g4, h⟩ := Rd.bind_inv h
  have kk : wordKey d4 = wordKey c5 :=
    (kback _ _ _ _ _ _ _ g4).trans ((kiar _ _ _ _ _ g3).trans ((kfront _ _ _ _ _ _ _ g2).trans (kflags _ _ _ _ g1)))
  have hn := kback2 _ _ _ _ _ _ _ g4
  have hi := iar_next g3
  unfold wordKey at k k5 kk
  unfold nextKey at hn
  simp only [Prod.mk.injEq] at k k5 kk hn
  obtain ⟨-, p2, p3, p4, p5⟩ := k
  obtain ⟨-, q2, q3, q4, q5⟩ := k5
  obtain ⟨r1, r2, r3, r4, r5⟩ := kk
  have e := annotate_off h (by rw [r4, q4, p4, hb]) (by rw [r5, q5, p5, ht])
  subst e
  refine ⟨by rw [r2, q2, r1], by rw [r3, q3, r1, p2, p3], by rw [r4, q4, p4, hb], by rw [r5, q5, p5, ht], ?_⟩
  rw [hn.1, hn.2, hi]

end Dis
