import Verif.Qt.Branches
import Verif.Qt.ReaderFrame
import Verif.Qt.Told
import Verif.Qt.SpecTranslation
/-! Helper lemmas: what successful pieces of the reader do to state and record, as a relation between before and after. -/
namespace Qt
open Spec

/-- A relation that steps of the reader can be composed under, and that the read position does not matter for. -/
structure Composes (R : Ctx → Ctx → Prop) : Prop where
  refl : ∀ c, R c c
  trans : ∀ a b c, R a b → R b c → R a c
  pos : ∀ c p, R c (c.at p)

/-- Every success relates the contexts before and after. -/
def Moves (R : Ctx → Ctx → Prop) {α} (x : Rd α) : Prop := ∀ m c a c', x m c = .ok a c' → R c c'

variable {R : Ctx → Ctx → Prop}

theorem Moves.bind (S : Composes R) {α β} {x : Rd α} {f : α → Rd β} (hx : Moves R x) (hf : ∀ a, Moves R (f a)) : Moves R (x >>= f) := by
  intro m c b c' h
  obtain ⟨a, c1, h1, h2⟩ := bind_split h
  exact S.trans _ _ _ (hx _ _ _ _ h1) (hf a _ _ _ _ h2)

theorem Moves.pure (S : Composes R) {α} (a : α) : Moves R (pure a : Rd α) := by intro m c a c' h; cases h; exact S.refl _
theorem Moves.getCtx (S : Composes R) : Moves R getCtx := by intro m c a c' h; cases h; exact S.refl _
theorem Moves.throwErr {α} (e) : Moves R (throwErr e : Rd α) := by intro m c a c' h; cases h
theorem Moves.modRec {f} (hf : ∀ c : Ctx, R c { c with rcd := f c.rcd }) : Moves R (modRec f) := by
  intro m c a c' h; cases h; exact hf _
theorem Moves.modSt {f} (hf : ∀ c : Ctx, R c { c with st := f c.st }) : Moves R (modSt f) := by
  intro m c a c' h; cases h; exact hf _
theorem Moves.whenR (S : Composes R) {b x} (h : Moves R x) : Moves R (whenR b x) := by
  cases b
  · exact Moves.pure S ()
  · exact h
theorem Moves.ite {α} {p : Prop} [Decidable p] {x y : Rd α} (hx : Moves R x) (hy : Moves R y) :
    Moves R (if p then x else y) := by
  split
  · exact hx
  · exact hy
theorem Moves.get8 (S : Composes R) : Moves R get8 := by
  intro m c a c' h; obtain ⟨rfl, _⟩ := get8_split h; exact S.pos c _
theorem Moves.get16 (S : Composes R) : Moves R get16 := by
  intro m c a c' h; obtain ⟨rfl, _⟩ := get16_split h; exact S.pos c _
theorem Moves.get32 (S : Composes R) : Moves R get32 := by
  intro m c a c' h; obtain ⟨rfl, _⟩ := get32_split h; exact S.pos c _
theorem Moves.get64 (S : Composes R) : Moves R get64 := by
  intro m c a c' h; obtain ⟨rfl, _⟩ := get64_split h; exact S.pos c _
theorem Moves.skipN (S : Composes R) (n) : Moves R (skipN n) := by
  intro m c a c' h; obtain ⟨rfl, _⟩ := skipN_split h; exact S.pos c _
theorem Moves.bump (S : Composes R) (n) : Moves R (bump n) := by intro m c a c' h; cases h; exact S.pos c _

macro "moves" S:term : tactic => `(tactic| repeat' (first
  | exact Moves.get8 $S | exact Moves.get16 $S | exact Moves.get32 $S | exact Moves.get64 $S | exact Moves.skipN $S _
  | exact Moves.bump $S _ | assumption
  | exact Moves.pure $S _ | exact Moves.getCtx $S | exact Moves.throwErr _
  | exact Moves.modSt (fun _ => rfl)
  | exact Moves.modRec (fun _ => rfl)
  | apply Moves.whenR $S | apply Moves.ite | refine Moves.bind $S ?_ (fun _ => ?_)))

theorem Moves.get8n (S : Composes R) : Moves R get8n := by unfold Qt.get8n; moves S

theorem Moves.readInto (S : Composes R) (cap) : ∀ n k f, Moves R (readInto cap n k f)
  | 0, k, f => by unfold Qt.readInto; moves S
  | n + 1, k, f => by
    unfold Qt.readInto
    exact Moves.bind S (Moves.get64 S) fun _ => Moves.ite (Moves.readInto S cap n _ _) (Moves.throwErr _)

theorem Moves.readRows (S : Composes R) (nr) : ∀ n k f, Moves R (readRows nr n k f)
  | 0, k, f => by unfold Qt.readRows; moves S
  | n + 1, k, f => by
    unfold Qt.readRows
    exact Moves.bind S (Moves.readInto S _ _ _ _) fun _ => Moves.readRows S nr n _ _

theorem Moves.readRegs8 (S : Composes R) (cap) : ∀ n k, Moves R (readRegs8 cap n k)
  | 0, k => by unfold Qt.readRegs8; moves S
  | n + 1, k => by
    unfold Qt.readRegs8
    exact Moves.bind S (Moves.get8 S) fun _ => Moves.ite
      (Moves.bind S (Moves.get64 S) fun _ => Moves.bind S (Moves.readRegs8 S cap n _) fun _ => Moves.pure S _) (Moves.throwErr _)

theorem Moves.readRegs16 (S : Composes R) (cap) : ∀ n k, Moves R (readRegs16 cap n k)
  | 0, k => by unfold Qt.readRegs16; moves S
  | n + 1, k => by
    unfold Qt.readRegs16
    exact Moves.bind S (Moves.get16 S) fun _ => Moves.ite
      (Moves.bind S (Moves.get64 S) fun _ => Moves.bind S (Moves.readRegs16 S cap n _) fun _ => Moves.pure S _) (Moves.throwErr _)

theorem Moves.getRadixCount (S : Composes R) (hs gs d f3) : Moves R (getRadixCount hs gs d f3) := by
  intro m c a c' h
  unfold Qt.getRadixCount at h
  split at h
  · cases hg : Qt.get8 m c with
    | ok b c1 => rw [hg] at h; cases h; exact Moves.get8 S _ _ _ _ hg
    | err e c1 =>
      rw [hg] at h; cases h
      unfold Qt.get8 at hg; split at hg <;> cases hg; exact S.refl _
  · split at h <;> cases h <;> exact S.refl _

theorem Moves.walkSection (S : Composes R) (hs gs st f3 x) : Moves R (walkSection hs gs st f3 x) := by
  have h1 := Moves.readInto S
  have h2 := Moves.readRows S
  rw [walkSection_eq]
  refine Moves.bind S (Moves.getRadixCount S _ _ _ _) fun _ => Moves.bind S (Moves.getRadixCount S _ _ _ _) fun _ => ?_
  unfold walkRest parseRadix parseRadixOnRadix
  exact Moves.ite (Moves.bind S (h1 _ _ _ _) fun _ => Moves.pure S _) (Moves.ite (Moves.bind S (h2 _ _ _ _) fun _ =>
    Moves.bind S (h1 _ _ _ _) fun _ => Moves.bind S (h1 _ _ _ _) fun _ => Moves.pure S _) (Moves.pure S _))

theorem Moves.parseRegs (S : Composes R) : Moves R parseRegs := by
  have h0 := Moves.get8n S
  have h1 := fun cap n => Moves.readRegs8 S cap n 0
  have h2 := fun cap n => Moves.readRegs16 S cap n 0
  have h3 : Moves R Qt.vsxCount := Moves.bind S (Moves.getCtx S) fun _ => Moves.ite h0 (Moves.pure S _)
  unfold Qt.parseRegs
  refine Moves.bind S h0 fun _ => Moves.bind S h0 fun _ => Moves.bind S h0 fun _ => Moves.bind S h3 fun _ =>
    Moves.bind S h0 fun _ => Moves.bind S h0 fun _ => Moves.bind S h0 fun _ => Moves.bind S h0 fun _ =>
    Moves.bind S h3 fun _ => Moves.bind S h0 fun _ => ?_
  refine Moves.bind S (h1 _ _) fun _ => Moves.bind S (h1 _ _) fun _ => Moves.bind S (Moves.bump S _) fun _ =>
    Moves.bind S (Moves.bump S _) fun _ => Moves.bind S (h2 _ _) fun _ => ?_
  exact Moves.bind S (h1 _ _) fun _ => Moves.bind S (h1 _ _) fun _ => Moves.bind S (Moves.bump S _) fun _ =>
    Moves.bind S (Moves.bump S _) fun _ => Moves.bind S (h2 _ _) fun _ => Moves.bind S (Moves.skipN S _) fun _ => Moves.pure S _

theorem Moves.combineRa (S : Composes R) (a b c) : Moves R (combineRa a b c) := by unfold Qt.combineRa; moves S

/-! ### The body leaves the instruction and its translation alone -/

/-- What the record says about the instruction and its address. -/
def Record.place (r : Record) : BitVec 32 × BitVec 64 × Bool × BitVec 64 :=
  (r.insn, r.insnAddr, r.insnRaValid, r.insnRa)
/-- What the record says about the pages of the instruction. -/
def Record.pages (r : Record) : Bool × Nat × Bool × Nat :=
  (r.insnPageShiftValid, r.insnPageShift, r.guestInsnPageShiftValid, r.guestInsnPageShift)
/-- What the reader remembers. -/
def RState.kept (s : RState) : Bool × Bool × Bool × Bool :=
  (s.prefixed, s.insnRpnValid, s.insnPageShiftValid, s.guestInsnPageShiftValid)

def SameInsn (c c' : Ctx) : Prop :=
  (c'.rcd.place, c'.rcd.pages, c'.st.kept) = (c.rcd.place, c.rcd.pages, c.st.kept)

theorem SameInsn.composes : Composes SameInsn where
  refl _ := rfl
  trans _ _ _ h1 h2 := Eq.trans (b := _) h2 h1
  pos _ _ := rfl

theorem sameInsn_body : Moves SameInsn bodyPlain := by
  have S := SameInsn.composes
  have h8 := Moves.get8n S
  unfold bodyPlain
  refine Moves.bind S (by unfold flagsSection; moves S) fun a => ?_
  obtain ⟨f, f2, f3⟩ := a
  refine Moves.bind S (by unfold nodeSection; moves S) fun _ => ?_
  refine Moves.bind S (by unfold termSection termCheck; moves S) fun _ => ?_
  refine Moves.bind S (by unfold dataAddrSection; moves S) fun _ => ?_
  refine Moves.bind S (Moves.whenR S (Moves.bind S (Moves.getCtx S) fun _ => Moves.bind S (Moves.walkSection S _ _ _ _ _) fun _ =>
    Moves.modRec fun _ => rfl)) fun _ => ?_
  refine Moves.bind S (by unfold dataRpnSection; moves S) fun _ => ?_
  refine Moves.bind S (by unfold iarSection iarFetch; moves S) fun _ => ?_
  refine Moves.bind S (by unfold branchSection; moves S) fun _ => ?_
  refine Moves.bind S (Moves.bind S (Moves.whenR S (Moves.skipN S _)) fun _ => Moves.whenR S (Moves.bind S (Moves.getCtx S) fun _ =>
    Moves.bind S (Moves.walkSection S _ _ _ _ _) fun _ => Moves.modSt fun _ => rfl)) fun _ => ?_
  refine Moves.bind S (by unfold insnRpnSection; moves S) fun _ => ?_
  refine Moves.bind S (Moves.whenR S (Moves.bind S (Moves.parseRegs S) fun _ => Moves.modRec fun _ => rfl)) fun _ => ?_
  refine Moves.bind S ?_ fun _ => ?_
  · unfold seqSection
    refine Moves.bind S (Moves.whenR S (Moves.bind S (Moves.get32 S) fun _ => Moves.modSt fun c => ?_)) fun _ => by moves S
    unfold SameInsn
    dsimp only
    split <;> rfl
  refine Moves.bind S (by unfold insnPageSection; moves S) fun _ => ?_
  refine Moves.bind S (Moves.bind S (by moves S) fun _ => Moves.bind S (Moves.getCtx S) fun _ =>
    Moves.whenR S (Moves.bind S (Moves.combineRa S _ _ _) fun _ => Moves.modRec fun _ => rfl)) fun _ => ?_
  unfold guestPageSection guestInsnPage; moves S

end Qt
