import Verif.Qt.ReaderFrame
/-! Helper lemmas: branch annotation as a step after reading (C12). -/
namespace Qt

/-- The annotations asked for: branches and tlbie. -/
abbrev Want := Bool × Bool
def RState.want (b : Want) (s : RState) : RState := { s with wantBranch := b.1, wantTlbie := b.2 }
def Ctx.want (b : Want) (c : Ctx) : Ctx := { c with st := c.st.want b }
theorem Ctx.want_pos (b : Want) (c : Ctx) : (c.want b).st.pos = c.st.pos := rfl
def Out.want {α} (b : Want) : Out α → Out α
  | .ok a c => .ok a (c.want b)
  | .err e c => .err e (c.want b)

/-- Does not look at the annotation requests. -/
def Comm {α} (x : Rd α) : Prop := ∀ m c b, x m (c.want b) = (x m c).want b

theorem Comm.bind {α β} {x : Rd α} {f : α → Rd β} (hx : Comm x) (hf : ∀ a, Comm (f a)) : Comm (x >>= f) := by
  intro m c b
  have h := hx m c b
  cases hc : x m c with
  | ok a c' =>
    rw [hc] at h
    rw [Rd.bind_ok hc, Rd.bind_ok h, hf a]
  | err e c' =>
    rw [hc] at h
    rw [Rd.bind_err hc, Rd.bind_err h]; rfl

theorem Rd.bind_assoc {α β γ} (x : Rd α) (f : α → Rd β) (g : β → Rd γ) :
    ((x >>= f) >>= g) = x >>= fun a => f a >>= g := by
  funext m c
  cases h : x m c with
  | ok a c' => rw [Rd.bind_ok h]; show Rd.bind (x >>= f) g m c = _; unfold Rd.bind; rw [Rd.bind_ok h]; rfl
  | err e c' => rw [Rd.bind_err h]; show Rd.bind (x >>= f) g m c = _; unfold Rd.bind; rw [Rd.bind_err h]

theorem Rd.bind_congr {α β} {x : Rd α} {f g : α → Rd β} (h : ∀ a, f a = g a) : (x >>= f) = (x >>= g) := by
  rw [funext h]

theorem Comm.getCtx_bind {β} {f : Ctx → Rd β} (hw : ∀ c b, f (c.want b) = f c) (hf : ∀ c, Comm (f c)) :
    Comm (getCtx >>= f) := by
  intro m c b
  show f (c.want b) m (c.want b) = (f c m c).want b
  rw [hw, hf]

theorem Comm.pure {α} (a : α) : Comm (pure a : Rd α) := fun _ _ _ => rfl
theorem Comm.throwErr {α} (e) : Comm (throwErr e : Rd α) := fun _ _ _ => rfl
theorem Comm.modRec (f) : Comm (modRec f) := fun _ _ _ => rfl
theorem Comm.modSt {f} (h : ∀ (s : RState) (b : Want), f (s.want b) = (f s).want b) : Comm (modSt f) := by
  intro m c b
  show Out.ok () ({ c.want b with st := f (c.st.want b) } : Ctx) = Out.ok () _
  rw [h]; rfl
theorem Comm.whenR {b x} (h : Comm x) : Comm (whenR b x) := by
  cases b
  · exact Comm.pure ()
  · exact h
theorem Comm.ite {α} {p : Prop} [Decidable p] {x y : Rd α} (hx : Comm x) (hy : Comm y) :
    Comm (if p then x else y) := by
  split
  · exact hx
  · exact hy
theorem Comm.get8 : Comm get8 := by
  intro m c b; unfold Qt.get8; rw [Ctx.want_pos]; split <;> rfl
theorem Comm.get16 : Comm get16 := by
  intro m c b; unfold Qt.get16; rw [Ctx.want_pos]; split <;> rfl
theorem Comm.get32 : Comm get32 := by
  intro m c b; unfold Qt.get32; rw [Ctx.want_pos]; split <;> rfl
theorem Comm.get64 : Comm get64 := by
  intro m c b; unfold Qt.get64; rw [Ctx.want_pos]; split <;> rfl
theorem Comm.skipN (n) : Comm (skipN n) := by
  intro m c b; unfold Qt.skipN; rw [Ctx.want_pos]
  by_cases h : c.st.pos + n > m.bytes.length
  · rw [if_pos h, if_pos h]; rfl
  · rw [if_neg h, if_neg h]; rfl
theorem Comm.bump (n) : Comm (bump n) := fun _ _ _ => rfl

theorem ite_want {f : RState → RState} (s : RState) (b : Want) (p : Prop) [Decidable p] (hf : f (s.want b) = (f s).want b) :
    (if p then s.want b else f (s.want b)) = (if p then s else f s).want b := by
  split
  · rfl
  · exact hf

macro "comm" : tactic => `(tactic| repeat' (first
  | exact Comm.get8 | exact Comm.get16 | exact Comm.get32 | exact Comm.get64 | exact Comm.skipN _
  | exact Comm.bump _ | assumption
  | exact Comm.pure _ | exact Comm.throwErr _ | exact Comm.modRec _
  | (refine Comm.modSt ?_; intro s b; (first | rfl | exact ite_want (f := fun s => { s with nextInsnRpnValid := true, nextInsnRpn := _ }) s b (s.nextInsnRpnValid = true) rfl); done)
  | (with_reducible refine Comm.getCtx_bind ?_ (fun _ => ?_); focus (intros; rfl))
  | apply Comm.whenR | apply Comm.ite | refine Comm.bind ?_ (fun _ => ?_)))

theorem Comm.get8n : Comm get8n := by unfold Qt.get8n; comm

theorem Comm.readInto (cap) : ∀ n k f, Comm (readInto cap n k f)
  | 0, k, f => by unfold Qt.readInto; comm
  | n + 1, k, f => by
    unfold Qt.readInto
    exact Comm.bind Comm.get64 fun _ => Comm.ite (Comm.readInto cap n _ _) (Comm.throwErr _)

theorem Comm.readRows (nr) : ∀ n k f, Comm (readRows nr n k f)
  | 0, k, f => by unfold Qt.readRows; comm
  | n + 1, k, f => by
    unfold Qt.readRows
    exact Comm.bind (Comm.readInto _ _ _ _) fun _ => Comm.readRows nr n _ _

theorem Comm.readRegs8 (cap) : ∀ n k, Comm (readRegs8 cap n k)
  | 0, k => by unfold Qt.readRegs8; comm
  | n + 1, k => by
    unfold Qt.readRegs8
    exact Comm.bind Comm.get8 fun _ => Comm.ite
      (Comm.bind Comm.get64 fun _ => Comm.bind (Comm.readRegs8 cap n _) fun _ => Comm.pure _) (Comm.throwErr _)

theorem Comm.readRegs16 (cap) : ∀ n k, Comm (readRegs16 cap n k)
  | 0, k => by unfold Qt.readRegs16; comm
  | n + 1, k => by
    unfold Qt.readRegs16
    exact Comm.bind Comm.get16 fun _ => Comm.ite
      (Comm.bind Comm.get64 fun _ => Comm.bind (Comm.readRegs16 cap n _) fun _ => Comm.pure _) (Comm.throwErr _)

theorem Comm.getRadixCount (hs gs d f3) : Comm (getRadixCount hs gs d f3) := by
  intro m c b
  unfold Qt.getRadixCount
  rw [Comm.get8 m c b]
  split
  · cases Qt.get8 m c <;> rfl
  · split <;> rfl

theorem Comm.walkSection (hs gs st f3 x) : Comm (walkSection hs gs st f3 x) := by
  have h1 := Comm.readInto
  have h2 := Comm.readRows
  rw [walkSection_eq]
  refine Comm.bind (Comm.getRadixCount _ _ _ _) fun _ => Comm.bind (Comm.getRadixCount _ _ _ _) fun _ => ?_
  unfold walkRest parseRadix parseRadixOnRadix
  exact Comm.ite (Comm.bind (h1 _ _ _ _) fun _ => Comm.pure _) (Comm.ite (Comm.bind (h2 _ _ _ _) fun _ =>
    Comm.bind (h1 _ _ _ _) fun _ => Comm.bind (h1 _ _ _ _) fun _ => Comm.pure _) (Comm.pure _))

theorem Comm.parseRegs : Comm parseRegs := by
  have h0 := Comm.get8n
  have h1 := fun cap n => Comm.readRegs8 cap n 0
  have h2 := fun cap n => Comm.readRegs16 cap n 0
  have h3 : Comm Qt.vsxCount := Comm.getCtx_bind (fun _ _ => rfl) fun _ => Comm.ite h0 (Comm.pure _)
  unfold Qt.parseRegs
  refine Comm.bind h0 fun _ => Comm.bind h0 fun _ => Comm.bind h0 fun _ => Comm.bind h3 fun _ =>
    Comm.bind h0 fun _ => Comm.bind h0 fun _ => Comm.bind h0 fun _ => Comm.bind h0 fun _ =>
    Comm.bind h3 fun _ => Comm.bind h0 fun _ => ?_
  refine Comm.bind (h1 _ _) fun _ => Comm.bind (h1 _ _) fun _ => Comm.bind (Comm.bump _) fun _ =>
    Comm.bind (Comm.bump _) fun _ => Comm.bind (h2 _ _) fun _ => ?_
  exact Comm.bind (h1 _ _) fun _ => Comm.bind (h1 _ _) fun _ => Comm.bind (Comm.bump _) fun _ =>
    Comm.bind (Comm.bump _) fun _ => Comm.bind (h2 _ _) fun _ => Comm.bind (Comm.skipN _) fun _ => Comm.pure _

theorem Comm.combineRa (a b c) : Comm (combineRa a b c) := by unfold Qt.combineRa; comm

theorem Comm.headerFlags : Comm headerFlags := by unfold Qt.headerFlags; comm
theorem Comm.headerIds (h) : Comm (headerIds h) := by unfold Qt.headerIds; comm
theorem Comm.headerTail (f h) : Comm (headerTail f h) := by unfold Qt.headerTail; comm
theorem Comm.headerPages (h) : Comm (headerPages h) := by
  have := Comm.get8n
  unfold Qt.headerPages; comm
theorem Comm.headerWalk (f2 f3 h) : Comm (headerWalk f2 f3 h) := by
  unfold Qt.headerWalk
  exact Comm.whenR (Comm.getCtx_bind (fun _ _ => rfl) fun _ => Comm.bind (Comm.walkSection _ _ _ _ _) fun _ =>
    Comm.modSt fun _ _ => rfl)

theorem Comm.parseHeader : Comm parseHeader := by
  unfold Qt.parseHeader
  refine Comm.bind Comm.headerFlags fun a => ?_
  obtain ⟨f2, f3, h⟩ := a
  exact Comm.bind (Comm.headerIds h) fun _ => Comm.bind (Comm.headerWalk f2 f3 h) fun _ =>
    Comm.bind (Comm.headerPages h) fun _ => Comm.headerTail f3 h

theorem applyNext_want (c : Ctx) (b : Want) : applyNext (c.want b) = (applyNext c).want b := by
  unfold applyNext Ctx.want RState.want
  by_cases h1 : c.st.nextInsnRpnValid = true <;> by_cases h2 : c.st.nextInsnPageShiftValid = true <;>
    by_cases h3 : c.st.nextRadixInsn.nrPtes = 0 <;> by_cases h4 : c.st.nextGuestInsnPageShiftValid = true <;>
    simp [h1, h2, h3, h4]

theorem Comm.peek : Comm peekInsn := fun _ _ _ => rfl

theorem Comm.skipHeaders : ∀ fuel, Comm (skipHeaders fuel)
  | 0 => Comm.throwErr _
  | fuel + 1 => by
    unfold Qt.skipHeaders
    exact Comm.bind Comm.peek fun _ => Comm.getCtx_bind (fun _ _ => rfl) fun _ => Comm.ite
      (Comm.bind Comm.parseHeader fun _ => Comm.skipHeaders fuel) (Comm.pure _)

/-- `bodySection` without the annotation at its end. -/
def bodyPlain : Rd Unit := do
  let (flags, flags2, flags3) ← flagsSection
  nodeSection flags
  termSection flags
  dataAddrSection flags
  dataWalkSection flags flags2 flags3
  dataRpnSection flags
  iarSection flags
  branchSection flags
  insnWalkSection flags flags2 flags3
  insnRpnSection flags
  regsSection flags
  seqSection flags2
  insnPageSection flags2
  dataPageSection flags2
  guestPageSection flags2

theorem bodySection_eq : bodySection = bodyPlain >>= fun _ => annotateSection := by
  unfold bodySection bodyPlain
  simp only [Rd.bind_assoc]

/-- A record up to its annotation. -/
def plainRd : Rd Unit := do
  modRec fun _ => Record.zero
  (fun m c => skipHeaders (m.bytes.length + 1) m c : Rd Unit)
  (fun _ c => .ok () (applyNext c) : Rd Unit)
  insnRaSection
  insnSection
  bodyPlain

theorem Comm.bodyPlain : Comm bodyPlain := by
  have h8 := Comm.get8n
  unfold Qt.bodyPlain
  refine Comm.bind (by unfold Qt.flagsSection; comm) fun a => ?_
  obtain ⟨f, f2, f3⟩ := a
  refine Comm.bind (by unfold Qt.nodeSection; comm) fun _ => ?_
  refine Comm.bind (by unfold Qt.termSection Qt.termCheck; comm) fun _ => ?_
  refine Comm.bind (by unfold Qt.dataAddrSection; comm) fun _ => ?_
  refine Comm.bind (Comm.whenR (Comm.getCtx_bind (fun _ _ => rfl) fun _ => Comm.bind (Comm.walkSection _ _ _ _ _) fun _ =>
    Comm.modRec _)) fun _ => ?_
  refine Comm.bind (by unfold Qt.dataRpnSection; comm) fun _ => ?_
  refine Comm.bind (Comm.bind (by unfold Qt.iarFetch; comm) fun _ => Comm.getCtx_bind (fun _ _ => rfl) fun _ =>
    Comm.modRec _) fun _ => ?_
  refine Comm.bind (Comm.getCtx_bind (fun _ _ => rfl) fun _ => Comm.ite (Comm.modRec _)
    (Comm.ite (Comm.modRec _) (Comm.pure _))) fun _ => ?_
  refine Comm.bind (Comm.bind (Comm.whenR (Comm.skipN _)) fun _ => (Comm.whenR (Comm.getCtx_bind (fun _ _ => rfl) fun _ =>
    Comm.bind (Comm.walkSection _ _ _ _ _) fun _ => Comm.modSt fun _ _ => rfl))) fun _ => ?_
  refine Comm.bind (by unfold Qt.insnRpnSection; comm) fun _ => ?_
  refine Comm.bind (Comm.whenR (Comm.bind Comm.parseRegs fun _ => Comm.modRec _)) fun _ => ?_
  refine Comm.bind (by unfold Qt.seqSection; comm) fun _ => ?_
  refine Comm.bind (by unfold Qt.insnPageSection; comm) fun _ => ?_
  refine Comm.bind (Comm.bind (by comm) fun _ => Comm.getCtx_bind (fun _ _ => rfl) fun _ =>
    Comm.whenR (Comm.bind (Comm.combineRa _ _ _) fun _ => Comm.modRec _)) fun _ => ?_
  unfold Qt.guestPageSection Qt.guestInsnPage; comm

theorem Comm.plainRd : Comm plainRd := by
  unfold Qt.plainRd
  refine Comm.bind (Comm.modRec _) fun _ => Comm.bind (fun m c b => Comm.skipHeaders _ m c b) fun _ =>
    Comm.bind (fun m c b => ?_) fun _ => Comm.bind (Comm.getCtx_bind (fun _ _ => rfl) fun _ =>
      Comm.whenR (Comm.bind (Comm.combineRa _ _ _) fun _ => Comm.modRec _)) fun _ =>
      Comm.bind (by unfold Qt.insnSection; comm) fun _ => Comm.bodyPlain
  show Out.ok () (applyNext (c.want b)) = Out.ok () ((applyNext c).want b)
  rw [applyNext_want]

theorem nextRecordRd_eq : nextRecordRd = plainRd >>= fun _ => annotateSection := by
  unfold nextRecordRd readOne plainRd
  rw [bodySection_eq]
  refine Eq.trans ?_ (Rd.bind_assoc _ _ _).symm
  refine Rd.bind_congr fun _ => Eq.trans ?_ (Rd.bind_assoc _ _ _).symm
  refine Rd.bind_congr fun _ => Eq.trans ?_ (Rd.bind_assoc _ _ _).symm
  refine Rd.bind_congr fun _ => Eq.trans ?_ (Rd.bind_assoc _ _ _).symm
  refine Rd.bind_congr fun _ => (Rd.bind_assoc _ _ _).symm

end Qt
