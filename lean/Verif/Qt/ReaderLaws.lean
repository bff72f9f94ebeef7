import Verif.Qt.Laws
/-! Helper lemmas: the laws of `Laws.lean` for the sections of a record and for whole records. -/
namespace Qt

/-- Like `Law`, except that at the end of the trace the result may differ on a longer trace.  This is the case
of the page-walk counts, which are taken to be zero when the trace ends there. -/
structure LawS {α} (x : Rd α) : Prop where
  pos : ∀ m c a c', x m c = .ok a c' → c.st.pos ≤ c'.st.pos
  inside : Inside x
  mono : ∀ m m' c a c', m.Le m' → x m c = .ok a c' → x m' c = .ok a c' ∨ m.bytes.length ≤ c'.st.pos

theorem Law.toS {α} {x : Rd α} (h : Law x) : LawS x :=
  ⟨h.fwd.pos, h.inside, fun m m' c a c' hm hx => .inl (h.fwd.mono m m' c a c' hm hx)⟩

/-- Nothing succeeds at the end of the trace. -/
def Needs {α} (x : Rd α) : Prop := ∀ m c a c', m.bytes.length ≤ c.st.pos → x m c ≠ .ok a c'

theorem Needs.get32 : Needs get32 := by
  intro m c a c' h e
  obtain ⟨_, _, _, _, _, _, _, e⟩ := get32_split e
  have := drop_len e (by simp)
  simp at this; omega

theorem Needs.bind {α β} {x : Rd α} {f : α → Rd β} (h : Needs x) : Needs (x >>= f) := by
  intro m c a c' hl e
  obtain ⟨_, _, h1, _⟩ := bind_split e
  exact h _ _ _ _ hl h1

theorem LawS.bind {α β} {x : Rd α} {f : α → Rd β} (hx : LawS x) (hf : ∀ a, Law (f a)) (hn : ∀ a, Needs (f a)) :
    Law (x >>= f) where
  fwd := {
    pos := by
      intro m c b c'' h
      obtain ⟨a, c', h1, h2⟩ := bind_split h
      exact Nat.le_trans (hx.pos _ _ _ _ h1) ((hf a).fwd.pos _ _ _ _ h2)
    mono := by
      intro m m' c b c'' hm h
      obtain ⟨a, c', h1, h2⟩ := bind_split h
      rcases hx.mono _ _ _ _ _ hm h1 with h3 | h3
      · exact (Rd.bind_ok h3).trans ((hf a).fwd.mono _ _ _ _ _ hm h2)
      · exact absurd h2 (hn a _ _ _ _ h3) }
  inside := by
    intro m c b c'' h hi
    obtain ⟨a, c', h1, h2⟩ := bind_split h
    exact (hf a).inside _ _ _ _ h2 (hx.inside _ _ _ _ h1 hi)

/-- A bind whose continuation keeps the position. -/
theorem LawS.bindPure {α β} {x : Rd α} {f : α → Rd β} (hx : LawS x) (hf : ∀ a, Law (f a))
    (hp : ∀ a m c b c', f a m c = .ok b c' → c'.st.pos = c.st.pos) : LawS (x >>= f) where
  pos := by
    intro m c b c'' h
    obtain ⟨a, c', h1, h2⟩ := bind_split h
    exact Nat.le_trans (hx.pos _ _ _ _ h1) ((hf a).fwd.pos _ _ _ _ h2)
  inside := by
    intro m c b c'' h hi
    obtain ⟨a, c', h1, h2⟩ := bind_split h
    exact (hf a).inside _ _ _ _ h2 (hx.inside _ _ _ _ h1 hi)
  mono := by
    intro m m' c b c'' hm h
    obtain ⟨a, c', h1, h2⟩ := bind_split h
    rcases hx.mono _ _ _ _ _ hm h1 with h3 | h3
    · exact .inl ((Rd.bind_ok h3).trans ((hf a).fwd.mono _ _ _ _ _ hm h2))
    · right; rw [hp _ _ _ _ _ h2]; exact h3

/-- A bind after something that obeys the full law. -/
theorem LawS.after {α β} {x : Rd α} {f : α → Rd β} (hx : Law x) (hf : ∀ a, LawS (f a)) : LawS (x >>= f) where
  pos := by
    intro m c b c'' h
    obtain ⟨a, c', h1, h2⟩ := bind_split h
    exact Nat.le_trans (hx.fwd.pos _ _ _ _ h1) ((hf a).pos _ _ _ _ h2)
  inside := by
    intro m c b c'' h hi
    obtain ⟨a, c', h1, h2⟩ := bind_split h
    exact (hf a).inside _ _ _ _ h2 (hx.inside _ _ _ _ h1 hi)
  mono := by
    intro m m' c b c'' hm h
    obtain ⟨a, c', h1, h2⟩ := bind_split h
    rcases (hf a).mono _ _ _ _ _ hm h2 with h3 | h3
    · exact .inl ((Rd.bind_ok (hx.fwd.mono _ _ _ _ _ hm h1)).trans h3)
    · exact .inr h3

theorem LawS.whenR {b : Bool} {x : Rd Unit} (hx : LawS x) : LawS (whenR b x) := by
  cases b
  · exact (Law.pure ()).toS
  · exact hx

theorem get8_err {m c e c'} (h : get8 m c = .err e c') : c' = c ∧ m.bytes.length ≤ c.st.pos := by
  unfold get8 at h
  split at h
  · cases h
  · rename_i hn
    cases h
    refine ⟨rfl, ?_⟩
    cases hd : m.bytes.drop c.st.pos with
    | nil => simpa using hd
    | cons a l => exact absurd hd (hn a l)

theorem getRadixCount_cases {hs gs d f3 m c a c'} (h : getRadixCount hs gs d f3 m c = .ok a c') :
    (modeField f3 hs = 0 ∧ modeField f3 gs = 0 ∧
      ((∃ b : Byte, get8 m c = .ok b c' ∧ a = b.toNat) ∨ (a = 0 ∧ c' = c ∧ m.bytes.length ≤ c.st.pos))) ∨
    (¬ (modeField f3 hs = 0 ∧ modeField f3 gs = 0) ∧ c' = c ∧ a = if modeField f3 hs = 0 then d else 0) := by
  unfold getRadixCount at h
  split at h
  · rename_i hc
    left
    refine ⟨hc.1, hc.2, ?_⟩
    cases hg : get8 m c with
    | ok b c1 => rw [hg] at h; cases h; exact .inl ⟨b, rfl, rfl⟩
    | err e c1 =>
      rw [hg] at h; cases h
      obtain ⟨rfl, hl⟩ := get8_err hg
      exact .inr ⟨rfl, rfl, hl⟩
  · rename_i hc
    right
    refine ⟨hc, ?_⟩
    split at h <;> cases h <;> simp_all

theorem getRadixCount_of {hs gs d f3 m c} (h : ¬ (modeField f3 hs = 0 ∧ modeField f3 gs = 0)) :
    getRadixCount hs gs d f3 m c = .ok (if modeField f3 hs = 0 then d else 0) c := by
  unfold getRadixCount
  rw [if_neg h]
  split <;> rfl

theorem getRadixCount_of_get {hs gs d f3 m c b c'} (h : modeField f3 hs = 0 ∧ modeField f3 gs = 0)
    (hg : get8 m c = .ok b c') : getRadixCount hs gs d f3 m c = .ok b.toNat c' := by
  unfold getRadixCount
  rw [if_pos h, hg]

theorem LawS.getRadixCount (hs gs d f3) : LawS (getRadixCount hs gs d f3) where
  pos := by
    intro m c a c' h
    rcases getRadixCount_cases h with ⟨_, _, ⟨b, hb, _⟩ | ⟨_, rfl, _⟩⟩ | ⟨_, rfl, _⟩
    · exact Law.get8.fwd.pos _ _ _ _ hb
    · exact Nat.le_refl _
    · exact Nat.le_refl _
  inside := by
    intro m c a c' h hi
    rcases getRadixCount_cases h with ⟨_, _, ⟨b, hb, _⟩ | ⟨_, rfl, _⟩⟩ | ⟨_, rfl, _⟩
    · exact Law.get8.inside _ _ _ _ hb hi
    · exact hi
    · exact hi
  mono := by
    intro m m' c a c' hm h
    rcases getRadixCount_cases h with ⟨h1, h2, ⟨b, hb, rfl⟩ | ⟨_, rfl, hl⟩⟩ | ⟨hc, rfl, rfl⟩
    · exact .inl (getRadixCount_of_get ⟨h1, h2⟩ (Law.get8.fwd.mono _ _ _ _ _ hm hb))
    · exact .inr hl
    · exact .inl (getRadixCount_of hc)

/-- The part of the walk section after the counts. -/
def walkRest (hs gs : Nat) (st : Bool) (f3 : BitVec 16) (x : Radix) (nr walks : Nat) : Rd Radix :=
  let x := { x with nrPtes := nr, nrWalks := walks }
  if walks = 1 then
    parseRadix nr (if st then { x with type := getRadixType hs gs f3 } else x)
  else if walks > 1 then parseRadixOnRadix walks nr x
  else return x

theorem walkSection_eq (hs gs st f3 x) :
    walkSection hs gs st f3 x = (getRadixCount hs gs NR_RADIX_PTES f3 >>= fun nr =>
      getRadixCount hs gs 1 f3 >>= fun walks => walkRest hs gs st f3 x nr walks) := rfl

theorem Law.walkRest (hs gs st f3 x nr walks) : Law (walkRest hs gs st f3 x nr walks) := by
  unfold Qt.walkRest
  exact Law.ite (Law.parseRadix _ _) (Law.ite (Law.parseRadixOnRadix _ _ _) (Law.pure _))

theorem LawS.walkSection (hs gs st f3 x) : LawS (walkSection hs gs st f3 x) := by
  rw [walkSection_eq]
  constructor
  · intro m c b c'' h
    obtain ⟨nr, c1, h1, h⟩ := bind_split h
    obtain ⟨w, c2, h2, h3⟩ := bind_split h
    have := (LawS.getRadixCount hs gs NR_RADIX_PTES f3).pos _ _ _ _ h1
    have := (LawS.getRadixCount hs gs 1 f3).pos _ _ _ _ h2
    have := (Law.walkRest hs gs st f3 x nr w).fwd.pos _ _ _ _ h3
    omega
  · intro m c b c'' h hi
    obtain ⟨nr, c1, h1, h⟩ := bind_split h
    obtain ⟨w, c2, h2, h3⟩ := bind_split h
    exact (Law.walkRest hs gs st f3 x nr w).inside _ _ _ _ h3
      ((LawS.getRadixCount hs gs 1 f3).inside _ _ _ _ h2
        ((LawS.getRadixCount hs gs NR_RADIX_PTES f3).inside _ _ _ _ h1 hi))
  · intro m m' c b c'' hm h
    obtain ⟨nr, c1, h1, h⟩ := bind_split h
    obtain ⟨w, c2, h2, h3⟩ := bind_split h
    have p1 := (LawS.getRadixCount hs gs NR_RADIX_PTES f3).pos _ _ _ _ h1
    have p2 := (LawS.getRadixCount hs gs 1 f3).pos _ _ _ _ h2
    have p3 := (Law.walkRest hs gs st f3 x nr w).fwd.pos _ _ _ _ h3
    rcases (LawS.getRadixCount hs gs NR_RADIX_PTES f3).mono _ _ _ _ _ hm h1 with k1 | k1
    · rcases (LawS.getRadixCount hs gs 1 f3).mono _ _ _ _ _ hm h2 with k2 | k2
      · exact .inl ((Rd.bind_ok k1).trans ((Rd.bind_ok k2).trans
          ((Law.walkRest hs gs st f3 x nr w).fwd.mono _ _ _ _ _ hm h3)))
      · exact .inr (by omega)
    · exact .inr (by omega)

theorem pos_modSt {f : RState → RState} (hf : ∀ s, (f s).pos = s.pos) {m c b c'} (h : modSt f m c = .ok b c') :
    c'.st.pos = c.st.pos := by
  cases h; exact hf _

theorem pos_modRec {f : Record → Record} {m c b c'} (h : modRec f m c = .ok b c') : c'.st.pos = c.st.pos := by
  cases h; rfl

theorem LawS.headerWalk (f2 f3 h) : LawS (headerWalk f2 f3 h) := by
  unfold Qt.headerWalk
  refine LawS.whenR (LawS.after Law.getCtx fun c => LawS.bindPure (LawS.walkSection _ _ _ _ _) ?_ ?_)
  · intro a; exact Law.modSt (fun _ => rfl)
  · intro a m c b c' h; cases h; rfl

theorem Law.headerFlags : Law headerFlags := by unfold Qt.headerFlags; law
theorem Law.headerIds (h) : Law (headerIds h) := by unfold Qt.headerIds; law
theorem Law.headerTail (f h) : Law (headerTail f h) := by unfold Qt.headerTail; law
theorem Law.headerPages (h) : Law (headerPages h) := by
  have := Law.get8n
  unfold Qt.headerPages; law

theorem Needs.headerPages {h} (hh : has h 0x0800 = true) : Needs (headerPages h) := by
  unfold Qt.headerPages
  rw [hh]
  exact Needs.bind (Needs.bind Needs.get32)

theorem whenR_false (x : Rd Unit) : whenR false x = pure () := rfl

theorem law_headerRest (f2 f3 h) : Law (headerWalk f2 f3 h >>= fun _ => headerPages h >>= fun _ => headerTail f3 h) := by
  have hl : Law (Qt.headerPages h >>= fun _ => Qt.headerTail f3 h) :=
    Law.bind (Law.headerPages h) fun _ => Law.headerTail f3 h
  by_cases hh : has h 0x0800 = true
  · exact LawS.bind (LawS.headerWalk f2 f3 h) (fun _ => hl) (fun _ => Needs.bind (Needs.headerPages hh))
  · have : headerWalk f2 f3 h = pure () := by
      unfold headerWalk
      simp only [Bool.not_eq_true] at hh
      rw [hh, Bool.false_and]; rfl
    rw [this]
    exact Law.bind (Law.pure _) fun _ => hl

theorem Law.parseHeader : Law parseHeader := by
  unfold Qt.parseHeader
  refine Law.bind Law.headerFlags fun a => ?_
  obtain ⟨f2, f3, h⟩ := a
  exact Law.bind (Law.headerIds h) fun _ => law_headerRest f2 f3 h

theorem law_applyNext : Law (fun _ c => .ok () (applyNext c) : Rd Unit) where
  fwd := {
    pos := by
      intro m c a c' h
      cases h
      have : (applyNext (c.at c.st.pos)).st.pos = c.st.pos := by rw [applyNext_at]; rfl
      rw [Ctx.at_self] at this
      omega
    mono := by intro m m' c a c' _ h; exact h }
  inside := by
    intro m c a c' h hi
    cases h
    have : (Qt.applyNext (c.at c.st.pos)).st.pos = c.st.pos := by rw [applyNext_at]; rfl
    rw [Ctx.at_self] at this
    omega

theorem Law.insnRaSection : Law insnRaSection := by
  have := Law.combineRa
  unfold Qt.insnRaSection
  refine Law.bind Law.getCtx fun c => Law.whenR (Law.bind (this _ _ _) fun _ => Law.modRec _)

theorem Law.insnSection : Law insnSection := by
  unfold Qt.insnSection; law

theorem Law.flagsSection : Law flagsSection := by unfold Qt.flagsSection; law
theorem Law.nodeSection (f) : Law (nodeSection f) := by unfold Qt.nodeSection; law
theorem Law.termCheck (f) : Law (termCheck f) := by unfold Qt.termCheck; law
theorem Law.termSection (f) : Law (termSection f) := by
  have := Law.termCheck
  unfold Qt.termSection
  exact Law.whenR (Law.bind Law.get8 fun _ => Law.bind Law.get8 fun _ => Law.bind (Law.modRec _) fun _ => this _)
theorem Law.dataAddrSection (f) : Law (dataAddrSection f) := by unfold Qt.dataAddrSection; law
theorem Law.dataRpnSection (f) : Law (dataRpnSection f) := by unfold Qt.dataRpnSection; law
theorem Law.iarFetch (f) : Law (iarFetch f) := by unfold Qt.iarFetch; law
theorem Law.iarSection (f) : Law (iarSection f) := by
  have := Law.iarFetch f
  unfold Qt.iarSection; law
theorem Law.branchSection (f) : Law (branchSection f) := by unfold Qt.branchSection; law
theorem Law.insnRpnSection (f) : Law (insnRpnSection f) := by unfold Qt.insnRpnSection; law
theorem Law.regsSection (f) : Law (regsSection f) := by
  unfold Qt.regsSection
  exact Law.whenR (Law.bind Law.parseRegs fun _ => Law.modRec _)
theorem Law.seqSection (f) : Law (seqSection f) := by
  have := Law.get8n
  unfold Qt.seqSection; law
theorem Law.insnPageSection (f) : Law (insnPageSection f) := by
  have := Law.get8n
  unfold Qt.insnPageSection; law
theorem Law.dataPageSection (f) : Law (dataPageSection f) := by
  have := Law.get8n
  unfold Qt.dataPageSection
  refine Law.bind (by law) fun _ => Law.bind Law.getCtx fun c => Law.whenR (Law.bind (Law.combineRa _ _ _) fun _ => Law.modRec _)
theorem Law.guestInsnPage (f) : Law (guestInsnPage f) := by
  have := Law.get8n
  unfold Qt.guestInsnPage; law
theorem Law.guestPageSection (f) : Law (guestPageSection f) := by
  have := Law.get8n
  have := Law.guestInsnPage f
  unfold Qt.guestPageSection; law
theorem Law.annotateSection : Law annotateSection := by
  unfold Qt.annotateSection
  refine Law.bind Law.getCtx fun c => Law.bind (Law.whenR ?_) fun _ => Law.bind Law.getCtx fun c => Law.whenR ?_
  · split
    · exact Law.modRec _
    · exact Law.throwErr _
  · split
    · exact Law.modRec _
    · exact Law.throwErr _

theorem LawS.dataWalkSection (f f2 f3) : LawS (dataWalkSection f f2 f3) := by
  unfold Qt.dataWalkSection
  refine LawS.whenR (LawS.after Law.getCtx fun c => LawS.bindPure (LawS.walkSection _ _ _ _ _) ?_ ?_)
  · intro a; exact Law.modRec _
  · intro a m c b c' h; exact pos_modRec h

theorem LawS.insnWalkSection (f f2 f3) : LawS (insnWalkSection f f2 f3) := by
  unfold Qt.insnWalkSection
  refine LawS.after (Law.whenR (Law.skipN _)) fun _ =>
    LawS.whenR (LawS.after Law.getCtx fun c => LawS.bindPure (LawS.walkSection _ _ _ _ _) ?_ ?_)
  · intro a; exact Law.modSt (fun _ => rfl)
  · intro a m c b c' h; cases h; rfl

theorem Needs.dataRpnSection {f} (h : has f 0x0200 = true) : Needs (dataRpnSection f) := by
  unfold Qt.dataRpnSection
  rw [if_pos h]
  exact Needs.bind Needs.get32

theorem Needs.insnRpnSection {f} (h : has f 0x0010 = true) : Needs (insnRpnSection f) := by
  unfold Qt.insnRpnSection
  rw [if_pos h]
  exact Needs.bind Needs.get32

/-- Instruction walk and what follows it. -/
theorem law_bodyTail (f f2 f3) : Law (insnWalkSection f f2 f3 >>= fun _ => insnRpnSection f >>= fun _ =>
    regsSection f >>= fun _ => seqSection f2 >>= fun _ => insnPageSection f2 >>= fun _ =>
    dataPageSection f2 >>= fun _ => guestPageSection f2 >>= fun _ => annotateSection) := by
  have hl : Law (Qt.insnRpnSection f >>= fun _ =>
      Qt.regsSection f >>= fun _ => Qt.seqSection f2 >>= fun _ => Qt.insnPageSection f2 >>= fun _ =>
      Qt.dataPageSection f2 >>= fun _ => Qt.guestPageSection f2 >>= fun _ => Qt.annotateSection) :=
    Law.bind (Law.insnRpnSection f) fun _ => Law.bind (Law.regsSection f) fun _ => Law.bind (Law.seqSection f2) fun _ =>
    Law.bind (Law.insnPageSection f2) fun _ => Law.bind (Law.dataPageSection f2) fun _ =>
    Law.bind (Law.guestPageSection f2) fun _ => Law.annotateSection
  by_cases hh : has f 0x0010 = true
  · exact LawS.bind (LawS.insnWalkSection f f2 f3) (fun _ => hl) (fun _ => Needs.bind (Needs.insnRpnSection hh))
  · refine Law.bind ?_ fun _ => hl
    unfold Qt.insnWalkSection
    simp only [Bool.not_eq_true] at hh
    rw [hh, Bool.false_and]
    exact Law.bind (Law.whenR (Law.skipN _)) fun _ => Law.pure _

theorem law_bodyMid (f f2 f3) : Law (dataWalkSection f f2 f3 >>= fun _ => dataRpnSection f >>= fun _ =>
    iarSection f >>= fun _ => branchSection f >>= fun _ => insnWalkSection f f2 f3 >>= fun _ => insnRpnSection f >>= fun _ =>
    regsSection f >>= fun _ => seqSection f2 >>= fun _ => insnPageSection f2 >>= fun _ =>
    dataPageSection f2 >>= fun _ => guestPageSection f2 >>= fun _ => annotateSection) := by
  have hl : Law (Qt.dataRpnSection f >>= fun _ =>
    Qt.iarSection f >>= fun _ => Qt.branchSection f >>= fun _ => Qt.insnWalkSection f f2 f3 >>= fun _ =>
    Qt.insnRpnSection f >>= fun _ =>
    Qt.regsSection f >>= fun _ => Qt.seqSection f2 >>= fun _ => Qt.insnPageSection f2 >>= fun _ =>
    Qt.dataPageSection f2 >>= fun _ => Qt.guestPageSection f2 >>= fun _ => Qt.annotateSection) :=
    Law.bind (Law.dataRpnSection f) fun _ => Law.bind (Law.iarSection f) fun _ => Law.bind (Law.branchSection f) fun _ =>
      law_bodyTail f f2 f3
  by_cases hh : has f 0x0200 = true
  · exact LawS.bind (LawS.dataWalkSection f f2 f3) (fun _ => hl) (fun _ => Needs.bind (Needs.dataRpnSection hh))
  · refine Law.bind ?_ fun _ => hl
    unfold Qt.dataWalkSection
    simp only [Bool.not_eq_true] at hh
    rw [hh, Bool.false_and]
    exact Law.pure _

theorem Law.bodySection : Law bodySection := by
  unfold Qt.bodySection
  refine Law.bind Law.flagsSection fun a => ?_
  obtain ⟨f, f2, f3⟩ := a
  exact Law.bind (Law.nodeSection f) fun _ => Law.bind (Law.termSection f) fun _ =>
    Law.bind (Law.dataAddrSection f) fun _ => law_bodyMid f f2 f3

theorem Law.readOne : Law readOne :=
  Law.bind law_applyNext fun _ => Law.bind Law.insnRaSection fun _ => Law.bind Law.insnSection fun _ => Law.bodySection

/-! ### Whole records -/

theorem flagsSection_pos {m c a c'} (h : flagsSection m c = .ok a c') : c.st.pos + 2 ≤ c'.st.pos := by
  obtain ⟨f, c1, h1, h2⟩ := bind_split h
  obtain ⟨rfl, _⟩ := get16_split h1
  have hl : ∀ f : BitVec 16, Law (do
      let flags2 ← if has f 0x0001 then get16 else pure 0
      let flags3 ← if has f 0x0001 && has flags2 0x0001 then get16 else pure 0
      if has f (~~~ 0xFFF9) then throwErr .fail else
      if has flags2 (~~~ 0x532F) then throwErr .fail else
      return (f, flags2, flags3) : Rd (BitVec 16 × BitVec 16 × BitVec 16)) := by
    intro f; law
  have := (hl f).fwd.pos _ _ _ _ h2
  simpa [advance] using this

theorem bodySection_pos {m c a c'} (h : bodySection m c = .ok a c') : c.st.pos + 2 ≤ c'.st.pos := by
  obtain ⟨⟨f, f2, f3⟩, c1, h1, h2⟩ := bind_split h
  have p1 := flagsSection_pos h1
  have p2 := (Law.bind (Law.nodeSection f) fun _ => Law.bind (Law.termSection f) fun _ =>
    Law.bind (Law.dataAddrSection f) fun _ => law_bodyMid f f2 f3).fwd.pos _ _ _ _ h2
  omega

theorem insnSection_pos {m c a c'} (h : insnSection m c = .ok a c') :
    c'.st.pos = c.st.pos + 4 ∧ c.st.pos + 4 ≤ m.bytes.length := by
  obtain ⟨i, c1, h1, h2⟩ := bind_split h
  obtain ⟨rfl, _, _, _, _, _, _, hd⟩ := get32_split h1
  cases h2
  exact ⟨rfl, by simpa using drop_len hd (by simp)⟩

theorem applyNext_pos (c : Ctx) : (applyNext c).st.pos = c.st.pos := by
  have : (applyNext (c.at c.st.pos)).st.pos = c.st.pos := by rw [applyNext_at]; rfl
  rwa [Ctx.at_self] at this

theorem combineRa_ok {rpn ps ea m c a c'} (h : combineRa rpn ps ea m c = .ok a c') : c' = c ∧ ps < 64 := by
  unfold combineRa at h
  split at h
  · rename_i hp; cases h; exact ⟨rfl, hp⟩
  · cases h

/-- A record takes at least six bytes, all inside the trace. -/
theorem readOne_pos {m c a c'} (h : readOne m c = .ok a c') :
    c.st.pos + 6 ≤ c'.st.pos ∧ c'.st.pos ≤ m.bytes.length ∧ c.st.pos + 4 ≤ m.bytes.length := by
  obtain ⟨_, c1, h1, h⟩ := bind_split h
  obtain ⟨_, c2, h2, h⟩ := bind_split h
  obtain ⟨_, c3, h3, h4⟩ := bind_split h
  have e1 : c1.st.pos = c.st.pos := by cases h1; exact applyNext_pos c
  have e2 : c2.st.pos = c1.st.pos := by
    obtain ⟨_, _, k1, k2⟩ := bind_split h2
    cases k1
    unfold whenR at k2
    split at k2
    · obtain ⟨_, _, k3, k4⟩ := bind_split k2
      cases k4
      obtain ⟨rfl, _⟩ := combineRa_ok k3
      rfl
    · cases k2; rfl
  obtain ⟨e3, l3⟩ := insnSection_pos h3
  have e4 := bodySection_pos h4
  have := Law.bodySection.inside _ _ _ _ h4 (by omega)
  omega

theorem headerFlags_pos {m c a c'} (h : headerFlags m c = .ok a c') :
    c.st.pos + 10 ≤ c'.st.pos ∧ c.st.pos + 4 ≤ m.bytes.length := by
  obtain ⟨i, c1, h1, h⟩ := bind_split h
  obtain ⟨rfl, _, _, _, _, _, _, hd⟩ := get32_split h1
  have hd := drop_len hd (by simp)
  simp only at h
  split at h
  · cases h
  obtain ⟨f, c2, h2, h⟩ := bind_split h
  obtain ⟨rfl, _⟩ := get16_split h2
  split at h
  · cases h
  obtain ⟨f2, c3, h3, h⟩ := bind_split h
  obtain ⟨rfl, _⟩ := get16_split h3
  split at h
  · cases h
  split at h
  · cases h
  have hl : Law (if has f2 0x0001 then get16 else pure 0) := Law.ite Law.get16 (Law.pure _)
  have hr : ∀ f3 : BitVec 16, ∀ m c a c', (do
      let hdr ← get16
      if has hdr (~~~ 0xF852) then throwErr .fail else
      return (f2, f3, hdr) : Rd (BitVec 16 × BitVec 16 × BitVec 16)) m c = .ok a c' → c.st.pos + 2 ≤ c'.st.pos := by
    intro f3 m c a c' h
    obtain ⟨hdr, c1, h1, h⟩ := bind_split h
    obtain ⟨rfl, _⟩ := get16_split h1
    split at h
    · cases h
    · cases h; exact Nat.le_refl _
  have key : c.st.pos + 4 + 2 + 2 + 2 ≤ c'.st.pos := by
    split at h
    · rename_i hc
      obtain ⟨f3, c4, h4, h⟩ := bind_split h
      have p4 := Law.get16.fwd.pos _ _ _ _ h4
      have := hr f3 _ _ _ _ h
      simp only [advance] at p4
      omega
    · exact hr 0 _ _ _ _ h
  simp at hd
  omega

theorem parseHeader_pos {m c a c'} (h : parseHeader m c = .ok a c') :
    c.st.pos + 10 ≤ c'.st.pos ∧ c.st.pos + 4 ≤ m.bytes.length := by
  obtain ⟨⟨f2, f3, hd⟩, c1, h1, h2⟩ := bind_split h
  have p1 := headerFlags_pos h1
  have p2 := (Law.bind (Law.headerIds hd) fun _ => law_headerRest f2 f3 hd).fwd.pos _ _ _ _ h2
  omega

end Qt
