import Verif.Qt.ReaderLaws
/-! Helper lemmas: apart from the instruction fetch ahead of a record, no piece of the reader looks beyond the
trace; and a store outside an array needs an excessive count. -/
namespace Qt

/-- The state an outcome leaves behind. -/
def Out.ctx {α} : Out α → Ctx
  | .ok _ c => c
  | .err _ c => c

/-- No look beyond the trace. -/
structure Blind {α} (x : Rd α) : Prop where
  quiet : ∀ m c, (x m c).ctx.st.overread = c.st.overread
  indep : ∀ m m' c, m.bytes = m'.bytes → x m c = x m' c

theorem Blind.bind {α β} {x : Rd α} {f : α → Rd β} (hx : Blind x) (hf : ∀ a, Blind (f a)) : Blind (x >>= f) where
  quiet := by
    intro m c
    have h := hx.quiet m c
    cases hc : x m c with
    | ok a c' =>
      rw [Rd.bind_ok hc, (hf a).quiet]
      rw [hc] at h; exact h
    | err e c' =>
      rw [Rd.bind_err hc]
      rw [hc] at h; exact h
  indep := by
    intro m m' c hm
    have h := hx.indep m m' c hm
    cases hc : x m c with
    | ok a c' =>
      rw [Rd.bind_ok hc, Rd.bind_ok (h ▸ hc), (hf a).indep m m' c' hm]
    | err e c' =>
      rw [Rd.bind_err hc, Rd.bind_err (h ▸ hc)]

theorem Blind.pure {α} (a : α) : Blind (pure a : Rd α) := ⟨fun _ _ => rfl, fun _ _ _ _ => rfl⟩
theorem Blind.throwErr {α} (e) : Blind (throwErr e : Rd α) := ⟨fun _ _ => rfl, fun _ _ _ _ => rfl⟩
theorem Blind.modRec (f) : Blind (modRec f) := ⟨fun _ _ => rfl, fun _ _ _ _ => rfl⟩
theorem Blind.getCtx : Blind getCtx := ⟨fun _ _ => rfl, fun _ _ _ _ => rfl⟩
theorem Blind.modSt {f} (h : ∀ s : RState, (f s).overread = s.overread) : Blind (modSt f) :=
  ⟨fun _ _ => h _, fun _ _ _ _ => rfl⟩
theorem Blind.whenR {b x} (h : Blind x) : Blind (whenR b x) := by
  cases b
  · exact Blind.pure ()
  · exact h
theorem Blind.ite {α} {p : Prop} [Decidable p] {x y : Rd α} (hx : Blind x) (hy : Blind y) :
    Blind (if p then x else y) := by
  split
  · exact hx
  · exact hy
theorem Blind.get8 : Blind get8 where
  quiet := by intro m c; unfold Qt.get8; split <;> rfl
  indep := by intro m m' c h; unfold Qt.get8; rw [h]
theorem Blind.get16 : Blind get16 where
  quiet := by intro m c; unfold Qt.get16; split <;> rfl
  indep := by intro m m' c h; unfold Qt.get16; rw [h]
theorem Blind.get32 : Blind get32 where
  quiet := by intro m c; unfold Qt.get32; split <;> rfl
  indep := by intro m m' c h; unfold Qt.get32; rw [h]
theorem Blind.get64 : Blind get64 where
  quiet := by intro m c; unfold Qt.get64; split <;> rfl
  indep := by intro m m' c h; unfold Qt.get64; rw [h]
theorem Blind.skipN (n) : Blind (skipN n) where
  quiet := by intro m c; unfold Qt.skipN; split <;> rfl
  indep := by intro m m' c h; unfold Qt.skipN; rw [h]
theorem Blind.bump (n) : Blind (bump n) := ⟨fun _ _ => rfl, fun _ _ _ _ => rfl⟩

macro "blind" : tactic => `(tactic| repeat' (first
  | exact Blind.get8 | exact Blind.get16 | exact Blind.get32 | exact Blind.get64 | exact Blind.skipN _
  | exact Blind.bump _ | assumption
  | exact Blind.pure _ | exact Blind.getCtx | exact Blind.throwErr _ | exact Blind.modRec _
  | (refine Blind.modSt ?_; intro s; (first | rfl | (split <;> rfl)); done)
  | apply Blind.whenR | apply Blind.ite | refine Blind.bind ?_ (fun _ => ?_)))

theorem Blind.get8n : Blind get8n := by unfold Qt.get8n; blind

theorem Blind.readInto (cap) : ∀ n k f, Blind (readInto cap n k f)
  | 0, k, f => by unfold Qt.readInto; blind
  | n + 1, k, f => by
    unfold Qt.readInto
    exact Blind.bind Blind.get64 fun _ => Blind.ite (Blind.readInto cap n _ _) (Blind.throwErr _)

theorem Blind.readRows (nr) : ∀ n k f, Blind (readRows nr n k f)
  | 0, k, f => by unfold Qt.readRows; blind
  | n + 1, k, f => by
    unfold Qt.readRows
    exact Blind.bind (Blind.readInto _ _ _ _) fun _ => Blind.readRows nr n _ _

theorem Blind.readRegs8 (cap) : ∀ n k, Blind (readRegs8 cap n k)
  | 0, k => by unfold Qt.readRegs8; blind
  | n + 1, k => by
    unfold Qt.readRegs8
    exact Blind.bind Blind.get8 fun _ => Blind.ite
      (Blind.bind Blind.get64 fun _ => Blind.bind (Blind.readRegs8 cap n _) fun _ => Blind.pure _) (Blind.throwErr _)

theorem Blind.readRegs16 (cap) : ∀ n k, Blind (readRegs16 cap n k)
  | 0, k => by unfold Qt.readRegs16; blind
  | n + 1, k => by
    unfold Qt.readRegs16
    exact Blind.bind Blind.get16 fun _ => Blind.ite
      (Blind.bind Blind.get64 fun _ => Blind.bind (Blind.readRegs16 cap n _) fun _ => Blind.pure _) (Blind.throwErr _)

theorem Blind.getRadixCount (hs gs d f3) : Blind (getRadixCount hs gs d f3) where
  quiet := by
    intro m c
    unfold Qt.getRadixCount
    split
    · have := Blind.get8.quiet m c
      split
      · rename_i e; rw [e] at this; exact this
      · rename_i e; rw [e] at this; exact this
    · split <;> rfl
  indep := by
    intro m m' c h
    unfold Qt.getRadixCount
    rw [Blind.get8.indep m m' c h]

theorem Blind.walkSection (hs gs st f3 x) : Blind (walkSection hs gs st f3 x) := by
  have h1 := Blind.readInto
  have h2 := Blind.readRows
  rw [walkSection_eq]
  refine Blind.bind (Blind.getRadixCount _ _ _ _) fun _ => Blind.bind (Blind.getRadixCount _ _ _ _) fun _ => ?_
  unfold walkRest parseRadix parseRadixOnRadix
  exact Blind.ite (Blind.bind (h1 _ _ _ _) fun _ => Blind.pure _) (Blind.ite (Blind.bind (h2 _ _ _ _) fun _ =>
    Blind.bind (h1 _ _ _ _) fun _ => Blind.bind (h1 _ _ _ _) fun _ => Blind.pure _) (Blind.pure _))

theorem Blind.parseRegs : Blind parseRegs := by
  have h0 := Blind.get8n
  have h1 := fun cap n => Blind.readRegs8 cap n 0
  have h2 := fun cap n => Blind.readRegs16 cap n 0
  have h3 : Blind Qt.vsxCount := Blind.bind Blind.getCtx fun _ => Blind.ite h0 (Blind.pure _)
  unfold Qt.parseRegs
  refine Blind.bind h0 fun _ => Blind.bind h0 fun _ => Blind.bind h0 fun _ => Blind.bind h3 fun _ =>
    Blind.bind h0 fun _ => Blind.bind h0 fun _ => Blind.bind h0 fun _ => Blind.bind h0 fun _ =>
    Blind.bind h3 fun _ => Blind.bind h0 fun _ => ?_
  refine Blind.bind (h1 _ _) fun _ => Blind.bind (h1 _ _) fun _ => Blind.bind (Blind.bump _) fun _ =>
    Blind.bind (Blind.bump _) fun _ => Blind.bind (h2 _ _) fun _ => ?_
  exact Blind.bind (h1 _ _) fun _ => Blind.bind (h1 _ _) fun _ => Blind.bind (Blind.bump _) fun _ =>
    Blind.bind (Blind.bump _) fun _ => Blind.bind (h2 _ _) fun _ => Blind.bind (Blind.skipN _) fun _ => Blind.pure _

theorem Blind.combineRa (a b c) : Blind (combineRa a b c) := by unfold Qt.combineRa; blind

theorem Blind.headerFlags : Blind headerFlags := by unfold Qt.headerFlags; blind
theorem Blind.headerIds (h) : Blind (headerIds h) := by unfold Qt.headerIds; blind
theorem Blind.headerTail (f h) : Blind (headerTail f h) := by unfold Qt.headerTail; blind
theorem Blind.headerPages (h) : Blind (headerPages h) := by
  have := Blind.get8n
  unfold Qt.headerPages; blind
theorem Blind.headerWalk (f2 f3 h) : Blind (headerWalk f2 f3 h) := by
  unfold Qt.headerWalk
  exact Blind.whenR (Blind.bind Blind.getCtx fun _ => Blind.bind (Blind.walkSection _ _ _ _ _) fun _ =>
    Blind.modSt fun _ => rfl)

theorem Blind.parseHeader : Blind parseHeader := by
  unfold Qt.parseHeader
  refine Blind.bind Blind.headerFlags fun a => ?_
  obtain ⟨f2, f3, h⟩ := a
  exact Blind.bind (Blind.headerIds h) fun _ => Blind.bind (Blind.headerWalk f2 f3 h) fun _ =>
    Blind.bind (Blind.headerPages h) fun _ => Blind.headerTail f3 h

theorem applyNext_overread (c : Ctx) : (applyNext c).st.overread = c.st.overread := by
  unfold applyNext
  simp only
  repeat' split
  all_goals rfl

theorem Blind.readOne : Blind readOne := by
  have h8 := Blind.get8n
  unfold Qt.readOne
  refine Blind.bind ⟨fun _ c => applyNext_overread c, fun _ _ _ _ => rfl⟩ fun _ => ?_
  refine Blind.bind (Blind.bind Blind.getCtx fun _ => Blind.whenR (Blind.bind (Blind.combineRa _ _ _) fun _ => Blind.modRec _)) fun _ => ?_
  refine Blind.bind (by unfold Qt.insnSection; blind) fun _ => ?_
  unfold Qt.bodySection
  refine Blind.bind (by unfold Qt.flagsSection; blind) fun a => ?_
  obtain ⟨f, f2, f3⟩ := a
  refine Blind.bind (by unfold Qt.nodeSection; blind) fun _ => ?_
  refine Blind.bind (by unfold Qt.termSection Qt.termCheck; blind) fun _ => ?_
  refine Blind.bind (by unfold Qt.dataAddrSection; blind) fun _ => ?_
  refine Blind.bind (Blind.whenR (Blind.bind Blind.getCtx fun _ => Blind.bind (Blind.walkSection _ _ _ _ _) fun _ =>
    Blind.modRec _)) fun _ => ?_
  refine Blind.bind (by unfold Qt.dataRpnSection; blind) fun _ => ?_
  refine Blind.bind (by unfold Qt.iarSection Qt.iarFetch; blind) fun _ => ?_
  refine Blind.bind (by unfold Qt.branchSection; blind) fun _ => ?_
  refine Blind.bind (Blind.bind (Blind.whenR (Blind.skipN _)) fun _ => (Blind.whenR (Blind.bind Blind.getCtx fun _ =>
    Blind.bind (Blind.walkSection _ _ _ _ _) fun _ => Blind.modSt fun _ => rfl))) fun _ => ?_
  refine Blind.bind (by unfold Qt.insnRpnSection; blind) fun _ => ?_
  refine Blind.bind (Blind.whenR (Blind.bind Blind.parseRegs fun _ => Blind.modRec _)) fun _ => ?_
  refine Blind.bind (by unfold Qt.seqSection; blind) fun _ => ?_
  refine Blind.bind (by unfold Qt.insnPageSection; blind) fun _ => ?_
  refine Blind.bind (Blind.bind (by blind) fun _ => Blind.bind Blind.getCtx fun _ =>
    Blind.whenR (Blind.bind (Blind.combineRa _ _ _) fun _ => Blind.modRec _)) fun _ => ?_
  refine Blind.bind (by unfold Qt.guestPageSection Qt.guestInsnPage; blind) fun _ => ?_
  unfold Qt.annotateSection
  refine Blind.bind Blind.getCtx fun c => Blind.bind (Blind.whenR ?_) fun _ => Blind.bind Blind.getCtx fun c => Blind.whenR ?_
  · split
    · exact Blind.modRec _
    · exact Blind.throwErr _
  · split
    · exact Blind.modRec _
    · exact Blind.throwErr _

/-! ### Records and whole traces -/

/-- The context after the fetch ahead of a record. -/
def peeked (m : Mem) (c : Ctx) : Ctx :=
  { c with st := { c.st with overread := c.st.overread || decide (c.st.pos + 4 > m.bytes.length) } }

@[simp] theorem peeked_pos (m c) : (peeked m c).st.pos = c.st.pos := rfl

theorem peeked_eq {m : Mem} {c : Ctx} (h : c.st.pos + 4 ≤ m.bytes.length) : peeked m c = c := by
  unfold peeked
  have : decide (c.st.pos + 4 > m.bytes.length) = false := by simp; omega
  rw [this, Bool.or_false]

theorem skipHeaders_cases {fuel m c c'} (h : skipHeaders (fuel + 1) m c = .ok () c') :
    (peek32 m c.st.pos = 0 ∧ c.st.prefixed = false ∧ ∃ c1, parseHeader m (peeked m c) = .ok () c1 ∧
      skipHeaders fuel m c1 = .ok () c') ∨
    (¬ (peek32 m c.st.pos = 0 ∧ c.st.prefixed = false) ∧ c' = peeked m c) := by
  rw [skipHeaders_succ] at h
  split at h
  · rename_i hz
    obtain ⟨_, c1, h1, h2⟩ := bind_split h
    exact .inl ⟨hz.1, hz.2, c1, h1, h2⟩
  · rename_i hz
    cases h
    exact .inr ⟨hz, rfl⟩

theorem skipHeaders_header {fuel m c r} (hz : peek32 m c.st.pos = 0 ∧ c.st.prefixed = false)
    (c1 : Ctx) (h1 : parseHeader m (peeked m c) = .ok () c1) (h2 : skipHeaders fuel m c1 = r) :
    skipHeaders (fuel + 1) m c = r := by
  rw [skipHeaders_succ, if_pos hz]
  exact (Rd.bind_ok h1).trans h2

theorem skipHeaders_none {fuel m c} (hz : ¬ (peek32 m c.st.pos = 0 ∧ c.st.prefixed = false)) :
    skipHeaders (fuel + 1) m c = .ok () (peeked m c) := by
  rw [skipHeaders_succ, if_neg hz]; rfl

theorem skipHeaders_pos : ∀ fuel m c c', skipHeaders fuel m c = .ok () c' →
    c.st.pos ≤ c'.st.pos ∧ (c.st.pos ≤ m.bytes.length → c'.st.pos ≤ m.bytes.length)
  | 0, m, c, c', h => by cases h
  | fuel + 1, m, c, c', h => by
    rcases skipHeaders_cases h with ⟨_, _, c1, h1, h2⟩ | ⟨_, rfl⟩
    · have p1 := (parseHeader_pos h1).1
      have p2 := skipHeaders_pos fuel m c1 c' h2
      have p3 := Law.parseHeader.inside _ _ _ _ h1
      simp only [peeked_pos] at p1 p3
      omega
    · simp

theorem skipHeaders_quiet : ∀ fuel m c c', skipHeaders fuel m c = .ok () c' → c'.st.pos + 4 ≤ m.bytes.length →
    c'.st.overread = c.st.overread
  | 0, m, c, c', h, _ => by cases h
  | fuel + 1, m, c, c', h, hl => by
    rcases skipHeaders_cases h with ⟨_, _, c1, h1, h2⟩ | ⟨_, rfl⟩
    · have p1 := (parseHeader_pos h1).2
      have q := Blind.parseHeader.quiet m (peeked m c)
      rw [h1] at q
      rw [skipHeaders_quiet fuel m c1 c' h2 hl]
      rw [peeked_eq (by simpa using p1)] at q
      exact q
    · rw [peeked_eq (by simpa using hl)]

/-- The byte at an address. -/
def Mem.byte (m : Mem) (i : Nat) : Byte := match m.bytes[i]? with | some b => b | none => m.beyond i

theorem peek32_eq (m : Mem) (p : Nat) :
    peek32 m p = of32 (m.byte p) (m.byte (p + 1)) (m.byte (p + 2)) (m.byte (p + 3)) := rfl

theorem nextRecord_bind (m : Mem) (s : RState) : nextRecord m s =
    (skipHeaders (m.bytes.length + 1) >>= fun _ => readOne) m { st := s, rcd := .zero } := nextRecord_eq m s

theorem peek32_mono {m m' : Mem} (hm : m.Le m') {p : Nat} (h : p + 4 ≤ m.bytes.length) : peek32 m p = peek32 m' p := by
  obtain ⟨t, ht⟩ := hm
  have key : ∀ i, i < m.bytes.length → m'.bytes[i]? = m.bytes[i]? := by
    intro i hi
    rw [← ht, List.getElem?_append_left hi]
  have e : ∀ i, i < m.bytes.length → m.byte i = m'.byte i := by
    intro i hi
    unfold Mem.byte
    rw [key i hi, List.getElem?_eq_getElem hi]
  rw [peek32_eq, peek32_eq, e p (by omega), e (p + 1) (by omega), e (p + 2) (by omega), e (p + 3) (by omega)]

theorem skipHeaders_mono : ∀ fuel fuel' m m' c c', m.Le m' → fuel ≤ fuel' → skipHeaders fuel m c = .ok () c' →
    c'.st.pos + 4 ≤ m.bytes.length → skipHeaders fuel' m' c = .ok () c'
  | 0, _, m, m', c, c', _, _, h, _ => by cases h
  | fuel + 1, fuel', m, m', c, c', hm, hf, h, hl => by
    obtain ⟨f', rfl⟩ : ∃ f', fuel' = f' + 1 := ⟨fuel' - 1, by omega⟩
    have hp : c.st.pos + 4 ≤ m.bytes.length := by
      have := (skipHeaders_pos _ _ _ _ h).1; omega
    have hp' : c.st.pos + 4 ≤ m'.bytes.length := Nat.le_trans hp hm.length_le
    have hk := peek32_mono hm hp
    rcases skipHeaders_cases h with ⟨hz, hz', c1, h1, h2⟩ | ⟨hz, rfl⟩
    · refine skipHeaders_header ⟨hk ▸ hz, hz'⟩ c1 ?_ (skipHeaders_mono fuel f' m m' c1 c' hm (by omega) h2 hl)
      rw [peeked_eq hp'] ; rw [peeked_eq hp] at h1
      exact Law.parseHeader.fwd.mono _ _ _ _ _ hm h1
    · rw [skipHeaders_none (hk ▸ hz), peeked_eq hp, peeked_eq hp']

/-- More fuel than bytes is never exhausted. -/
theorem skipHeaders_fuel (m : Mem) : ∀ fuel fuel' c, m.bytes.length < fuel + c.st.pos →
    m.bytes.length < fuel' + c.st.pos → 0 < fuel → 0 < fuel' → skipHeaders fuel m c = skipHeaders fuel' m c
  | 0, _, c, _, _, h0, _ => by omega
  | fuel + 1, fuel', c, h1, h2, _, h4 => by
    obtain ⟨f', rfl⟩ : ∃ f', fuel' = f' + 1 := ⟨fuel' - 1, by omega⟩
    by_cases hz : peek32 m c.st.pos = 0 ∧ c.st.prefixed = false
    · rw [skipHeaders_succ, skipHeaders_succ, if_pos hz, if_pos hz]
      change (parseHeader >>= fun _ => skipHeaders fuel) m (peeked m c) = (parseHeader >>= fun _ => skipHeaders f') m (peeked m c)
      cases hp : parseHeader m (peeked m c) with
      | ok a c1 =>
        rw [Rd.bind_ok hp, Rd.bind_ok hp]
        obtain ⟨p1, p2⟩ := parseHeader_pos hp
        simp only [peeked_pos] at p1 p2
        exact skipHeaders_fuel m fuel f' c1 (by omega) (by omega) (by omega) (by omega)
      | err e c1 => rw [Rd.bind_err hp, Rd.bind_err hp]
    · rw [skipHeaders_none hz, skipHeaders_none hz]

theorem nextRecord_cases {m s c} (h : nextRecord m s = .ok () c) :
    ∃ c1, skipHeaders (m.bytes.length + 1) m { st := s, rcd := .zero } = .ok () c1 ∧ readOne m c1 = .ok () c := by
  rw [nextRecord_eq] at h
  obtain ⟨_, c1, h1, h2⟩ := bind_split h
  exact ⟨c1, h1, h2⟩

theorem nextRecord_pos {m s c} (h : nextRecord m s = .ok () c) :
    s.pos + 6 ≤ c.st.pos ∧ c.st.pos ≤ m.bytes.length := by
  obtain ⟨c1, h1, h2⟩ := nextRecord_cases h
  have p1 := (skipHeaders_pos _ _ _ _ h1).1
  have p2 := readOne_pos h2
  simp only at p1
  omega

theorem nextRecord_quiet {m s c} (h : nextRecord m s = .ok () c) : c.st.overread = s.overread := by
  obtain ⟨c1, h1, h2⟩ := nextRecord_cases h
  have p2 := readOne_pos h2
  have q1 := skipHeaders_quiet _ _ _ _ h1 (by omega)
  have q2 := Blind.readOne.quiet m c1
  rw [h2] at q2
  exact q2.trans q1

theorem nextRecord_mono {m m' s c} (hm : m.Le m') (h : nextRecord m s = .ok () c) : nextRecord m' s = .ok () c := by
  obtain ⟨c1, h1, h2⟩ := nextRecord_cases h
  have p2 := readOne_pos h2
  rw [nextRecord_eq]
  have hl := hm.length_le
  exact (Rd.bind_ok (skipHeaders_mono _ (m'.bytes.length + 1) _ _ _ _ hm (by omega) h1 (by omega))).trans
    (Law.readOne.fwd.mono _ _ _ _ _ hm h2)

theorem readLoop_mono (m m' : Mem) (hm : m.Le m') : ∀ fuel fuel' s, fuel ≤ fuel' →
    (readLoop m fuel s).records <+: (readLoop m' fuel' s).records
  | 0, _, s, _ => ⟨_, rfl⟩
  | fuel + 1, fuel', s, hf => by
    obtain ⟨f', rfl⟩ : ∃ f', fuel' = f' + 1 := ⟨fuel' - 1, by omega⟩
    cases h : nextRecord m s with
    | ok a c =>
      rw [readLoop_ok h, readLoop_ok (nextRecord_mono hm h)]
      exact List.cons_prefix_cons.mpr ⟨rfl, readLoop_mono m m' hm fuel f' c.st (by omega)⟩
    | err e c =>
      have : (readLoop m (fuel + 1) s).records = [] := by simp [readLoop, h]
      rw [this]
      exact List.nil_prefix

theorem readLoop_fuel (m : Mem) : ∀ fuel fuel' s, m.bytes.length < 6 * fuel + s.pos →
    m.bytes.length < 6 * fuel' + s.pos → 0 < fuel → 0 < fuel' → readLoop m fuel s = readLoop m fuel' s
  | 0, _, s, _, _, h0, _ => by omega
  | fuel + 1, fuel', s, h1, h2, _, h4 => by
    obtain ⟨f', rfl⟩ : ∃ f', fuel' = f' + 1 := ⟨fuel' - 1, by omega⟩
    cases h : nextRecord m s with
    | ok a c =>
      have := nextRecord_pos h
      rw [readLoop_ok h, readLoop_ok h, readLoop_fuel m fuel f' c.st (by omega) (by omega) (by omega) (by omega)]
    | err e c => simp [readLoop, h]

theorem readLoop_count (m : Mem) : ∀ fuel s, 6 * (readLoop m fuel s).records.length + s.pos ≤ max s.pos m.bytes.length
  | 0, s => by simp [readLoop]; omega
  | fuel + 1, s => by
    cases h : nextRecord m s with
    | ok a c =>
      have p := nextRecord_pos h
      have ih := readLoop_count m fuel c.st
      rw [readLoop_ok h]
      simp only [List.length_cons]
      omega
    | err e c => simp [readLoop, h]; omega

theorem peek32_indep {m m' : Mem} (hb : m.bytes = m'.bytes) {p : Nat} (hp : p ≤ m.bytes.length)
    (h : ∀ i, i < 4 → m.beyond (m.bytes.length + i) = m'.beyond (m.bytes.length + i)) : peek32 m p = peek32 m' p := by
  have e : ∀ i, p ≤ i → i < p + 4 → m.byte i = m'.byte i := by
    intro i h1 h2
    unfold Mem.byte
    rw [← hb]
    by_cases hi : i < m.bytes.length
    · rw [List.getElem?_eq_getElem hi]
    · rw [List.getElem?_eq_none (by omega)]
      have := h (i - m.bytes.length) (by omega)
      rwa [show m.bytes.length + (i - m.bytes.length) = i by omega] at this
  rw [peek32_eq, peek32_eq, e p (by omega) (by omega), e (p + 1) (by omega) (by omega), e (p + 2) (by omega) (by omega),
    e (p + 3) (by omega) (by omega)]

theorem skipHeaders_indep {m m' : Mem} (hb : m.bytes = m'.bytes)
    (h : ∀ i, i < 4 → m.beyond (m.bytes.length + i) = m'.beyond (m.bytes.length + i)) :
    ∀ fuel c, c.st.pos ≤ m.bytes.length → skipHeaders fuel m c = skipHeaders fuel m' c
  | 0, c, _ => rfl
  | fuel + 1, c, hc => by
    have hp : peeked m c = peeked m' c := by unfold peeked; rw [hb]
    have hk := peek32_indep hb hc h
    rw [skipHeaders_succ, skipHeaders_succ, ← hk]
    split
    · change (parseHeader >>= fun _ => skipHeaders fuel) m (peeked m c) =
        (parseHeader >>= fun _ => skipHeaders fuel) m' (peeked m' c)
      rw [← hp]
      have hi := Blind.parseHeader.indep m m' (peeked m c) hb
      cases hx : parseHeader m (peeked m c) with
      | ok a c1 =>
        rw [Rd.bind_ok hx, Rd.bind_ok (hi ▸ hx)]
        exact skipHeaders_indep hb h fuel c1 (Law.parseHeader.inside _ _ _ _ hx hc)
      | err e c1 => rw [Rd.bind_err hx, Rd.bind_err (hi ▸ hx)]
    · show Out.ok () (peeked m c) = Out.ok () (peeked m' c)
      rw [hp]

theorem nextRecord_indep {m m' : Mem} (hb : m.bytes = m'.bytes)
    (h : ∀ i, i < 4 → m.beyond (m.bytes.length + i) = m'.beyond (m.bytes.length + i)) {s : RState}
    (hs : s.pos ≤ m.bytes.length) : nextRecord m s = nextRecord m' s := by
  rw [nextRecord_bind, nextRecord_bind, ← hb]
  have hi := skipHeaders_indep hb h (m.bytes.length + 1) { st := s, rcd := .zero } hs
  cases hx : skipHeaders (m.bytes.length + 1) m { st := s, rcd := .zero } with
  | ok a c1 =>
    rw [Rd.bind_ok hx, Rd.bind_ok (hi ▸ hx)]
    exact Blind.readOne.indep _ _ _ hb
  | err e c1 => rw [Rd.bind_err hx, Rd.bind_err (hi ▸ hx)]

theorem readLoop_indep {m m' : Mem} (hb : m.bytes = m'.bytes)
    (h : ∀ i, i < 4 → m.beyond (m.bytes.length + i) = m'.beyond (m.bytes.length + i)) :
    ∀ fuel s, s.pos ≤ m.bytes.length → readLoop m fuel s = readLoop m' fuel s
  | 0, s, _ => rfl
  | fuel + 1, s, hs => by
    have hn := nextRecord_indep hb h hs
    cases hx : nextRecord m s with
    | ok a c =>
      rw [readLoop_ok hx, readLoop_ok (hn ▸ hx), readLoop_indep hb h fuel c.st (nextRecord_pos hx).2]
    | err e c => simp [readLoop, hx, hn ▸ hx]

/-- A call that starts less than four bytes from the end looks beyond it. -/
theorem nextRecord_overread {m : Mem} {s : RState} (h : m.bytes.length < s.pos + 4) :
    (nextRecord m s).ctx.st.overread = true := by
  rw [nextRecord_bind]
  have hd : decide (s.pos + 4 > m.bytes.length) = true := by simp; omega
  have ho : (peeked m { st := s, rcd := .zero }).st.overread = true := by
    simp only [peeked]; rw [hd, Bool.or_true]
  by_cases hz : peek32 m s.pos = 0 ∧ s.prefixed = false
  · have hp : ∃ e c1, parseHeader m (peeked m { st := s, rcd := .zero }) = .err e c1 ∧ c1.st.overread = true := by
      have q := Blind.parseHeader.quiet m (peeked m { st := s, rcd := .zero })
      cases hx : parseHeader m (peeked m { st := s, rcd := .zero }) with
      | ok a c1 => have := (parseHeader_pos hx).2; simp only [peeked_pos] at this; omega
      | err e c1 => rw [hx, ho] at q; exact ⟨e, c1, rfl, q⟩
    obtain ⟨e, c1, h1, h2⟩ := hp
    have hs : skipHeaders (m.bytes.length + 1) m { st := s, rcd := .zero } = .err e c1 := by
      rw [skipHeaders_succ, if_pos hz]
      exact Rd.bind_err h1
    rw [Rd.bind_err hs]
    exact h2
  · have hs : skipHeaders (m.bytes.length + 1) m { st := s, rcd := .zero } = .ok () (peeked m { st := s, rcd := .zero }) :=
      skipHeaders_none hz
    rw [Rd.bind_ok hs, Blind.readOne.quiet, ho]

end Qt
