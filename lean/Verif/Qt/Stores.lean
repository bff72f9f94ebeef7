import Verif.Qt.RegLayout
/-! Helper lemmas: where a store outside an array can come from (C08). -/
namespace Qt
open Spec

/-- Announced at or after `p`: counts the record has no room for. -/
def BadAfter (b : Bytes) (p : Nat) : Prop := ∃ q, p ≤ q ∧ (BadWalkCounts b q ∨ ∃ v, BadRegCounts b q v)

/-- A store outside an array comes from excessive counts in the trace. -/
structure Stores {α} (x : Rd α) : Prop where
  pos : ∀ m c a c', x m c = .ok a c' → c.st.pos ≤ c'.st.pos
  oob : ∀ m c c', x m c = .err .oob c' → BadAfter m.bytes c.st.pos

theorem bind_oob {α β} {x : Rd α} {f : α → Rd β} {m c e c''} (h : (x >>= f) m c = .err e c'') :
    x m c = .err e c'' ∨ ∃ a c', x m c = .ok a c' ∧ f a m c' = .err e c'' := by
  cases hx : x m c with
  | ok a c' => rw [Rd.bind_ok hx] at h; exact .inr ⟨a, c', rfl, h⟩
  | err e' c' => rw [Rd.bind_err hx] at h; cases h; exact .inl rfl

theorem BadAfter.mono {b p q} (h : BadAfter b q) (hp : p ≤ q) : BadAfter b p := by
  obtain ⟨r, h1, h2⟩ := h
  exact ⟨r, by omega, h2⟩

theorem Stores.bind {α β} {x : Rd α} {f : α → Rd β} (hx : Stores x) (hf : ∀ a, Stores (f a)) : Stores (x >>= f) where
  pos := by
    intro m c b c'' h
    obtain ⟨a, c', h1, h2⟩ := bind_split h
    exact Nat.le_trans (hx.pos _ _ _ _ h1) ((hf a).pos _ _ _ _ h2)
  oob := by
    intro m c c' h
    rcases bind_oob h with h | ⟨a, c1, h1, h2⟩
    · exact hx.oob _ _ _ h
    · exact ((hf a).oob _ _ _ h2).mono (hx.pos _ _ _ _ h1)

theorem Stores.of {α} {x : Rd α} (h : Law x) (ho : ∀ m c c', x m c ≠ .err .oob c') : Stores x :=
  ⟨h.fwd.pos, fun m c c' h => absurd h (ho m c c')⟩
theorem Stores.pure {α} (a : α) : Stores (pure a : Rd α) := .of (.pure a) (by intro m c c' h; cases h)
theorem Stores.throwErr {α} (e : Err) (he : e ≠ .oob) : Stores (throwErr e : Rd α) :=
  .of (.throwErr e) (by intro m c c' h; cases h; exact he rfl)
theorem Stores.modRec (f) : Stores (modRec f) := .of (.modRec f) (by intro m c c' h; cases h)
theorem Stores.getCtx : Stores getCtx := .of .getCtx (by intro m c c' h; cases h)
theorem Stores.modSt {f} (h : ∀ s : RState, (f s).pos = s.pos) : Stores (modSt f) :=
  .of (.modSt h) (by intro m c c' h; cases h)
theorem Stores.whenR {b x} (h : Stores x) : Stores (whenR b x) := by
  cases b
  · exact Stores.pure ()
  · exact h
theorem Stores.ite {α} {p : Prop} [Decidable p] {x y : Rd α} (hx : Stores x) (hy : Stores y) :
    Stores (if p then x else y) := by
  split
  · exact hx
  · exact hy
theorem Stores.get8 : Stores get8 :=
  .of .get8 (by intro m c c' h; unfold Qt.get8 at h; split at h <;> cases h)
theorem Stores.get16 : Stores get16 :=
  .of .get16 (by intro m c c' h; unfold Qt.get16 at h; split at h <;> cases h)
theorem Stores.get32 : Stores get32 :=
  .of .get32 (by intro m c c' h; unfold Qt.get32 at h; split at h <;> cases h)
theorem Stores.get64 : Stores get64 :=
  .of .get64 (by intro m c c' h; unfold Qt.get64 at h; split at h <;> cases h)
theorem Stores.skipN (n) : Stores (skipN n) :=
  .of (.skipN n) (by intro m c c' h; unfold Qt.skipN at h; split at h <;> cases h)

macro "stores" : tactic => `(tactic| repeat' (first
  | exact Stores.get8 | exact Stores.get16 | exact Stores.get32 | exact Stores.get64 | exact Stores.skipN _
  | assumption
  | exact Stores.pure _ | exact Stores.getCtx | exact Stores.throwErr _ (by decide) | exact Stores.modRec _
  | (refine Stores.modSt ?_; intro s; (first | rfl | (split <;> rfl)); done)
  | apply Stores.whenR | apply Stores.ite | refine Stores.bind ?_ (fun _ => ?_)))

theorem Stores.get8n : Stores get8n := by unfold Qt.get8n; stores

theorem get64_oob {m c c'} (h : get64 m c = .err .oob c') : False := by
  unfold get64 at h; split at h <;> cases h
theorem get8_oob {m c c'} (h : get8 m c = .err .oob c') : False := by
  unfold get8 at h; split at h <;> cases h
theorem get16_oob {m c c'} (h : get16 m c = .err .oob c') : False := by
  unfold get16 at h; split at h <;> cases h
theorem get8n_oob {m c c'} (h : get8n m c = .err .oob c') : False := by
  rcases bind_oob h with h | ⟨_, _, _, h⟩
  · exact get8_oob h
  · cases h

theorem readInto_oob (cap : Nat) : ∀ n k f m c c', readInto cap n k f m c = .err .oob c' → cap < k + n
  | 0, k, f, m, c, c', h => by cases h
  | n + 1, k, f, m, c, c', h => by
    rcases bind_oob h with h | ⟨p, c1, h1, h⟩
    · exact (get64_oob h).elim
    · split at h
      · have := readInto_oob cap n (k + 1) _ _ _ _ h; omega
      · omega

theorem readRows_oob (nr : Nat) : ∀ n k f m c c', readRows nr n k f m c = .err .oob c' →
    0 < n ∧ (4 < nr ∨ 5 < k + n)
  | 0, k, f, m, c, c', h => by cases h
  | n + 1, k, f, m, c, c', h => by
    refine ⟨by omega, ?_⟩
    rcases bind_oob h with h | ⟨p, c1, h1, h⟩
    · have := readInto_oob _ _ _ _ _ _ _ h
      by_cases hk : k < MAX_RADIX_WALKS
      · rw [if_pos hk] at this; simp only [NR_RADIX_PTES] at this; omega
      · simp only [MAX_RADIX_WALKS] at hk; omega
    · have := (readRows_oob nr n (k + 1) _ _ _ _ h).2; omega

theorem walkRest_oob {hs gs st f3 x nr walks m c c'} (h : walkRest hs gs st f3 x nr walks m c = .err .oob c') :
    0 < walks ∧ (4 < nr ∨ 5 < walks) := by
  unfold walkRest at h
  simp only at h
  split at h
  · rename_i hw
    rcases bind_oob h with h | ⟨_, _, _, h⟩
    · have := readInto_oob _ _ _ _ _ _ _ h
      simp only [NR_RADIX_PTES] at this
      omega
    · cases h
  · split at h
    · unfold parseRadixOnRadix at h
      rcases bind_oob h with h | ⟨_, _, _, h⟩
      · have := readRows_oob _ _ _ _ _ _ _ h; omega
      rcases bind_oob h with h | ⟨_, _, _, h⟩
      · have := readInto_oob _ _ _ _ _ _ _ h
        simp only [MAX_RADIX_WALKS] at this; omega
      rcases bind_oob h with h | ⟨_, _, _, h⟩
      · have := readInto_oob _ _ _ _ _ _ _ h
        simp only [MAX_RADIX_WALKS] at this; omega
      · cases h
    · cases h

theorem getRadixCount_oob {hs gs d f3 m c e c'} (h : getRadixCount hs gs d f3 m c = .err e c') : False := by
  unfold getRadixCount at h
  split at h
  · split at h <;> cases h
  · split at h <;> cases h

theorem at_getElem {b : Bytes} {p : Nat} {v : Byte} (h : At b p [v]) : b[p]? = some v := by
  obtain ⟨r, h⟩ := h
  have : (b.drop p)[0]? = some v := by rw [← h]; rfl
  simpa using this

/-- The walk section stores outside the record only if its own two counts are excessive. -/
theorem walkSection_oob {hs gs st f3 x m c c'} (h : walkSection hs gs st f3 x m c = .err .oob c') :
    BadWalkCounts m.bytes c.st.pos := by
  rw [walkSection_eq] at h
  rcases bind_oob h with h | ⟨nr, c1, h1, h⟩
  · exact (getRadixCount_oob h).elim
  rcases bind_oob h with h | ⟨walks, c2, h2, h⟩
  · exact (getRadixCount_oob h).elim
  have hw := walkRest_oob h
  rcases getRadixCount_cases h1 with ⟨_, _, ⟨a, ha, rfl⟩ | ⟨rfl, rfl, hl⟩⟩ | ⟨hn, rfl, rfl⟩
  · obtain ⟨a1, rfl⟩ := at_get8 ha
    rcases getRadixCount_cases h2 with ⟨_, _, ⟨b, hb, rfl⟩ | ⟨rfl, rfl, hl⟩⟩ | ⟨hn, rfl, rfl⟩
    · obtain ⟨a2, rfl⟩ := at_get8 hb
      rcases hw with ⟨w0, w1 | w1⟩
      · exact .inl ⟨⟨a, at_getElem a1, w1⟩, ⟨b, at_getElem a2, w0⟩⟩
      · exact .inr ⟨b, at_getElem a2, w1⟩
    · omega
    · exact absurd ⟨by assumption, by assumption⟩ hn
  · rcases getRadixCount_cases h2 with ⟨_, _, ⟨b, hb, rfl⟩ | ⟨rfl, rfl, hl⟩⟩ | ⟨hn, rfl, rfl⟩
    · obtain ⟨a2, rfl⟩ := at_get8 hb
      have := drop_len (b := [b]) (at_iff.mp a2).choose_spec (by simp)
      simp only [List.length_singleton] at this
      omega
    · omega
    · exact absurd ⟨by assumption, by assumption⟩ hn
  · rcases getRadixCount_cases h2 with ⟨h3, h4, _⟩ | ⟨_, rfl, rfl⟩
    · exact absurd ⟨h3, h4⟩ hn
    · simp only [NR_RADIX_PTES] at hw
      split at hw <;> omega

theorem Stores.walkSection (hs gs st f3 x) : Stores (walkSection hs gs st f3 x) :=
  ⟨(LawS.walkSection _ _ _ _ _).pos, fun _ _ _ h => ⟨_, Nat.le_refl _, .inl (walkSection_oob h)⟩⟩

theorem readRegs8_oob (cap : Nat) : ∀ n k m c c', readRegs8 cap n k m c = .err .oob c' → cap < k + n
  | 0, k, m, c, c', h => by cases h
  | n + 1, k, m, c, c', h => by
    rcases bind_oob h with h | ⟨p, c1, h1, h⟩
    · exact (get8_oob h).elim
    · split at h
      · rcases bind_oob h with h | ⟨_, _, _, h⟩
        · exact (get64_oob h).elim
        rcases bind_oob h with h | ⟨_, _, _, h⟩
        · have := readRegs8_oob cap n (k + 1) _ _ _ h; omega
        · cases h
      · omega

theorem readRegs16_oob (cap : Nat) : ∀ n k m c c', readRegs16 cap n k m c = .err .oob c' → cap < k + n
  | 0, k, m, c, c', h => by cases h
  | n + 1, k, m, c, c', h => by
    rcases bind_oob h with h | ⟨p, c1, h1, h⟩
    · exact (get16_oob h).elim
    · split at h
      · rcases bind_oob h with h | ⟨_, _, _, h⟩
        · exact (get64_oob h).elim
        rcases bind_oob h with h | ⟨_, _, _, h⟩
        · have := readRegs16_oob cap n (k + 1) _ _ _ h; omega
        · cases h
      · omega

theorem vsxCount_oob {m c c'} (h : vsxCount m c = .err .oob c') : False := by
  rcases bind_oob h with h | ⟨_, _, _, h⟩
  · cases h
  · split at h
    · exact get8n_oob h
    · cases h

theorem over_of {b : Bytes} {p n cap : Nat} (h : At b p [count n]) (hn : n < 256) (hc : cap < n) : Over b p cap :=
  ⟨count n, at_getElem h, by simp [count, Nat.mod_eq_of_lt hn]; exact hc⟩

/-- The register section stores outside the record only if its own counts are excessive. -/
theorem parseRegs_oob {m c c'} (h : parseRegs m c = .err .oob c') :
    BadRegCounts m.bytes c.st.pos (vsxBool c) := by
  unfold parseRegs at h
  rcases bind_oob h with h | ⟨gi, c1, h1, h⟩
  · exact (get8n_oob h).elim
  rcases bind_oob h with h | ⟨fi, c2, h2, h⟩
  · exact (get8n_oob h).elim
  rcases bind_oob h with h | ⟨vi, c3, h3, h⟩
  · exact (get8n_oob h).elim
  rcases bind_oob h with h | ⟨xi, c4, h4, h⟩
  · exact (vsxCount_oob h).elim
  rcases bind_oob h with h | ⟨si, c5, h5, h⟩
  · exact (get8n_oob h).elim
  rcases bind_oob h with h | ⟨go, c6, h6, h⟩
  · exact (get8n_oob h).elim
  rcases bind_oob h with h | ⟨fo, c7, h7, h⟩
  · exact (get8n_oob h).elim
  rcases bind_oob h with h | ⟨vo, c8, h8, h⟩
  · exact (get8n_oob h).elim
  rcases bind_oob h with h | ⟨xo, c9, h9, h⟩
  · exact (vsxCount_oob h).elim
  rcases bind_oob h with h | ⟨so, c10, h10, h⟩
  · exact (get8n_oob h).elim
  obtain ⟨a1, rfl, l1⟩ := at_get8n h1
  obtain ⟨a2, rfl, l2⟩ := at_get8n h2
  obtain ⟨a3, rfl, l3⟩ := at_get8n h3
  obtain ⟨a4, rfl, l4, _⟩ := at_vsxCount h4
  obtain ⟨a5, rfl, l5⟩ := at_get8n h5
  obtain ⟨a6, rfl, l6⟩ := at_get8n h6
  obtain ⟨a7, rfl, l7⟩ := at_get8n h7
  obtain ⟨a8, rfl, l8⟩ := at_get8n h8
  obtain ⟨a9, rfl, l9, _⟩ := at_vsxCount h9
  obtain ⟨a10, rfl, l10⟩ := at_get8n h10
  have hlen : ∀ n, (if vsxBool c then [count n] else []).length = if vsxBool c then 1 else 0 := by
    intro n; split <;> rfl
  simp only [vsxBool_advance, advance_pos, advance_advance, hlen] at a1 a2 a5 a6 a7 a10
  have key : 32 < gi ∨ 3 < fi ∨ 4 < si ∨ 32 < go ∨ 3 < fo ∨ 4 < so := by
    rcases bind_oob h with h | ⟨_, _, _, h⟩
    · have := readRegs8_oob _ _ _ _ _ _ h; simp only [MAX_GPRS] at this; omega
    rcases bind_oob h with h | ⟨_, _, _, h⟩
    · have := readRegs8_oob _ _ _ _ _ _ h; simp only [MAX_FPRS] at this; omega
    rcases bind_oob h with h | ⟨_, _, _, h⟩
    · cases h
    rcases bind_oob h with h | ⟨_, _, _, h⟩
    · cases h
    rcases bind_oob h with h | ⟨_, _, _, h⟩
    · have := readRegs16_oob _ _ _ _ _ _ h; simp only [MAX_SPRS] at this; omega
    rcases bind_oob h with h | ⟨_, _, _, h⟩
    · have := readRegs8_oob _ _ _ _ _ _ h; simp only [MAX_GPRS] at this; omega
    rcases bind_oob h with h | ⟨_, _, _, h⟩
    · have := readRegs8_oob _ _ _ _ _ _ h; simp only [MAX_FPRS] at this; omega
    rcases bind_oob h with h | ⟨_, _, _, h⟩
    · cases h
    rcases bind_oob h with h | ⟨_, _, _, h⟩
    · cases h
    rcases bind_oob h with h | ⟨_, _, _, h⟩
    · have := readRegs16_oob _ _ _ _ _ _ h; simp only [MAX_SPRS] at this; omega
    rcases bind_oob h with h | ⟨_, _, _, h⟩
    · unfold skipN at h; split at h <;> cases h
    · cases h
  unfold BadRegCounts
  simp only
  generalize (if vsxBool c = true then 1 else 0) = d at *
  rcases key with k | k | k | k | k | k
  · exact .inl (over_of a1 l1 k)
  · exact .inr (.inl (over_of a2 l2 k))
  · refine .inr (.inr (.inl (over_of ?_ l5 k)))
    rw [show c.st.pos + 3 + d = c.st.pos + (1 + 1 + 1 + d) by omega]; exact a5
  · refine .inr (.inr (.inr (.inl (over_of ?_ l6 k))))
    rw [show c.st.pos + 4 + d = c.st.pos + (1 + 1 + 1 + d + 1) by omega]; exact a6
  · refine .inr (.inr (.inr (.inr (.inl (over_of ?_ l7 k)))))
    rw [show c.st.pos + 5 + d = c.st.pos + (1 + 1 + 1 + d + 1 + 1) by omega]; exact a7
  · refine .inr (.inr (.inr (.inr (.inr (over_of ?_ l10 k)))))
    rw [show c.st.pos + 7 + 2 * d = c.st.pos + (1 + 1 + 1 + d + 1 + 1 + 1 + 1 + d) by omega]; exact a10

theorem Stores.parseRegs : Stores parseRegs :=
  ⟨Law.parseRegs.fwd.pos, fun _ _ _ h => ⟨_, Nat.le_refl _, .inr ⟨_, parseRegs_oob h⟩⟩⟩

theorem Stores.combineRa (a b c) : Stores (combineRa a b c) := by unfold Qt.combineRa; stores

theorem Stores.parseHeader : Stores parseHeader := by
  have h8 := Stores.get8n
  unfold Qt.parseHeader
  refine Stores.bind (by unfold Qt.headerFlags; stores) fun a => ?_
  obtain ⟨f2, f3, h⟩ := a
  refine Stores.bind (by unfold Qt.headerIds; stores) fun _ => ?_
  refine Stores.bind (Stores.whenR (Stores.bind Stores.getCtx fun _ => Stores.bind (Stores.walkSection _ _ _ _ _) fun _ =>
    Stores.modSt fun _ => rfl)) fun _ => ?_
  refine Stores.bind (by unfold Qt.headerPages; stores) fun _ => ?_
  unfold Qt.headerTail; stores

theorem Stores.readOne : Stores readOne := by
  have h8 := Stores.get8n
  unfold Qt.readOne
  refine Stores.bind (Stores.of law_applyNext (by intro m c c' h; cases h)) fun _ => ?_
  refine Stores.bind (Stores.bind Stores.getCtx fun _ => Stores.whenR (Stores.bind (Stores.combineRa _ _ _) fun _ => Stores.modRec _)) fun _ => ?_
  refine Stores.bind (by unfold Qt.insnSection; stores) fun _ => ?_
  unfold Qt.bodySection
  refine Stores.bind (by unfold Qt.flagsSection; stores) fun a => ?_
  obtain ⟨f, f2, f3⟩ := a
  refine Stores.bind (by unfold Qt.nodeSection; stores) fun _ => ?_
  refine Stores.bind (by unfold Qt.termSection Qt.termCheck; stores) fun _ => ?_
  refine Stores.bind (by unfold Qt.dataAddrSection; stores) fun _ => ?_
  refine Stores.bind (Stores.whenR (Stores.bind Stores.getCtx fun _ => Stores.bind (Stores.walkSection _ _ _ _ _) fun _ =>
    Stores.modRec _)) fun _ => ?_
  refine Stores.bind (by unfold Qt.dataRpnSection; stores) fun _ => ?_
  refine Stores.bind (by unfold Qt.iarSection Qt.iarFetch; stores) fun _ => ?_
  refine Stores.bind (by unfold Qt.branchSection; stores) fun _ => ?_
  refine Stores.bind (Stores.bind (Stores.whenR (Stores.skipN _)) fun _ => (Stores.whenR (Stores.bind Stores.getCtx fun _ =>
    Stores.bind (Stores.walkSection _ _ _ _ _) fun _ => Stores.modSt fun _ => rfl))) fun _ => ?_
  refine Stores.bind (by unfold Qt.insnRpnSection; stores) fun _ => ?_
  refine Stores.bind (Stores.whenR (Stores.bind Stores.parseRegs fun _ => Stores.modRec _)) fun _ => ?_
  refine Stores.bind (by unfold Qt.seqSection; stores) fun _ => ?_
  refine Stores.bind (by unfold Qt.insnPageSection; stores) fun _ => ?_
  refine Stores.bind (Stores.bind (by stores) fun _ => Stores.bind Stores.getCtx fun _ =>
    Stores.whenR (Stores.bind (Stores.combineRa _ _ _) fun _ => Stores.modRec _)) fun _ => ?_
  refine Stores.bind (by unfold Qt.guestPageSection Qt.guestInsnPage; stores) fun _ => ?_
  unfold Qt.annotateSection
  refine Stores.bind Stores.getCtx fun c => Stores.bind (Stores.whenR ?_) fun _ => Stores.bind Stores.getCtx fun c => Stores.whenR ?_
  · split
    · exact Stores.modRec _
    · exact Stores.throwErr _ (by decide)
  · split
    · exact Stores.modRec _
    · exact Stores.throwErr _ (by decide)

theorem skipHeaders_oob : ∀ fuel m c c', skipHeaders fuel m c = .err .oob c' → BadAfter m.bytes c.st.pos
  | 0, m, c, c', h => by cases h
  | fuel + 1, m, c, c', h => by
    rw [skipHeaders_succ] at h
    split at h
    · change (parseHeader >>= fun _ => skipHeaders fuel) m (peeked m c) = _ at h
      rcases bind_oob h with h | ⟨_, c1, h1, h⟩
      · exact Stores.parseHeader.oob m (peeked m c) c' h
      · exact (skipHeaders_oob fuel m c1 c' h).mono (Stores.parseHeader.pos m (peeked m c) _ _ h1)
    · cases h

theorem nextRecord_oob {m s c} (h : nextRecord m s = .err .oob c) : BadAfter m.bytes s.pos := by
  rw [nextRecord_bind] at h
  rcases bind_oob h with h | ⟨_, c1, h1, h⟩
  · exact skipHeaders_oob _ _ _ _ h
  · exact (Stores.readOne.oob _ _ _ h).mono (skipHeaders_pos _ _ _ _ h1).1

theorem readLoop_oob (m : Mem) : ∀ fuel s, (readLoop m fuel s).final = .oob → BadAfter m.bytes s.pos
  | 0, s, h => by cases h
  | fuel + 1, s, h => by
    cases hx : nextRecord m s with
    | ok a c =>
      rw [readLoop_ok hx] at h
      exact (readLoop_oob m fuel c.st h).mono (by have := nextRecord_pos hx; omega)
    | err e c =>
      have : e = .oob := by simpa [readLoop, hx] using h
      rw [this] at hx
      exact nextRecord_oob hx

end Qt
