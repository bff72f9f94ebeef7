import Verif.Qt.Reader
import Verif.Qt.Simulation
/-! Helper lemmas: laws every piece of the reader obeys: it only moves forward, it stays inside the trace, and it
does the same on a longer trace. -/
namespace Qt

/-- `m'` is a trace that starts with the bytes of `m`. -/
def Mem.Le (m m' : Mem) : Prop := m.bytes <+: m'.bytes

/-- Forward and unaffected by more bytes. -/
structure Fwd {α} (x : Rd α) : Prop where
  pos : ∀ m c a c', x m c = .ok a c' → c.st.pos ≤ c'.st.pos
  mono : ∀ m m' c a c', m.Le m' → x m c = .ok a c' → x m' c = .ok a c'

/-- A success that starts inside the trace ends inside. -/
def Inside {α} (x : Rd α) : Prop :=
  ∀ m c a c', x m c = .ok a c' → c.st.pos ≤ m.bytes.length → c'.st.pos ≤ m.bytes.length

/-- Every success ends inside the trace. -/
def Ends {α} (x : Rd α) : Prop := ∀ m c a c', x m c = .ok a c' → c'.st.pos ≤ m.bytes.length

structure Law {α} (x : Rd α) : Prop where
  fwd : Fwd x
  inside : Inside x

theorem bind_split {α β} {x : Rd α} {f : α → Rd β} {m c b c''} (h : (x >>= f) m c = .ok b c'') :
    ∃ a c', x m c = .ok a c' ∧ f a m c' = .ok b c'' := by
  replace h : Rd.bind x f m c = .ok b c'' := h
  unfold Rd.bind at h
  cases hx : x m c with
  | ok a c' => rw [hx] at h; exact ⟨a, c', rfl, h⟩
  | err e c' => rw [hx] at h; cases h

theorem Fwd.bind {α β} {x : Rd α} {f : α → Rd β} (hx : Fwd x) (hf : ∀ a, Fwd (f a)) : Fwd (x >>= f) where
  pos := by
    intro m c b c'' h
    obtain ⟨a, c', h1, h2⟩ := bind_split h
    exact Nat.le_trans (hx.pos _ _ _ _ h1) ((hf a).pos _ _ _ _ h2)
  mono := by
    intro m m' c b c'' hm h
    obtain ⟨a, c', h1, h2⟩ := bind_split h
    exact (Rd.bind_ok (hx.mono _ _ _ _ _ hm h1)).trans ((hf a).mono _ _ _ _ _ hm h2)

theorem Law.bind {α β} {x : Rd α} {f : α → Rd β} (hx : Law x) (hf : ∀ a, Law (f a)) : Law (x >>= f) where
  fwd := hx.fwd.bind fun a => (hf a).fwd
  inside := by
    intro m c b c'' h hi
    obtain ⟨a, c', h1, h2⟩ := bind_split h
    exact (hf a).inside _ _ _ _ h2 (hx.inside _ _ _ _ h1 hi)

theorem Ends.bind {α β} {x : Rd α} {f : α → Rd β} (hf : ∀ a, Ends (f a)) : Ends (x >>= f) := by
  intro m c b c'' h
  obtain ⟨a, c', _, h2⟩ := bind_split h
  exact hf a _ _ _ _ h2

theorem Law.pure {α} (a : α) : Law (pure a : Rd α) where
  fwd := { pos := (by intro m c a' c' h; cases h; exact Nat.le_refl _), mono := (by intro m m' c a' c' _ h; exact h) }
  inside := by intro m c a' c' h hi; cases h; exact hi

theorem Law.throwErr {α} (e : Err) : Law (throwErr e : Rd α) where
  fwd := { pos := (by intro m c a' c' h; cases h), mono := (by intro m m' c a' c' _ h; cases h) }
  inside := by intro m c a' c' h; cases h

theorem Law.modRec (f) : Law (modRec f) where
  fwd := { pos := (by intro m c a' c' h; cases h; exact Nat.le_refl _), mono := (by intro m m' c a' c' _ h; exact h) }
  inside := by intro m c a' c' h hi; cases h; exact hi

theorem Law.modSt {f : RState → RState} (hf : ∀ s, (f s).pos = s.pos) : Law (modSt f) where
  fwd := { pos := by intro m c a' c' h; cases h; exact Nat.le_of_eq (hf _).symm
           mono := by intro m m' c a' c' _ h; exact h }
  inside := by intro m c a' c' h hi; cases h; simp only [hf]; exact hi

theorem Law.getCtx : Law getCtx where
  fwd := { pos := (by intro m c a' c' h; cases h; exact Nat.le_refl _), mono := (by intro m m' c a' c' _ h; exact h) }
  inside := by intro m c a' c' h hi; cases h; exact hi

theorem Law.whenR {b : Bool} {x : Rd Unit} (hx : Law x) : Law (whenR b x) := by
  cases b
  · exact Law.pure ()
  · exact hx

theorem Law.ite {α} {p : Prop} [Decidable p] {x y : Rd α} (hx : Law x) (hy : Law y) : Law (if p then x else y) := by
  split
  · exact hx
  · exact hy

theorem drop_prefix {m m' : Mem} (h : m.Le m') {p : Nat} {b rest : Bytes} (hd : m.bytes.drop p = b ++ rest) :
    ∃ rest', m'.bytes.drop p = b ++ rest' := by
  obtain ⟨t, ht⟩ := h
  rw [← ht, List.drop_append, hd, List.append_assoc]
  exact ⟨_, rfl⟩

theorem drop_len {m : Mem} {p : Nat} {b rest : Bytes} (hd : m.bytes.drop p = b ++ rest) (hb : b ≠ []) :
    p + b.length ≤ m.bytes.length := by
  have h1 := congrArg List.length hd
  have h2 : 0 < b.length := List.length_pos_iff.mpr hb
  simp only [List.length_drop, List.length_append] at h1
  omega

theorem get8_split {m c a c'} (h : get8 m c = .ok a c') : c' = advance c 1 ∧ ∃ rest, m.bytes.drop c.st.pos = [a] ++ rest := by
  unfold get8 at h
  split at h
  · rename_i l e; cases h; exact ⟨rfl, _, e⟩
  · cases h

theorem get16_split {m c a c'} (h : get16 m c = .ok a c') :
    c' = advance c 2 ∧ ∃ x y rest, a = of16 x y ∧ m.bytes.drop c.st.pos = [x, y] ++ rest := by
  unfold get16 at h
  split at h
  · rename_i l e; cases h; exact ⟨rfl, _, _, _, rfl, e⟩
  · cases h

theorem get32_split {m c a c'} (h : get32 m c = .ok a c') :
    c' = advance c 4 ∧ ∃ x y z w rest, a = of32 x y z w ∧ m.bytes.drop c.st.pos = [x, y, z, w] ++ rest := by
  unfold get32 at h
  split at h
  · rename_i l e; cases h; exact ⟨rfl, _, _, _, _, _, rfl, e⟩
  · cases h

theorem get64_split {m c a c'} (h : get64 m c = .ok a c') :
    c' = advance c 8 ∧ ∃ x1 x2 x3 x4 x5 x6 x7 x8 rest, a = of64 x1 x2 x3 x4 x5 x6 x7 x8 ∧
      m.bytes.drop c.st.pos = [x1, x2, x3, x4, x5, x6, x7, x8] ++ rest := by
  unfold get64 at h
  split at h
  · rename_i l e; cases h; exact ⟨rfl, _, _, _, _, _, _, _, _, _, rfl, e⟩
  · cases h

theorem Law.get8 : Law get8 where
  fwd := {
    pos := by
      intro m c a c' h
      obtain ⟨rfl, _⟩ := get8_split h
      simp [advance]
    mono := by
      intro m m' c a c' hm h
      obtain ⟨rfl, r, e⟩ := get8_split h
      obtain ⟨r', e'⟩ := drop_prefix hm e
      simp only [List.cons_append, List.nil_append] at e'
      unfold Qt.get8; rw [e'] }
  inside := by
    intro m c a c' h _
    obtain ⟨rfl, r, e⟩ := get8_split h
    simpa [advance] using drop_len e (by simp)

theorem Law.get16 : Law get16 where
  fwd := {
    pos := by
      intro m c a c' h
      obtain ⟨rfl, _⟩ := get16_split h
      simp [advance]
    mono := by
      intro m m' c a c' hm h
      obtain ⟨rfl, _, _, r, rfl, e⟩ := get16_split h
      obtain ⟨r', e'⟩ := drop_prefix hm e
      simp only [List.cons_append, List.nil_append] at e'
      unfold Qt.get16; rw [e'] }
  inside := by
    intro m c a c' h _
    obtain ⟨rfl, _, _, r, rfl, e⟩ := get16_split h
    simpa [advance] using drop_len e (by simp)

theorem Law.get32 : Law get32 where
  fwd := {
    pos := by
      intro m c a c' h
      obtain ⟨rfl, _⟩ := get32_split h
      simp [advance]
    mono := by
      intro m m' c a c' hm h
      obtain ⟨rfl, _, _, _, _, r, rfl, e⟩ := get32_split h
      obtain ⟨r', e'⟩ := drop_prefix hm e
      simp only [List.cons_append, List.nil_append] at e'
      unfold Qt.get32; rw [e'] }
  inside := by
    intro m c a c' h _
    obtain ⟨rfl, _, _, _, _, r, rfl, e⟩ := get32_split h
    simpa [advance] using drop_len e (by simp)

theorem Law.get64 : Law get64 where
  fwd := {
    pos := by
      intro m c a c' h
      obtain ⟨rfl, _⟩ := get64_split h
      simp [advance]
    mono := by
      intro m m' c a c' hm h
      obtain ⟨rfl, _, _, _, _, _, _, _, _, r, rfl, e⟩ := get64_split h
      obtain ⟨r', e'⟩ := drop_prefix hm e
      simp only [List.cons_append, List.nil_append] at e'
      unfold Qt.get64; rw [e'] }
  inside := by
    intro m c a c' h _
    obtain ⟨rfl, _, _, _, _, _, _, _, _, r, rfl, e⟩ := get64_split h
    simpa [advance] using drop_len e (by simp)

theorem Mem.Le.length {m m' : Mem} (h : m.Le m') : m.bytes.length ≤ m'.bytes.length := h.length_le

theorem skipN_split {n m c a c'} (h : skipN n m c = .ok a c') : c' = advance c n ∧ c.st.pos + n ≤ m.bytes.length := by
  unfold skipN at h
  split at h
  · cases h
  · cases h; exact ⟨rfl, by omega⟩

theorem Ends.skipN (n) : Ends (skipN n) := by
  intro m c a c' h
  obtain ⟨rfl, e⟩ := skipN_split h
  exact e

theorem Law.skipN (n) : Law (skipN n) where
  fwd := {
    pos := by
      intro m c a c' h
      obtain ⟨rfl, _⟩ := skipN_split h
      simp [advance]
    mono := by
      intro m m' c a c' hm h
      obtain ⟨rfl, e⟩ := skipN_split h
      have := hm.length
      unfold Qt.skipN
      rw [if_neg (by omega)] }
  inside := by intro m c a c' h _; exact Ends.skipN n _ _ _ _ h

theorem Fwd.bump (n) : Fwd (bump n) where
  pos := by intro m c a c' h; cases h; simp [advance]
  mono := by intro m m' c a c' _ h; exact h

/-- Prove a law by following the structure of the code. -/
macro "law" : tactic => `(tactic| repeat' (first
  | exact Law.get8 | exact Law.get16 | exact Law.get32 | exact Law.get64 | exact Law.skipN _
  | exact Law.pure _ | exact Law.getCtx | exact Law.throwErr _ | exact Law.modRec _
  | (refine Law.modSt ?_; intro s; (first | rfl | (split <;> rfl)); done)
  | apply Law.whenR | apply Law.ite | refine Law.bind ?_ (fun _ => ?_) | assumption))

theorem Law.get8n : Law get8n := by unfold Qt.get8n; law

theorem Law.readInto (cap) : ∀ n k f, Law (readInto cap n k f)
  | 0, k, f => by unfold Qt.readInto; law
  | n + 1, k, f => by
    unfold Qt.readInto
    have := fun k f => Law.readInto cap n k f
    refine Law.bind Law.get64 fun _ => Law.ite (this _ _) (Law.throwErr _)

theorem Law.readRows (nr) : ∀ n k f, Law (readRows nr n k f)
  | 0, k, f => by unfold Qt.readRows; law
  | n + 1, k, f => by
    unfold Qt.readRows
    exact Law.bind (Law.readInto _ _ _ _) fun _ => Law.readRows nr n _ _

theorem Law.parseRadix (nr x) : Law (parseRadix nr x) :=
  Law.bind (Law.readInto _ _ _ _) fun _ => Law.pure _

theorem Law.parseRadixOnRadix (w nr x) : Law (parseRadixOnRadix w nr x) :=
  Law.bind (Law.readRows _ _ _ _) fun _ => Law.bind (Law.readInto _ _ _ _) fun _ =>
    Law.bind (Law.readInto _ _ _ _) fun _ => Law.pure _

theorem Law.readRegs8 (cap) : ∀ n k, Law (readRegs8 cap n k)
  | 0, _ => Law.pure _
  | n + 1, _ => Law.bind Law.get8 fun _ => Law.ite
      (Law.bind Law.get64 fun _ => Law.bind (Law.readRegs8 cap n _) fun _ => Law.pure _) (Law.throwErr _)

theorem Law.readRegs16 (cap) : ∀ n k, Law (readRegs16 cap n k)
  | 0, _ => Law.pure _
  | n + 1, _ => Law.bind Law.get16 fun _ => Law.ite
      (Law.bind Law.get64 fun _ => Law.bind (Law.readRegs16 cap n _) fun _ => Law.pure _) (Law.throwErr _)

theorem Law.vsxCount : Law vsxCount := Law.bind Law.getCtx fun _ => Law.ite Law.get8n (Law.pure _)

theorem Law.parseRegs : Law parseRegs where
  fwd := by
    unfold Qt.parseRegs
    repeat' (first
      | exact Law.get8n.fwd | exact Law.vsxCount.fwd | exact (Law.readRegs8 _ _ _).fwd
      | exact (Law.readRegs16 _ _ _).fwd | exact Fwd.bump _ | exact (Law.skipN _).fwd | exact (Law.pure _).fwd
      | refine Fwd.bind ?_ (fun _ => ?_))
  inside := by
    intro m c a c' h _
    have : Ends Qt.parseRegs := by
      unfold Qt.parseRegs
      iterate 20 refine Ends.bind (fun _ => ?_)
      intro m c a c' h
      obtain ⟨_, _, h1, h2⟩ := bind_split h
      obtain ⟨rfl, e⟩ := skipN_split h1
      cases h2
      exact e
    exact this _ _ _ _ h

theorem Law.combineRa (a b c) : Law (combineRa a b c) := Law.ite (Law.pure _) (Law.throwErr _)

end Qt
