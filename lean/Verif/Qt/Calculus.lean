import Verif.Qt.Codec
/-! Helper lemmas: a small calculus for running reader code on bytes known to be at the read position. -/
namespace Qt

def RState.at (s : RState) (p : Nat) : RState := { s with pos := p }
def Ctx.at (c : Ctx) (p : Nat) : Ctx := { c with st := c.st.at p }

@[simp] theorem RState.at_pos (s : RState) (p) : (s.at p).pos = p := rfl
@[simp] theorem RState.at_at (s : RState) (p q) : (s.at p).at q = s.at q := rfl
@[simp] theorem Ctx.at_at (c : Ctx) (p q) : (c.at p).at q = c.at q := rfl
@[simp] theorem Ctx.at_st_pos (c : Ctx) (p) : (c.at p).st.pos = p := rfl
@[simp] theorem Ctx.at_rcd (c : Ctx) (p) : (c.at p).rcd = c.rcd := rfl
theorem Ctx.at_self (c : Ctx) : c.at c.st.pos = c := rfl
@[simp] theorem advance_at (c : Ctx) (p n) : advance (c.at p) n = c.at (p + n) := rfl

/-- Running `x` from context `c` at a position where the bytes `b` come next consumes exactly `b`, returns
`a` and leaves context `c'` (positions are handled separately). -/
def Reads {α} (x : Rd α) (m : Mem) (c : Ctx) (b : Bytes) (a : α) (c' : Ctx) : Prop :=
  ∀ p rest, m.bytes.drop p = b ++ rest → x m (c.at p) = .ok a (c'.at (p + b.length))

theorem drop_after {l : Bytes} {p : Nat} {b rest : Bytes} (h : l.drop p = b ++ rest) :
    l.drop (p + b.length) = rest := by
  rw [← List.drop_drop, h, List.drop_left]

theorem Reads.pure {α} (a : α) (m c) : Reads (pure a) m c [] a c := by
  intro p rest _; rfl

theorem Reads.bind {α β} {x : Rd α} {f : α → Rd β} {m c b₁ a c₁ b₂ a₂ c₂}
    (h₁ : Reads x m c b₁ a c₁) (h₂ : Reads (f a) m c₁ b₂ a₂ c₂) :
    Reads (x >>= f) m c (b₁ ++ b₂) a₂ c₂ := by
  intro p rest h
  rw [List.append_assoc] at h
  have e₁ := h₁ p _ h
  have e₂ := h₂ _ _ (drop_after h)
  show Rd.bind x f m (c.at p) = _
  simp only [Rd.bind, e₁, e₂, List.length_append, Nat.add_assoc]

/-- `bind` when the first part consumes nothing. -/
theorem Reads.bind0 {α β} {x : Rd α} {f : α → Rd β} {m c a c₁ b₂ a₂ c₂}
    (h₁ : Reads x m c [] a c₁) (h₂ : Reads (f a) m c₁ b₂ a₂ c₂) : Reads (x >>= f) m c b₂ a₂ c₂ := by
  simpa using Reads.bind h₁ h₂

/-- `bind` when the second part consumes nothing. -/
theorem Reads.bindR {α β} {x : Rd α} {f : α → Rd β} {m c a c₁ b₁ a₂ c₂}
    (h₁ : Reads x m c b₁ a c₁) (h₂ : Reads (f a) m c₁ [] a₂ c₂) : Reads (x >>= f) m c b₁ a₂ c₂ := by
  simpa using Reads.bind h₁ h₂

theorem Reads.getCtx_bind {β} {f : Ctx → Rd β} {m c b a c'}
    (hf : ∀ p, f (c.at p) = f c) (h : Reads (f c) m c b a c') : Reads (getCtx >>= f) m c b a c' := by
  intro p rest hp
  show f (c.at p) m (c.at p) = _
  rw [hf]; exact h p rest hp

theorem Reads.modSt {f : RState → RState} {m c} (hf : ∀ s p, f (s.at p) = (f s).at p) :
    Reads (modSt f) m c [] () { c with st := f c.st } := by
  intro p rest _
  show Out.ok () { st := f (c.st.at p), rcd := c.rcd } = _
  rw [hf]; rfl

theorem Reads.modRec {f : Record → Record} {m c} :
    Reads (modRec f) m c [] () { c with rcd := f c.rcd } := by
  intro p rest _; rfl

theorem Reads.get8 {m c} (v : Byte) : Reads get8 m c [v] v c := by
  intro p rest h
  simp only [Qt.get8, Ctx.at_st_pos, h, List.cons_append, advance_at]; rfl

theorem Reads.get8n {m c} (n : Nat) (hn : n < 256) : Reads get8n m c (put8n n) n c := by
  have : Reads (do let b ← Qt.get8; return b.toNat) m c (put8n n) (BitVec.ofNat 8 n).toNat c :=
    Reads.bindR (Reads.get8 _) (Reads.pure _ _ _)
  rw [BitVec.toNat_ofNat, Nat.mod_eq_of_lt hn] at this
  exact this

theorem Reads.get16 {m c} (v : BitVec 16) : Reads get16 m c (be16 v) v c := by
  intro p rest h
  simp only [be16, List.cons_append] at h
  simp only [Qt.get16, Ctx.at_st_pos, h, advance_at, of16_be16]; rfl

theorem Reads.get32 {m c} (v : BitVec 32) : Reads get32 m c (be32 v) v c := by
  intro p rest h
  simp only [be32, List.cons_append] at h
  simp only [Qt.get32, Ctx.at_st_pos, h, advance_at, of32_be32]; rfl

theorem Reads.get64 {m c} (v : BitVec 64) : Reads get64 m c (be64 v) v c := by
  intro p rest h
  simp only [be64, List.cons_append] at h
  simp only [Qt.get64, Ctx.at_st_pos, h, advance_at, of64_be64]; rfl

theorem Reads.when_true {b x m c bs c'} (hb : b = true) (h : Reads x m c bs () c') :
    Reads (whenR b x) m c bs () c' := by
  subst hb; exact h

theorem Reads.when_false {b x m c} (hb : b = false) : Reads (whenR b x) m c [] () c := by
  subst hb; exact Reads.pure _ _ _

/-- `whenR` reading a section that is present exactly when `g` holds. -/
theorem Reads.when {b g : Bool} {x m c bs c'} (hb : b = g) (h : g = true → Reads x m c bs () c')
    (h0 : g = false → c' = c) : Reads (whenR b x) m c (putIf g bs) () c' := by
  subst hb
  cases b
  · rw [h0 rfl]; exact Reads.when_false rfl
  · exact Reads.when_true rfl (h rfl)

theorem Reads.congr {α} {x : Rd α} {m c b b' a a' c₁ c₂} (h : Reads x m c b a c₁) (hb : b = b')
    (ha : a = a') (hc : c₁ = c₂) : Reads x m c b' a' c₂ := by
  subst hb ha hc; exact h

/-- Reading `n` words into an array from index `k` on. -/
theorem Reads.readInto {m c} (cap : Nat) (g : Nat → BitVec 64) : ∀ (n k : Nat) (f : Nat → BitVec 64),
    k + n ≤ cap →
    Reads (readInto cap n k f) m c ((List.range' k n).flatMap fun i => be64 (g i))
      (fun j => if k ≤ j ∧ j < k + n then g j else f j) c
  | 0, k, f, _ => by
    refine (Reads.pure f m c).congr rfl ?_ rfl
    funext j; rw [if_neg (by omega)]
  | n + 1, k, f, h => by
    rw [List.range'_succ, List.flatMap_cons]
    unfold Qt.readInto
    refine Reads.bind (Reads.get64 (g k)) ?_
    simp only [show k < cap by omega, if_true]
    refine (Reads.readInto cap g n (k + 1) _ (by omega)).congr rfl ?_ rfl
    funext j
    by_cases h1 : k + 1 ≤ j ∧ j < k + 1 + n
    · rw [if_pos h1, if_pos (by omega)]
    · rw [if_neg h1]
      by_cases h2 : j = k
      · subst h2; simp
      · rw [if_neg h2, if_neg (by omega)]

theorem Reads.readInto0 {m c} (cap : Nat) (g : Nat → BitVec 64) (n : Nat) (f : Nat → BitVec 64)
    (h : n ≤ cap) :
    Reads (Qt.readInto cap n 0 f) m c (putArr n g) (fun j => if j < n then g j else f j) c := by
  have := Reads.readInto (m := m) (c := c) cap g n 0 f (by omega)
  simpa [putArr, List.range_eq_range'] using this

theorem Reads.readRows {m c} (nr : Nat) (hnr : nr ≤ 4) (g : Nat → Nat → BitVec 64) :
    ∀ (n k : Nat) (f : Nat → Nat → BitVec 64), k + n ≤ 5 →
    Reads (Qt.readRows nr n k f) m c ((List.range' k n).flatMap fun i => putArr nr (g i))
      (fun i j => if (k ≤ i ∧ i < k + n) ∧ j < nr then g i j else f i j) c
  | 0, k, f, _ => by
    refine (Reads.pure f m c).congr rfl ?_ rfl
    funext i j; rw [if_neg (by omega)]
  | n + 1, k, f, h => by
    rw [List.range'_succ, List.flatMap_cons]
    unfold Qt.readRows
    simp only [MAX_RADIX_WALKS, show k < 5 by omega, if_true]
    refine Reads.bind (Reads.readInto0 NR_RADIX_PTES (g k) nr _ hnr) ?_
    refine (Reads.readRows nr hnr g n (k + 1) _ (by omega)).congr rfl ?_ rfl
    funext i j
    by_cases h2 : i = k
    · subst h2
      by_cases hj : j < nr <;> simp [hj]
    · by_cases h1 : (k + 1 ≤ i ∧ i < k + 1 + n) ∧ j < nr
      · rw [if_pos h1, if_pos (by omega)]
      · rw [if_neg h1, if_neg h2, if_neg (by omega)]

end Qt
