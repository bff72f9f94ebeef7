import Verif.Qt.ReaderFrame
import Verif.Qt.SpecReader
/-! Helper lemmas for the register section (C49). -/
namespace Qt
open Spec

theorem at_iff {m : Mem} {p : Nat} {x : Bytes} : At m.bytes p x ↔ ∃ rest, m.bytes.drop p = x ++ rest :=
  ⟨fun ⟨r, h⟩ => ⟨r, h.symm⟩, fun ⟨r, h⟩ => ⟨r, h.symm⟩⟩

theorem at_append {b : Bytes} {p : Nat} {x y : Bytes} : At b p (x ++ y) ↔ At b p x ∧ At b (p + x.length) y := by
  unfold At
  constructor
  · rintro ⟨r, h⟩
    rw [List.append_assoc] at h
    refine ⟨⟨_, h⟩, ⟨r, ?_⟩⟩
    rw [← List.drop_drop, ← h]
    simp
  · rintro ⟨⟨r, h⟩, ⟨r', h'⟩⟩
    rw [← List.drop_drop, ← h] at h'
    simp at h'
    exact ⟨r', by rw [List.append_assoc, h', h]⟩

theorem at_nil {b : Bytes} {p : Nat} : At b p [] := List.nil_prefix

theorem get8_at {m : Mem} {c : Ctx} {v : Byte} (h : At m.bytes c.st.pos [v]) : get8 m c = .ok v (advance c 1) := by
  obtain ⟨r, h⟩ := at_iff.mp h
  simp [get8, h]

theorem at_get8 {m : Mem} {c c' : Ctx} {v : Byte} (h : get8 m c = .ok v c') :
    At m.bytes c.st.pos [v] ∧ c' = advance c 1 := by
  obtain ⟨rfl, r, e⟩ := get8_split h
  exact ⟨at_iff.mpr ⟨r, e⟩, rfl⟩

theorem get8n_at {m : Mem} {c : Ctx} {n : Nat} (hn : n < 256) (h : At m.bytes c.st.pos [count n]) :
    get8n m c = .ok n (advance c 1) := by
  refine (Rd.bind_ok (get8_at h)).trans ?_
  show Out.ok (count n).toNat _ = _
  simp [count, Nat.mod_eq_of_lt hn]

theorem at_get8n {m : Mem} {c c' : Ctx} {n : Nat} (h : get8n m c = .ok n c') :
    At m.bytes c.st.pos [count n] ∧ c' = advance c 1 ∧ n < 256 := by
  obtain ⟨b, c1, h1, h2⟩ := bind_split h
  cases h2
  obtain ⟨h3, rfl⟩ := at_get8 h1
  refine ⟨?_, rfl, b.isLt⟩
  rw [count, BitVec.ofNat_toNat, BitVec.setWidth_eq]
  exact h3

theorem get16_at {m : Mem} {c : Ctx} {v : BitVec 16} (h : At m.bytes c.st.pos (be16 v)) :
    get16 m c = .ok v (advance c 2) := by
  obtain ⟨r, h⟩ := at_iff.mp h
  have := Reads.get16 (m := m) (c := c) v c.st.pos r h
  exact this

theorem get64_at {m : Mem} {c : Ctx} {v : BitVec 64} (h : At m.bytes c.st.pos (be64 v)) :
    get64 m c = .ok v (advance c 8) := by
  obtain ⟨r, h⟩ := at_iff.mp h
  have := Reads.get64 (m := m) (c := c) v c.st.pos r h
  exact this

theorem be16_of16 (x y : Byte) : be16 (of16 x y) = [x, y] := by
  unfold be16 of16
  simp only [List.cons.injEq, and_true]
  refine ⟨?_, ?_⟩ <;> (apply BitVec.eq_of_getLsbD_eq; intro i hi; simp only [BitVec.getLsbD_append, BitVec.getLsbD_extractLsb']; grind)

theorem be64_of64 (a b c d e f g h : Byte) : be64 (of64 a b c d e f g h) = [a, b, c, d, e, f, g, h] := by
  unfold be64 of64
  simp only [List.cons.injEq, and_true]
  refine ⟨?_, ?_, ?_, ?_, ?_, ?_, ?_, ?_⟩ <;> (apply BitVec.eq_of_getLsbD_eq; intro i hi; simp only [BitVec.getLsbD_append, BitVec.getLsbD_extractLsb']; grind)

theorem at_get16 {m : Mem} {c c' : Ctx} {v : BitVec 16} (h : get16 m c = .ok v c') :
    At m.bytes c.st.pos (be16 v) ∧ c' = advance c 2 := by
  obtain ⟨rfl, x, y, r, rfl, e⟩ := get16_split h
  refine ⟨at_iff.mpr ⟨r, ?_⟩, rfl⟩
  rw [be16_of16]; exact e

theorem at_get64 {m : Mem} {c c' : Ctx} {v : BitVec 64} (h : get64 m c = .ok v c') :
    At m.bytes c.st.pos (be64 v) ∧ c' = advance c 8 := by
  obtain ⟨rfl, x1, x2, x3, x4, x5, x6, x7, x8, r, rfl, e⟩ := get64_split h
  refine ⟨at_iff.mpr ⟨r, ?_⟩, rfl⟩
  rw [be64_of64]; exact e


theorem at_readRegs8 (cap : Nat) : ∀ (n k : Nat) (m : Mem) (c c' : Ctx) (l : List RegInfo),
    readRegs8 cap n k m c = .ok l c' →
    l.length = n ∧ (n ≠ 0 → k + n ≤ cap) ∧ (∀ x ∈ l, x.index.toNat < 256) ∧
    At m.bytes c.st.pos (l.flatMap reg8) ∧ c' = advance c (l.flatMap reg8).length
  | 0, k, m, c, c', l, h => by
    cases h
    exact ⟨rfl, by simp, by simp, at_nil, rfl⟩
  | n + 1, k, m, c, c', l, h => by
    obtain ⟨i, c1, h1, h⟩ := bind_split h
    obtain ⟨a1, rfl⟩ := at_get8 h1
    split at h
    · rename_i hk
      obtain ⟨v, c2, h2, h⟩ := bind_split h
      obtain ⟨a2, rfl⟩ := at_get64 h2
      obtain ⟨t, c3, h3, h4⟩ := bind_split h
      cases h4
      obtain ⟨e1, e2, e3, e4, rfl⟩ := at_readRegs8 cap n (k + 1) _ _ _ _ h3
      have hi : (i.setWidth 16).setWidth 8 = i := by simp
      have hi' : (i.setWidth 16).toNat < 256 := by
        rw [BitVec.toNat_setWidth]; have := i.isLt; omega
      refine ⟨by simp [e1], fun _ => by omega, ?_, ?_, ?_⟩
      · intro x hx
        rcases List.mem_cons.mp hx with rfl | hx
        · exact hi'
        · exact e3 x hx
      · rw [List.flatMap_cons, at_append]
        refine ⟨?_, ?_⟩
        · unfold reg8
          rw [hi]
          exact at_append (x := [i]).mpr ⟨a1, a2⟩
        · exact e4
      · rw [List.flatMap_cons, List.length_append]
        simp only [advance, reg8, List.length_cons, be64_length]
        congr 2; omega
    · cases h

theorem at_readRegs16 (cap : Nat) : ∀ (n k : Nat) (m : Mem) (c c' : Ctx) (l : List RegInfo),
    readRegs16 cap n k m c = .ok l c' →
    l.length = n ∧ (n ≠ 0 → k + n ≤ cap) ∧
    At m.bytes c.st.pos (l.flatMap reg16) ∧ c' = advance c (l.flatMap reg16).length
  | 0, k, m, c, c', l, h => by
    cases h
    exact ⟨rfl, by simp, at_nil, rfl⟩
  | n + 1, k, m, c, c', l, h => by
    obtain ⟨i, c1, h1, h⟩ := bind_split h
    obtain ⟨a1, rfl⟩ := at_get16 h1
    split at h
    · rename_i hk
      obtain ⟨v, c2, h2, h⟩ := bind_split h
      obtain ⟨a2, rfl⟩ := at_get64 h2
      obtain ⟨t, c3, h3, h4⟩ := bind_split h
      cases h4
      obtain ⟨e1, e2, e4, rfl⟩ := at_readRegs16 cap n (k + 1) _ _ _ _ h3
      refine ⟨by simp [e1], fun _ => by omega, ?_, ?_⟩
      · rw [List.flatMap_cons, at_append]
        refine ⟨?_, ?_⟩
        · unfold reg16
          exact at_append.mpr ⟨a1, a2⟩
        · exact e4
      · rw [List.flatMap_cons, List.length_append]
        simp only [advance, reg16, List.length_append, be16_length, be64_length]
        congr 2; omega
    · cases h

theorem readRegs8_at (cap : Nat) : ∀ (l : List RegInfo) (k : Nat) (m : Mem) (c : Ctx), k + l.length ≤ cap →
    (∀ x ∈ l, x.index.toNat < 256) → At m.bytes c.st.pos (l.flatMap reg8) →
    readRegs8 cap l.length k m c = .ok l (advance c (l.flatMap reg8).length)
  | [], k, m, c, _, _, _ => rfl
  | x :: l, k, m, c, hk, hi, ha => by
    simp only [List.length_cons] at hk
    rw [List.flatMap_cons, at_append] at ha
    obtain ⟨h1, h2⟩ := ha
    obtain ⟨h0, h1⟩ := at_append (x := [x.index.setWidth 8]) (y := be64 x.value) |>.mp h1
    have ih := readRegs8_at cap l (k + 1) m (advance (advance c 1) 8) (by omega) (fun y hy => hi y (by simp [hy])) h2
    show readRegs8 cap (l.length + 1) k m c = _
    unfold readRegs8
    refine (Rd.bind_ok (get8_at h0)).trans ?_
    rw [if_pos (by omega)]
    refine (Rd.bind_ok (get64_at h1)).trans ((Rd.bind_ok ih).trans ?_)
    have hx : (x.index.setWidth 8).setWidth 16 = x.index := by
      apply BitVec.eq_of_toNat_eq
      have := hi x (by simp)
      simp
      omega
    rw [hx]
    rw [List.flatMap_cons, List.length_append]
    simp only [advance, reg8, List.length_cons, be64_length]
    show Out.ok _ _ = _
    congr 3; omega

theorem readRegs16_at (cap : Nat) : ∀ (l : List RegInfo) (k : Nat) (m : Mem) (c : Ctx), k + l.length ≤ cap →
    At m.bytes c.st.pos (l.flatMap reg16) →
    readRegs16 cap l.length k m c = .ok l (advance c (l.flatMap reg16).length)
  | [], k, m, c, _, _ => rfl
  | x :: l, k, m, c, hk, ha => by
    simp only [List.length_cons] at hk
    rw [List.flatMap_cons, at_append] at ha
    obtain ⟨h1, h2⟩ := ha
    obtain ⟨h0, h1⟩ := at_append (x := be16 x.index) (y := be64 x.value) |>.mp h1
    have ih := readRegs16_at cap l (k + 1) m (advance (advance c 2) 8) (by omega) h2
    show readRegs16 cap (l.length + 1) k m c = _
    unfold readRegs16
    refine (Rd.bind_ok (get16_at h0)).trans ?_
    rw [if_pos (by omega)]
    refine (Rd.bind_ok (get64_at h1)).trans ((Rd.bind_ok ih).trans ?_)
    rw [List.flatMap_cons, List.length_append]
    simp only [advance, reg16, List.length_append, be16_length, be64_length]
    show Out.ok _ _ = _
    congr 3; omega

/-- Does the register section carry vsx counts? -/
def vsxBool (c : Ctx) : Bool := decide (0x7000000 ≤ c.st.version.toNat)

theorem at_vsxCount {m : Mem} {c c' : Ctx} {n : Nat} (h : vsxCount m c = .ok n c') :
    At m.bytes c.st.pos (if vsxBool c then [count n] else []) ∧
    c' = advance c (if vsxBool c then [count n] else []).length ∧ n < 256 ∧ (vsxBool c = false → n = 0) := by
  obtain ⟨_, _, h1, h⟩ := bind_split h
  cases h1
  split at h
  · rename_i hv
    have : vsxBool c = true := by simpa [vsxBool] using hv
    rw [this]
    obtain ⟨a, b, d⟩ := at_get8n h
    exact ⟨a, b, d, by simp⟩
  · rename_i hv
    have : vsxBool c = false := by simpa [vsxBool] using hv
    rw [this]
    cases h
    exact ⟨at_nil, rfl, by omega, fun _ => rfl⟩

theorem vsxCount_at {m : Mem} {c : Ctx} {n : Nat} (hn : n < 256) (h0 : vsxBool c = false → n = 0)
    (h : At m.bytes c.st.pos (if vsxBool c then [count n] else [])) :
    vsxCount m c = .ok n (advance c (if vsxBool c then [count n] else []).length) := by
  unfold vsxCount
  refine (Rd.bind_ok (a := c) (c' := c) rfl).trans ?_
  by_cases hv : 0x7000000 ≤ c.st.version.toNat
  · have hb : vsxBool c = true := by simpa [vsxBool] using hv
    rw [if_pos hv]
    rw [hb] at h ⊢
    exact get8n_at hn h
  · have hb : vsxBool c = false := by simpa [vsxBool] using hv
    rw [if_neg hv, hb, h0 hb]
    rfl

@[simp] theorem vsxBool_advance (c n) : vsxBool (advance c n) = vsxBool c := rfl
@[simp] theorem advance_pos (c n) : (advance c n).st.pos = c.st.pos + n := rfl
@[simp] theorem advance_advance (c a b) : advance (advance c a) b = advance c (a + b) := by
  simp [advance, Nat.add_assoc]

theorem at_cons {b : Bytes} {p : Nat} {x : Byte} {y : Bytes} : At b p (x :: y) ↔ At b p [x] ∧ At b (p + 1) y :=
  at_append (x := [x])

theorem parseRegs_laid {m : Mem} {c c' : Ctx} {r : Regs} (h : parseRegs m c = .ok r c') :
    RegsOk (vsxBool c) r ∧ Laid m.bytes (regLayout (vsxBool c) r) c.st.pos ∧
    c' = advance c (layoutSize (regLayout (vsxBool c) r)) ∧ c'.st.pos ≤ m.bytes.length := by
  unfold parseRegs at h
  obtain ⟨gi, c1, h1, h⟩ := bind_split h
  obtain ⟨fi, c2, h2, h⟩ := bind_split h
  obtain ⟨vi, c3, h3, h⟩ := bind_split h
  obtain ⟨xi, c4, h4, h⟩ := bind_split h
  obtain ⟨si, c5, h5, h⟩ := bind_split h
  obtain ⟨go, c6, h6, h⟩ := bind_split h
  obtain ⟨fo, c7, h7, h⟩ := bind_split h
  obtain ⟨vo, c8, h8, h⟩ := bind_split h
  obtain ⟨xo, c9, h9, h⟩ := bind_split h
  obtain ⟨so, c10, h10, h⟩ := bind_split h
  obtain ⟨a1, rfl, l1⟩ := at_get8n h1
  obtain ⟨a2, rfl, l2⟩ := at_get8n h2
  obtain ⟨a3, rfl, l3⟩ := at_get8n h3
  obtain ⟨a4, rfl, l4, z4⟩ := at_vsxCount h4
  obtain ⟨a5, rfl, l5⟩ := at_get8n h5
  obtain ⟨a6, rfl, l6⟩ := at_get8n h6
  obtain ⟨a7, rfl, l7⟩ := at_get8n h7
  obtain ⟨a8, rfl, l8⟩ := at_get8n h8
  obtain ⟨a9, rfl, l9, z9⟩ := at_vsxCount h9
  obtain ⟨a10, rfl, l10⟩ := at_get8n h10
  obtain ⟨gprsIn, c11, h11, h⟩ := bind_split h
  obtain ⟨fprsIn, c12, h12, h⟩ := bind_split h
  obtain ⟨_, c13, h13, h⟩ := bind_split h
  obtain ⟨_, c14, h14, h⟩ := bind_split h
  obtain ⟨sprsIn, c15, h15, h⟩ := bind_split h
  obtain ⟨gprsOut, c16, h16, h⟩ := bind_split h
  obtain ⟨fprsOut, c17, h17, h⟩ := bind_split h
  obtain ⟨_, c18, h18, h⟩ := bind_split h
  obtain ⟨_, c19, h19, h⟩ := bind_split h
  obtain ⟨sprsOut, c20, h20, h⟩ := bind_split h
  obtain ⟨_, c21, h21, h⟩ := bind_split h
  obtain ⟨n11, k11, i11, a11, rfl⟩ := at_readRegs8 _ _ _ _ _ _ _ h11
  obtain ⟨n12, k12, i12, a12, rfl⟩ := at_readRegs8 _ _ _ _ _ _ _ h12
  cases h13
  cases h14
  obtain ⟨n15, k15, a15, rfl⟩ := at_readRegs16 _ _ _ _ _ _ _ h15
  obtain ⟨n16, k16, i16, a16, rfl⟩ := at_readRegs8 _ _ _ _ _ _ _ h16
  obtain ⟨n17, k17, i17, a17, rfl⟩ := at_readRegs8 _ _ _ _ _ _ _ h17
  cases h18
  cases h19
  obtain ⟨n20, k20, a20, rfl⟩ := at_readRegs16 _ _ _ _ _ _ _ h20
  obtain ⟨rfl, hl⟩ := skipN_split h21
  cases h
  simp only [MAX_GPRS, MAX_FPRS, MAX_SPRS] at k11 k12 k15 k16 k17 k20
  clear h1 h2 h3 h4 h5 h6 h7 h8 h9 h10 h11 h12 h15 h16 h17 h20 h21
  simp only [vsxBool_advance, advance_pos, advance_advance] at *
  refine ⟨⟨n11, n12, n15, n16, n17, n20, by dsimp only; omega, by dsimp only; omega, fun hf => ⟨z4 hf, z9 hf⟩, ?_⟩, ?_⟩
  · intro x hx
    simp only [List.mem_append] at hx
    rcases hx with ((hx | hx) | hx) | hx
    · exact i11 x hx
    · exact i12 x hx
    · exact i16 x hx
    · exact i17 x hx
  · generalize vsxBool c = v at *
    cases v
    · simp only [Bool.false_eq_true, ↓reduceIte, List.length_nil, Nat.add_zero] at *
      unfold regLayout
      simp only [Laid, Bool.false_eq_true, ↓reduceIte, List.cons_append, List.nil_append, List.append_nil, and_true, Nat.add_assoc,
        List.length_cons, List.length_nil, Nat.reduceAdd, layoutSize, List.map_cons, List.map_nil, List.sum_cons, List.sum_nil,
        Piece.size, Nat.add_zero, Nat.mul_comm 18] at *
      refine ⟨⟨?_, a11, a12, a15, a16, a17, a20⟩, trivial, hl⟩
      exact at_cons.mpr ⟨a1, at_cons.mpr ⟨a2, at_cons.mpr ⟨a3, at_cons.mpr ⟨a5, at_cons.mpr ⟨a6, at_cons.mpr ⟨a7, at_cons.mpr ⟨a8, a10⟩⟩⟩⟩⟩⟩⟩
    · simp only [↓reduceIte, List.length_singleton] at *
      unfold regLayout
      simp only [Laid, ↓reduceIte, List.cons_append, List.nil_append, List.append_nil, and_true, Nat.add_assoc,
        List.length_cons, List.length_nil, Nat.reduceAdd, layoutSize, List.map_cons, List.map_nil, List.sum_cons, List.sum_nil,
        Piece.size, Nat.add_zero, Nat.mul_comm 18] at *
      refine ⟨⟨?_, a11, a12, a15, a16, a17, a20⟩, trivial, hl⟩
      exact at_cons.mpr ⟨a1, at_cons.mpr ⟨a2, at_cons.mpr ⟨a3, at_cons.mpr ⟨a4, at_cons.mpr ⟨a5, at_cons.mpr ⟨a6, at_cons.mpr ⟨a7, at_cons.mpr ⟨a8, at_cons.mpr ⟨a9, a10⟩⟩⟩⟩⟩⟩⟩⟩⟩

theorem bump_eq (n m c) : bump n m c = .ok () (advance c n) := rfl

theorem vsxCount_at' {m : Mem} {c : Ctx} {n d : Nat} {v : Bool} (hb : vsxBool c = v) (hd : (if v then 1 else 0) = d)
    (hn : n < 256) (h0 : v = false → n = 0)
    (h : At m.bytes c.st.pos (if v then [count n] else [])) : vsxCount m c = .ok n (advance c d) := by
  subst hb
  rw [vsxCount_at hn h0 h, ← hd]
  split <;> rfl

theorem bind_adv {α β} {x : Rd α} {f : α → Rd β} {m : Mem} {c : Ctx} {a : α} {r : Out β} (K k : Nat)
    (h : x m (advance c K) = .ok a (advance (advance c K) k)) (h2 : f a m (advance c (K + k)) = r) :
    (x >>= f) m (advance c K) = r := by
  rw [Rd.bind_ok h, advance_advance, h2]

theorem advance_zero (c : Ctx) : c = advance c 0 := rfl

theorem ok_eq {α} {a a' : α} {c : Ctx} {n n' : Nat} (h : a = a') (hn : n = n') :
    (pure a : Rd α) m (advance c n) = .ok a' (advance c n') := by rw [h, hn]; rfl

attribute [local irreducible] advance Rd.bind in
theorem laid_parseRegs {m : Mem} {c : Ctx} {r : Regs} (hr : RegsOk (vsxBool c) r)
    (hL : Laid m.bytes (regLayout (vsxBool c) r) c.st.pos)
    (hl : c.st.pos + layoutSize (regLayout (vsxBool c) r) ≤ m.bytes.length) :
    parseRegs m c = .ok r (advance c (layoutSize (regLayout (vsxBool c) r))) := by
  obtain ⟨e1, e2, e3, e4, e5, e6, ⟨k1, k2, k3, k4, k5, k6⟩, ⟨v1, v2, v3, v4⟩, hv, hi⟩ := hr
  have i1 : ∀ x ∈ r.gprsIn, x.index.toNat < 256 := fun x hx => hi x (by simp [hx])
  have i2 : ∀ x ∈ r.fprsIn, x.index.toNat < 256 := fun x hx => hi x (by simp [hx])
  have i3 : ∀ x ∈ r.gprsOut, x.index.toNat < 256 := fun x hx => hi x (by simp [hx])
  have i4 : ∀ x ∈ r.fprsOut, x.index.toNat < 256 := fun x hx => hi x (by simp [hx])
  have z1 : vsxBool c = false → r.nrVsxsIn = 0 := fun h => (hv h).1
  have z2 : vsxBool c = false → r.nrVsxsOut = 0 := fun h => (hv h).2
  have split : ∀ {p x y}, At m.bytes p (x ++ y) → At m.bytes p x ∧ At m.bytes (p + x.length) y := at_append.mp
  generalize hb : vsxBool c = v at *
  unfold regLayout at hL hl ⊢
  simp only [Laid, and_true] at hL
  obtain ⟨a0, a11, a12, a15, a16, a17, a20⟩ := hL
  obtain ⟨a0, a10⟩ := split a0
  obtain ⟨a0, a9⟩ := split a0
  obtain ⟨a0, a8⟩ := split a0
  obtain ⟨a0, a5⟩ := split a0
  obtain ⟨a0, a4⟩ := split a0
  obtain ⟨a1, a0⟩ := at_cons.mp a0
  obtain ⟨a2, a3⟩ := at_cons.mp a0
  obtain ⟨a6, a0⟩ := at_cons.mp a8
  obtain ⟨a7, a8⟩ := at_cons.mp a0
  have vl : ∀ n, (if v then [count n] else []).length = if v then 1 else 0 := by intro n; split <;> rfl
  simp only [layoutSize, List.map_cons, List.map_nil, List.sum_cons, List.sum_nil, Piece.size, Nat.add_zero] at hl ⊢
  simp only [List.length_append, List.length_cons, List.length_nil, vl, Nat.zero_add, Nat.reduceAdd, Nat.add_assoc] at *
  generalize hd : (if v = true then 1 else 0) = d at *
  have A : ∀ {p q x}, At m.bytes p x → q = p → At m.bytes q x := by intro p q x h e; rw [e]; exact h
  unfold parseRegs
  have hc : c = advance c 0 := advance_zero c
  rw [hc]
  refine bind_adv _ _ (get8n_at (n := r.nrGprsIn) (by omega) (A a1 (by simp only [advance_pos]; try omega))) ?_
  refine bind_adv _ _ (get8n_at (n := r.nrFprsIn) (by omega) (A a2 (by simp only [advance_pos]; try omega))) ?_
  refine bind_adv _ _ (get8n_at (n := r.nrVmxsIn) (by omega) (A a3 (by simp only [advance_pos]; try omega))) ?_
  refine bind_adv _ _ (vsxCount_at' (n := r.nrVsxsIn) (v := v) (d := d) (by simp only [vsxBool_advance, hb]) hd (by omega) z1
    (A a4 (by simp only [advance_pos]; try omega))) ?_
  refine bind_adv _ _ (get8n_at (n := r.nrSprsIn) (by omega) (A a5 (by simp only [advance_pos]; try omega))) ?_
  refine bind_adv _ _ (get8n_at (n := r.nrGprsOut) (by omega) (A a6 (by simp only [advance_pos]; try omega))) ?_
  refine bind_adv _ _ (get8n_at (n := r.nrFprsOut) (by omega) (A a7 (by simp only [advance_pos]; try omega))) ?_
  refine bind_adv _ _ (get8n_at (n := r.nrVmxsOut) (by omega) (A a8 (by simp only [advance_pos]; try omega))) ?_
  refine bind_adv _ _ (vsxCount_at' (n := r.nrVsxsOut) (v := v) (d := d) (by simp only [vsxBool_advance, hb]) hd (by omega) z2
    (A a9 (by simp only [advance_pos]; try omega))) ?_
  refine bind_adv _ _ (get8n_at (n := r.nrSprsOut) (by omega) (A a10 (by simp only [advance_pos]; try omega))) ?_
  rw [← e1, ← e2, ← e3, ← e4, ← e5, ← e6]
  refine bind_adv _ _ (readRegs8_at MAX_GPRS r.gprsIn 0 m _ (by simp only [MAX_GPRS]; omega) i1
    (A a11 (by simp only [advance_pos]; try omega))) ?_
  refine bind_adv _ _ (readRegs8_at MAX_FPRS r.fprsIn 0 m _ (by simp only [MAX_FPRS]; omega) i2
    (A a12 (by simp only [advance_pos]; try omega))) ?_
  refine bind_adv _ _ (bump_eq _ _ _) ?_
  refine bind_adv _ _ (bump_eq _ _ _) ?_
  refine bind_adv _ _ (readRegs16_at MAX_SPRS r.sprsIn 0 m _ (by simp only [MAX_SPRS]; omega)
    (A a15 (by simp only [advance_pos]; try omega))) ?_
  refine bind_adv _ _ (readRegs8_at MAX_GPRS r.gprsOut 0 m _ (by simp only [MAX_GPRS]; omega) i3
    (A a16 (by simp only [advance_pos]; try omega))) ?_
  refine bind_adv _ _ (readRegs8_at MAX_FPRS r.fprsOut 0 m _ (by simp only [MAX_FPRS]; omega) i4
    (A a17 (by simp only [advance_pos]; try omega))) ?_
  refine bind_adv _ _ (bump_eq _ _ _) ?_
  refine bind_adv _ _ (bump_eq _ _ _) ?_
  refine bind_adv _ _ (readRegs16_at MAX_SPRS r.sprsOut 0 m _ (by simp only [MAX_SPRS]; omega)
    (A a20 (by simp only [advance_pos]; try omega))) ?_
  refine bind_adv _ 0 (by
    unfold skipN
    rw [if_neg (by simp only [advance_pos]; try omega)]) ?_
  rw [← hc]
  refine ok_eq ?_ (by omega)
  rw [e1, e2, e3, e4, e5, e6]

end Qt
