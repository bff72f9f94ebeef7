import Verif.Htable.Insert
/-! The invariant of the hash table. -/
namespace Htable

/-- Pointers that can share a table: each has a bit above bit 0 which the other one lacks or has as its highest bit. -/
def Spaced (U : Word → Prop) : Prop :=
  ∀ p q, U p → U q → ∃ j, 1 ≤ j ∧ q.getLsbD j = true ∧ (p.getLsbD j = true → ∀ i, j < i → p.getLsbD i = false)

theorem topBit_spec (p : Word) : ∀ n, (∃ j, 1 ≤ j ∧ j ≤ n ∧ p.getLsbD j = true) →
    1 ≤ topBit p n ∧ topBit p n ≤ n ∧ p.getLsbD (topBit p n) = true ∧ ∀ i, topBit p n < i → i ≤ n → p.getLsbD i = false := by
  intro n
  induction n with
  | zero => rintro ⟨j, h1, h2, -⟩; omega
  | succ n ih =>
    rintro ⟨j, h1, h2, h3⟩
    unfold topBit
    by_cases h : p.getLsbD (n + 1) = true
    · rw [if_pos h]
      exact ⟨by omega, by omega, h, fun i a b => by omega⟩
    · rw [if_neg h]
      have : j ≠ n + 1 := by rintro rfl; exact h h3
      obtain ⟨a, b, c, d⟩ := ih ⟨j, h1, by omega, h3⟩
      refine ⟨a, by omega, c, ?_⟩
      intro i hi1 hi2
      by_cases hin : i = n + 1
      · rw [hin]; simpa using h
      · exact d i hi1 (by omega)

/-- The mask does not cover the highest bit of `p1`, whose other bits are the shared ones. -/
structure Origin (ht : Ht) (p1 : Word) : Prop where
  top : ∃ t, 1 ≤ t ∧ p1.getLsbD t = true ∧ (∀ i, t < i → p1.getLsbD i = false) ∧ ht.mask.getLsbD t = false
  cb : ht.cbits = p1 &&& ht.mask

/-- A pointer that agrees with the shared bits fits. -/
theorem Origin.fits {U : Word → Prop} (hU : Spaced U) {ht : Ht} {p1 p : Word} (h1 : U p1) (hp : U p) (o : Origin ht p1)
    (h : p &&& ht.mask = ht.cbits) : Fits ht p := by
  refine ⟨h, ?_⟩
  obtain ⟨j, hj1, hj2, hj3⟩ := hU p1 p h1 hp
  obtain ⟨t, ht1, ht2, ht3, ht4⟩ := o.top
  refine ⟨j, hj1, hj2, ?_⟩
  by_cases hb : p1.getLsbD j = true
  · have : j = t := by
      have h1 := hj3 hb
      rcases Nat.lt_trichotomy j t with hlt | heq | hgt
      · have := h1 t hlt; rw [ht2] at this; cases this
      · exact heq
      · have := ht3 j hgt; rw [hb] at this; cases this
    rw [this]; exact ht4
  · rw [o.cb] at h
    have := bit_of h j
    rw [BitVec.getLsbD_and, BitVec.getLsbD_and, hj2] at this
    cases hm : ht.mask.getLsbD j with
    | false => rfl
    | true => rw [hm] at this; simp at this; exact absurd this hb

/-- Invariant: `S` is what the table holds. -/
structure Inv (hash : Word → Word) (U : Word → Prop) (ht : Ht) (S : List Word) (s : List Slot) : Prop where
  view : View hash ht s
  chain : Chain (fun p => ht.bucket (hash p)) ht.size s
  perm : (elements s).Perm S
  elems : ht.elems = S.length
  max : ht.max = 3 * 2 ^ ht.bits / 4
  maxDel : ht.maxDel = 9 * 2 ^ ht.bits / 10
  used : nonEmpty s ≤ ht.elems + ht.deleted
  full : ht.elems + ht.deleted ≤ ht.maxDel
  room : ht.elems ≤ ht.max
  bits : ht.bits ≤ 30
  origin : (ht.mask = -1 ∧ ht.cbits = 0 ∧ S = []) ∨ ∃ p1, U p1 ∧ Origin ht p1
  mem : ∀ p ∈ S, U p

section
variable {hash : Word → Word} {U : Word → Prop} {ht : Ht} {S : List Word} {s : List Slot}

theorem Inv.notFull (h : Inv hash U ht S s) : nonEmpty s < ht.size := by
  have h1 := h.used
  have h2 := h.full
  have h3 := h.maxDel
  have h4 : 0 < 2 ^ ht.bits := Nat.two_pow_pos _
  unfold Ht.size
  generalize 2 ^ ht.bits = n at *
  omega

theorem elements_length (h : Inv hash U ht S s) : (elements s).length = ht.elems := by
  rw [h.perm.length_eq, h.elems]

/-- Growing keeps the invariant and makes room. -/
theorem Inv.grow (h : Inv hash U ht S s) (hsmall : S.length + 1 ≤ 3 * 2 ^ 28) :
    ∃ ht' s', ht.grow hash = some ht' ∧ Inv hash U ht' S s' ∧ ht'.elems + 1 ≤ ht'.max := by
  unfold Ht.grow
  by_cases hg : ht.elems + 1 > ht.max
  · rw [if_pos hg]
    have hmax := h.max
    have hroom := h.room
    have hel := h.elems
    have hb : ht.bits < 30 := by
      apply Nat.lt_of_le_of_ne h.bits
      intro hb
      rw [hb] at hmax
      have : 3 * 2 ^ 30 / 4 = 3 * 2 ^ 28 := by decide +kernel
      omega
    have hpow : 2 ^ (ht.bits + 1) = 2 * 2 ^ ht.bits := by rw [Nat.pow_succ]; omega
    have hpos : 0 < 2 ^ ht.bits := Nat.two_pow_pos _
    have hcap : ht.elems + 1 ≤ 3 * 2 ^ (ht.bits + 1) / 4 := by
      rw [hpow]
      generalize 2 ^ ht.bits = n at *
      omega
    have hle : (elements s).length < 2 ^ (ht.bits + 1) := by
      rw [elements_length h, hpow]
      generalize 2 ^ ht.bits = n at *
      omega
    obtain ⟨t', e1, e2, e3, e4, e5⟩ := double_spec h.view hb hle
    have hcount := not_deleted_count e4
    rw [e5.length_eq, elements_length h] at hcount
    refine ⟨_, t', e1, ?_, hcap⟩
    refine ⟨⟨e2.len, rfl, ⟨e2.masks.perf, e2.masks.cb⟩, fun p hp => ⟨(e2.fits p hp).common, (e2.fits p hp).shown⟩⟩, e3,
      e5.trans h.perm, h.elems, rfl, rfl, ?_, ?_, ?_, ?_, ?_, h.mem⟩
    · show nonEmpty t' ≤ ht.elems + 0
      omega
    · show ht.elems + 0 ≤ 9 * 2 ^ (ht.bits + 1) / 10
      omega
    · show ht.elems ≤ 3 * 2 ^ (ht.bits + 1) / 4
      omega
    · show ht.bits + 1 ≤ 30
      omega
    · rcases h.origin with ⟨a, b, c⟩ | ⟨p1, a, b⟩
      · exact .inl ⟨a, b, c⟩
      · exact .inr ⟨p1, a, b.top, b.cb⟩
  · rw [if_neg hg]
    exact ⟨ht, s, rfl, h, by omega⟩

/-- Cleaning keeps the invariant and leaves room before the limit with deleted entries. -/
theorem Inv.clean (h : Inv hash U ht S s) (hroom : ht.elems + 1 ≤ ht.max) :
    ∃ ht' s', ht.clean hash = some ht' ∧ Inv hash U ht' S s' ∧ ht'.elems + 1 ≤ ht'.max ∧
      ht'.elems + 1 + ht'.deleted ≤ ht'.maxDel := by
  unfold Ht.clean
  by_cases hg : ht.elems + 1 + ht.deleted > ht.maxDel
  · rw [if_pos hg]
    obtain ⟨t', e1, e2, e3, e4, e5⟩ := rehash_spec h.view h.chain h.notFull
    have hcount := not_deleted_count e4
    rw [e5.length_eq, elements_length h] at hcount
    have h1 := h.max
    have h2 := h.maxDel
    have hfull : ht.elems + 1 + 0 ≤ ht.maxDel := by
      generalize 2 ^ ht.bits = n at *
      omega
    refine ⟨_, t', e1, ?_, hroom, hfull⟩
    refine ⟨⟨e2.len, rfl, ⟨e2.masks.perf, e2.masks.cb⟩, fun p hp => ⟨(e2.fits p hp).common, (e2.fits p hp).shown⟩⟩, e3,
      e5.trans h.perm, h.elems, h.max, h.maxDel, ?_, ?_, h.room, h.bits, ?_, h.mem⟩
    · show nonEmpty t' ≤ ht.elems + 0
      omega
    · show ht.elems + 0 ≤ ht.maxDel
      omega
    · rcases h.origin with ⟨a, b, c⟩ | ⟨p1, a, b⟩
      · exact .inl ⟨a, b, c⟩
      · exact .inr ⟨p1, a, b.top, b.cb⟩
  · rw [if_neg hg]
    exact ⟨ht, s, rfl, h, hroom, by omega⟩

/-! ### The masks -/

theorem reencode {m c pf p x q : Word} {f : Bool} (hpf : pf &&& ~~~ m = 0) (hc : c &&& ~~~ m = 0) (hp : p &&& m = c) :
    (p &&& ~~~ (m &&& ~~~ (c ^^^ (q &&& m)))) |||
      ((x &&& (m &&& ~~~ (c ^^^ (q &&& m))) &&& ~~~ (pf &&& ~~~ (c ^^^ (q &&& m)))) |||
        if f then pf &&& ~~~ (c ^^^ (q &&& m)) else 0) =
    (((p &&& ~~~ m) ||| ((x &&& m &&& ~~~ pf) ||| if f then pf else 0)) &&& ~~~ (c ^^^ (q &&& m))) |||
      (c &&& (c ^^^ (q &&& m))) := by
  subst hp
  clear hc
  cases f
  all_goals
    ext i hi
    have h1 := bit_of hpf i
    simp only [hi, BitVec.getLsbD_eq_getElem, BitVec.getElem_and, BitVec.getElem_or, BitVec.getElem_not, BitVec.getElem_xor,
      BitVec.ofNat_eq_ofNat, BitVec.getElem_zero, Bool.false_eq_true, if_true, if_false] at h1 ⊢
    generalize m[i] = a at h1 ⊢
    generalize pf[i] = b at h1 ⊢
    generalize p[i] = c
    generalize q[i] = d
    generalize x[i] = e
    revert h1 a b c d e
    decide

theorem view_updateCommon (v : View hash ht s) (p : Word) (hne : ht.elems ≠ 0) : View hash (ht.updateCommon p) s := by
  have hred : ht.updateCommon p = { ht with
      table := ht.table.map fun e => if valid e then (e &&& ~~~ (ht.cbits ^^^ (p &&& ht.mask))) |||
        (ht.cbits &&& (ht.cbits ^^^ (p &&& ht.mask))) else e
      mask := ht.mask &&& ~~~ (ht.cbits ^^^ (p &&& ht.mask))
      cbits := ht.cbits &&& ~~~ (ht.cbits ^^^ (p &&& ht.mask))
      perfect := ht.perfect &&& ~~~ (ht.cbits ^^^ (p &&& ht.mask)) } := by
    unfold Ht.updateCommon
    rw [if_neg hne]
  rw [hred]
  have hD : ∀ i (hi : i < 64), ht.mask[i] = false → ht.cbits[i] = false ∧ ht.perfect[i] = false := by
    intro i hi hm
    have h1 := bit_of v.masks.cb i
    have h2 := bit_of v.masks.perf i
    simp [hi, hm] at h1 h2
    exact ⟨by simpa [BitVec.getLsbD_eq_getElem, hi] using h1, by simpa [BitVec.getLsbD_eq_getElem, hi] using h2⟩
  refine ⟨v.len, ?_, ⟨?_, ?_⟩, ?_⟩
  · show List.map _ ht.table = _
    rw [v.words, List.map_map]
    apply List.map_congr_left
    intro x hx
    simp only [Function.comp_apply]
    cases x with
    | empty => rfl
    | deleted => rfl
    | elem q f =>
      have hf := v.fits q (mem_elements.2 ⟨f, hx⟩)
      rw [if_pos (by exact hf.valid_mk _)]
      exact (reencode v.masks.perf v.masks.cb hf.common).symm
  · ext i hi
    have := hD i hi
    simp
    cases hm : ht.mask[i] <;> cases ht.cbits[i] <;> cases p[i] <;> simp_all
  · ext i hi
    have := hD i hi
    simp
    cases hm : ht.mask[i] <;> cases ht.cbits[i] <;> cases p[i] <;> simp_all
  · intro q hq
    obtain ⟨h1, j, j1, j2, j3⟩ := v.fits q hq
    refine ⟨?_, j, j1, j2, ?_⟩
    · show q &&& (ht.mask &&& _) = ht.cbits &&& _
      rw [← BitVec.and_assoc, h1]
    · show (ht.mask &&& _).getLsbD j = false
      rw [BitVec.getLsbD_and, j3]; rfl

/-- Masks after the update, when there are elements. -/
theorem updateCommon_masks (p : Word) (hne : ht.elems ≠ 0) :
    (ht.updateCommon p).mask = ht.mask &&& ~~~ (ht.cbits ^^^ (p &&& ht.mask)) ∧
    (ht.updateCommon p).cbits = ht.cbits &&& ~~~ (ht.cbits ^^^ (p &&& ht.mask)) := by
  unfold Ht.updateCommon
  rw [if_neg hne]
  exact ⟨rfl, rfl⟩

/-- The fields the update leaves alone. -/
theorem updateCommon_frame (p : Word) : (ht.updateCommon p).bits = ht.bits ∧ (ht.updateCommon p).elems = ht.elems ∧
    (ht.updateCommon p).deleted = ht.deleted ∧ (ht.updateCommon p).max = ht.max ∧ (ht.updateCommon p).maxDel = ht.maxDel := by
  unfold Ht.updateCommon
  split <;> exact ⟨rfl, rfl, rfl, rfl, rfl⟩

theorem Spaced.bit {U : Word → Prop} (hU : Spaced U) {p : Word} (hp : U p) : ∃ j, 1 ≤ j ∧ j ≤ 63 ∧ p.getLsbD j = true := by
  obtain ⟨j, h1, h2, -⟩ := hU p p hp hp
  exact ⟨j, h1, by have := getLsbD_lt h2; omega, h2⟩

/-- After the update the pointer fits and the invariant holds. -/
theorem Inv.updateCommon (hU : Spaced U) (h : Inv hash U ht S s) {p : Word} (hp : U p) :
    Inv hash U (ht.updateCommon p) S s ∧ Fits (ht.updateCommon p) p := by
  obtain ⟨f1, f2, f3, f4, f5⟩ := updateCommon_frame (ht := ht) p
  have key : View hash (ht.updateCommon p) s ∧ (∃ p1, U p1 ∧ Origin (ht.updateCommon p) p1) ∧
      p &&& (ht.updateCommon p).mask = (ht.updateCommon p).cbits := by
    by_cases hne : ht.elems = 0
    · have hS : S = [] := List.eq_nil_of_length_eq_zero (by rw [← h.elems]; exact hne)
      have hE : elements s = [] := by have := h.perm; rw [hS] at this; exact this.eq_nil
      have hred : ht.updateCommon p = { ht with mask := ~~~ (BitVec.twoPow 64 (topBit p 63)),
                                                cbits := p &&& ~~~ (BitVec.twoPow 64 (topBit p 63)), perfect := 1 } := by
        unfold Ht.updateCommon
        rw [if_pos hne]
      obtain ⟨t1, t2, t3, t4⟩ := topBit_spec p 63 (hU.bit hp)
      rw [hred]
      generalize hT : topBit p 63 = t at t1 t2 t3 t4
      refine ⟨⟨h.view.len, ?_, ⟨?_, ?_⟩, ?_⟩, ⟨p, hp, ⟨t, t1, t3, ?_, ?_⟩, rfl⟩, rfl⟩
      · show ht.table = _
        rw [h.view.words]
        apply List.map_congr_left
        intro x hx
        cases x with
        | empty => rfl
        | deleted => rfl
        | elem q f =>
          exfalso
          have := mem_elements.2 ⟨f, hx⟩
          rw [hE] at this
          simp at this
      · show (1 : Word) &&& ~~~ ~~~ (BitVec.twoPow 64 t) = 0
        apply BitVec.eq_of_getLsbD_eq
        intro i hi
        rw [BitVec.not_not, BitVec.getLsbD_and, BitVec.getLsbD_twoPow, show (1 : Word) = 1#64 from rfl, BitVec.getLsbD_one]
        by_cases hi0 : i = 0
        · subst hi0
          have : t ≠ 0 := by omega
          simp [this]
        · simp [hi0]
      · show (p &&& ~~~ (BitVec.twoPow 64 t)) &&& ~~~ ~~~ (BitVec.twoPow 64 t) = 0
        generalize BitVec.twoPow 64 t = w
        ext i hi
        simp
      · intro q hq
        rw [hE] at hq
        simp at hq
      · intro i hi
        by_cases h64 : i ≤ 63
        · exact t4 i hi h64
        · exact BitVec.getLsbD_of_ge _ _ (by omega)
      · show (~~~ (BitVec.twoPow 64 t)).getLsbD t = false
        rw [BitVec.getLsbD_not, BitVec.getLsbD_twoPow]
        have : t < 64 := by omega
        simp [this]
    · obtain ⟨m1, m2⟩ := updateCommon_masks (ht := ht) p hne
      refine ⟨view_updateCommon h.view p hne, ?_, ?_⟩
      · rcases h.origin with ⟨-, -, c⟩ | ⟨p1, a, b⟩
        · exfalso; rw [h.elems, c] at hne; exact hne rfl
        · obtain ⟨t, t1, t2, t3, t4⟩ := b.top
          refine ⟨p1, a, ⟨t, t1, t2, t3, ?_⟩, ?_⟩
          · rw [m1, BitVec.getLsbD_and, t4]; rfl
          · rw [m1, m2, b.cb, BitVec.and_assoc]
      · rw [m1, m2]
        have hcb := h.view.masks.cb
        generalize ht.cbits = c at *
        generalize ht.mask = m at *
        ext i hi
        have := bit_of hcb i
        simp [hi, BitVec.getLsbD_eq_getElem] at this ⊢
        cases m[i] <;> cases c[i] <;> cases p[i] <;> simp_all
  obtain ⟨k1, ⟨p1, k2, k3⟩, k4⟩ := key
  refine ⟨⟨k1, ?_, h.perm, ?_, ?_, ?_, ?_, ?_, ?_, ?_, .inr ⟨p1, k2, k3⟩, h.mem⟩, k3.fits hU k2 hp k4⟩
  · have e1 : (ht.updateCommon p).size = ht.size := by unfold Ht.size; rw [f1]
    have e2 : (fun q => (ht.updateCommon p).bucket (hash q)) = fun q => ht.bucket (hash q) := by
      funext q; unfold Ht.bucket; rw [e1]
    rw [e1, e2]; exact h.chain
  · rw [f2]; exact h.elems
  · rw [f4, f1]; exact h.max
  · rw [f5, f1]; exact h.maxDel
  · rw [f2, f3]; exact h.used
  · rw [f2, f3, f5]; exact h.full
  · rw [f2, f4]; exact h.room
  · rw [f1]; exact h.bits

/-! ### Adding and deleting -/

theorem Inv.place' (h : Inv hash U ht S s) {p : Word} (hp : U p) (hf : Fits ht p)
    (horigin : ∃ p1, U p1 ∧ Origin ht p1)
    (hmax : ht.elems + 1 ≤ ht.max) (hfull : ht.elems + 1 + ht.deleted ≤ ht.maxDel) :
    ∃ ht' s', (ht.htAdd p (hash p)).map (fun ht => { ht with elems := ht.elems + 1 }) = some ht' ∧
      Inv hash U ht' (p :: S) s' := by
  have hroom : (elements s).length < ht.size := by
    have h1 := elements_le s
    have h2 := h.notFull
    omega
  obtain ⟨k, x, hk, hx, he, -, e1, e2, e3⟩ := h.view.htAdd h.chain (p := p) hroom
  rw [e1]
  refine ⟨_, s.set ((ht.bucket (hash p) + k) % ht.size) (.elem p (decide (k = 0))), rfl, ?_⟩
  refine ⟨⟨?_, rfl, ⟨h.view.masks.perf, h.view.masks.cb⟩, ?_⟩, e2, e3.trans (h.perm.cons p), ?_, h.max, h.maxDel, ?_, ?_, hmax,
    h.bits, ?_, ?_⟩
  · rw [List.length_set]; exact h.view.len
  · intro q hq
    rcases List.mem_cons.1 (e3.mem_iff.1 hq) with rfl | hq
    · exact ⟨hf.common, hf.shown⟩
    · exact ⟨(h.view.fits q hq).common, (h.view.fits q hq).shown⟩
  · show ht.elems + 1 = _
    rw [h.elems]; rfl
  · show nonEmpty _ ≤ ht.elems + 1 + ht.deleted
    have h1 := nonEmpty_set (new := .elem p (decide (k = 0))) hx
    have h2 := h.used
    rw [show (Slot.elem p (decide (k = 0))).used = true from rfl, if_pos rfl] at h1
    split at h1 <;> omega
  · show ht.elems + 1 + ht.deleted ≤ ht.maxDel
    exact hfull
  · obtain ⟨p1, a, b⟩ := horigin
    exact .inr ⟨p1, a, b.top, b.cb⟩
  · intro q hq
    rcases List.mem_cons.1 hq with rfl | hq
    · exact hp
    · exact h.mem q hq

theorem Inv.place (hU : Spaced U) (h : Inv hash U ht S s) {p : Word} (hp : U p)
    (hmax : ht.elems + 1 ≤ ht.max) (hfull : ht.elems + 1 + ht.deleted ≤ ht.maxDel) :
    ∃ ht' s', ht.place hash p = some ht' ∧ Inv hash U ht' (p :: S) s' := by
  unfold Ht.place
  simp only
  by_cases hc : p &&& ht.mask ≠ ht.cbits
  · rw [if_pos hc]
    obtain ⟨i1, i2⟩ := h.updateCommon hU hp
    obtain ⟨f1, f2, f3, f4, f5⟩ := updateCommon_frame (ht := ht) p
    refine i1.place' hp i2 ?_ (by rw [f2, f4]; exact hmax) (by rw [f2, f3, f5]; exact hfull)
    rcases i1.origin with ⟨a, b, c⟩ | h
    · exfalso
      obtain ⟨j, j1, j2, j3⟩ := i2.shown
      rw [a, show (-1 : Word) = BitVec.allOnes 64 by decide, BitVec.getLsbD_allOnes] at j3
      have := getLsbD_lt j2
      simp at j3
      omega
    · exact h
  · rw [if_neg hc]
    have hc : p &&& ht.mask = ht.cbits := by simpa using hc
    rcases h.origin with ⟨a, b, c⟩ | ⟨p1, a, b⟩
    · exfalso
      rw [a, b, show (-1 : Word) = BitVec.allOnes 64 by decide, BitVec.and_allOnes] at hc
      obtain ⟨j, j1, j2, j3⟩ := hU.bit hp
      rw [hc] at j3
      simp at j3
    · exact h.place' hp (b.fits hU a hp hc) ⟨p1, a, b⟩ hmax hfull

theorem Inv.add (hU : Spaced U) (h : Inv hash U ht S s) {p : Word} (hp : U p) (hsmall : S.length + 1 ≤ 3 * 2 ^ 28) :
    ∃ ht' s', ht.add hash p = some ht' ∧ Inv hash U ht' (p :: S) s' := by
  obtain ⟨h1, s1, e1, i1, m1⟩ := h.grow hsmall
  obtain ⟨h2, s2, e2, i2, m2, m2'⟩ := i1.clean m1
  obtain ⟨h3, s3, e3, i3⟩ := i2.place hU hp m2 m2'
  refine ⟨h3, s3, ?_, i3⟩
  unfold Ht.add
  rw [e1, Option.bind_some, e2, Option.bind_some, if_neg, e3]
  rintro rfl
  obtain ⟨j, j1, j2, j3⟩ := hU.bit hp
  simp at j3

theorem chain_delete {home : Word → Nat} {n : Nat} (hc : Chain home n s) (i : Nat) : Chain home n (s.set i .deleted) := by
  have keep : ∀ j : Nat, s[j]? ≠ some .empty → (s.set i .deleted)[j]? ≠ some .empty := by
    intro j hj
    rw [List.getElem?_set]
    split
    · split <;> simp
    · exact hj
  intro k hk p f h
  rw [List.getElem?_set] at h
  split at h
  · split at h <;> cases h
  · obtain ⟨h1, h2⟩ := hc k hk p f h
    exact ⟨h1, fun k' hk' => keep _ (h2 k' hk')⟩

/-- Deleting: the result tells whether the pointer was there, and one occurrence of it goes away. -/
theorem Inv.del (h : Inv hash U ht S s) (p : Word) :
    ∃ ht' s', ht.del hash p = some (decide (p ∈ S), ht') ∧ Inv hash U ht' (S.erase p) s' := by
  obtain ⟨l, -, hs, ⟨t, ht1, ht2⟩, hpos⟩ := matches_spec h.view h.chain h.notFull (hash p)
  have hmemS : p ∈ S ↔ p ∈ l.map (·.2) := by
    rw [← h.perm.mem_iff, ht1.mem_iff, List.mem_append]
    constructor
    · rintro (hp | hp)
      · exfalso
        have : p ∈ t.filter fun q => hash q == hash p := by simp [hp]
        rw [ht2] at this
        simp at this
      · exact hp
    · exact .inr
  unfold Ht.del
  rw [hs]
  cases hfind : l.find? fun c => c.2 == p with
  | none =>
    have hno : p ∉ S := by
      rw [hmemS, List.mem_map]
      rintro ⟨c, hc, rfl⟩
      have := List.find?_eq_none.1 hfind c hc
      simp at this
    refine ⟨ht, s, ?_, ?_⟩
    · simp [hno]
    · rw [List.erase_of_not_mem hno]; exact h
  | some c =>
    have hc := List.mem_of_find?_eq_some hfind
    have hcp : c.2 = p := by
      have := List.find?_some hfind
      simpa using this
    have hyes : p ∈ S := by
      rw [hmemS, List.mem_map]
      exact ⟨c, hc, hcp⟩
    obtain ⟨f, hsc⟩ := hpos c hc
    rw [hcp] at hsc
    simp only
    rw [h.view.get hsc]
    simp only
    rw [h.view.valid_enc hsc]
    simp only [Slot.isElem, if_true, hyes, decide_true]
    have hel := elements_set (new := .deleted) hsc
    simp only [Slot.ptr?, Option.toList, List.nil_append, List.singleton_append] at hel
    have hlen : S.length ≠ 0 := by
      intro h0
      have := List.eq_nil_of_length_eq_zero h0
      rw [this] at hyes
      simp at hyes
    have hperm : (elements (s.set c.1 .deleted)).Perm (S.erase p) := by
      have h1 := hel.trans h.perm
      have h2 := h1.erase p
      rwa [List.erase_cons_head] at h2
    refine ⟨_, s.set c.1 .deleted, rfl, ?_⟩
    refine ⟨⟨?_, ?_, ⟨h.view.masks.perf, h.view.masks.cb⟩, ?_⟩, chain_delete h.chain _, hperm, ?_, h.max, h.maxDel, ?_, ?_, ?_,
      h.bits, ?_, ?_⟩
    · rw [List.length_set]; exact h.view.len
    · show ht.table.set c.1 1 = _
      rw [h.view.words, List.map_set]
      rfl
    · intro q hq
      have := h.view.fits q (hel.mem_iff.1 (List.mem_cons_of_mem _ hq))
      exact ⟨this.common, this.shown⟩
    · show ht.elems - 1 = _
      rw [h.elems, List.length_erase_of_mem hyes]
    · show nonEmpty _ ≤ ht.elems - 1 + (ht.deleted + 1)
      have h1 := nonEmpty_set (new := .deleted) hsc
      have h2 := h.used
      simp only [Slot.used, if_true] at h1
      omega
    · show ht.elems - 1 + (ht.deleted + 1) ≤ ht.maxDel
      have h1 := h.elems
      have h2 := h.full
      omega
    · show ht.elems - 1 ≤ ht.max
      have := h.room
      omega
    · rcases h.origin with ⟨-, -, hS⟩ | ⟨p1, a, b⟩
      · rw [hS] at hlen; exact absurd rfl hlen
      · exact .inr ⟨p1, a, b.top, b.cb⟩
    · intro q hq
      exact h.mem q (List.mem_of_mem_erase hq)

/-! ### Start -/

theorem view_start (ht : Ht) (hcb : ht.cbits = 0) (hp : ht.perfect = 0)
    (hw : ht.table = List.replicate ht.size 0) : View hash ht (List.replicate ht.size .empty) where
  len := List.length_replicate ..
  words := by rw [hw, List.map_replicate]; rfl
  masks := ⟨by rw [hp]; simp, by rw [hcb]; simp⟩
  fits := by rw [elements_replicate]; simp

theorem nonEmpty_replicate (n : Nat) : nonEmpty (List.replicate n .empty) = 0 := by
  unfold nonEmpty
  rw [List.countP_eq_zero]
  intro x hx
  rw [List.eq_of_mem_replicate hx]
  simp [Slot.used]

theorem Inv.init : Inv hash U init [] (List.replicate 1 .empty) := by
  refine ⟨view_start Htable.init rfl rfl rfl, chain_replicate _ _ _, ?_, rfl, by decide, by decide, ?_, by decide, by decide,
    by decide, .inl ⟨rfl, rfl, rfl⟩, by simp⟩
  · rw [elements_replicate]
  · rw [nonEmpty_replicate]; exact Nat.zero_le _

theorem sizeBits_le (e : Nat) : ∀ fuel b, b ≤ 30 → 30 ≤ b + fuel → sizeBits e fuel b ≤ 30 := by
  intro fuel
  induction fuel with
  | zero => intro b h1 h2; unfold sizeBits; exact h1
  | succ fuel ih =>
    intro b h1 h2
    unfold sizeBits
    split
    · split
      · exact h1
      · exact ih (b + 1) (by omega) (by omega)
    · exact h1

theorem Inv.initSized (e : Nat) : Inv hash U (initSized e) [] (List.replicate (2 ^ sizeBits e 30 1) .empty) := by
  refine ⟨view_start (Htable.initSized e) rfl rfl rfl, chain_replicate _ _ _, ?_, rfl, rfl, rfl, ?_, Nat.zero_le _,
    Nat.zero_le _, sizeBits_le e 30 1 (by omega) (by omega), .inl ⟨rfl, rfl, rfl⟩, by simp⟩
  · rw [elements_replicate]
  · rw [nonEmpty_replicate]; exact Nat.zero_le _

theorem iterate_spec (h : Inv hash U ht S s) : ht.iterate = elements s := by
  unfold Ht.iterate
  rw [h.view.words]
  have : ∀ l : List Slot, (∀ x ∈ l, x ∈ s) → ((l.map (ht.enc hash)).filter valid).map ht.raw = elements l := by
    intro l
    induction l with
    | nil => intro _; rfl
    | cons x l ih =>
      intro hl
      have ih := ih fun y hy => hl y (List.mem_cons_of_mem _ hy)
      obtain ⟨i, hi⟩ := List.getElem?_of_mem (hl x (by simp))
      rw [List.map_cons, List.filter_cons, h.view.valid_enc hi, elements_cons]
      cases x with
      | empty => exact ih
      | deleted => exact ih
      | elem p f =>
        rw [show (Slot.elem p f).isElem = true from rfl, if_pos rfl, List.map_cons, ih, h.view.raw_enc hi]
        rfl
  exact this s fun _ h => h

end
end Htable
