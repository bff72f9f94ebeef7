import Verif.Bbv.VectorsLemmas
/-!
C35, C36: basic-block vectors.
-/
namespace Bbv
open Spec

/-- The length of an interval, in instructions. -/
def Env.length (e : Env) : Nat := max 1 e.period.toNat

/-- What is asked of the trace: no instruction is at the address that stands for "none", the blocks have less than 2^32 instructions, their
addresses can be numbered with 32 bits, and the sizes of the matrix do not wrap.  The last condition is that doubling the columns of the matrix
once at the end of an interval is enough. -/
structure Fits (e : Env) (recs : List Rec) : Prop where
  addr : ∀ r ∈ recs, r.addr ≠ 0xffffffffffffffff
  block : ∀ b ∈ (cut recs recs.length).blocks, b.length < 2 ^ 32
  ids : (starts (cut recs recs.length).blocks).length + 1 < 2 ^ 32
  length : recs.length < 2 ^ 64
  size : (2 * max 1000 (recs.length / e.length)) * (2 * max 10000 (starts (cut recs recs.length).blocks).length) * 8 < 2 ^ 64
  growth : ∀ i < recs.length / e.length, (starts (cut recs ((i + 1) * e.length)).blocks).length ≤ columns e.length recs (i + 1)

/-- What is asked of the environment: the walk over the table visits every object once, and there is memory. -/
structure Env.Good (e : Env) : Prop where
  walk : ∀ t, (e.walk t).Perm t
  memory : ∀ n, e.heap.grants n = true

/-- The state after `n` records. -/
structure Reached (e : Env) (recs : List Rec) (n : Nat) (s : St) : Prop where
  table : s.table = objs (executed e.length (cut recs n).blocks (n / e.length)) (starts (cut recs n).blocks)
  nextId : s.nextId = BitVec.ofNat 32 (starts (cut recs n).blocks).length
  ea : s.ea = ((cut recs n).rest.map (·.addr)).headD 0xffffffffffffffff
  size : s.size = BitVec.ofNat 32 (cut recs n).rest.length
  insns : s.insns = BitVec.ofNat 64 (n % e.length)
  interval : s.interval = BitVec.ofNat 64 (n / e.length)
  matrix : ∃ R, 1000 ≤ R ∧ n / e.length ≤ R ∧ R ≤ 2 * max 1000 (n / e.length) ∧
    Holds s.matrix R (columns e.length recs (n / e.length))
      (fun r c => if r < n / e.length then BitVec.ofNat 64 (vector e.length (cut recs n).blocks r c) else 0)
  outside : ∀ r j, r < n / e.length → columns e.length recs (n / e.length) ≤ j → vector e.length (cut recs n).blocks r j = 0

theorem Env.length_pos (e : Env) : 0 < e.length := by unfold Env.length; omega

theorem rest_mem {recs : List Rec} : ∀ (n : Nat) (r : Rec), r ∈ (cut recs n).rest → r ∈ recs
  | 0, r, h => by cases h
  | n + 1, r, h => by
    rw [cut] at h
    split at h
    · rename_i x hx
      unfold Cut.add at h
      split at h
      · cases h
      · rcases List.mem_append.1 h with h | h
        · exact rest_mem n r h
        · cases List.mem_singleton.1 h; exact List.mem_of_getElem? hx
    · exact rest_mem n r h

/-- The part of the invariant that an instruction changes before the end of the interval is looked for. -/
structure Mid (e : Env) (recs : List Rec) (n : Nat) (s : St) : Prop where
  table : s.table = objs (executed e.length (cut recs (n + 1)).blocks (n / e.length)) (starts (cut recs (n + 1)).blocks)
  nextId : s.nextId = BitVec.ofNat 32 (starts (cut recs (n + 1)).blocks).length
  ea : s.ea = ((cut recs (n + 1)).rest.map (·.addr)).headD 0xffffffffffffffff
  size : s.size = BitVec.ofNat 32 (cut recs (n + 1)).rest.length
  insns : s.insns = BitVec.ofNat 64 (n % e.length)
  interval : s.interval = BitVec.ofNat 64 (n / e.length)
  matrix : ∃ R, 1000 ≤ R ∧ n / e.length ≤ R ∧ R ≤ 2 * max 1000 (n / e.length) ∧
    Holds s.matrix R (columns e.length recs (n / e.length))
      (fun r c => if r < n / e.length then BitVec.ofNat 64 (vector e.length (cut recs (n + 1)).blocks r c) else 0)
  outside : ∀ r j, r < n / e.length → columns e.length recs (n / e.length) ≤ j → vector e.length (cut recs (n + 1)).blocks r j = 0

theorem ea_set {e : Env} {recs : List Rec} (hf : ∀ r ∈ recs, r.addr ≠ 0xffffffffffffffff) {n : Nat} {s : St} (hs : Reached e recs n s) {r : Rec} :
    (if s.ea = 0xffffffffffffffff then r.addr else s.ea) = (cut recs n).start r := by
  rw [hs.ea]
  unfold Cut.start
  cases hr : (cut recs n).rest with
  | nil => rfl
  | cons x l =>
    have := hf x (rest_mem n x (by rw [hr]; exact List.mem_cons_self))
    exact if_neg this

theorem vector_next {e : Env} {recs : List Rec} {n : Nat} {i j : Nat} (hi : i < n / e.length) :
    vector e.length (cut recs (n + 1)).blocks i j = vector e.length (cut recs n).blocks i j := by
  rw [cut]
  split
  · unfold Cut.add
    split
    · refine vector_add ?_
      dsimp only; omega
    · rfl
  · rfl

theorem ofNat32_succ (k : Nat) : BitVec.ofNat 32 k + 1 = BitVec.ofNat 32 (k + 1) := by
  rw [show (1 : BitVec 32) = BitVec.ofNat 32 1 from rfl, ← BitVec.ofNat_add]

theorem ofNat64_succ (k : Nat) : BitVec.ofNat 64 k + 1 = BitVec.ofNat 64 (k + 1) := by
  rw [show (1 : BitVec 64) = BitVec.ofNat 64 1 from rfl, ← BitVec.ofNat_add]

theorem addBlock_table {f : BitVec 64 → Nat} {l : List Block} {s : St} (ht : s.table = objs f (starts l)) (hi : s.nextId = BitVec.ofNat 32 (starts l).length)
    (hf : ∀ a, a ∉ starts l → f a = 0) {b : Block} {val : BitVec 32} (hv : val.toNat = b.length) :
    (addBlock b.start val s).table = objs (fun a => f a + if b.start = a then b.length else 0) (starts (l ++ [b])) ∧
    (addBlock b.start val s).nextId = BitVec.ofNat 32 (starts (l ++ [b])).length ∧
    (addBlock b.start val s).matrix = s.matrix ∧ (addBlock b.start val s).interval = s.interval ∧ (addBlock b.start val s).insns = s.insns := by
  unfold addBlock
  rw [starts_add, ht]
  by_cases h : b.start ∈ starts l
  · rw [if_pos (objs_any.2 h), if_pos h]
    refine ⟨?_, hi, rfl, rfl, rfl⟩
    show bump _ _ _ = _
    rw [objs_bump (starts_nodup l), hv]
  · rw [if_neg (fun hx => h (objs_any.1 hx)), if_neg h]
    refine ⟨?_, ?_, rfl, rfl, rfl⟩
    · show objs f (starts l) ++ _ = _
      rw [objs_snoc, hi]
      congr 1
      · apply objs_congr
        intro a ha
        rw [if_neg (fun hx => h (by rw [hx]; exact ha)), Nat.add_zero]
      · rw [if_pos rfl, hf _ h, Nat.zero_add]
        congr 2
        apply BitVec.eq_of_toNat_eq
        rw [BitVec.toNat_setWidth, hv, BitVec.toNat_ofNat]
    · show s.nextId + 1 = _
      rw [hi, List.length_append, List.length_singleton, ofNat32_succ]

theorem block_mid {e : Env} {recs : List Rec} (haddr : ∀ r ∈ recs, r.addr ≠ 0xffffffffffffffff)
    (hblock : ∀ b ∈ (cut recs recs.length).blocks, b.length < 2 ^ 32) {n : Nat} (hn : n < recs.length) {s : St} (hs : Reached e recs n s) {r : Rec}
    (hr : recs[n]? = some r) : Mid e recs n (block s r) := by
  have hea := ea_set haddr hs (r := r)
  have hvec : ∀ (i j : Nat), i < n / e.length → vector e.length (cut recs (n + 1)).blocks i j = vector e.length (cut recs n).blocks i j :=
    fun i j h => vector_next h
  obtain ⟨R, hR1, hR2, hR3, hR4⟩ := hs.matrix
  have hmat : Holds s.matrix R (columns e.length recs (n / e.length))
      (fun r c => if r < n / e.length then BitVec.ofNat 64 (vector e.length (cut recs (n + 1)).blocks r c) else 0) := by
    refine hR4.congr fun r c _ _ => ?_
    by_cases h : r < n / e.length
    · rw [if_pos h, if_pos h, hvec _ _ h]
    · rw [if_neg h, if_neg h]
  have hout : ∀ r j, r < n / e.length → columns e.length recs (n / e.length) ≤ j → vector e.length (cut recs (n + 1)).blocks r j = 0 := by
    intro r j h1 h2
    rw [hvec _ _ h1, hs.outside r j h1 h2]
  have hcut := cut_succ hr
  -- the first address of the block
  let s1 : St := { s with ea := (cut recs n).start r, size := s.size + 1 }
  have hs1 : block s r = if r.branch then { addBlock s1.ea s1.size s1 with size := 0, ea := 0xffffffffffffffff } else s1 := by
    unfold block
    show (if r.branch then _ else _) = _
    have : (if s.ea = 0xffffffffffffffff then { s with ea := r.addr } else s) = { s with ea := (cut recs n).start r } := by
      rw [← hea]
      split <;> rfl
    rw [this]
  have hsize : s1.size = BitVec.ofNat 32 ((cut recs n).rest.length + 1) := by
    show s.size + 1 = _
    rw [hs.size, ofNat32_succ]
  rw [hs1]
  by_cases hb : r.branch = true
  · rw [if_pos hb]
    have hc2 : cut recs (n + 1) = { blocks := (cut recs n).blocks ++ [{ start := (cut recs n).start r, length := (cut recs n).rest.length + 1, last := n }], rest := [] } := by
      rw [hcut]; unfold Cut.add; rw [if_pos hb]
    have hlen : (cut recs n).rest.length + 1 < 2 ^ 32 := by
      refine hblock { start := (cut recs n).start r, length := (cut recs n).rest.length + 1, last := n } ?_
      refine (cut_mono recs (show n + 1 ≤ recs.length from hn)).subset ?_
      rw [hc2]
      exact List.mem_append_right _ (List.mem_singleton.2 rfl)
    obtain ⟨h1, h2, h3, h4, h5⟩ := addBlock_table (s := s1) (b := { start := (cut recs n).start r, length := (cut recs n).rest.length + 1, last := n }) hs.table hs.nextId
      (fun a ha => executed_none fun b hb hx => absurd (mem_starts.2 ⟨b, hb, hx⟩) ha) (val := s1.size)
      (by rw [hsize, BitVec.toNat_ofNat, Nat.mod_eq_of_lt hlen])
    refine ⟨?_, ?_, ?_, ?_, ?_, ?_, ⟨R, hR1, hR2, hR3, ?_⟩, hout⟩
    · refine h1.trans ?_
      rw [hc2]
      apply objs_congr
      intro a _
      rw [executed_add]
      congr 2
      by_cases ha : (cut recs n).start r = a
      · rw [if_pos ha, if_pos ⟨ha, rfl⟩]
      · rw [if_neg ha, if_neg (fun h => ha h.1)]
    · rw [hc2]; exact h2
    · rw [hc2]; rfl
    · rw [hc2]; rfl
    · exact h5.trans hs.insns
    · exact h4.trans hs.interval
    · show Holds (addBlock s1.ea s1.size s1).matrix _ _ _
      have : (addBlock s1.ea s1.size s1).matrix = s.matrix := h3
      rw [this]; exact hmat
  · rw [if_neg hb]
    have hc2 : cut recs (n + 1) = { blocks := (cut recs n).blocks, rest := (cut recs n).rest ++ [r] } := by
      rw [hcut]; unfold Cut.add; rw [if_neg hb]
    refine ⟨?_, ?_, ?_, ?_, hs.insns, hs.interval, ⟨R, hR1, hR2, hR3, hmat⟩, hout⟩
    · rw [hc2]; exact hs.table
    · rw [hc2]; exact hs.nextId
    · rw [hc2]
      show (cut recs n).start r = _
      unfold Cut.start
      dsimp only
      cases (cut recs n).rest <;> rfl
    · rw [hc2, List.length_append, List.length_singleton]; exact hsize

theorem starts_le {recs : List Rec} {n m : Nat} (h : n ≤ m) : (starts (cut recs n).blocks).length ≤ (starts (cut recs m).blocks).length :=
  (starts_prefix (cut_mono recs h)).length_le

theorem columns_bound {P : Nat} {recs : List Rec} : ∀ (i : Nat), i * P ≤ recs.length →
    10000 ≤ columns P recs i ∧ columns P recs i ≤ 2 * max 10000 (starts (cut recs recs.length).blocks).length
  | 0, _ => ⟨Nat.le_refl _, by rw [columns]; omega⟩
  | i + 1, h => by
    have h1 : i * P ≤ recs.length := by rw [Nat.succ_mul] at h; omega
    obtain ⟨h2, h3⟩ := columns_bound i h1
    have h4 := starts_le (recs := recs) h
    rw [columns]
    split
    · omega
    · omega

theorem size_fits {e : Env} {recs : List Rec} (hf : Fits e recs) {R C : Nat} (hR : R ≤ 2 * max 1000 (recs.length / e.length))
    (hC : C ≤ 2 * max 10000 (starts (cut recs recs.length).blocks).length) : R * C * 8 < 2 ^ 64 :=
  Nat.lt_of_le_of_lt (Nat.mul_le_mul_right 8 (Nat.mul_le_mul hR hC)) hf.size

theorem ofNat_toNat_lt {k : Nat} (h : k < 2 ^ 64) : (BitVec.ofNat 64 k).toNat = k := by rw [BitVec.toNat_ofNat, Nat.mod_eq_of_lt h]

/-- Doubling the columns. -/
theorem growCols_holds {e : Env} (he : e.Good) {recs : List Rec} (hf : Fits e recs) {i : Nat} (hi : i < recs.length / e.length) {m : Matrix} {R : Nat}
    {f : Nat → Nat → BitVec 64} (hR : R ≤ 2 * max 1000 (recs.length / e.length)) (hm : Holds m R (columns e.length recs i) f) :
    ∃ m', growCols e.heap (BitVec.ofNat 32 (starts (cut recs ((i + 1) * e.length)).blocks).length) m = .ok m' ∧
      Holds m' R (columns e.length recs (i + 1)) (fun r c => if c < columns e.length recs i then f r c else 0) := by
  have hmul : (i + 1) * e.length ≤ recs.length := (Nat.le_div_iff_mul_le e.length_pos).1 hi
  have h1 := starts_le (recs := recs) hmul
  have h2 := hf.ids
  obtain ⟨h3, h4⟩ := columns_bound i (show i * e.length ≤ recs.length from by rw [Nat.succ_mul] at hmul; omega)
  obtain ⟨h5, h6⟩ := columns_bound (i + 1) hmul
  have hid : ((BitVec.ofNat 32 (starts (cut recs ((i + 1) * e.length)).blocks).length).setWidth 64).toNat = (starts (cut recs ((i + 1) * e.length)).blocks).length := by
    rw [BitVec.toNat_setWidth, BitVec.toNat_ofNat, Nat.mod_eq_of_lt (by omega), Nat.mod_eq_of_lt (by omega)]
  unfold growCols
  have hiff : (BitVec.ofNat 32 (starts (cut recs ((i + 1) * e.length)).blocks).length).setWidth 64 ≥ m.cols ↔ columns e.length recs i ≤ (starts (cut recs ((i + 1) * e.length)).blocks).length := by
    rw [ge_iff_le, BitVec.le_def, hid, hm.cols]
  have hcol := columns.eq_2 e.length recs i
  by_cases hg : columns e.length recs i ≤ (starts (cut recs ((i + 1) * e.length)).blocks).length
  · rw [if_pos (hiff.2 hg)]
    rw [if_pos hg] at hcol
    have hc : (m.cols * 2).toNat = columns e.length recs (i + 1) := by
      rw [BitVec.toNat_mul, hm.cols, hcol]
      apply Nat.mod_eq_of_lt
      show columns e.length recs i * 2 < _
      omega
    obtain ⟨m', h7, h8⟩ := C31_resize_partial e.heap hm m.rows (m.cols * 2) (by rw [hm.rows, hc]; exact size_fits hf hR h6) (he.memory _)
    refine ⟨m', h7, ?_⟩
    rw [hm.rows, hc] at h8
    refine h8.congr fun r c hr hc => ?_
    by_cases hx : c < columns e.length recs i
    · rw [if_pos ⟨hr, hx⟩, if_pos hx]
    · rw [if_neg (fun h => hx h.2), if_neg hx]
  · rw [if_neg (fun h => hg (hiff.1 h))]
    rw [if_neg hg] at hcol
    refine ⟨m, rfl, ?_⟩
    rw [hcol]
    refine hm.congr fun r c hr hc => ?_
    rw [if_pos hc]

/-- Doubling the rows. -/
theorem growRows_holds {e : Env} (he : e.Good) {recs : List Rec} (hf : Fits e recs) {i : Nat} (hi : i < recs.length / e.length) {m : Matrix} {R C : Nat}
    {f : Nat → Nat → BitVec 64} (hR0 : 1000 ≤ R) (hR1 : i ≤ R) (hR2 : R ≤ 2 * max 1000 i) (hC : C ≤ 2 * max 10000 (starts (cut recs recs.length).blocks).length)
    (hm : Holds m R C f) :
    ∃ m' R', growRows e.heap (BitVec.ofNat 64 i) m = .ok m' ∧ 1000 ≤ R' ∧ i + 1 ≤ R' ∧ R' ≤ 2 * max 1000 (i + 1) ∧
      Holds m' R' C (fun r c => if r < R then f r c else 0) := by
  have hlen := hf.length
  have hle : recs.length / e.length ≤ recs.length := Nat.div_le_self _ _
  unfold growRows
  have hiff : BitVec.ofNat 64 i ≥ m.rows ↔ R ≤ i := by rw [ge_iff_le, BitVec.le_def, ofNat_toNat_lt (by omega), hm.rows]
  by_cases hg : R ≤ i
  · rw [if_pos (hiff.2 hg)]
    have hRi : R = i := by omega
    have hr : (m.rows * 2).toNat = R * 2 := by
      rw [BitVec.toNat_mul, hm.rows]
      apply Nat.mod_eq_of_lt
      show R * 2 < _
      by_cases hc : C = 0
      · have := hf.size
        have h3 : (2 * max 1000 (recs.length / e.length)) * 1 ≤ (2 * max 1000 (recs.length / e.length)) * (2 * max 10000 (starts (cut recs recs.length).blocks).length) :=
          Nat.mul_le_mul_left _ (by omega)
        omega
      · have := hf.size
        have h3 : (2 * max 1000 (recs.length / e.length)) * 1 ≤ (2 * max 1000 (recs.length / e.length)) * (2 * max 10000 (starts (cut recs recs.length).blocks).length) :=
          Nat.mul_le_mul_left _ (by omega)
        omega
    obtain ⟨m', h7, h8⟩ := C31_resize_partial e.heap hm (m.rows * 2) m.cols (by rw [hm.cols, hr]; exact size_fits hf (by omega) hC) (he.memory _)
    refine ⟨m', R * 2, h7, by omega, by omega, by omega, ?_⟩
    rw [hm.cols, hr] at h8
    refine h8.congr fun r c hr hc => ?_
    by_cases hx : r < R
    · rw [if_pos ⟨hx, hc⟩, if_pos hx]
    · rw [if_neg (fun h => hx h.1), if_neg hx]
  · rw [if_neg (fun h => hg (hiff.1 h))]
    refine ⟨m, R, rfl, hR0, by omega, by omega, hm.congr fun r c hr hc => ?_⟩
    rw [if_pos hr]

/-- The end of an interval. -/
theorem reset_inv {e : Env} (he : e.Good) {recs : List Rec} (hf : Fits e recs) {n : Nat} (hn : n < recs.length) (hd : n % e.length + 1 = e.length) {s : St}
    (hs : Mid e recs n s) : ∃ s', reset e s = .ok s' ∧ Reached e recs (n + 1) { s' with insns := 0 } := by
  have hpos := e.length_pos
  have hdiv := Nat.div_add_mod n e.length
  have hn1 : n + 1 = (n / e.length + 1) * e.length := by
    rw [Nat.succ_mul, Nat.mul_comm]; omega
  have hnext : (n + 1) / e.length = n / e.length + 1 := by rw [hn1]; exact Nat.mul_div_cancel _ hpos
  have hmod : (n + 1) % e.length = 0 := by rw [hn1]; exact Nat.mul_mod_left _ _
  generalize hi : n / e.length = i at *
  have hlt : i < recs.length / e.length := by
    have : (i + 1) ≤ recs.length / e.length := (Nat.le_div_iff_mul_le hpos).2 (by omega)
    omega
  obtain ⟨R, hR1, hR2, hR3, hR4⟩ := hs.matrix
  rw [hi] at hR2 hR3 hR4
  have hout := hs.outside
  rw [hi] at hout
  obtain ⟨m1, h1, h2⟩ := growCols_holds he hf hlt (by omega) hR4
  rw [← hn1] at h1
  have hgrow := hf.growth i hlt
  rw [← hn1] at hgrow
  obtain ⟨_, hcb⟩ := columns_bound (i + 1) (show (i + 1) * e.length ≤ recs.length from by omega)
  obtain ⟨m2, R', h3, hR4', hR5, hR6, h4⟩ := growRows_holds he hf hlt hR1 hR2 hR3 hcb h2
  have hids := hf.ids
  have hsl := starts_le (recs := recs) (show n + 1 ≤ recs.length from hn)
  -- the counts
  let v : Nat → BitVec 64 := fun j => BitVec.ofNat 64 (vector e.length (cut recs (n + 1)).blocks i j)
  have hobj : ∀ o ∈ e.walk s.table, o.id.toNat < columns e.length recs (i + 1) ∧ v o.id.toNat = o.count := by
    intro o ho
    have ho := (he.walk s.table).mem_iff.1 ho
    rw [hs.table, hi] at ho
    obtain ⟨j, a, hj, rfl⟩ := objs_mem.1 ho
    have hjl := (List.getElem?_eq_some_iff.1 hj).1
    have hid : (BitVec.ofNat 32 j).toNat = j := by rw [BitVec.toNat_ofNat, Nat.mod_eq_of_lt (by omega)]
    show (BitVec.ofNat 32 j).toNat < _ ∧ v (BitVec.ofNat 32 j).toNat = _
    rw [hid]
    refine ⟨by omega, ?_⟩
    show BitVec.ofNat 64 (vector e.length (cut recs (n + 1)).blocks i j) = _
    unfold vector
    rw [hj]
  obtain ⟨m3, h5, g, h6, h7, h8, h9⟩ := storeCounts (R := R') (r := i) (by omega) v (e.walk s.table) m2 _ h4 hobj
  have hint := hs.interval
  rw [hi] at hint
  refine ⟨{ s with matrix := m3, table := s.table.map fun o => { o with count := 0 }, interval := s.interval + 1 }, ?_, ?_⟩
  · unfold reset
    rw [hs.nextId, h1]
    dsimp only
    rw [hint, h3]
    dsimp only
    rw [h5]
  · constructor
    · show (s.table.map fun o => { o with count := 0 }) = _
      rw [hs.table, objs_zero, hnext]
      apply objs_congr
      intro a _
      rw [executed_none]
      intro b hb _
      have := cut_last _ b hb
      have h10 : b.last / e.length < i + 1 := by rw [Nat.div_lt_iff_lt_mul hpos]; omega
      omega
    · exact hs.nextId
    · exact hs.ea
    · exact hs.size
    · show (0 : BitVec 64) = _
      rw [hmod]; rfl
    · show s.interval + 1 = _
      rw [hint, hnext, ofNat64_succ]
    · rw [hnext]
      refine ⟨R', hR4', hR5, hR6, ?_⟩
      show Holds m3 _ _ _
      refine h6.congr fun r c hr hc => ?_
      by_cases hri : r = i
      · subst hri
        rw [if_pos (Nat.lt_succ_self r)]
        by_cases hx : ∃ o ∈ e.walk s.table, o.id.toNat = c ∧ o.count ≠ 0
        · rw [h8 c hx]
        · rw [h9 c hx, if_neg (Nat.lt_irrefl r)]
          have hz : vector e.length (cut recs (n + 1)).blocks r c % 2 ^ 64 = 0 := by
            unfold vector
            cases ha : (starts (cut recs (n + 1)).blocks)[c]? with
            | none => rfl
            | some a =>
              have hjl := (List.getElem?_eq_some_iff.1 ha).1
              have hmem : ({ addr := a, count := BitVec.ofNat 64 (executed e.length (cut recs (n + 1)).blocks r a), id := BitVec.ofNat 32 c } : Obj) ∈ e.walk s.table := by
                refine (he.walk s.table).mem_iff.2 ?_
                rw [hs.table, hi]
                exact objs_mem.2 ⟨c, a, ha, rfl⟩
              have hid : (BitVec.ofNat 32 c).toNat = c := by rw [BitVec.toNat_ofNat, Nat.mod_eq_of_lt (by omega)]
              have h0 : BitVec.ofNat 64 (executed e.length (cut recs (n + 1)).blocks r a) = 0 := by
                refine Decidable.byContradiction fun hne => hx ⟨_, hmem, hid, hne⟩
              have := congrArg BitVec.toNat h0
              rw [BitVec.toNat_ofNat] at this
              exact this
          have h0 : (0 : BitVec 64) = BitVec.ofNat 64 (vector e.length (cut recs (n + 1)).blocks r c) := by
            apply BitVec.eq_of_toNat_eq
            rw [BitVec.toNat_ofNat, hz]; rfl
          rw [← h0]
          split
          · split <;> rfl
          · rfl
      · rw [h7 r c hri]
        by_cases hlt' : r < i
        · rw [if_pos (by omega : r < R), if_pos hlt', if_pos (by omega : r < i + 1)]
          split
          · rfl
          · rename_i hcc
            rw [hout r c hlt' (by omega)]; rfl
        · rw [if_neg (by omega : ¬ r < i + 1), if_neg hlt']
          split
          · split <;> rfl
          · rfl
    · intro r j hr hj
      rw [hnext] at hj hr
      unfold vector
      rw [List.getElem?_eq_none (by omega)]

theorem record_inv {e : Env} (he : e.Good) {recs : List Rec} (hf : Fits e recs) {n : Nat} {r : Rec} (hr : recs[n]? = some r) {s : St} (hs : Reached e recs n s) :
    ∃ s', record e s r = .ok s' ∧ Reached e recs (n + 1) s' := by
  have hn := (List.getElem?_eq_some_iff.1 hr).1
  have hm := block_mid hf.addr hf.block hn hs hr
  have hpos := e.length_pos
  have hmod := Nat.mod_lt n hpos
  have hper := e.period.isLt
  have hlen : e.length < 2 ^ 64 := by unfold Env.length; omega
  unfold record tick
  dsimp only
  rw [hm.insns, ofNat64_succ]
  have hiff : BitVec.ofNat 64 (n % e.length + 1) ≥ e.period ↔ e.period.toNat ≤ n % e.length + 1 := by
    rw [ge_iff_le, BitVec.le_def, ofNat_toNat_lt (by omega)]
  by_cases hd : n % e.length + 1 = e.length
  · rw [if_pos (hiff.2 (by rw [hd]; unfold Env.length; omega))]
    have hm' : Mid e recs n (block s r) := hm
    obtain ⟨s', h1, h2⟩ := reset_inv he hf hn hd hm'
    -- the count of instructions does not matter to the reset
    have h3 : reset e { block s r with insns := BitVec.ofNat 64 (n % e.length + 1) } = .ok { s' with insns := BitVec.ofNat 64 (n % e.length + 1) } := by
      unfold reset at h1 ⊢
      dsimp only
      revert h1
      cases growCols e.heap (block s r).nextId (block s r).matrix with
      | error x => intro h; cases h
      | ok m =>
        dsimp only
        cases growRows e.heap (block s r).interval m with
        | error x => intro h; cases h
        | ok m =>
          dsimp only
          cases (e.walk (block s r).table).foldlM (storeCount (block s r).interval) m with
          | error x => intro h; cases h
          | ok m => intro h; cases h; rfl
    rw [h3]
    exact ⟨_, rfl, h2⟩
  · have hperiod : e.length = e.period.toNat := by unfold Env.length at *; omega
    rw [if_neg (fun h => by have := hiff.1 h; omega)]
    have h1 : (n + 1) / e.length = n / e.length := by
      rw [Nat.div_eq_iff hpos]
      have := Nat.div_add_mod n e.length
      rw [Nat.mul_comm] at this
      constructor <;> omega
    have h2 : (n + 1) % e.length = n % e.length + 1 := by
      have h3 := Nat.div_add_mod n e.length
      have h4 := Nat.div_add_mod (n + 1) e.length
      rw [h1] at h4
      omega
    refine ⟨_, rfl, ?_, hm.nextId, hm.ea, hm.size, ?_, ?_, ?_, ?_⟩
    · rw [h1]; exact hm.table
    · rw [h2]
    · rw [h1]; exact hm.interval
    · rw [h1]; exact hm.matrix
    · rw [h1]; exact hm.outside

theorem records_inv {e : Env} (he : e.Good) {recs : List Rec} (hf : Fits e recs) : ∀ (l : List Rec) (n : Nat) (s : St), recs.drop n = l → Reached e recs n s →
    ∃ s', l.foldlM (record e) s = .ok s' ∧ Reached e recs (n + l.length) s'
  | [], n, s, _, h => ⟨s, rfl, h⟩
  | r :: l, n, s, hl, h => by
    have hr : recs[n]? = some r := by
      have := congrArg (·[0]?) hl
      rw [show (recs.drop n)[0]? = recs[n + 0]? from List.getElem?_drop] at this
      simpa using this
    obtain ⟨s1, h1, h2⟩ := record_inv he hf hr h
    have hl' : recs.drop (n + 1) = l := by rw [← List.drop_drop, hl]; rfl
    obtain ⟨s2, h3, h4⟩ := records_inv he hf l (n + 1) s1 hl' h2
    refine ⟨s2, ?_, by rw [List.length_cons, show n + (l.length + 1) = n + 1 + l.length from by omega]; exact h4⟩
    rw [List.foldlM_cons, h1]
    exact h3

theorem parse_inv {e : Env} (he : e.Good) {recs : List Rec} (hf : Fits e recs) : ∃ s, parse e recs = .ok s ∧ Reached e recs recs.length s := by
  obtain ⟨m, h1, h2⟩ := C31_create_partial e.heap 1000 10000 (by decide) (he.memory _)
  have h0 : start e 1000 10000 = .ok { table := [], nextId := 0, matrix := m, interval := 0, ea := 0xffffffffffffffff, size := 0, insns := 0 } := by
    unfold start; rw [h1]
  obtain ⟨s, h3, h4⟩ := records_inv he hf recs 0 (s := { table := [], nextId := 0, matrix := m, interval := 0, ea := 0xffffffffffffffff, size := 0, insns := 0 }) rfl (by
    refine ⟨rfl, rfl, rfl, rfl, ?_, ?_, ⟨1000, Nat.le_refl _, ?_, ?_, ?_⟩, ?_⟩
    · rw [Nat.zero_mod]; rfl
    · rw [Nat.zero_div]; rfl
    · rw [Nat.zero_div]; omega
    · omega
    · rw [Nat.zero_div]; exact h2
    · intro r j h; rw [Nat.zero_div] at h; omega)
  refine ⟨s, ?_, by rwa [Nat.zero_add] at h4⟩
  unfold parse
  rw [h0]
  exact h3

theorem sum_le_filter (p : Block → Bool) (l : List Block) : ((l.filter p).map (·.length)).sum ≤ (l.map (·.length)).sum := by
  induction l with
  | nil => exact Nat.le_refl _
  | cons b l ih =>
    by_cases h : p b = true
    · rw [List.filter_cons_of_pos h, List.map_cons, List.map_cons, List.sum_cons, List.sum_cons]; omega
    · rw [List.filter_cons_of_neg h, List.map_cons, List.sum_cons]; omega

theorem vector_le (P : Nat) (recs : List Rec) (i j : Nat) : vector P (cut recs recs.length).blocks i j ≤ recs.length := by
  have h := cut_length recs recs.length (Nat.le_refl _)
  unfold vector
  split
  · unfold executed
    exact Nat.le_trans (sum_le_filter _ _) (by omega)
  · exact Nat.zero_le _

/-- **C36**: the matrix that is clustered has a row for every complete interval and a column for every address of a block (and one more), and the entry of an
interval and a block is the number of instructions that were executed in the block and counted in the interval. -/
theorem C36_vectors_partial {e : Env} (he : e.Good) {recs : List Rec} (hf : Fits e recs) :
    ∃ s m f, parse e recs = .ok s ∧ vectors e s = .ok m ∧
      Holds m (recs.length / e.length) ((starts (cut recs recs.length).blocks).length + 1) f ∧
      ∀ i j, i < recs.length / e.length → (f i j).toNat = vector e.length (cut recs recs.length).blocks i j := by
  obtain ⟨s, h1, h2⟩ := parse_inv he hf
  obtain ⟨R, hR1, hR2, hR3, hR4⟩ := h2.matrix
  have hids := hf.ids
  have hlen := hf.length
  have hle : recs.length / e.length ≤ recs.length := Nat.div_le_self _ _
  have hi : s.interval.toNat = recs.length / e.length := by rw [h2.interval, ofNat_toNat_lt (by omega)]
  have hd : ((s.nextId + 1).setWidth 64).toNat = (starts (cut recs recs.length).blocks).length + 1 := by
    rw [h2.nextId, ofNat32_succ, BitVec.toNat_setWidth, BitVec.toNat_ofNat, Nat.mod_eq_of_lt hids, Nat.mod_eq_of_lt (by omega)]
  obtain ⟨m, h3, h4⟩ := C31_resize_partial e.heap hR4 s.interval ((s.nextId + 1).setWidth 64) (by rw [hi, hd]; exact size_fits hf (by omega) (by omega)) (he.memory _)
  rw [hi, hd] at h4
  refine ⟨s, m, fun i j => BitVec.ofNat 64 (vector e.length (cut recs recs.length).blocks i j), h1, h3, ?_, ?_⟩
  · refine h4.congr fun r c hr hc => ?_
    by_cases hx : c < columns e.length recs (recs.length / e.length)
    · rw [if_pos ⟨by omega, hx⟩, if_pos hr]
    · rw [if_neg (fun h => hx h.2), h2.outside r c hr (by omega)]; rfl
  · intro i j _
    exact ofNat_toNat_lt (by have := vector_le e.length recs i j; omega)

/-! ### Conservation -/

theorem sum_add (f g : Nat → Nat) (n : Nat) : ((List.range n).map fun x => f x + g x).sum = ((List.range n).map f).sum + ((List.range n).map g).sum := by
  induction n with
  | zero => rfl
  | succ n ih =>
    rw [List.range_succ]
    simp only [List.map_append, List.sum_append, List.map_cons, List.map_nil, List.sum_cons, List.sum_nil, ih]
    omega

theorem sum_single (k v n : Nat) : ((List.range n).map fun x => if x = k then v else 0).sum = if k < n then v else 0 := by
  induction n with
  | zero => rfl
  | succ n ih =>
    rw [List.range_succ]
    simp only [List.map_append, List.sum_append, List.map_cons, List.map_nil, List.sum_cons, List.sum_nil, ih]
    by_cases h : k < n
    · rw [if_pos h, if_neg (by omega), if_pos (by omega)]; omega
    · rw [if_neg h]
      by_cases h' : n = k
      · rw [if_pos h', if_pos (by omega)]; omega
      · rw [if_neg h', if_neg (by omega)]; rfl

theorem prefix_get {α : Type} {l l' : List α} (h : l <+: l') {i : Nat} {a : α} (hi : l[i]? = some a) : l'[i]? = some a := by
  obtain ⟨t, rfl⟩ := h
  rw [List.getElem?_append_left (List.getElem?_eq_some_iff.1 hi).1, hi]

theorem nodup_get {α : Type} {l : List α} (h : l.Nodup) {i j : Nat} {a : α} (hi : l[i]? = some a) (hj : l[j]? = some a) : i = j := by
  rw [List.nodup_iff_pairwise_ne, List.pairwise_iff_getElem] at h
  obtain ⟨h1, h2⟩ := List.getElem?_eq_some_iff.1 hi
  obtain ⟨h3, h4⟩ := List.getElem?_eq_some_iff.1 hj
  rcases Nat.lt_trichotomy i j with hx | hx | hx
  · exact absurd (h2.trans h4.symm) (h i j h1 h3 hx)
  · exact hx
  · exact absurd (h4.trans h2.symm) (h j i h3 h1 hx)

theorem vector_snoc (P : Nat) (l : List Block) (b : Block) : ∃ k < (starts (l ++ [b])).length, ∀ i j,
    vector P (l ++ [b]) i j = vector P l i j + if j = k then (if i = b.last / P then b.length else 0) else 0 := by
  have hm : b.start ∈ starts (l ++ [b]) := mem_starts.2 ⟨b, List.mem_append_right _ (List.mem_singleton.2 rfl), rfl⟩
  obtain ⟨k, hk, hb⟩ := List.getElem_of_mem hm
  refine ⟨k, hk, fun i j => ?_⟩
  by_cases hi : i = b.last / P
  · rw [if_pos hi]
    have hpre := starts_prefix (List.prefix_append l [b])
    have hv : vector P l i j = match (starts (l ++ [b]))[j]? with | some a => executed P l i a | none => 0 := by
      unfold vector
      by_cases hj : j < (starts l).length
      · rw [prefix_get hpre (List.getElem?_eq_getElem hj), List.getElem?_eq_getElem hj]
      · rw [List.getElem?_eq_none (l := starts l) (by omega)]
        cases ha : (starts (l ++ [b]))[j]? with
        | none => rfl
        | some a =>
          dsimp only
          rw [executed_none]
          intro x hx hxa
          exfalso
          obtain ⟨q, hq, hqa⟩ := List.getElem_of_mem (mem_starts.2 ⟨x, hx, hxa⟩)
          have h1 : (starts (l ++ [b]))[q]? = some a := prefix_get hpre (by rw [List.getElem?_eq_getElem hq, hqa])
          have := nodup_get (starts_nodup (l ++ [b])) h1 ha
          omega
    rw [hv]
    unfold vector
    cases ha : (starts (l ++ [b]))[j]? with
    | none =>
      dsimp only
      rw [if_neg]
      have := List.getElem?_eq_none_iff.1 ha
      omega
    | some a =>
      dsimp only
      rw [executed_add]
      congr 1
      obtain ⟨h4, h5⟩ := List.getElem?_eq_some_iff.1 ha
      by_cases hjk : j = k
      · subst hjk
        rw [if_pos ⟨hb.symm.trans h5, hi.symm⟩, if_pos rfl]
      · rw [if_neg hjk, if_neg]
        rintro ⟨h6, _⟩
        exact hjk (nodup_get (starts_nodup (l ++ [b])) ha (by rw [List.getElem?_eq_getElem hk, hb, h6]))
  · rw [if_neg hi, ite_self, Nat.add_zero]
    exact vector_add (fun h => hi h.symm)

theorem vector_total (P I : Nat) (hP : 0 < P) (l : List Block) : ∀ K, (starts l).length ≤ K →
    ((List.range I).map fun i => ((List.range K).map fun j => vector P l i j).sum).sum = ((l.filter fun b => b.last < I * P).map (·.length)).sum := by
  induction l using snocRec with
  | nil =>
    intro K _
    have h0 : ∀ n, ((List.range n).map fun _ => 0).sum = 0 := by
      intro n
      induction n with
      | zero => rfl
      | succ n ih => rw [List.range_succ, List.map_append, List.sum_append, ih]; rfl
    show ((List.range I).map fun i => ((List.range K).map fun j => 0).sum).sum = 0
    rw [h0 K]; exact h0 I
  | append_singleton l b ih =>
    intro K hK
    have hle := (starts_prefix (List.prefix_append l [b])).length_le
    obtain ⟨k, hk, hv⟩ := vector_snoc P l b
    have hrow : ∀ i, ((List.range K).map fun j => vector P (l ++ [b]) i j).sum =
        ((List.range K).map fun j => vector P l i j).sum + if i = b.last / P then b.length else 0 := by
      intro i
      rw [List.map_congr_left (fun j _ => hv i j), sum_add, sum_single, if_pos (by omega)]
    rw [List.map_congr_left (fun i _ => hrow i), sum_add, sum_single, ih K (by omega), List.filter_append, List.map_append, List.sum_append]
    congr 1
    by_cases h : b.last < I * P
    · rw [if_pos ((Nat.div_lt_iff_lt_mul hP).2 h), List.filter_cons_of_pos (by simpa using h)]; simp
    · rw [if_neg (fun hx => h ((Nat.div_lt_iff_lt_mul hP).1 hx)), List.filter_cons_of_neg (by simpa using h)]; rfl

/-- **C35**: the entries of the matrix add up to the number of instructions in the blocks that ended in complete intervals.  (Together with `C36_vectors_partial`: every
block is in exactly one entry.) -/
theorem C35_conserved_partial {e : Env} (he : e.Good) {recs : List Rec} (hf : Fits e recs) :
    ∃ s m f, parse e recs = .ok s ∧ vectors e s = .ok m ∧
      Holds m (recs.length / e.length) ((starts (cut recs recs.length).blocks).length + 1) f ∧
      ((List.range m.rows.toNat).map fun i => ((List.range m.cols.toNat).map fun j => (f i j).toNat).sum).sum =
        (((cut recs recs.length).blocks.filter fun b => b.last < recs.length / e.length * e.length).map (·.length)).sum := by
  obtain ⟨s, m, f, h1, h2, h3, h4⟩ := C36_vectors_partial he hf
  refine ⟨s, m, f, h1, h2, h3, ?_⟩
  rw [h3.rows, h3.cols, ← vector_total e.length _ e.length_pos _ _ (Nat.le_succ _)]
  congr 1
  apply List.map_congr_left
  intro i hi
  congr 1
  apply List.map_congr_left
  intro j _
  exact h4 i j (List.mem_range.1 hi)

/-- Every instruction is in one block, or after the last block. -/
theorem C35_blocks (recs : List Rec) : ((cut recs recs.length).blocks.map (·.length)).sum + (cut recs recs.length).rest.length = recs.length :=
  cut_length recs recs.length (Nat.le_refl _)

end Bbv
