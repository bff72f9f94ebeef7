import Verif.Bbv.PropsVectors
/-!
C35, C36: a sufficient condition, an example, and the traces for which the properties are false.
-/
namespace Bbv
open Spec

theorem columns_min {P : Nat} {recs : List Rec} : ∀ (i : Nat), 10000 ≤ columns P recs i
  | 0 => Nat.le_refl _
  | i + 1 => by
    have := columns_min (P := P) (recs := recs) i
    rw [columns]
    split <;> omega

/-- A trace with at most 20000 different blocks meets the last condition of `Fits`. -/
theorem C36_growth_partial {e : Env} {recs : List Rec} (h : (starts (cut recs recs.length).blocks).length ≤ 20000) (i : Nat) (hi : i < recs.length / e.length) :
    (starts (cut recs ((i + 1) * e.length)).blocks).length ≤ columns e.length recs (i + 1) := by
  have h1 : (i + 1) * e.length ≤ recs.length := (Nat.le_div_iff_mul_le e.length_pos).1 hi
  have h2 := starts_le (recs := recs) h1
  have h3 := columns_min (P := e.length) (recs := recs) i
  rw [columns]
  split <;> omega

/-- An environment with memory, whose table is walked from its end. -/
def plenty (period : BitVec 64) : Env := { heap := { grants := fun _ => true, junk := 7 }, walk := List.reverse, period := period }

theorem plenty_good (period : BitVec 64) : (plenty period).Good := ⟨fun t => List.reverse_perm t, fun _ => rfl⟩

/-- Ten instructions: the blocks at 0x10 (3 instructions), 0x40 (1), 0x10 (3), 0x80 (2), and one instruction that is not the end of a block. -/
def sample : List Rec :=
  [⟨0x10, false⟩, ⟨0x14, false⟩, ⟨0x18, true⟩, ⟨0x40, true⟩, ⟨0x10, false⟩, ⟨0x14, false⟩, ⟨0x18, true⟩, ⟨0x80, false⟩, ⟨0x84, true⟩, ⟨0x90, false⟩]

theorem sample_fits : Fits (plenty 4) sample where
  addr := by decide +kernel
  block := by decide +kernel
  ids := by decide +kernel
  length := by decide +kernel
  size := by decide +kernel
  growth := fun i hi => C36_growth_partial (by decide +kernel) i hi

/-- The vectors of the two complete intervals. -/
example : (List.range 2).map (fun i => (List.range 4).map fun j => vector (plenty 4).length (cut sample sample.length).blocks i j) = [[3, 1, 0, 0], [3, 0, 0, 0]] := by
  decide +kernel

/-- **C35 is refuted for the end of the trace**: the block at 0x80 is complete, but its instructions are in no entry of the matrix. -/
theorem C35_refuted : ∃ s m f, parse (plenty 4) sample = .ok s ∧ vectors (plenty 4) s = .ok m ∧ Holds m 2 4 f ∧
    ((List.range 2).map fun i => ((List.range 4).map fun j => (f i j).toNat).sum).sum = 7 ∧ ((cut sample sample.length).blocks.map (·.length)).sum = 9 := by
  obtain ⟨s, m, f, h1, h2, h3, h4⟩ := C35_conserved_partial (plenty_good 4) sample_fits
  have hr : sample.length / (plenty 4).length = 2 := by decide +kernel
  have hc : (starts (cut sample sample.length).blocks).length + 1 = 4 := by decide +kernel
  rw [hr, hc] at h3
  rw [h3.rows, h3.cols] at h4
  refine ⟨s, m, f, h1, h2, h3, ?_, by decide +kernel⟩
  rw [h4]
  decide +kernel

/-! ### Too many new blocks in an interval -/

/-- `n` blocks of one instruction each. -/
def spots (n : Nat) : List Rec := (List.range n).map fun k => { addr := BitVec.ofNat 64 (4 * k), branch := true }

def spot (k : Nat) : Block := { start := BitVec.ofNat 64 (4 * k), length := 1, last := k }

theorem spots_length (n : Nat) : (spots n).length = n := by unfold spots; rw [List.length_map, List.length_range]

theorem spots_get {n k : Nat} (h : k < n) : (spots n)[k]? = some { addr := BitVec.ofNat 64 (4 * k), branch := true } := by
  unfold spots
  rw [List.getElem?_map, List.getElem?_range h]
  rfl

theorem spots_cut {N : Nat} : ∀ (n : Nat), n ≤ N → cut (spots N) n = { blocks := (List.range n).map spot, rest := [] }
  | 0, _ => rfl
  | n + 1, h => by
    rw [cut_succ (spots_get (show n < N by omega)), spots_cut n (by omega), List.range_succ, List.map_append]
    rfl

theorem spots_starts : ∀ (n : Nat), n < 2 ^ 32 → starts ((List.range n).map spot) = (List.range n).map fun k => BitVec.ofNat 64 (4 * k)
  | 0, _ => rfl
  | n + 1, h => by
    rw [List.range_succ, List.map_append, List.map_append]
    show starts (_ ++ [spot n]) = _
    rw [starts_add, spots_starts n (by omega), if_neg]
    · rfl
    · intro hm
      obtain ⟨k, hk, he⟩ := List.mem_map.1 hm
      have hk := List.mem_range.1 hk
      have := congrArg BitVec.toNat he
      rw [BitVec.toNat_ofNat] at this
      change 4 * k % 2 ^ 64 = (BitVec.ofNat 64 (4 * n)).toNat at this
      rw [BitVec.toNat_ofNat, Nat.mod_eq_of_lt (by omega), Nat.mod_eq_of_lt (by omega)] at this
      omega

theorem spots_starts_length {n : Nat} (h : n < 2 ^ 32) : (starts ((List.range n).map spot)).length = n := by
  rw [spots_starts n h, List.length_map, List.length_range]

theorem spots_addr {n : Nat} (hn : n < 2 ^ 32) : ∀ r ∈ spots n, r.addr ≠ 0xffffffffffffffff := by
  intro r hr
  obtain ⟨k, hk, rfl⟩ := List.mem_map.1 hr
  have hk := List.mem_range.1 hk
  intro h
  have := congrArg BitVec.toNat h
  change (BitVec.ofNat 64 (4 * k)).toNat = _ at this
  rw [BitVec.toNat_ofNat, Nat.mod_eq_of_lt (by omega)] at this
  have h2 : (0xffffffffffffffff : BitVec 64).toNat = 18446744073709551615 := rfl
  omega

theorem spots_block {n : Nat} : ∀ b ∈ (cut (spots n) (spots n).length).blocks, b.length < 2 ^ 32 := by
  intro b hb
  rw [spots_length, spots_cut n (Nat.le_refl _)] at hb
  obtain ⟨k, _, rfl⟩ := List.mem_map.1 hb
  show 1 < _
  decide

theorem spots_fits {N : Nat} {p : BitVec 64} (hN : N ≤ 20000) (hp : N < p.toNat) : Fits (plenty p) (spots N) where
  addr := spots_addr (by omega)
  block := spots_block
  ids := by rw [spots_length, spots_cut _ (Nat.le_refl _), spots_starts_length (by omega)]; omega
  length := by rw [spots_length]; omega
  size := by
    rw [spots_length, spots_cut _ (Nat.le_refl _), spots_starts_length (by omega)]
    have : N / (plenty p).length = 0 := Nat.div_eq_of_lt (show N < max 1 p.toNat by omega)
    rw [this, show 2 * max 1000 0 = 2000 from rfl]
    omega
  growth := fun i hi => by
    rw [spots_length] at hi
    have : N / (plenty p).length = 0 := Nat.div_eq_of_lt (show N < max 1 p.toNat by omega)
    omega

theorem spots_snoc (n : Nat) : spots (n + 1) = spots n ++ [{ addr := BitVec.ofNat 64 (4 * n), branch := true }] := by
  unfold spots
  rw [List.range_succ, List.map_append]
  rfl

/-- The state before the last of the blocks. -/
theorem spots_before {N : Nat} {p : BitVec 64} (hN : N ≤ 20000) (hp : N < p.toNat) : ∃ s, parse (plenty p) (spots N) = .ok s ∧ Reached (plenty p) (spots (N + 1)) N s := by
  obtain ⟨s, h1, h2⟩ := parse_inv (plenty_good p) (spots_fits hN hp)
  refine ⟨s, h1, ?_⟩
  rw [spots_length] at h2
  have hc : cut (spots N) N = cut (spots (N + 1)) N := by rw [spots_cut _ (Nat.le_refl _), spots_cut _ (Nat.le_succ _)]
  have h0 : N / (plenty p).length = 0 := Nat.div_eq_of_lt (show N < max 1 p.toNat by omega)
  have hcol : columns (plenty p).length (spots N) 0 = columns (plenty p).length (spots (N + 1)) 0 := rfl
  obtain ⟨a1, a2, a3, a4, a5, a6, a7, a8⟩ := h2
  rw [hc] at a1 a2 a3 a4 a7 a8
  rw [h0, hcol] at a7 a8
  refine ⟨a1, a2, a3, a4, a5, a6, ?_, ?_⟩
  · rw [h0]; exact a7
  · rw [h0]; exact a8

/-- A matrix with all its entries in one row. -/
def flat (m : Matrix) : Matrix := { rows := 1, cols := BitVec.ofNat 64 m.data.length, data := m.data }

theorem flat_holds {m : Matrix} (h : m.data.length * 8 < 2 ^ 64) : Holds (flat m) 1 m.data.length (fun _ c => m.data.getD c 0) := by
  refine ⟨rfl, ofNat_toNat_lt (by omega), by omega, by rw [Nat.one_mul]; rfl, fun r c hr hc => ?_⟩
  have : r = 0 := by omega
  subst this
  show m.data[0 * _ + c]? = _
  rw [Nat.zero_mul, Nat.zero_add, List.getElem?_eq_getElem hc, List.getD_eq_getElem?_getD, List.getElem?_eq_getElem hc]
  rfl

/-- In row 0 the number of columns does not matter to a store. -/
theorem storeCount_flat (m : Matrix) (n : BitVec 64) (rows : BitVec 64) (o : Obj) : storeCount 0 { m with rows := rows, cols := n } o =
    match storeCount 0 m o with | .error x => .error x | .ok m' => .ok { m' with rows := rows, cols := n } := by
  unfold storeCount
  by_cases h : o.count ≠ 0
  · rw [if_pos h, if_pos h]
    unfold Matrix.store
    have : ∀ c : BitVec 64, (0 : BitVec 64) * c + o.id.setWidth 64 = o.id.setWidth 64 := by
      intro c; rw [show (0 : BitVec 64) = 0#64 from rfl, BitVec.zero_mul, BitVec.zero_add]
    have h1 : Matrix.entry { m with rows := rows, cols := n } 0 (o.id.setWidth 64) = m.entry 0 (o.id.setWidth 64) := by
      unfold Matrix.entry
      rw [this, this]
    rw [h1]
    dsimp only
    split <;> rfl
  · rw [if_neg h, if_neg h]

theorem storeCounts_flat (n rows : BitVec 64) : ∀ (l : List Obj) (m : Matrix), l.foldlM (storeCount 0) { m with rows := rows, cols := n } =
    match l.foldlM (storeCount 0) m with | .error x => .error x | .ok m' => .ok { m' with rows := rows, cols := n }
  | [], m => rfl
  | o :: l, m => by
    rw [List.foldlM_cons, List.foldlM_cons, storeCount_flat]
    cases storeCount 0 m o with
    | error x => rfl
    | ok m' => exact storeCounts_flat n rows l m'

theorem storeCount_dims {r : BitVec 64} {m m' : Matrix} {o : Obj} (h : storeCount r m o = .ok m') : m'.rows = m.rows ∧ m'.cols = m.cols ∧ m'.data.length = m.data.length := by
  unfold storeCount at h
  split at h
  · unfold Matrix.store at h
    split at h
    · cases h; exact ⟨rfl, rfl, List.length_set⟩
    · cases h
  · cases h; exact ⟨rfl, rfl, rfl⟩

theorem storeCounts_dims {r : BitVec 64} : ∀ (l : List Obj) (m m' : Matrix), l.foldlM (storeCount r) m = .ok m' →
    m'.rows = m.rows ∧ m'.cols = m.cols ∧ m'.data.length = m.data.length
  | [], m, m', h => by cases h; exact ⟨rfl, rfl, rfl⟩
  | o :: l, m, m', h => by
    rw [List.foldlM_cons] at h
    cases h1 : storeCount r m o with
    | error x => rw [h1] at h; cases h
    | ok m1 =>
      rw [h1] at h
      obtain ⟨a, b, c⟩ := storeCount_dims h1
      obtain ⟨a', b', c'⟩ := storeCounts_dims l m1 m' h
      exact ⟨a'.trans a, b'.trans b, c'.trans c⟩

theorem vector_spot {n P j : Nat} (hn : n < 2 ^ 32) (hP : n ≤ P) (hj : j < n) : vector P ((List.range n).map spot) 0 j = 1 := by
  have hs := spots_starts n hn
  have hg : (starts ((List.range n).map spot))[j]? = some (BitVec.ofNat 64 (4 * j)) := by
    rw [hs, List.getElem?_map, List.getElem?_range hj]; rfl
  unfold vector
  rw [hg]
  show executed _ _ _ _ = 1
  have key : ∀ m, m < 2 ^ 32 → m ≤ P → executed P ((List.range m).map spot) 0 (BitVec.ofNat 64 (4 * j)) = if j < m then 1 else 0 := by
    intro m
    induction m with
    | zero => intro _ _; rfl
    | succ m ih =>
      intro h1 h2
      rw [List.range_succ, List.map_append]
      show executed _ (_ ++ [spot m]) _ _ = _
      rw [executed_add, ih (by omega) (by omega)]
      have h3 : (spot m).last / P = 0 := Nat.div_eq_of_lt (show m < P by omega)
      by_cases h4 : m = j
      · subst h4
        rw [if_neg (by omega), if_pos ⟨rfl, h3⟩, if_pos (by omega)]; rfl
      · have h5 : ¬ ((spot m).start = BitVec.ofNat 64 (4 * j) ∧ (spot m).last / P = 0) := by
          rintro ⟨h6, _⟩
          have := congrArg BitVec.toNat h6
          change (BitVec.ofNat 64 (4 * m)).toNat = _ at this
          rw [BitVec.toNat_ofNat, BitVec.toNat_ofNat, Nat.mod_eq_of_lt (by omega), Nat.mod_eq_of_lt (by omega)] at this
          omega
        rw [if_neg h5, Nat.add_zero]
        by_cases h6 : j < m
        · rw [if_pos h6, if_pos (by omega)]
        · rw [if_neg h6, if_neg (by omega)]
  rw [key n hn hP, if_pos hj]

theorem load_of_holds {m : Matrix} {R C : Nat} {f : Nat → Nat → BitVec 64} (h : Holds m R C f) {r c : Nat} (hr : r < R) (hc : c < C) {v : BitVec 64}
    (hv : f r c = v) : m.load (BitVec.ofNat 64 r) (BitVec.ofNat 64 c) = .ok v := by rw [h.load hr hc, hv]

theorem spots_refuted {N : Nat} {p : BitVec 64} (hN : N = 20000) (hp : p.toNat = N + 1) :
    ∃ s m f, parse (plenty p) (spots (N + 1)) = .ok s ∧ vectors (plenty p) s = .ok m ∧ Holds m 1 (N + 2) f ∧ f 0 N = 0 ∧
      vector (plenty p).length (cut (spots (N + 1)) (N + 1)).blocks 0 N = 1 ∧ s.matrix.load 1 0 = .ok 1 := by
  obtain ⟨s, h1, h2⟩ := spots_before (N := N) (p := p) (by omega) (by omega)
  have hget : (spots (N + 1))[N]? = some { addr := BitVec.ofNat 64 (4 * N), branch := true } := spots_get (Nat.lt_succ_self N)
  have hmid := block_mid (spots_addr (by omega)) spots_block (by rw [spots_length]; omega) h2 hget
  have hlen : (plenty p).length = N + 1 := by show max 1 p.toNat = _; omega
  have h0 : N / (plenty p).length = 0 := Nat.div_eq_of_lt (by omega)
  have hcut := spots_cut (N := N + 1) (N + 1) (Nat.le_refl _)
  have hst := spots_starts_length (n := N + 1) (by omega)
  generalize hb : block s { addr := BitVec.ofNat 64 (4 * N), branch := true } = b at hmid
  obtain ⟨m1, m2, m3, m4, m5, m6, m7, m8⟩ := hmid
  rw [hcut] at m1 m2
  rw [hst] at m2
  rw [h0] at m1 m6 m7
  rw [Nat.mod_eq_of_lt (by omega)] at m5
  obtain ⟨R, r1, _, r3, r4⟩ := m7
  have hcols : columns (plenty p).length (spots (N + 1)) 0 = 10000 := rfl
  rw [hcols] at r4
  -- the columns
  have hid : ((BitVec.ofNat 32 (N + 1)).setWidth 64).toNat = N + 1 := by
    rw [BitVec.toNat_setWidth, BitVec.toNat_ofNat, Nat.mod_eq_of_lt (by omega), Nat.mod_eq_of_lt (by omega)]
  have hc2 : (b.matrix.cols * 2).toNat = 20000 := by rw [BitVec.toNat_mul, r4.cols]; rfl
  obtain ⟨a, a1, a2⟩ := C31_resize_partial (plenty p).heap r4 b.matrix.rows (b.matrix.cols * 2) (by rw [hc2, r4.rows]; omega) rfl
  rw [hc2, r4.rows] at a2
  have hgc : growCols (plenty p).heap b.nextId b.matrix = .ok a := by
    unfold growCols
    rw [if_pos (by rw [m2, ge_iff_le, BitVec.le_def, hid, r4.cols]; omega)]
    exact a1
  have hgr : growRows (plenty p).heap b.interval a = .ok a := by
    unfold growRows
    rw [if_neg]
    rw [m6, ge_iff_le, BitVec.le_def, a2.rows]
    show ¬ R ≤ 0
    omega
  -- the counts
  have al := a2.length
  have hflat := flat_holds (m := a) (by omega)
  have hone : ∀ j, j < N + 1 → vector (plenty p).length ((List.range (N + 1)).map spot) 0 j = 1 := fun j hj => vector_spot (by omega) (by omega) hj
  have hobj : ∀ o ∈ (plenty p).walk b.table, o.id.toNat < N + 1 ∧ o.count = 1 := by
    intro o ho
    have ho := ((plenty_good p).walk b.table).mem_iff.1 ho
    rw [m1] at ho
    obtain ⟨j, x, hj, rfl⟩ := objs_mem.1 ho
    have hjl := (List.getElem?_eq_some_iff.1 hj).1
    rw [hst] at hjl
    refine ⟨?_, ?_⟩
    · show (BitVec.ofNat 32 j).toNat < _
      rw [BitVec.toNat_ofNat, Nat.mod_eq_of_lt (by omega)]; exact hjl
    · show BitVec.ofNat 64 _ = _
      have := hone j hjl
      unfold vector at this
      rw [hj] at this
      exact congrArg (BitVec.ofNat 64) this
  obtain ⟨q, q1, g, q2, _, q4, q5⟩ := storeCounts (R := 1) (r := 0) (by omega) (fun _ => 1) ((plenty p).walk b.table) (flat a) _ hflat
    (fun o ho => ⟨by have := (hobj o ho).1; omega, (hobj o ho).2.symm⟩)
  have hfold : ∃ c, ((plenty p).walk b.table).foldlM (storeCount b.interval) a = .ok c ∧ c.data = q.data := by
    rw [m6]
    show ∃ c, ((plenty p).walk b.table).foldlM (storeCount 0) a = .ok c ∧ _
    have hx := storeCounts_flat (BitVec.ofNat 64 a.data.length) 1 ((plenty p).walk b.table) a
    have hy : ((plenty p).walk b.table).foldlM (storeCount 0) { a with rows := 1, cols := BitVec.ofNat 64 a.data.length } = .ok q := q1
    rw [hy] at hx
    cases hz : ((plenty p).walk b.table).foldlM (storeCount 0) a with
    | error e => rw [hz] at hx; cases hx
    | ok c => rw [hz] at hx; cases hx; exact ⟨c, rfl, rfl⟩
  obtain ⟨c, c1, c2⟩ := hfold
  obtain ⟨d1, d2, d3⟩ := storeCounts_dims _ _ _ c1
  have hc : Holds c R 20000 (fun r j => g 0 (r * 20000 + j)) := by
    refine ⟨by rw [d1]; exact a2.rows, by rw [d2]; exact a2.cols, a2.fits, by rw [d3, al], fun r j hr hj => ?_⟩
    have := q2.entry 0 (r * 20000 + j) (by omega) (by rw [al]; exact index_lt hr hj)
    rw [Nat.zero_mul, Nat.zero_add] at this
    rw [c2]; exact this
  have hNone : g 0 N = 1 := by
    apply q4
    have hj : (starts ((List.range (N + 1)).map spot))[N]? = some (BitVec.ofNat 64 (4 * N)) := by
      rw [spots_starts _ (by omega), List.getElem?_map, List.getElem?_range (Nat.lt_succ_self N)]; rfl
    have hmem : (Obj.mk (BitVec.ofNat 64 (4 * N)) (BitVec.ofNat 64 (executed (plenty p).length ((List.range (N + 1)).map spot) 0 (BitVec.ofNat 64 (4 * N))))
        (BitVec.ofNat 32 N)) ∈ (plenty p).walk b.table := by
      refine ((plenty_good p).walk b.table).mem_iff.2 ?_
      rw [m1]
      exact objs_mem.2 ⟨N, _, hj, rfl⟩
    refine ⟨_, hmem, ?_, ?_⟩
    · show (BitVec.ofNat 32 N).toNat = N
      rw [BitVec.toNat_ofNat, Nat.mod_eq_of_lt (by omega)]
    · rw [(hobj _ hmem).2]; decide
  -- the record
  have hrec : record (plenty p) s { addr := BitVec.ofNat 64 (4 * N), branch := true } =
      .ok { b with matrix := c, table := b.table.map fun o => { o with count := 0 }, interval := b.interval + 1, insns := 0 } := by
    unfold record tick
    rw [hb]
    dsimp only
    rw [if_pos (by rw [m5, ofNat64_succ, ge_iff_le, BitVec.le_def, ofNat_toNat_lt (by omega)]; show p.toNat ≤ _; omega)]
    have : reset (plenty p) { b with insns := b.insns + 1 } =
        .ok { b with matrix := c, table := b.table.map fun o => { o with count := 0 }, interval := b.interval + 1, insns := b.insns + 1 } := by
      unfold reset
      dsimp only
      rw [hgc]
      dsimp only
      rw [hgr]
      dsimp only
      rw [c1]
    rw [this]
  have hparse : parse (plenty p) (spots (N + 1)) =
      .ok { b with matrix := c, table := b.table.map fun o => { o with count := 0 }, interval := b.interval + 1, insns := 0 } := by
    unfold parse at h1 ⊢
    cases hs : start (plenty p) 1000 10000 with
    | error x => rw [hs] at h1; cases h1
    | ok s0 =>
      rw [hs] at h1
      dsimp only at h1 ⊢
      rw [spots_snoc, List.foldlM_append, h1]
      have h3 : List.foldlM (record (plenty p)) s [{ addr := BitVec.ofNat 64 (4 * N), branch := true }] =
          .ok { b with matrix := c, table := b.table.map fun o => { o with count := 0 }, interval := b.interval + 1, insns := 0 } := by
        rw [List.foldlM_cons, hrec]
        rfl
      exact h3
  have hi1 : (b.interval + 1).toNat = 1 := by rw [m6]; rfl
  have hn1 : ((b.nextId + 1).setWidth 64).toNat = N + 2 := by
    rw [m2, ofNat32_succ, BitVec.toNat_setWidth, BitVec.toNat_ofNat, Nat.mod_eq_of_lt (by omega), Nat.mod_eq_of_lt (by omega)]
  obtain ⟨m, f1, f2⟩ := C31_resize_partial (plenty p).heap hc (b.interval + 1) ((b.nextId + 1).setWidth 64) (by rw [hi1, hn1]; omega) rfl
  rw [hi1, hn1] at f2
  refine ⟨_, m, _, hparse, f1, f2, ?_, ?_, ?_⟩
  · rw [if_neg (by omega)]
  · rw [hcut]; exact hone N (Nat.lt_succ_self N)
  · refine load_of_holds hc (r := 1) (c := 0) (by omega) (by omega) ?_
    rw [show 1 * 20000 + 0 = N from by omega]; exact hNone

/-- **C36 is refuted**: after 20001 different blocks in an interval of 20001 instructions the matrix has 20000 columns; the count of the last block is in the first column of
the next interval's row, and is missing in the matrix that is clustered. -/
theorem C36_refuted : ∃ s m f, parse (plenty 20001) (spots 20001) = .ok s ∧ vectors (plenty 20001) s = .ok m ∧ Holds m 1 20002 f ∧ f 0 20000 = 0 ∧
    vector (plenty 20001).length (cut (spots 20001) 20001).blocks 0 20000 = 1 ∧ s.matrix.load 1 0 = .ok 1 :=
  spots_refuted (N := 20000) (p := 20001) rfl rfl

end Bbv
