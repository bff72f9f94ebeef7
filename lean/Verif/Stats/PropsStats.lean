import Verif.Stats.StatsLemmas
/-!
C27: the statistics are counts of the trace.
-/
namespace Stats
open Spec

/-- What is asked of the tables. -/
structure Tables.Good (t : Tables) : Prop where
  vectors : t.exceptions.Nodup
  vector : ∀ v ∈ t.exceptions, v.toNat < 4096 ∧ v.toNat % 32 = 0
  syscalls : 0 < t.syscalls
  opalcalls : 0 < t.opalcalls
  hcalls : t.hcalls ≠ []
  tokens : t.hcalls.Nodup

def distinct : List Nat → Bool
  | [] => true
  | x :: l => !l.contains x && distinct l

theorem nodup_of_distinct : ∀ {l : List (BitVec 64)}, distinct (l.map (·.toNat)) = true → l.Nodup
  | [], _ => List.nodup_nil
  | x :: l, h => by
    rw [List.map_cons, distinct, Bool.and_eq_true, Bool.not_eq_true'] at h
    rw [List.nodup_cons]
    refine ⟨fun hx => ?_, nodup_of_distinct h.2⟩
    have h1 := h.1
    rw [← Bool.not_eq_true, List.contains_iff_mem] at h1
    exact h1 (List.mem_map.2 ⟨x, hx, rfl⟩)

/-- The tables of the program meet this. -/
theorem tables_good : tables.Good where
  vectors := nodup_of_distinct (by decide +kernel)
  vector := by
    have h : (exceptionAddrs.all fun v => decide (v.toNat < 4096 ∧ v.toNat % 32 = 0)) = true := by decide +kernel
    intro v hv
    exact of_decide_eq_true (List.all_eq_true.1 h v hv)
  syscalls := by decide
  opalcalls := by decide
  hcalls := by decide
  tokens := nodup_of_distinct (by decide +kernel)

/-! ### Counters -/

def bit (b : Bool) : Nat := if b then 1 else 0

def counters (n : Nat) (c : Nat → Nat) : List (BitVec 64) := (List.range n).map fun k => BitVec.ofNat 64 (c k)

theorem ofNat_bit (n : Nat) (b : Bool) : BitVec.ofNat 64 n + BitVec.ofNat 64 (bit b) = BitVec.ofNat 64 (n + bit b) := by rw [BitVec.ofNat_add]

theorem ofNat_zero (x : BitVec 64) : x + BitVec.ofNat 64 (bit false) = x := by
  show x + 0#64 = x
  rw [BitVec.add_zero]

theorem counters_congr {n : Nat} {c d : Nat → Nat} (h : ∀ k, k < n → c k = d k) : counters n c = counters n d := by
  unfold counters
  exact List.map_congr_left fun k hk => by rw [h k (List.mem_range.1 hk)]

theorem counters_get (n : Nat) (c : Nat → Nat) (k : Nat) : (counters n c)[k]? = if k < n then some (BitVec.ofNat 64 (c k)) else none := by
  unfold counters
  rw [List.getElem?_map]
  split
  · rename_i h; rw [List.getElem?_range h]; rfl
  · rename_i h; rw [List.getElem?_eq_none (by rw [List.length_range]; omega)]; rfl

theorem counters_incr {n i : Nat} (hi : i < n) {c : Nat → Nat} {p : Nat → Bool} (hp : ∀ k, k < n → (p k = true ↔ k = i)) :
    incr (counters n c) i = some (counters n fun k => c k + bit (p k)) := by
  unfold incr
  rw [counters_get, if_pos hi]
  dsimp only
  congr 1
  apply List.ext_getElem?
  intro k
  rw [List.getElem?_set, counters_get, counters_get]
  have hl : (counters n c).length = n := by unfold counters; simp
  by_cases hik : i = k
  · subst hik
    rw [if_pos rfl, if_pos (by omega), if_pos hi, (hp i hi).2 rfl, ← ofNat_bit]
    rfl
  · rw [if_neg hik]
    split
    · rename_i hk
      have : p k = false := by
        cases hpk : p k with
        | false => rfl
        | true => exact absurd ((hp k hk).1 hpk).symm hik
      rw [this]
      rfl
    · rfl

theorem counters_same {n : Nat} {c : Nat → Nat} {p : Nat → Bool} (hp : ∀ k, k < n → p k = false) : counters n c = counters n fun k => c k + bit (p k) :=
  counters_congr fun k hk => by rw [hp k hk]; rfl

/-! ### The steps -/

theorem space_eq (ea : BitVec 64) (s : Stats) : space ea s = { s with
    system := s.system + BitVec.ofNat 64 (bit (region ea == .kernel)), opal := s.opal + BitVec.ofNat 64 (bit (region ea == .firmware)),
    user := s.user + BitVec.ofNat 64 (bit (region ea == .library || region ea == .binary)),
    userlib := s.userlib + BitVec.ofNat 64 (bit (region ea == .library)), userbin := s.userbin + BitVec.ofNat 64 (bit (region ea == .binary)) } := by
  unfold space
  have h1 : ea ≥ 0xc000000000000000 ↔ ea.toNat ≥ 0xc000000000000000 := ge_iff
  have h2 : ea ≥ 0x700000000000 ↔ ea.toNat ≥ 0x700000000000 := ge_iff
  have h3 := firmware_mask ea
  by_cases c1 : ea.toNat ≥ 0xc000000000000000
  · have hr : region ea = .kernel := by unfold region; rw [if_pos c1]
    rw [if_pos (h1.2 c1), hr]
    simp only [show (Region.kernel == Region.kernel) = true from rfl, show (Region.kernel == Region.firmware) = false from rfl, show (Region.kernel == Region.library) = false from rfl,
      show (Region.kernel == Region.binary) = false from rfl, Bool.or_false, ofNat_zero]
    rfl
  · rw [if_neg (fun h => c1 (h1.1 h))]
    by_cases c2 : 0x30000000 ≤ ea.toNat ∧ ea.toNat < 0x31000000
    · have hr : region ea = .firmware := by unfold region; rw [if_neg c1, if_pos c2]
      rw [if_pos (h3.2 c2), hr]
      simp only [show (Region.firmware == Region.kernel) = false from rfl, show (Region.firmware == Region.firmware) = true from rfl, show (Region.firmware == Region.library) = false from rfl,
        show (Region.firmware == Region.binary) = false from rfl, Bool.or_false, ofNat_zero]
      rfl
    · rw [if_neg (fun h => c2 (h3.1 h))]
      by_cases c3 : ea.toNat ≥ 0x700000000000
      · have hr : region ea = .library := by unfold region; rw [if_neg c1, if_neg c2, if_pos c3]
        rw [if_pos (h2.2 c3), hr]
        simp only [show (Region.library == Region.kernel) = false from rfl, show (Region.library == Region.firmware) = false from rfl, show (Region.library == Region.library) = true from rfl,
          show (Region.library == Region.binary) = false from rfl, Bool.or_false, ofNat_zero]
        rfl
      · have hr : region ea = .binary := by unfold region; rw [if_neg c1, if_neg c2, if_neg c3]
        rw [if_neg (fun h => c3 (h2.1 h)), hr]
        simp only [show (Region.binary == Region.kernel) = false from rfl, show (Region.binary == Region.firmware) = false from rfl, show (Region.binary == Region.library) = false from rfl,
          show (Region.binary == Region.binary) = true from rfl, Bool.or_true, ofNat_zero]
        rfl

theorem findFrom_some {v : BitVec 64} : ∀ {l : List (BitVec 64)} {i k : Nat}, findFrom v i l = some k → i ≤ k ∧ l[k - i]? = some v
  | [], _, _, h => by cases h
  | x :: l, i, k, h => by
    rw [findFrom] at h
    split at h
    · rename_i hx
      cases h
      refine ⟨Nat.le_refl _, ?_⟩
      rw [Nat.sub_self, List.getElem?_cons_zero, hx]
    · obtain ⟨h1, h2⟩ := findFrom_some h
      refine ⟨by omega, ?_⟩
      rw [show k - i = k - (i + 1) + 1 from by omega, List.getElem?_cons_succ]
      exact h2

theorem findFrom_none {v : BitVec 64} : ∀ {l : List (BitVec 64)} {i : Nat}, findFrom v i l = none → v ∉ l
  | [], _, _ => by simp
  | x :: l, i, h => by
    rw [findFrom] at h
    split at h
    · cases h
    · rename_i hx
      rw [List.mem_cons, not_or]
      exact ⟨hx, findFrom_none h⟩

theorem nodup_get {l : List (BitVec 64)} (h : l.Nodup) {i j : Nat} {a : BitVec 64} (hi : l[i]? = some a) (hj : l[j]? = some a) : i = j :=
  (List.getElem?_inj (List.getElem?_eq_some_iff.1 hi).1 h).1 (hi.trans hj.symm)

/-- The predicate of entry `k` of the table of exceptions. -/
def vectorAt (t : Tables) (x : Insn) (k : Nat) : Bool := (t.exceptions[k]?.map fun v => isVector v x).getD false

theorem exceptionEntry_eq {t : Tables} (ht : t.Good) (x : Insn) (s : Stats) {c : Nat → Nat} (hc : s.exceptions = counters t.exceptions.length c) :
    exceptionEntry t x.ea s = some { s with
      exceptionnum := s.exceptionnum + BitVec.ofNat 64 (bit (t.exceptions.any fun v => isVector v x)),
      exceptions := counters t.exceptions.length fun k => c k + bit (vectorAt t x k) } := by
  have hiff : ∀ v ∈ t.exceptions, _ := fun v hv => isVector_iff (ea := x.ea) (ht.vector v hv) x.insn
  have hnone : (∀ v ∈ t.exceptions, isVector v x = false) → some s = some { s with
      exceptionnum := s.exceptionnum + BitVec.ofNat 64 (bit (t.exceptions.any fun v => isVector v x)),
      exceptions := counters t.exceptions.length fun k => c k + bit (vectorAt t x k) } := by
    intro h
    have h1 : (t.exceptions.any fun v => isVector v x) = false := by
      rw [List.any_eq_false]; intro v hv; rw [h v hv]; decide
    rw [h1, ofNat_zero, ← counters_same, ← hc]
    intro k hk
    unfold vectorAt
    rw [List.getElem?_eq_getElem hk]
    exact h _ (List.getElem_mem hk)
  unfold exceptionEntry
  by_cases hm : x.ea &&& 0xfffffffffffff01f ≠ 0xc000000000004000 ∧ x.ea &&& 0xfffffffffffff01f ≠ 0
  · rw [if_pos hm]
    apply hnone
    intro v hv
    rw [← Bool.not_eq_true]
    intro h
    exact ((hiff v hv).1 h).1 hm
  · rw [if_neg hm]
    cases hf : findFrom (x.ea &&& 0xfff) 0 t.exceptions with
    | none =>
      apply hnone
      intro v hv
      rw [← Bool.not_eq_true]
      intro h
      have := ((hiff v hv).1 h).2
      exact findFrom_none hf (this ▸ hv)
    | some i =>
      dsimp only
      have hi := (findFrom_some hf).2
      rw [Nat.sub_zero] at hi
      have hin := (List.getElem?_eq_some_iff.1 hi).1
      have hp : ∀ k, k < t.exceptions.length → (vectorAt t x k = true ↔ k = i) := by
        intro k hk
        unfold vectorAt
        rw [List.getElem?_eq_getElem hk]
        show isVector _ x = true ↔ _
        rw [hiff _ (List.getElem_mem hk)]
        constructor
        · intro h
          exact nodup_get ht.vectors (List.getElem?_eq_getElem hk) (h.2 ▸ hi)
        · rintro rfl
          refine ⟨hm, ?_⟩
          rw [List.getElem?_eq_getElem hk] at hi
          exact (Option.some.inj hi).symm
      rw [hc, counters_incr hin hp]
      dsimp only
      have h1 : (t.exceptions.any fun v => isVector v x) = true := by
        rw [List.any_eq_true]
        refine ⟨x.ea &&& 0xfff, List.mem_of_getElem? hi, ?_⟩
        rw [hiff _ (List.mem_of_getElem? hi)]
        exact ⟨hm, rfl⟩
      rw [h1]
      rfl

theorem r3_lt : ∀ h : List Insn, r3 h < 65536
  | [] => by decide
  | x :: h => by
    rw [r3]; split
    · omega
    · exact r3_lt h

theorem r0_lt : ∀ h : List Insn, r0 h < 65536
  | [] => by decide
  | x :: h => by
    rw [r0]; split
    · omega
    · split
      · exact r3_lt h
      · exact r0_lt h

theorem registers_eq {h : List Insn} {s : Stats} (h3 : s.r3 = BitVec.ofNat 64 (r3 h)) (h0 : s.r0 = BitVec.ofNat 64 (r0 h)) (x : Insn) :
    registers x.insn s = { s with r3 := BitVec.ofNat 64 (r3 (x :: h)), r0 := BitVec.ofNat 64 (r0 (x :: h)) } := by
  unfold registers
  dsimp only
  have e1 := li_mask x.insn 0x38600000 0x3860 rfl
  have e2 := li_mask x.insn 0x38000000 0x3800 rfl
  have e3 : x.insn = 0x7c601b78 ↔ x.insn.toNat = 0x7c601b78 := by rw [← BitVec.toNat_inj]; rfl
  rw [r3, r0]
  by_cases c1 : x.insn.toNat / 65536 = 0x3860
  · rw [if_pos (e1.2 c1), if_pos c1, if_neg (fun h => by have := e2.1 h; omega), if_neg (fun h => by have := e3.1 h; omega), if_neg (by omega), if_neg (by omega), imm_mask, ← h0]
  · rw [if_neg (fun h => c1 (e1.1 h)), if_neg c1]
    by_cases c3 : x.insn.toNat = 0x7c601b78
    · rw [if_pos (e3.2 c3), if_neg (fun h => by have := e2.1 h; omega), if_neg (by omega), if_pos c3, ← h3]
    · rw [if_neg (fun h => c3 (e3.1 h)), if_neg c3]
      by_cases c2 : x.insn.toNat / 65536 = 0x3800
      · rw [if_pos (e2.2 c2), if_pos c2, imm_mask, ← h3]
      · rw [if_neg (fun h => c2 (e2.1 h)), if_neg c2, ← h3, ← h0]

theorem clamp_eq {n v : Nat} (hn : 0 < n) (hv : v < 2 ^ 64) : clamp (BitVec.ofNat 64 v) n < n ∧ ∀ k, k < n → (isKind n k v = true ↔ k = clamp (BitVec.ofNat 64 v) n) := by
  unfold clamp isKind
  rw [BitVec.toNat_ofNat, Nat.mod_eq_of_lt hv]
  constructor
  · split <;> omega
  · intro k hk
    simp only [Bool.or_eq_true, Bool.and_eq_true, beq_iff_eq, decide_eq_true_iff]
    split <;> omega

theorem syscall_eq {t : Tables} (ht : t.Good) {s : Stats} {v : Nat} (hv : v < 65536) (h0 : s.r0 = BitVec.ofNat 64 v) (w : BitVec 32) {c : Nat → Nat}
    (hc : s.syscalls = counters t.syscalls c) :
    syscall t w s = some { s with syscallnum := s.syscallnum + BitVec.ofNat 64 (bit (w == sc)), syscalls := counters t.syscalls fun k => c k + bit (w == sc && isKind t.syscalls k v) } := by
  unfold syscall
  by_cases hw : w = 0x44000002
  · obtain ⟨h1, h2⟩ := clamp_eq ht.syscalls (show v < 2 ^ 64 by omega)
    have hb : (w == sc) = true := beq_iff_eq.2 hw
    rw [if_pos hw, hc, h0, counters_incr h1 (p := fun k => w == sc && isKind t.syscalls k v) (fun k hk => by rw [hb, Bool.true_and]; exact h2 k hk), hb]
    rfl
  · have hb : (w == sc) = false := beq_eq_false_iff_ne.2 hw
    rw [if_neg hw, hb, ofNat_zero, ← counters_same (fun k _ => by rw [Bool.false_and]), ← hc]

theorem opalcall_eq {t : Tables} (ht : t.Good) {s : Stats} {v : Nat} (hv : v < 65536) (h0 : s.r0 = BitVec.ofNat 64 v) (ea : BitVec 64) {c : Nat → Nat}
    (hc : s.opalcalls = counters t.opalcalls c) {q : Bool} (hq : q = (isOpal ea && !s.opallast)) :
    opalcall t ea s = some { s with opalcallnum := s.opalcallnum + BitVec.ofNat 64 (bit q), opalcalls := counters t.opalcalls fun k => c k + bit (q && isKind t.opalcalls k v) } := by
  unfold opalcall
  by_cases hw : isOpal ea = true ∧ s.opallast = false
  · obtain ⟨h1, h2⟩ := clamp_eq ht.opalcalls (show v < 2 ^ 64 by omega)
    have hb : q = true := by rw [hq, hw.1, hw.2]; rfl
    rw [if_pos hw, hc, h0, counters_incr h1 (p := fun k => q && isKind t.opalcalls k v) (fun k hk => by rw [hb, Bool.true_and]; exact h2 k hk), hb]
    rfl
  · have hb : q = false := by
      rw [hq]
      cases ha : isOpal ea with
      | false => rfl
      | true =>
        cases ho : s.opallast with
        | true => rfl
        | false => exact absurd ⟨ha, ho⟩ hw
    rw [if_neg hw, hb, ofNat_zero, ← counters_same (fun k _ => by rw [Bool.false_and]), ← hc]

theorem hcallFind_eq {t : Tables} (ht : t.Good) {v : Nat} (hv : v < 65536) :
    hcallFind t ((BitVec.ofNat 64 v).setWidth 32) < t.hcalls.length ∧
    ∀ k, k < t.hcalls.length → (isToken t.hcalls k v = true ↔ k = hcallFind t ((BitVec.ofNat 64 v).setWidth 32)) := by
  have hw : ((BitVec.ofNat 64 v).setWidth 32).setWidth 64 = BitVec.ofNat 64 v := by
    apply BitVec.eq_of_toNat_eq
    rw [BitVec.toNat_setWidth, BitVec.toNat_setWidth, BitVec.toNat_ofNat]
    omega
  have hpos : 0 < t.hcalls.length := List.length_pos_iff.2 ht.hcalls
  unfold hcallFind
  rw [hw]
  cases hf : findFrom (BitVec.ofNat 64 v) 0 t.hcalls with
  | some i =>
    have hi := (findFrom_some hf).2
    rw [Nat.sub_zero] at hi
    refine ⟨(List.getElem?_eq_some_iff.1 hi).1, fun k hk => ?_⟩
    unfold isToken
    have hm : t.hcalls.contains (BitVec.ofNat 64 v) = true := List.contains_iff_mem.2 (List.mem_of_getElem? hi)
    rw [hm, Bool.not_true, Bool.false_and, Bool.or_false, beq_iff_eq]
    constructor
    · intro h; exact nodup_get ht.tokens h hi
    · rintro rfl; exact hi
  | none =>
    have hn := findFrom_none hf
    refine ⟨by show t.hcalls.length - 1 < _; omega, fun k hk => ?_⟩
    unfold isToken
    have hm : t.hcalls.contains (BitVec.ofNat 64 v) = false := by
      rw [← Bool.not_eq_true, List.contains_iff_mem]; exact hn
    rw [hm, Bool.not_false, Bool.true_and, Bool.or_eq_true, beq_iff_eq, beq_iff_eq]
    show _ ↔ k = t.hcalls.length - 1
    constructor
    · rintro (h | h)
      · exact absurd (List.mem_of_getElem? h) hn
      · omega
    · intro h; right; omega

theorem hcall_eq {t : Tables} (ht : t.Good) {s : Stats} {v : Nat} (hv : v < 65536) (h0 : s.r3 = BitVec.ofNat 64 v) (w : BitVec 32) {c : Nat → Nat}
    (hc : s.hcalls = counters t.hcalls.length c) :
    hcall t w s = some { s with hcallnum := s.hcallnum + BitVec.ofNat 64 (bit (w == sc1)), hcalls := counters t.hcalls.length fun k => c k + bit (w == sc1 && isToken t.hcalls k v) } := by
  unfold hcall
  by_cases hw : w = 0x44000022
  · obtain ⟨h1, h2⟩ := hcallFind_eq ht hv
    have hb : (w == sc1) = true := beq_iff_eq.2 hw
    rw [if_pos hw, hc, h0, counters_incr h1 (p := fun k => w == sc1 && isToken t.hcalls k v) (fun k hk => by rw [hb, Bool.true_and]; exact h2 k hk), hb]
    rfl
  · have hb : (w == sc1) = false := beq_eq_false_iff_ne.2 hw
    rw [if_neg hw, hb, ofNat_zero, ← counters_same (fun k _ => by rw [Bool.false_and]), ← hc]

/-- `mfspr rT,256` in the kernel with one of the first 16 registers. -/
def switches (x : Insn) : Bool := region x.ea == .kernel && (List.range 16).any fun t => x.insn.toNat == 0x7c0042a6 + t * 2 ^ 21

theorem switches_iff (x : Insn) : switches x = true ↔ isSystem x.ea = true ∧ x.insn &&& 0xfe1fffff = 0x7c0042a6 := by
  unfold switches
  rw [Bool.and_eq_true, beq_iff_eq, isSystem_iff, mfspr_mask, List.any_eq_true]
  constructor
  · rintro ⟨h1, t, h2, h3⟩; exact ⟨h1, t, List.mem_range.1 h2, beq_iff_eq.1 h3⟩
  · rintro ⟨h1, t, h2, h3⟩; exact ⟨h1, t, List.mem_range.2 h2, beq_iff_eq.2 h3⟩

theorem context_eq (x : Insn) (s : Stats) : ∃ a m, context x.ea x.insn s =
    { s with ctxswitch := s.ctxswitch + BitVec.ofNat 64 (bit (switches x)), ctxswitchEa := a, ctxswitchEaMultiple := m } := by
  unfold context
  by_cases h : isSystem x.ea = true ∧ x.insn &&& 0xfe1fffff = 0x7c0042a6
  · rw [if_pos h, (switches_iff x).2 h]
    dsimp only
    split
    · split
      · exact ⟨_, _, rfl⟩
      · exact ⟨_, _, rfl⟩
    · split
      · exact ⟨_, _, rfl⟩
      · exact ⟨_, _, rfl⟩
  · have hb : switches x = false := by rw [← Bool.not_eq_true, switches_iff]; exact h
    rw [if_neg h, hb, ofNat_zero]
    exact ⟨_, _, rfl⟩

theorem idleFor_eq (since : BitVec 64) (s : Stats) : ∃ i, idleFor since s = { s with idle := i } := by
  unfold idleFor
  dsimp only
  split
  · exact ⟨_, rfl⟩
  · exact ⟨_, rfl⟩

theorem mftb_eq (ea : BitVec 64) (w : BitVec 32) (s : Stats) : ∃ i m, mftb ea w s = { s with idle := i, mftbLast := m } := by
  unfold mftb
  split
  · obtain ⟨i, hi⟩ := idleFor_eq s.mftbLast s
    rw [hi]
    exact ⟨_, _, rfl⟩
  · exact ⟨_, _, rfl⟩

theorem mr3131_eq (ea : BitVec 64) (w : BitVec 32) (s : Stats) : ∃ i m, mr3131 ea w s = { s with idle := i, mr3131Last := m } := by
  unfold mr3131
  split
  · obtain ⟨i, hi⟩ := idleFor_eq s.mr3131Last s
    rw [hi]
    exact ⟨_, _, rfl⟩
  · exact ⟨_, _, rfl⟩

/-! ### The counts -/

/-- The counters after the history `h`. -/
structure Counts (t : Tables) (h : List Insn) (s : Stats) : Prop where
  total : s.total = BitVec.ofNat 64 h.length
  system : s.system = BitVec.ofNat 64 (count (fun _ x => region x.ea == .kernel) h)
  opal : s.opal = BitVec.ofNat 64 (count (fun _ x => region x.ea == .firmware) h)
  user : s.user = BitVec.ofNat 64 (count (fun _ x => region x.ea == .library || region x.ea == .binary) h)
  userlib : s.userlib = BitVec.ofNat 64 (count (fun _ x => region x.ea == .library) h)
  userbin : s.userbin = BitVec.ofNat 64 (count (fun _ x => region x.ea == .binary) h)
  r3 : s.r3 = BitVec.ofNat 64 (Spec.r3 h)
  r0 : s.r0 = BitVec.ofNat 64 (Spec.r0 h)
  ctxswitch : s.ctxswitch = BitVec.ofNat 64 (count (fun _ x => switches x) h)
  exceptionnum : s.exceptionnum = BitVec.ofNat 64 (count (fun _ x => t.exceptions.any fun v => isVector v x) h)
  exceptions : s.exceptions = counters t.exceptions.length fun k => count (fun _ x => vectorAt t x k) h
  syscallnum : s.syscallnum = BitVec.ofNat 64 (count (fun _ x => x.insn == sc) h)
  syscalls : s.syscalls = counters t.syscalls fun k => count (fun h x => x.insn == sc && isKind t.syscalls k (Spec.r0 h)) h
  hcallnum : s.hcallnum = BitVec.ofNat 64 (count (fun _ x => x.insn == sc1) h)
  hcalls : s.hcalls = counters t.hcalls.length fun k => count (fun h x => x.insn == sc1 && isToken t.hcalls k (Spec.r3 h)) h
  opalcallnum : s.opalcallnum = BitVec.ofNat 64 (count (fun h x => region x.ea == .firmware && !inFirmware h) h)
  opalcalls : s.opalcalls = counters t.opalcalls fun k => count (fun h x => (region x.ea == .firmware && !inFirmware h) && isKind t.opalcalls k (Spec.r0 (x :: h))) h
  opallast : s.opallast = inFirmware h

theorem r0_sc {x : Insn} {h : List Insn} (hx : x.insn = sc) : Spec.r0 (x :: h) = Spec.r0 h := by
  have : x.insn.toNat = 0x44000002 := by rw [hx]; rfl
  rw [Spec.r0, if_neg (by omega), if_neg (by omega)]

theorem r3_sc1 {x : Insn} {h : List Insn} (hx : x.insn = sc1) : Spec.r3 (x :: h) = Spec.r3 h := by
  have : x.insn.toNat = 0x44000022 := by rw [hx]; rfl
  rw [Spec.r3, if_neg (by omega)]

theorem isOpal_eq (ea : BitVec 64) : isOpal ea = (region ea == .firmware) := by
  rw [Bool.eq_iff_iff, isOpal_iff, beq_iff_eq]

theorem log_counts {t : Tables} (ht : t.Good) {h : List Insn} {s : Stats} (hs : Counts t h s) (x : Insn) : ∃ s', log t s x = some s' ∧ Counts t (x :: h) s' := by
  unfold log logStats
  rw [space_eq, exceptionEntry_eq ht x _ (c := fun k => count (fun _ x => vectorAt t x k) h) ?_]
  dsimp only
  rw [registers_eq (h := h) ?_ ?_ x, syscall_eq ht (r0_lt (x :: h)) rfl x.insn (c := fun k => count (fun h x => x.insn == sc && isKind t.syscalls k (Spec.r0 h)) h) ?_]
  dsimp only
  rw [hcall_eq ht (r3_lt (x :: h)) rfl x.insn (c := fun k => count (fun h x => x.insn == sc1 && isToken t.hcalls k (Spec.r3 h)) h) ?_]
  dsimp only
  rw [opalcall_eq ht (r0_lt (x :: h)) rfl x.ea
    (c := fun k => count (fun h x => (region x.ea == .firmware && !inFirmware h) && isKind t.opalcalls k (Spec.r0 (x :: h))) h)
    (q := region x.ea == .firmware && !inFirmware h) ?_ ?_]
  dsimp only
  rotate_left
  · exact hs.opalcalls
  · rw [isOpal_eq, ← hs.opallast]
  · exact hs.hcalls
  · exact hs.syscalls
  · exact hs.r3
  · exact hs.r0
  · exact hs.exceptions
  obtain ⟨a, m, h1⟩ := context_eq x _
  rw [h1]
  obtain ⟨i1, m1, h2⟩ := mftb_eq x.ea x.insn _
  rw [h2]
  obtain ⟨i2, m2, h3⟩ := mr3131_eq x.ea x.insn _
  rw [h3]
  refine ⟨_, rfl, ?_⟩
  constructor
  · show s.total + 1 = _
    rw [hs.total, List.length_cons, BitVec.ofNat_add]; rfl
  · show s.system + _ = _
    rw [hs.system, ofNat_bit]; rfl
  · show s.opal + _ = _
    rw [hs.opal, ofNat_bit]; rfl
  · show s.user + _ = _
    rw [hs.user, ofNat_bit]; rfl
  · show s.userlib + _ = _
    rw [hs.userlib, ofNat_bit]; rfl
  · show s.userbin + _ = _
    rw [hs.userbin, ofNat_bit]; rfl
  · rfl
  · rfl
  · show s.ctxswitch + _ = _
    rw [hs.ctxswitch, ofNat_bit]; rfl
  · show s.exceptionnum + _ = _
    rw [hs.exceptionnum, ofNat_bit]; rfl
  · rfl
  · show s.syscallnum + _ = _
    rw [hs.syscallnum, ofNat_bit]; rfl
  · apply counters_congr
    intro k _
    rw [count]
    congr 2
    by_cases hx : x.insn = sc
    · rw [r0_sc hx]
    · rw [beq_eq_false_iff_ne.2 hx, Bool.false_and, Bool.false_and]
  · show s.hcallnum + _ = _
    rw [hs.hcallnum, ofNat_bit]; rfl
  · apply counters_congr
    intro k _
    rw [count]
    congr 2
    by_cases hx : x.insn = sc1
    · rw [r3_sc1 hx]
    · rw [beq_eq_false_iff_ne.2 hx, Bool.false_and, Bool.false_and]
  · show s.opalcallnum + _ = _
    rw [hs.opalcallnum, ofNat_bit]; rfl
  · rfl
  · exact isOpal_eq x.ea

theorem run_counts {t : Tables} (ht : t.Good) : ∀ (l h : List Insn) (s : Stats), Counts t h s → ∃ s', run t s l = some s' ∧ Counts t (l.reverse ++ h) s'
  | [], h, s, hs => ⟨s, rfl, hs⟩
  | x :: l, h, s, hs => by
    obtain ⟨s1, h1, h2⟩ := log_counts ht hs x
    obtain ⟨s2, h3, h4⟩ := run_counts ht l (x :: h) s1 h2
    refine ⟨s2, by rw [run, h1]; exact h3, ?_⟩
    rw [List.reverse_cons, List.append_assoc]
    exact h4

/-- **C27**: for every trace, the statistics can be collected without an access outside the tables, and every counter is the number of the instructions
(modulo 2^64) that it stands for. -/
theorem C27_counts {t : Tables} (ht : t.Good) (l : List Insn) : ∃ s, run t (init t) l = some s ∧ Counts t l.reverse s := by
  have h0 : Counts t [] (init t) := by
    have hz : ∀ n, List.replicate n (0 : BitVec 64) = counters n fun _ => 0 := by
      intro n
      apply List.ext_getElem?
      intro k
      rw [counters_get, List.getElem?_replicate]; rfl
    constructor <;> first | rfl | exact hz _
  obtain ⟨s, h1, h2⟩ := run_counts ht l [] (init t) h0
  exact ⟨s, h1, by rwa [List.append_nil] at h2⟩

/-! ### Sums -/

theorem count_le (p : List Insn → Insn → Bool) : ∀ h : List Insn, count p h ≤ h.length
  | [] => Nat.le_refl _
  | x :: h => by
    have := count_le p h
    rw [count, List.length_cons]
    split <;> omega

theorem count_add {p q r : List Insn → Insn → Bool} (hp : ∀ h x, bit (p h x) = bit (q h x) + bit (r h x)) : ∀ h, count p h = count q h + count r h
  | [] => rfl
  | x :: h => by
    have h1 := count_add hp h
    have h2 := hp h x
    unfold bit at h2
    rw [count, count, count, h1, h2]
    omega

theorem sum_add (f g : Nat → Nat) (n : Nat) : ((List.range n).map fun k => f k + g k).sum = ((List.range n).map f).sum + ((List.range n).map g).sum := by
  induction n with
  | zero => rfl
  | succ n ih =>
    rw [List.range_succ]
    simp only [List.map_append, List.sum_append, List.map_cons, List.map_nil, List.sum_cons, List.sum_nil, ih]
    omega

theorem sum_zero (n : Nat) : ((List.range n).map fun _ => 0).sum = 0 := by
  induction n with
  | zero => rfl
  | succ n ih => rw [List.range_succ, List.map_append, List.sum_append, ih]; rfl

theorem sum_one {n i : Nat} (hi : i < n) {p : Nat → Bool} (hp : ∀ k, k < n → (p k = true ↔ k = i)) : ((List.range n).map fun k => bit (p k)).sum = 1 := by
  induction n with
  | zero => omega
  | succ n ih =>
    rw [List.range_succ, List.map_append, List.sum_append]
    simp only [List.map_cons, List.map_nil, List.sum_cons, List.sum_nil]
    by_cases h : i = n
    · subst h
      have h1 : ((List.range i).map fun k => bit (p k)) = (List.range i).map fun _ => 0 := by
        apply List.map_congr_left
        intro k hk
        have hk := List.mem_range.1 hk
        have : p k = false := by
          cases hpk : p k with
          | false => rfl
          | true => have := (hp k (by omega)).1 hpk; omega
        rw [this]; rfl
      rw [h1, sum_zero, (hp i (by omega)).2 rfl]
      rfl
    · rw [ih (by omega) (fun k hk => hp k (by omega))]
      have : p n = false := by
        cases hpk : p n with
        | false => rfl
        | true => have := (hp n (by omega)).1 hpk; omega
      rw [this]; rfl

/-- If exactly one of the kinds applies to every instruction that is counted. -/
theorem count_sum {n : Nat} {p : List Insn → Insn → Bool} {q : Nat → List Insn → Insn → Bool}
    (h1 : ∀ h x, p h x = true → ∃ i < n, ∀ k, k < n → (q k h x = true ↔ k = i)) (h0 : ∀ h x, p h x = false → ∀ k, k < n → q k h x = false) :
    ∀ h, ((List.range n).map fun k => count (q k) h).sum = count p h
  | [] => sum_zero n
  | x :: h => by
    have ih := count_sum h1 h0 h
    have : ((List.range n).map fun k => count (q k) (x :: h)) = (List.range n).map fun k => count (q k) h + bit (q k h x) := rfl
    rw [this, sum_add, ih]
    rw [count]
    congr 1
    cases hp : p h x with
    | true =>
      obtain ⟨i, hi, hk⟩ := h1 h x hp
      rw [sum_one hi hk]; rfl
    | false =>
      have h2 : ((List.range n).map fun k => bit (q k h x)) = (List.range n).map fun _ => 0 := by
        apply List.map_congr_left
        intro k hk
        rw [h0 h x hp k (List.mem_range.1 hk)]; rfl
      rw [h2, sum_zero]; rfl

theorem counters_sum {n : Nat} {c : Nat → Nat} (hc : ∀ k, c k < 2 ^ 64) : ((counters n c).map (·.toNat)).sum = ((List.range n).map c).sum := by
  unfold counters
  rw [List.map_map]
  congr 1
  apply List.map_congr_left
  intro k _
  show (BitVec.ofNat 64 (c k)).toNat = c k
  rw [BitVec.toNat_ofNat, Nat.mod_eq_of_lt (hc k)]

/-- **C27**: the totals are the sums of their parts. -/
theorem C27_partition {t : Tables} (ht : t.Good) (l : List Insn) (hl : l.length < 2 ^ 64) : ∃ s, run t (init t) l = some s ∧
    s.total.toNat = l.length ∧ s.total.toNat = s.system.toNat + s.opal.toNat + s.user.toNat ∧ s.user.toNat = s.userlib.toNat + s.userbin.toNat ∧
    s.syscallnum.toNat = (s.syscalls.map (·.toNat)).sum ∧ s.hcallnum.toNat = (s.hcalls.map (·.toNat)).sum ∧
    s.opalcallnum.toNat = (s.opalcalls.map (·.toNat)).sum ∧ s.exceptionnum.toNat = (s.exceptions.map (·.toNat)).sum := by
  obtain ⟨s, h1, h2⟩ := C27_counts ht l
  refine ⟨s, h1, ?_⟩
  generalize hh : l.reverse = h at h2
  have hlen : h.length = l.length := by rw [← hh, List.length_reverse]
  have hlt : ∀ p, count p h < 2 ^ 64 := fun p => Nat.lt_of_le_of_lt (count_le p h) (by omega)
  have hn : ∀ p, (BitVec.ofNat 64 (count p h)).toNat = count p h := fun p => by rw [BitVec.toNat_ofNat, Nat.mod_eq_of_lt (hlt p)]
  have htot : s.total.toNat = l.length := by rw [h2.total, BitVec.toNat_ofNat, hlen, Nat.mod_eq_of_lt hl]
  refine ⟨htot, ?_, ?_, ?_, ?_, ?_, ?_⟩
  · rw [htot, ← hlen, h2.system, h2.opal, h2.user, hn, hn, hn]
    have hall : ∀ g : List Insn, g.length = count (fun _ _ => true) g := by
      intro g
      induction g with
      | nil => rfl
      | cons x g ih => rw [List.length_cons, count, ← ih]; rfl
    rw [hall, count_add (q := fun _ x => region x.ea == .kernel || region x.ea == .firmware) (r := fun _ x => region x.ea == .library || region x.ea == .binary),
      count_add (p := fun _ x => region x.ea == .kernel || region x.ea == .firmware) (q := fun _ x => region x.ea == .kernel) (r := fun _ x => region x.ea == .firmware)]
    · intro h x; cases region x.ea <;> rfl
    · intro h x; cases region x.ea <;> rfl
  · rw [h2.user, h2.userlib, h2.userbin, hn, hn, hn]
    exact count_add (fun h x => by cases region x.ea <;> rfl) h
  · rw [h2.syscallnum, h2.syscalls, hn, counters_sum (fun k => hlt _)]
    refine (count_sum (fun h x hp => ?_) (fun h x hp k _ => ?_) h).symm
    · obtain ⟨h3, h4⟩ := clamp_eq ht.syscalls (show Spec.r0 h < 2 ^ 64 by have := r0_lt h; omega)
      exact ⟨_, h3, fun k hk => by rw [hp, Bool.true_and]; exact h4 k hk⟩
    · rw [hp, Bool.false_and]
  · rw [h2.hcallnum, h2.hcalls, hn, counters_sum (fun k => hlt _)]
    refine (count_sum (fun h x hp => ?_) (fun h x hp k _ => ?_) h).symm
    · obtain ⟨h3, h4⟩ := hcallFind_eq ht (r3_lt h)
      exact ⟨_, h3, fun k hk => by rw [hp, Bool.true_and]; exact h4 k hk⟩
    · rw [hp, Bool.false_and]
  · rw [h2.opalcallnum, h2.opalcalls, hn, counters_sum (fun k => hlt _)]
    refine (count_sum (fun h x hp => ?_) (fun h x hp k _ => ?_) h).symm
    · obtain ⟨h3, h4⟩ := clamp_eq ht.opalcalls (show Spec.r0 (x :: h) < 2 ^ 64 by have := r0_lt (x :: h); omega)
      exact ⟨_, h3, fun k hk => by rw [hp, Bool.true_and]; exact h4 k hk⟩
    · rw [hp, Bool.false_and]
  · rw [h2.exceptionnum, h2.exceptions, hn, counters_sum (fun k => hlt _)]
    refine (count_sum (fun h x hp => ?_) (fun h x hp k hk => ?_) h).symm
    · obtain ⟨v, hv, hx⟩ := List.any_eq_true.1 hp
      obtain ⟨i, hi, rfl⟩ := List.getElem_of_mem hv
      refine ⟨i, hi, fun k hk => ?_⟩
      unfold vectorAt
      rw [List.getElem?_eq_getElem hk]
      show isVector _ x = true ↔ _
      constructor
      · intro h3
        have h4 := ((isVector_iff (ea := x.ea) (ht.vector _ (List.getElem_mem hk)) x.insn).1 h3).2
        have h5 := ((isVector_iff (ea := x.ea) (ht.vector _ (List.getElem_mem hi)) x.insn).1 hx).2
        exact nodup_get ht.vectors (List.getElem?_eq_getElem hk) (by rw [List.getElem?_eq_getElem hi, ← h5, h4])
      · rintro rfl; exact hx
    · unfold vectorAt
      rw [List.getElem?_eq_getElem hk]
      show isVector _ x = false
      rw [List.any_eq_false] at hp
      have := hp _ (List.getElem_mem hk)
      rwa [Bool.not_eq_true] at this

theorem range_total (f : Nat → Nat) : ∀ l : List Nat, (l.map fun k => BitVec.ofNat 64 (f k)).sum = BitVec.ofNat 64 (l.map f).sum
  | [] => rfl
  | k :: l => by rw [List.map_cons, List.map_cons, List.sum_cons, List.sum_cons, range_total f l, BitVec.ofNat_add]

theorem counters_total (n : Nat) (c : Nat → Nat) : (counters n c).sum = BitVec.ofNat 64 ((List.range n).map c).sum := range_total c _

/-- **C27**, traces of any length: the totals are the sums of their parts in the arithmetic of the counters, modulo 2^64. -/
theorem C27_sums {t : Tables} (ht : t.Good) (l : List Insn) : ∃ s, run t (init t) l = some s ∧
    s.total = BitVec.ofNat 64 l.length ∧ s.total = s.system + s.opal + s.user ∧ s.user = s.userlib + s.userbin ∧
    s.syscallnum = s.syscalls.sum ∧ s.hcallnum = s.hcalls.sum ∧ s.opalcallnum = s.opalcalls.sum ∧ s.exceptionnum = s.exceptions.sum := by
  obtain ⟨s, h1, h2⟩ := C27_counts ht l
  refine ⟨s, h1, ?_⟩
  generalize hh : l.reverse = h at h2
  have hlen : h.length = l.length := by rw [← hh, List.length_reverse]
  refine ⟨by rw [h2.total, hlen], ?_, ?_, ?_, ?_, ?_, ?_⟩
  · rw [h2.total, h2.system, h2.opal, h2.user, ← BitVec.ofNat_add, ← BitVec.ofNat_add]
    congr 1
    have hall : ∀ g : List Insn, g.length = count (fun _ _ => true) g := by
      intro g
      induction g with
      | nil => rfl
      | cons x g ih => rw [List.length_cons, count, ← ih]; rfl
    rw [hall, count_add (q := fun _ x => region x.ea == .kernel || region x.ea == .firmware) (r := fun _ x => region x.ea == .library || region x.ea == .binary),
      count_add (p := fun _ x => region x.ea == .kernel || region x.ea == .firmware) (q := fun _ x => region x.ea == .kernel) (r := fun _ x => region x.ea == .firmware)]
    · intro h x; cases region x.ea <;> rfl
    · intro h x; cases region x.ea <;> rfl
  · rw [h2.user, h2.userlib, h2.userbin, ← BitVec.ofNat_add]
    congr 1
    exact count_add (fun h x => by cases region x.ea <;> rfl) h
  · rw [h2.syscallnum, h2.syscalls, counters_total]
    congr 1
    refine (count_sum (fun h x hp => ?_) (fun h x hp k _ => ?_) h).symm
    · obtain ⟨h3, h4⟩ := clamp_eq ht.syscalls (show Spec.r0 h < 2 ^ 64 by have := r0_lt h; omega)
      exact ⟨_, h3, fun k hk => by rw [hp, Bool.true_and]; exact h4 k hk⟩
    · rw [hp, Bool.false_and]
  · rw [h2.hcallnum, h2.hcalls, counters_total]
    congr 1
    refine (count_sum (fun h x hp => ?_) (fun h x hp k _ => ?_) h).symm
    · obtain ⟨h3, h4⟩ := hcallFind_eq ht (r3_lt h)
      exact ⟨_, h3, fun k hk => by rw [hp, Bool.true_and]; exact h4 k hk⟩
    · rw [hp, Bool.false_and]
  · rw [h2.opalcallnum, h2.opalcalls, counters_total]
    congr 1
    refine (count_sum (fun h x hp => ?_) (fun h x hp k _ => ?_) h).symm
    · obtain ⟨h3, h4⟩ := clamp_eq ht.opalcalls (show Spec.r0 (x :: h) < 2 ^ 64 by have := r0_lt (x :: h); omega)
      exact ⟨_, h3, fun k hk => by rw [hp, Bool.true_and]; exact h4 k hk⟩
    · rw [hp, Bool.false_and]
  · rw [h2.exceptionnum, h2.exceptions, counters_total]
    congr 1
    refine (count_sum (fun h x hp => ?_) (fun h x hp k hk => ?_) h).symm
    · obtain ⟨v, hv, hx⟩ := List.any_eq_true.1 hp
      obtain ⟨i, hi, rfl⟩ := List.getElem_of_mem hv
      refine ⟨i, hi, fun k hk => ?_⟩
      unfold vectorAt
      rw [List.getElem?_eq_getElem hk]
      show isVector _ x = true ↔ _
      constructor
      · intro h3
        have h4 := ((isVector_iff (ea := x.ea) (ht.vector _ (List.getElem_mem hk)) x.insn).1 h3).2
        have h5 := ((isVector_iff (ea := x.ea) (ht.vector _ (List.getElem_mem hi)) x.insn).1 hx).2
        exact nodup_get ht.vectors (List.getElem?_eq_getElem hk) (by rw [List.getElem?_eq_getElem hi, ← h5, h4])
      · rintro rfl; exact hx
    · unfold vectorAt
      rw [List.getElem?_eq_getElem hk]
      show isVector _ x = false
      rw [List.any_eq_false] at hp
      have := hp _ (List.getElem_mem hk)
      rwa [Bool.not_eq_true] at this

/-- A trace: a user program sets r0 to 4 and makes a system call, which enters the kernel at its relocated vector; the kernel calls the firmware. -/
def sample : List Insn :=
  [⟨0x10000000, 0x38000004⟩, ⟨0x10000004, 0x44000002⟩, ⟨0xc000000000004c00, 0x7c0042a6⟩, ⟨0xc000000000004c04, 0x38000050⟩, ⟨0x30000000, 0x60000000⟩,
   ⟨0x30000004, 0x60000000⟩, ⟨0x700000000000, 0x60000000⟩]

example : ((run tables (init tables) sample).map fun s =>
      (s.total, s.system, s.opal, s.user, s.userlib, s.userbin)) = some (7, 2, 2, 3, 1, 2) ∧
    ((run tables (init tables) sample).map fun s => (s.syscalls[4]?, s.opalcalls[0x50]?, s.exceptions[0]?, s.ctxswitch)) =
      some (some 1, some 1, some 1, 1) := by decide +kernel

/-- **C56** (the printed context switches are the reads of VRSAVE in the kernel) **is refuted**: a read into r16 to r31 is never counted. -/
theorem C56_refuted (ea : BitVec 64) (hea : region ea = .kernel) (t : Nat) (ht : 16 ≤ t) (ht' : t < 32) :
    let x : Insn := ⟨ea, BitVec.ofNat 32 (0x7c0042a6 + t * 2 ^ 21)⟩
    readsVrsave x = true ∧ ∃ s, run tables (init tables) [x] = some s ∧ s.ctxswitch = 0 := by
  intro x
  have hw : x.insn.toNat = 0x7c0042a6 + t * 2 ^ 21 := by
    show (BitVec.ofNat 32 _).toNat = _
    rw [BitVec.toNat_ofNat]; omega
  refine ⟨?_, ?_⟩
  · unfold readsVrsave
    rw [Bool.and_eq_true, beq_iff_eq, List.any_eq_true]
    exact ⟨hea, t, List.mem_range.2 ht', beq_iff_eq.2 hw⟩
  · obtain ⟨s, h1, h2⟩ := C27_counts tables_good [x]
    refine ⟨s, h1, ?_⟩
    rw [h2.ctxswitch]
    have : switches x = false := by
      rw [← Bool.not_eq_true]
      intro h
      unfold switches at h
      rw [Bool.and_eq_true, List.any_eq_true] at h
      obtain ⟨_, k, hk, he⟩ := h
      have := List.mem_range.1 hk
      have := beq_iff_eq.1 he
      omega
    show BitVec.ofNat 64 (0 + if switches x then 1 else 0) = 0
    rw [this]; rfl

/-- C56 for the other registers: if no read uses r16 to r31, the counter is the number of reads. -/
theorem C56_context_partial (l : List Insn) (h16 : ∀ x ∈ l, ∀ t, 16 ≤ t → t < 32 → x.insn.toNat ≠ 0x7c0042a6 + t * 2 ^ 21) :
    ∃ s, run tables (init tables) l = some s ∧ s.ctxswitch = BitVec.ofNat 64 (l.filter readsVrsave).length := by
  obtain ⟨s, h1, h2⟩ := C27_counts tables_good l
  refine ⟨s, h1, ?_⟩
  rw [h2.ctxswitch]
  congr 1
  have key : ∀ g : List Insn, (∀ x ∈ g, x ∈ l) → count (fun _ x => switches x) g = (g.filter readsVrsave).length := by
    intro g
    induction g with
    | nil => intro _; rfl
    | cons x g ih =>
      intro hg
      rw [count, ih (fun y hy => hg y (List.mem_cons_of_mem _ hy))]
      have : switches x = readsVrsave x := by
        unfold switches readsVrsave
        congr 1
        rw [Bool.eq_iff_iff, List.any_eq_true, List.any_eq_true]
        constructor
        · rintro ⟨k, hk, he⟩; exact ⟨k, List.mem_range.2 (by have := List.mem_range.1 hk; omega), he⟩
        · rintro ⟨k, hk, he⟩
          refine ⟨k, List.mem_range.2 ?_, he⟩
          refine Nat.lt_of_not_le fun hle => h16 x (hg x List.mem_cons_self) k hle (List.mem_range.1 hk) (beq_iff_eq.1 he)
      rw [this]
      by_cases h : readsVrsave x = true
      · rw [List.filter_cons_of_pos h, if_pos h]; rfl
      · rw [List.filter_cons_of_neg h, if_neg h]; rfl
  rw [key l.reverse (fun x hx => List.mem_reverse.1 hx), List.filter_reverse, List.length_reverse]

end Stats
