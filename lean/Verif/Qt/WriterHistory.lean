import Verif.Qt.File
/-! Helper lemmas: sizes of stored records and histories of write calls. -/
namespace Qt
open Spec

theorem putArr_length (n : Nat) (f : Nat → BitVec 64) : (putArr n f).length = 8 * n := by
  unfold putArr
  induction n with
  | zero => rfl
  | succ n ih =>
    rw [List.range_succ, List.flatMap_append, List.length_append, ih]
    simp [be64]; omega

theorem flatMap_putArr_length (n k : Nat) (f : Nat → Nat → BitVec 64) :
    ((List.range n).flatMap (fun i => putArr k (f i))).length = 8 * k * n := by
  induction n with
  | zero => rfl
  | succ n ih =>
    rw [List.range_succ, List.flatMap_append, List.length_append, ih]
    simp [putArr_length]
    rw [Nat.mul_add]; omega

theorem walkBytes_length {x : Radix} {w : Walk} (h : radixWalk x = .ok w) : (walkBytes w x).length ≤ 234 := by
  cases w with
  | none => simp [walkBytes]
  | single g => simp [walkBytes, putArr_length, NR_RADIX_PTES]
  | nested =>
    obtain ⟨h1, h2, h3, h4⟩ := radixWalk_nested h
    simp only [walkBytes, List.length_append, flatMap_putArr_length, putArr_length, put8n, List.length_cons,
      List.length_nil]
    have : x.nrPtes * x.nrWalks ≤ 4 * 5 := Nat.mul_le_mul h2 h4
    rw [Nat.mul_assoc]
    omega

theorem walkIf_length {c : Bool} {x : Radix} {w : Walk} (h : walkIf c x = .ok w) :
    (walkBytes w x).length ≤ 234 := by
  cases c
  · obtain rfl : Walk.none = w := WRes.ok.inj h
    simp [walkBytes]
  · exact walkBytes_length h

theorem putIf_length (c : Bool) (b : Bytes) : (putIf c b).length ≤ b.length := by
  cases c <;> simp [putIf]

theorem putRpnIf_length {c : Bool} {ra v s b} (h : putRpnIf c ra v s = .ok b) : b.length ≤ 4 := by
  unfold putRpnIf rpnBytes at h
  cases c
  · obtain rfl : [] = b := WRes.ok.inj h
    simp
  · rw [if_pos rfl] at h
    generalize (if v = true then s % 256 else 16) = p at h
    simp only at h
    split at h
    · obtain rfl := WRes.ok.inj h
      simp [be32]
    · cases h

theorem recordBytes_length {prev cur : Record} {b : Bytes} (h : recordBytes prev cur = .ok b) :
    b.length ≤ 600 ∧ 6 ≤ b.length := by
  obtain ⟨dw, e1, h⟩ := WRes.bind_ok h
  obtain ⟨iw, e2, h⟩ := WRes.bind_ok h
  obtain ⟨d, e3, h⟩ := WRes.bind_ok h
  obtain ⟨i, e4, h⟩ := WRes.bind_ok h
  obtain rfl := WRes.ok.inj h
  have := walkIf_length e1
  have := walkIf_length e2
  have := putRpnIf_length e3
  have := putRpnIf_length e4
  have a1 := putIf_length (dw != .none || iw != .none) (be16 (recFlags3 dw iw))
  have a2 := putIf_length (writeIsBranch prev cur) [0, 0, termCodeOf prev]
  have a3 := putIf_length prev.dataAddrValid (be64 prev.dataAddr)
  have a4 := putIf_length (iarChange prev cur) (be64 cur.insnAddr)
  have a5 := putIf_length (cur.insnPageShiftValid && iarChange prev cur) (put8n cur.insnPageShift)
  have a6 := putIf_length (cur.guestInsnPageShiftValid && iarChange prev cur) (put8n cur.guestInsnPageShift)
  have a7 := putIf_length prev.dataPageShiftValid (put8n prev.dataPageShift)
  have a8 := putIf_length prev.guestDataPageShiftValid (put8n prev.guestDataPageShift)
  simp only [be16_length, be64_length, put8n, List.length_cons, List.length_nil] at a1 a2 a3 a4 a5 a6 a7 a8
  simp only [List.length_append, be32_length, be16_length, put8n]
  omega

theorem headerBytes_length {magic version : BitVec 32} {r : Record} {b : Bytes}
    (h : headerBytes magic version r = .ok b) : b.length ≤ 600 := by
  obtain ⟨w, e1, h⟩ := WRes.bind_ok h
  obtain ⟨i, e4, h⟩ := WRes.bind_ok h
  obtain rfl := WRes.ok.inj h
  have := walkBytes_length e1
  have := putRpnIf_length e4
  have a1 := putIf_length (w != .none) (be16 (hdrFlags3 w))
  have a2 := putIf_length (magic != 0) (be32 magic)
  have a3 := putIf_length (version != 0) (be32 version)
  have a5 := putIf_length r.insnPageShiftValid (put8n r.insnPageShift)
  have a6 := putIf_length r.guestInsnPageShiftValid (put8n r.guestInsnPageShift)
  simp only [be16_length, be32_length, put8n, List.length_cons, List.length_nil] at a1 a2 a3 a5 a6
  simp only [List.length_append, be32_length, be16_length, be64_length, put8n]
  omega

/-- One write call: nothing happens, or at most 600 bytes are appended with `BUFFER` bytes of room. -/
theorem writeRecord_cases {s s' : WState} {r : Record} {g ok : Bool} (h : writeRecord s r g = .ok (ok, s')) :
    (ok = false ∧ s' = s ∧ g = false) ∨
    (ok = true ∧ s'.prev = r ∧ s'.headerWritten = true ∧ s'.magic = s.magic ∧ s'.version = s.version ∧
      ∃ b, s'.out = s.out ++ b ∧ b.length ≤ 600 ∧ s.mapped ≤ s'.mapped ∧
        (s.out.length ≤ s.mapped → s.out.length + BUFFER ≤ s'.mapped) ∧
        (if s.headerWritten then recordBytes s.prev r else headerBytes s.magic s.version r) = .ok b) := by
  unfold writeRecord at h
  split at h
  · rename_i hc
    simp at hc
    obtain ⟨rfl, rfl⟩ := Prod.mk.inj (WRes.ok.inj h)
    exact .inl ⟨rfl, rfl, hc.2⟩
  · right
    generalize hM : (if s.out.length + BUFFER > s.mapped then s.mapped + BUFFER else s.mapped) = M at h
    simp only at h
    have hmap : s.mapped ≤ M := by
      rw [← hM]; split <;> omega
    have hroom : s.out.length ≤ s.mapped → s.out.length + BUFFER ≤ M := by
      rw [← hM]; split <;> omega
    split at h
    · rename_i hw
      obtain ⟨b, e, h⟩ := WRes.bind_ok h
      obtain ⟨rfl, rfl⟩ := Prod.mk.inj (WRes.ok.inj h)
      exact ⟨rfl, rfl, rfl, rfl, rfl, b, rfl, headerBytes_length e, hmap, hroom, by rw [hw]; exact e⟩
    · rename_i hw
      obtain ⟨b, e, h⟩ := WRes.bind_ok h
      obtain ⟨rfl, rfl⟩ := Prod.mk.inj (WRes.ok.inj h)
      exact ⟨rfl, rfl, by simpa using hw, rfl, rfl, b, rfl, (recordBytes_length e).1, hmap, hroom,
        by simp at hw; rw [hw]; exact e⟩

theorem runWrites_cons {s : WState} {r : Record} {g : Bool} {h : List (Record × Bool)} {bs : List Bool} {s'' : WState}
    (e : runWrites s ((r, g) :: h) = .ok (bs, s'')) :
    ∃ b s' bs', writeRecord s r g = .ok (b, s') ∧ runWrites s' h = .ok (bs', s'') ∧ bs = b :: bs' := by
  obtain ⟨⟨b, s'⟩, e1, e⟩ := WRes.bind_ok e
  obtain ⟨⟨bs', s2⟩, e2, e⟩ := WRes.bind_ok e
  obtain ⟨rfl, rfl⟩ := Prod.mk.inj (WRes.ok.inj e)
  exact ⟨b, s', bs', e1, e2, rfl⟩

theorem runWrites_room : ∀ (h : List (Record × Bool)) (s s' : WState) (bs : List Bool),
    s.out.length + 64 ≤ s.mapped → runWrites s h = .ok (bs, s') → s'.out.length + 64 ≤ s'.mapped ∧ s.mapped ≤ s'.mapped
  | [], s, s', bs, hr, e => by
    obtain ⟨rfl, rfl⟩ := Prod.mk.inj (WRes.ok.inj e)
    exact ⟨hr, Nat.le_refl _⟩
  | (r, g) :: h, s, s', bs, hr, e => by
    obtain ⟨b, s1, bs', e1, e2, rfl⟩ := runWrites_cons e
    rcases writeRecord_cases e1 with ⟨_, rfl, _⟩ | ⟨_, _, _, _, _, b, ho, hl, hm, hm', _⟩
    · exact runWrites_room h _ s' bs' hr e2
    · have := runWrites_room h s1 s' bs' (by
        rw [ho, List.length_append]
        have := hm' (by omega)
        have : BUFFER = 131072 := rfl
        omega) e2
      omega

/-- Same stored bytes and same pending record; only the mapped size may differ. -/
structure SameOut (s t : WState) : Prop where
  out : s.out = t.out
  prev : s.prev = t.prev
  hdr : s.headerWritten = t.headerWritten
  magic : s.magic = t.magic
  version : s.version = t.version

theorem SameOut.step {s t s' : WState} {r : Record} {g : Bool} (h : SameOut s t)
    (e : writeRecord s r g = .ok (true, s')) : ∃ t', writeRecord t r true = .ok (true, t') ∧ SameOut s' t' := by
  rcases writeRecord_cases e with ⟨h0, _⟩ | ⟨_, hp, hh, hmg, hv, b, ho, _, _, _, hb⟩
  · simp at h0
  · rw [h.hdr, h.prev, h.magic, h.version] at hb
    cases hw : t.headerWritten with
    | false =>
      rw [hw] at hb
      unfold writeRecord
      simp only [Bool.not_true, Bool.and_false, Bool.false_eq_true, if_false, hw, if_true]
      rw [show headerBytes t.magic t.version r = .ok b from hb]
      refine ⟨_, rfl, ?_⟩
      constructor <;> simp_all [h.out, h.magic, h.version]
    | true =>
      rw [hw] at hb
      unfold writeRecord
      simp only [Bool.not_true, Bool.and_false, Bool.false_eq_true, if_false, hw]
      rw [show recordBytes t.prev r = .ok b from hb]
      refine ⟨_, rfl, ?_⟩
      constructor <;> simp_all [h.out, h.magic, h.version]

/-- Calls that returned false have no effect on the bytes stored. -/
theorem runWrites_accepted : ∀ (h : List (Record × Bool)) (s t s' : WState) (bs : List Bool), SameOut s t →
    runWrites s h = .ok (bs, s') → ∃ t', writeAll t (accepted h bs) = .ok t' ∧ SameOut s' t'
  | [], s, t, s', bs, hs, e => by
    obtain ⟨rfl, rfl⟩ := Prod.mk.inj (WRes.ok.inj e)
    exact ⟨t, rfl, hs⟩
  | (r, g) :: h, s, t, s', bs, hs, e => by
    obtain ⟨b, s1, bs', e1, e2, rfl⟩ := runWrites_cons e
    cases b with
    | false =>
      rcases writeRecord_cases e1 with ⟨_, rfl, _⟩ | ⟨h0, _⟩
      · exact runWrites_accepted h _ t s' bs' hs e2
      · simp at h0
    | true =>
      obtain ⟨t1, f1, hs1⟩ := hs.step e1
      obtain ⟨t', f2, hs'⟩ := runWrites_accepted h s1 t1 s' bs' hs1 e2
      exact ⟨t', (writeAll_cons f1).trans f2, hs'⟩

/-- What the calls of a history returned (`none` if one of them aborted). -/
def resultsOf : WRes (List Bool × WState) → Option (List Bool)
  | .ok (bs, _) => some bs
  | _ => none

theorem of_resultsOf {x : WRes (List Bool × WState)} {bs} (h : resultsOf x = some bs) : ∃ s, x = .ok (bs, s) := by
  match x, h with
  | .ok (_, s), rfl => exact ⟨s, rfl⟩

end Qt
