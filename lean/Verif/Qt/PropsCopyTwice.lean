import Verif.Qt.PropsCopyPlain
/-
Property C113: copies of copies.
-/
namespace Qt
open Spec

/-- Two records the writer stores in the same way (without walks). -/
structure Alike (r o : Record) : Prop where
  acc : SameAccess r o
  tr : SameTranslation r o
  br : o.branch = r.branch
  cond : r.branch = true → o.conditionalBranch = r.conditionalBranch
  walks : NoWalk r.radixInsn ∧ NoWalk r.radixData
  walks' : NoWalk o.radixInsn ∧ NoWalk o.radixData

theorem Alike.refl {r : Record} (h : NoWalk r.radixInsn ∧ NoWalk r.radixData) : Alike r r :=
  ⟨⟨rfl, rfl, rfl, fun _ => rfl⟩,
    ⟨rfl, fun _ => rfl, rfl, fun _ => rfl, rfl, fun _ => rfl, rfl, fun _ => rfl, rfl, fun _ => rfl, rfl, fun _ => rfl⟩,
    rfl, fun _ => rfl, h, h⟩

theorem radixWalk_noWalk {x : Radix} (h : NoWalk x) : radixWalk x = .ok .none := by
  unfold NoWalk at h
  unfold radixWalk
  simp [h]

theorem walkIf_noWalk {x : Radix} (c : Bool) (h : NoWalk x) : walkIf c x = .ok .none := by
  unfold walkIf
  rw [radixWalk_noWalk h]
  cases c <;> rfl

theorem putIf_congr {c c' : Bool} {b b' : Bytes} (hc : c' = c) (h : c = true → b' = b) : putIf c' b' = putIf c b := by
  subst hc
  unfold putIf
  split
  · next e => exact h e
  · rfl

theorem putRpnIf_congr {c c' v v' : Bool} {ra ra' : BitVec 64} {n n' : Nat} (hc : c' = c) (hr : c = true → ra' = ra) (hv : v' = v)
    (hn : v = true → n' = n) : putRpnIf c' ra' v' n' = putRpnIf c ra v n := by
  subst hc hv
  unfold putRpnIf
  split
  · next e =>
    rw [hr e]
    unfold rpnBytes
    cases v' with
    | false => rfl
    | true => rw [hn rfl]
  · rfl

theorem headerBytes_alike (magic version : BitVec 32) {r o : Record} (h : Alike r o) :
    headerBytes magic version o = headerBytes magic version r := by
  obtain ⟨⟨a1, a2, a3, a4⟩, ⟨t1, t2, t3, t4, t5, t6, t7, t8, t9, t10, t11, t12⟩, _, _, ⟨w1, w2⟩, w3, w4⟩ := h
  unfold headerBytes
  rw [radixWalk_noWalk w1, radixWalk_noWalk w3, putRpnIf_congr t1 t2 t3 t4, a2,
    putIf_congr (b' := put8n o.insnPageShift) (b := put8n r.insnPageShift) t3 (fun v => by rw [t4 v]),
    putIf_congr (b' := put8n o.guestInsnPageShift) (b := put8n r.guestInsnPageShift) t5 (fun v => by rw [t6 v])]
  unfold NoWalk at w1 w3
  rw [w1, w3]
  unfold hdrFlags
  rw [t1, t3, t5]
  rfl

theorem recordBytes_alike {a a' b b' : Record} (ha : Alike a a') (hb : Alike b b') : recordBytes a' b' = recordBytes a b := by
  obtain ⟨⟨a1, a2, a3, a4⟩, ⟨t1, t2, t3, t4, t5, t6, t7, t8, t9, t10, t11, t12⟩, ab, ac, ⟨w1, w2⟩, w3, w4⟩ := ha
  obtain ⟨⟨b1, b2, b3, b4⟩, ⟨u1, u2, u3, u4, u5, u6, u7, u8, u9, u10, u11, u12⟩, bb, bc, ⟨x1, x2⟩, x3, x4⟩ := hb
  have hchg : iarChange a' b' = iarChange a b := by unfold iarChange; rw [a2, b2]
  have hbr : writeIsBranch a' b' = writeIsBranch a b := by unfold writeIsBranch; rw [ab, hchg]
  have htc : termCodeOf a' = termCodeOf a := by
    unfold termCodeOf
    rw [ab]
    split
    · next e => rw [ac e]
    · rfl
  have hbind : ∀ (f : Walk → WRes Bytes), ((WRes.ok Walk.none : WRes Walk) >>= f) = f Walk.none := fun _ => rfl
  have hnone : ∀ x : Radix, walkBytes .none x = [] := fun _ => rfl
  unfold recordBytes
  dsimp only
  rw [hchg, hbr, htc, walkIf_noWalk _ w2, walkIf_noWalk _ w4, walkIf_noWalk _ x1, walkIf_noWalk _ x3,
    putRpnIf_congr t7 t8 t9 t10,
    putRpnIf_congr (c := b.insnRaValid && iarChange a b) (ra := b.insnRa) (by rw [u1]) (fun v => u2 (by simp at v; exact v.1)) u3 u4, a1,
    putIf_congr (b' := be64 a'.dataAddr) (b := be64 a.dataAddr) a3 (fun v => by rw [a4 v]), b2,
    putIf_congr (c := b.insnPageShiftValid && iarChange a b) (b' := put8n b'.insnPageShift) (b := put8n b.insnPageShift) (by rw [u3])
      (fun v => by simp at v; rw [u4 v.1]),
    putIf_congr (c := b.guestInsnPageShiftValid && iarChange a b) (b' := put8n b'.guestInsnPageShift) (b := put8n b.guestInsnPageShift)
      (by rw [u5]) (fun v => by simp at v; rw [u6 v.1]),
    putIf_congr (b' := put8n a'.dataPageShift) (b := put8n a.dataPageShift) t9 (fun v => by rw [t10 v]),
    putIf_congr (b' := put8n a'.guestDataPageShift) (b := put8n a.guestDataPageShift) t11 (fun v => by rw [t12 v])]
  unfold recFlags recFlags2
  rw [hchg, hbr, a3, t7, u1, t9, t11, u3, u5]
  simp only [hbind, hnone]

theorem writeRecord_alike (s : WState) {p r o : Record} (hp : Alike s.prev p) (h : Alike r o) (g : Bool) (b : Bool) (t : WState)
    (e : writeRecord s r g = .ok (b, t)) :
    ∃ t', writeRecord { s with prev := p } o g = .ok (b, t') ∧ t'.out = t.out ∧
      ((b = true ∧ t.prev = r ∧ t' = { t with prev := o }) ∨ (b = false ∧ t = s ∧ t' = { s with prev := p })) := by
  unfold writeRecord at e ⊢
  dsimp only at e ⊢
  split at e
  · cases e
    next hc =>
    rw [if_pos hc]
    exact ⟨_, rfl, rfl, .inr ⟨rfl, rfl, rfl⟩⟩
  · next hc =>
    rw [if_neg hc]
    split at e
    · next hh =>
      rw [if_pos hh, headerBytes_alike _ _ h]
      obtain ⟨x, e1, e2⟩ := WRes.bind_ok e
      rw [e1]
      cases e2
      exact ⟨_, rfl, rfl, .inl ⟨rfl, rfl, rfl⟩⟩
    · next hh =>
      rw [if_neg hh, recordBytes_alike hp h]
      obtain ⟨x, e1, e2⟩ := WRes.bind_ok e
      rw [e1]
      cases e2
      exact ⟨_, rfl, rfl, .inl ⟨rfl, rfl, rfl⟩⟩

theorem writeAll_alike : ∀ (rs os : List Record) (s : WState) (p : Record) (t : WState), os.length = rs.length →
    (∀ (i : Nat) (r : Record), rs[i]? = some r → ∃ o, os[i]? = some o ∧ Alike r o) → Alike s.prev p →
    writeAll s rs = .ok t → ∃ q, writeAll { s with prev := p } os = .ok { t with prev := q } ∧ Alike t.prev q := by
  intro rs
  induction rs with
  | nil =>
    intro os s p t hl _ hp e
    obtain rfl := List.length_eq_zero_iff.mp hl
    cases e
    exact ⟨p, rfl, hp⟩
  | cons r rs ih =>
    intro os s p t hl h hp e
    cases os with
    | nil => simp at hl
    | cons o os =>
      obtain ⟨o', k1, k2⟩ := h 0 r rfl
      cases k1
      unfold writeAll at e ⊢
      obtain ⟨⟨b, s'⟩, e1, e2⟩ := WRes.bind_ok e
      obtain ⟨x, ex, hx⟩ := writeRecord_true s r
      have hb : b = true := hx b s' (by rw [← ex, e1])
      subst hb
      obtain ⟨t', f1, _, f3⟩ := writeRecord_alike s hp k2 true true s' e1
      obtain ⟨-, f4, rfl⟩ | ⟨f, -⟩ := f3
      · rw [f1]
        exact ih os s' o t (by simpa using hl) (fun i r hr => by simpa using h (i + 1) r (by simpa using hr)) (by rw [f4]; exact k2) e2
      · cases f

/-- Records the writer stores in the same way make the same file. -/
theorem writeTrace_alike (magic : BitVec 32) (rs os : List Record) (file : Bytes) (hl : os.length = rs.length)
    (h : ∀ (i : Nat) (r : Record), rs[i]? = some r → ∃ o, os[i]? = some o ∧ Alike r o) (e : writeTrace magic rs = .ok file) :
    writeTrace magic os = .ok file := by
  unfold writeTrace at e ⊢
  obtain ⟨t, e1, e2⟩ := WRes.bind_ok e
  obtain ⟨q, f1, f2⟩ := writeAll_alike rs os (writerOpen magic) Record.zero t hl h (Alike.refl ⟨rfl, rfl⟩) e1
  replace f1 : writeAll (writerOpen magic) os = .ok { t with prev := q } := f1
  rw [f1]
  show writerClose { t with prev := q } true = _
  unfold writerClose at e2 ⊢
  obtain ⟨⟨b, s'⟩, g1, g2⟩ := WRes.bind_ok e2
  have ha : q.insnAddr = t.prev.insnAddr := f2.acc.2.1
  dsimp only
  rw [ha]
  obtain ⟨t', k1, k2, _⟩ := writeRecord_alike t f2 (Alike.refl (r := { Record.zero with insnAddr := t.prev.insnAddr + 4 }) ⟨rfl, rfl⟩)
    true b s' g1
  rw [k1]
  cases g2
  exact congrArg WRes.ok k2

/-- Where control leaves the sequential path there is a branch. -/
def Spec.JumpsAreBranches (rs : List Record) : Prop :=
  ∀ (i : Nat) (r : Record), rs[i]? = some r → following rs i r ≠ r.insnAddr + 4 → r.branch = true

/-- A trace that can be opened and read to its end, and has records; they have no walks, their page sizes are shift counts, and pages
of instructions change only at jumps. -/
structure Spec.PlainTrace (m : Mem) : Prop where
  opens : ∃ c, readerInit m = .ok () c
  ends : (readTrace m false false).final = .fail
  some : (readTrace m false false).records ≠ []
  sizes : ∀ r ∈ (readTrace m false false).records, ShiftsOk r
  walks : ∀ r ∈ (readTrace m false false).records, NoWalk r.radixInsn ∧ NoWalk r.radixData
  pages : Chain PagesAtJumps (readTrace m false false).records

theorem chain_all {α} {R : α → α → Prop} : ∀ l : List α, (∀ a ∈ l, ∀ b ∈ l, R a b) → Chain R l
  | [], _ => trivial
  | [_], _ => trivial
  | a :: b :: l, h => ⟨h a (by simp) b (by simp), chain_all (b :: l) (fun x hx y hy => h x (by simp [hx]) y (by simp [hy]))⟩

theorem Spec.PlainTrace.copyable {m : Mem} (h : PlainTrace m) : Copyable (readTrace m false false).records :=
  ⟨fun o ho => ⟨h.sizes o ho, fun _ => .inl (h.walks o ho).1, fun _ => .inl (h.walks o ho).2⟩,
    chain_all _ (fun a ha b hb _ _ _ => .inl ⟨(h.walks a ha).2, (h.walks b hb).1⟩),
    fun o ho hw => absurd (h.walks o (List.mem_of_mem_head? ho)).1 hw⟩

theorem opens_of_records {m : Mem} (h : (readTrace m false false).records ≠ []) : ∃ c, readerInit m = .ok () c := by
  cases hc : readerInit m with
  | ok u c => exact ⟨c, rfl⟩
  | err e c =>
    unfold readTrace at h
    rw [hc] at h
    exact absurd rfl h

theorem ShiftsOk.same {r o : Record} (h : ShiftsOk r) (t : SameTranslation r o) : ShiftsOk o := by
  obtain ⟨t1, t2, t3, t4, t5, t6, t7, t8, t9, t10, t11, t12⟩ := t
  obtain ⟨s1, s2, s3, s4⟩ := h
  refine ⟨fun v => ?_, fun v => ?_, fun v => ?_, fun v => ?_⟩
  · rw [t3] at v; rw [t4 v]; exact s1 v
  · rw [t5] at v; rw [t6 v]; exact s2 v
  · rw [t9] at v; rw [t10 v]; exact s3 v
  · rw [t11] at v; rw [t12 v]; exact s4 v

theorem PagesAtJumps.same {a b a' b' : Record} (st : PagesAtJumps a b) (p : SameAccess a a' ∧ SameTranslation a a')
    (q : SameAccess b b' ∧ SameTranslation b b') : PagesAtJumps a' b' := by
  obtain ⟨⟨_, pa, _⟩, ⟨t1, t2, t3, t4, t5, t6, t7, t8, t9, t10, t11, t12⟩⟩ := p
  obtain ⟨⟨_, qa, _⟩, ⟨u1, u2, u3, u4, u5, u6, u7, u8, u9, u10, u11, u12⟩⟩ := q
  have hj : Jumps a' b' ↔ Jumps a b := by unfold Jumps; rw [pa, qa]
  refine ⟨fun hnj => ?_, fun hjj v1 v2 => ?_⟩
  · obtain ⟨w1, w2, w3, w4, w5, w6⟩ := st.1 (fun x => hnj (hj.mpr x))
    refine ⟨by rw [u1, t1, w1], by rw [u3, t3, w2], fun v => ?_, by rw [u5, t5, w4], fun v => ?_, fun v => ?_⟩
    · rw [t3] at v
      rw [t4 v, u4 (by rw [w2]; exact v), w3 v]
    · rw [t5] at v
      rw [t6 v, u6 (by rw [w4]; exact v), w5 v]
    · rw [t1] at v
      have hp1 : pageShift a'.insnPageShiftValid a'.insnPageShift = pageShift a.insnPageShiftValid a.insnPageShift := by
        unfold pageShift
        rw [t3]
        split
        · next hv => exact t4 hv
        · rfl
      have hp2 : pageShift b'.insnPageShiftValid b'.insnPageShift = pageShift b.insnPageShiftValid b.insnPageShift := by
        unfold pageShift
        rw [u3]
        split
        · next hv => exact u4 hv
        · rfl
      rw [hp1, hp2, t2 v, u2 (by rw [w1]; exact v)]
      exact w6 v
  · rw [t9] at v1
    rw [u5] at v2
    rw [t10 v1, u6 v2]
    exact st.2 (hj.mp hjj) v1 v2

theorem following_same {rs os : List Record} (hl : os.length = rs.length)
    (h : ∀ (i : Nat) (r : Record), rs[i]? = some r → ∃ o, os[i]? = some o ∧ o.insnAddr = r.insnAddr) (i : Nat) (r o : Record)
    (he : o.insnAddr = r.insnAddr) : following os i o = following rs i r := by
  unfold following
  cases hr : rs[i + 1]? with
  | some n =>
    obtain ⟨n', k1, k2⟩ := h _ n hr
    rw [k1]
    exact k2
  | none =>
    have : os[i + 1]? = none := by
      rw [List.getElem?_eq_none_iff] at hr ⊢
      omega
    rw [this, he]

/-- One copy: what it preserves, and what it establishes. -/
theorem copy_once {m : Mem} (h : PlainTrace m) :
    ∃ file, copyTrace m (fun _ => true) = .done file ∧ writeTrace 0 (readTrace m false false).records = .ok file ∧ ∀ beyond,
      let rs := (readTrace m false false).records
      let os := (readTrace { bytes := file, beyond := beyond } false false).records
      PlainTrace { bytes := file, beyond := beyond } ∧ JumpsAreBranches os ∧ os.length = rs.length ∧
      (JumpsAreBranches rs → ∀ (i : Nat) (r : Record), rs[i]? = some r → ∃ o, os[i]? = some o ∧ Alike r o) := by
  have hx := expressible_of_copyable m h.copyable
  obtain ⟨file, e1, H1⟩ := C113_copy_partial m h.opens h.ends h.copyable
  obtain ⟨f2, e2, H2⟩ := C113_translations_partial m h.opens h.ends h.copyable h.pages
  obtain ⟨f3, e3, H3⟩ := noWalks_back 0 _ hx h.walks
  obtain rfl : file = f2 := Copied.done.inj (e1.symm.trans e2)
  obtain rfl : file = f3 := Copied.done.inj (e1.symm.trans (copyTrace_eq m h.opens h.ends f3 e3))
  refine ⟨file, e1, e3, fun beyond => ?_⟩
  obtain ⟨j1, j2, j3⟩ := H1 beyond
  have each : ∀ (i : Nat) (r : Record), (readTrace m false false).records[i]? = some r →
      ∃ o, (readTrace { bytes := file, beyond := beyond } false false).records[i]? = some o ∧
        (SameAccess r o ∧ SameTranslation r o) ∧ (NoWalk o.radixInsn ∧ NoWalk o.radixData) ∧
        (o.branch = true ↔ r.branch = true ∨ following (readTrace m false false).records i r ≠ r.insnAddr + 4) ∧
        (r.branch = true → o.conditionalBranch = r.conditionalBranch) := by
    intro i r hr
    obtain ⟨o, k1, k2, _, _, k3, k4⟩ := j3 i r hr
    obtain ⟨o', l1, l2⟩ := H2 beyond i r hr
    obtain rfl : o = o' := Option.some.inj (k1.symm.trans l1)
    obtain ⟨o', q1, q2⟩ := H3 beyond i r hr
    obtain rfl : o = o' := Option.some.inj (k1.symm.trans q1)
    exact ⟨o, k1, ⟨k2, l2⟩, q2, k3, k4⟩
  have back : ∀ (i : Nat) (o : Record), (readTrace { bytes := file, beyond := beyond } false false).records[i]? = some o →
      ∃ r, (readTrace m false false).records[i]? = some r ∧ (SameAccess r o ∧ SameTranslation r o) ∧
        (NoWalk o.radixInsn ∧ NoWalk o.radixData) ∧
        (o.branch = true ↔ r.branch = true ∨ following (readTrace m false false).records i r ≠ r.insnAddr + 4) := by
    intro i o hi
    have hlt : i < (readTrace m false false).records.length := by
      rw [← j2]
      exact (List.getElem?_eq_some_iff.mp hi).1
    obtain ⟨o', k1, k2, k3, k4, _⟩ := each i _ (List.getElem?_eq_getElem hlt)
    obtain rfl : o = o' := Option.some.inj (hi.symm.trans k1)
    exact ⟨_, List.getElem?_eq_getElem hlt, k2, k3, k4⟩
  have addr : ∀ (i : Nat) (r : Record), (readTrace m false false).records[i]? = some r →
      ∃ o, (readTrace { bytes := file, beyond := beyond } false false).records[i]? = some o ∧ o.insnAddr = r.insnAddr := by
    intro i r hr
    obtain ⟨o, k1, k2, _⟩ := each i r hr
    exact ⟨o, k1, k2.1.2.1⟩
  have hne : (readTrace { bytes := file, beyond := beyond } false false).records ≠ [] := by
    intro hc
    rw [hc] at j2
    exact h.some (List.length_eq_zero_iff.mp j2.symm)
  refine ⟨⟨opens_of_records hne, j1, hne, fun o ho => ?_, fun o ho => ?_, ?_⟩, fun i o hi hj => ?_, j2, fun hjb i r hr => ?_⟩
  · obtain ⟨i, hi⟩ := List.getElem?_of_mem ho
    obtain ⟨r, k1, k2, _⟩ := back i o hi
    exact ShiftsOk.same (h.sizes r (List.mem_of_getElem? k1)) k2.2
  · obtain ⟨i, hi⟩ := List.getElem?_of_mem ho
    obtain ⟨r, k1, k2, k3, _⟩ := back i o hi
    exact k3
  · refine chain_image (P := fun r o => SameAccess r o ∧ SameTranslation r o) (R := PagesAtJumps) ?_ _ _ j2 ?_ h.pages
    · exact fun a b a' b' st p q => PagesAtJumps.same st p q
    · intro i a ha
      obtain ⟨o, k1, k2, _⟩ := each i a ha
      exact ⟨o, k1, k2⟩
  · obtain ⟨r, k1, k2, _, k4⟩ := back i o hi
    rw [following_same j2 addr i r o k2.1.2.1, k2.1.2.1] at hj
    exact k4.mpr (.inr hj)
  · obtain ⟨o, k1, k2, k3, k4, k5⟩ := each i r hr
    refine ⟨o, k1, k2.1, k2.2, ?_, k5, h.walks r (List.mem_of_getElem? hr), k3⟩
    rw [Bool.eq_iff_iff, k4]
    exact ⟨fun hh => hh.elim id (hjb i r hr), .inl⟩

/-- C113. If control leaves the sequential path only at branches, the copy of the copy is the copy, byte for byte. -/
theorem C113_twice_partial (m : Mem) (h : PlainTrace m) (hj : JumpsAreBranches (readTrace m false false).records) :
    ∃ file, copyTrace m (fun _ => true) = .done file ∧
      ∀ beyond, copyTrace { bytes := file, beyond := beyond } (fun _ => true) = .done file := by
  obtain ⟨file, e1, e2, H⟩ := copy_once h
  refine ⟨file, e1, fun beyond => ?_⟩
  obtain ⟨k1, k2, k3, k4⟩ := H beyond
  exact copyTrace_eq _ k1.opens k1.ends file (writeTrace_alike 0 _ _ file k3 (k4 hj) e2)

/-- C113. In any case the copy of a copy is not changed by copying it once more. -/
theorem C113_settles_partial (m : Mem) (h : PlainTrace m) :
    ∃ file, copyTrace m (fun _ => true) = .done file ∧
      ∀ beyond, ∃ file', copyTrace { bytes := file, beyond := beyond } (fun _ => true) = .done file' ∧
        ∀ beyond', copyTrace { bytes := file', beyond := beyond' } (fun _ => true) = .done file' := by
  obtain ⟨file, e1, e2, H⟩ := copy_once h
  refine ⟨file, e1, fun beyond => ?_⟩
  obtain ⟨k1, k2, _, _⟩ := H beyond
  exact C113_twice_partial _ k1 k2

/-- What is written without walks and with one kind of page sizes is a plain trace whose jumps are branches. -/
theorem written_plain (magic : BitVec 32) (rs : List Record) (h : Expressible rs) (hne : rs ≠ [])
    (hn : ∀ r ∈ rs, NoWalk r.radixInsn ∧ NoWalk r.radixData) (hk : OneKindOfSize rs) :
    ∃ file, writeTrace magic rs = .ok file ∧ ∀ beyond, PlainTrace { bytes := file, beyond := beyond } ∧
      JumpsAreBranches (readTrace { bytes := file, beyond := beyond } false false).records := by
  obtain ⟨file, e1, H1⟩ := C01_roundtrip_partial magic _ h
  obtain ⟨f2, e2, H2⟩ := C04_branches magic _ h
  obtain ⟨f3, e3, H3⟩ := sizes_back magic _ h
  obtain ⟨f4, e4, H4⟩ := noWalks_back magic _ h hn
  obtain rfl : file = f2 := WRes.ok.inj (e1.symm.trans e2)
  obtain rfl : file = f3 := WRes.ok.inj (e1.symm.trans e3)
  obtain rfl : file = f4 := WRes.ok.inj (e1.symm.trans e4)
  refine ⟨file, e1, fun beyond => ?_⟩
  obtain ⟨j1, j2⟩ := H1 beyond
  obtain ⟨s1, s2, s3⟩ := H3 beyond
  have hl : (readTrace { bytes := file, beyond := beyond } false false).records.length = rs.length := by
    simpa using congrArg List.length j1
  have hne' : (readTrace { bytes := file, beyond := beyond } false false).records ≠ [] := by
    intro hc
    rw [hc] at hl
    exact hne (List.length_eq_zero_iff.mp hl.symm)
  have nw : ∀ o ∈ (readTrace { bytes := file, beyond := beyond } false false).records, NoWalk o.radixInsn ∧ NoWalk o.radixData := by
    intro o ho
    obtain ⟨i, hi⟩ := List.getElem?_of_mem ho
    have hlt : i < rs.length := by rw [← hl]; exact (List.getElem?_eq_some_iff.mp hi).1
    obtain ⟨o', k1, k2⟩ := H4 beyond i rs[i] (List.getElem?_eq_getElem hlt)
    obtain rfl : o = o' := Option.some.inj (hi.symm.trans k1)
    exact k2
  have hpj : Chain PagesAtJumps (readTrace { bytes := file, beyond := beyond } false false).records := by
    rcases s2 hk with k | k
    · exact chain_and (fun a b p q => ⟨p, fun _ _ v => by rw [q] at v; cases v⟩) _ s3 (chain_all _ (fun a _ b hb => k b hb))
    · exact chain_and (fun a b p q => ⟨p, fun _ v _ => by rw [q] at v; cases v⟩) _ s3 (chain_all _ (fun a ha b _ => k a ha))
  have addr : ∀ (i : Nat) (r : Record), rs[i]? = some r →
      ∃ o, (readTrace { bytes := file, beyond := beyond } false false).records[i]? = some o ∧ o.insnAddr = r.insnAddr := by
    intro i r hr
    obtain ⟨o, l1, _⟩ := H2 beyond i r hr
    have key := congrArg (fun l => l[i]?) j1
    simp only [List.getElem?_map, l1, hr, Option.map_some, Option.some.injEq, Prod.mk.injEq] at key
    exact ⟨o, l1, key.2⟩
  refine ⟨⟨opens_of_records hne', j2, hne', s1, nw, hpj⟩, fun i o hi hj => ?_⟩
  have hlt : i < rs.length := by rw [← hl]; exact (List.getElem?_eq_some_iff.mp hi).1
  have hr := List.getElem?_eq_getElem hlt
  obtain ⟨o', l1, _, _, l4, _⟩ := H2 beyond i _ hr
  obtain rfl : o = o' := Option.some.inj (hi.symm.trans l1)
  obtain ⟨o', m1, m2⟩ := addr i _ hr
  obtain rfl : o = o' := Option.some.inj (hi.symm.trans m1)
  rw [following_same hl addr i _ o m2, m2] at hj
  exact l4.mpr (.inr (.inl hj))

/-- C113. Whatever is written without walks and with one kind of page sizes: the copy of the copy is the copy, byte for byte. -/
theorem C113_written_twice_partial (magic : BitVec 32) (rs : List Record) (h : Expressible rs) (hne : rs ≠ [])
    (hn : ∀ r ∈ rs, NoWalk r.radixInsn ∧ NoWalk r.radixData) (hk : OneKindOfSize rs) :
    ∃ file, writeTrace magic rs = .ok file ∧ ∀ beyond, ∃ file',
      copyTrace { bytes := file, beyond := beyond } (fun _ => true) = .done file' ∧
      ∀ beyond', copyTrace { bytes := file', beyond := beyond' } (fun _ => true) = .done file' := by
  obtain ⟨file, e, H⟩ := written_plain magic rs h hne hn hk
  exact ⟨file, e, fun beyond => C113_twice_partial _ (H beyond).1 (H beyond).2⟩

end Qt
