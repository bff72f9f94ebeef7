import Verif.Qt.SpecResource

/-! C115: descriptors and mappings are given back. -/
namespace Res
open Qt Spec

variable {w w' : Wr} {os os' os₁ os₂ os₃ : Os} {r : Record} {e : Env} {b : Bool}

theorem mapped_grown {s s' : WState} (h : writeRecord s r true = .ok (b, s')) :
    s'.mapped = if s.out.length + BUFFER > s.mapped then s.mapped + BUFFER else s.mapped := by
  unfold writeRecord at h
  simp only [Bool.not_true, Bool.and_false, Bool.false_eq_true, if_false] at h
  split at h
  · cases hb : headerBytes s.magic s.version r with
    | ok x =>
      rw [hb] at h
      injection h with h; injection h with _ h
      rw [← h]
    | abort => rw [hb] at h; cases h
    | ub => rw [hb] at h; cases h
  · cases hb : recordBytes s.prev r with
    | ok x =>
      rw [hb] at h
      injection h with h; injection h with _ h
      rw [← h]
    | abort => rw [hb] at h; cases h
    | ub => rw [hb] at h; cases h

theorem store_os (h : store w r os = .ok (b, w', os')) : w'.fd = w.fd ∧ w'.mem = w.mem ∧ w.mem ≠ 0 ∧ os' = os ∧
    w'.st.mapped = if w.full then w.st.mapped + BUFFER else w.st.mapped := by
  unfold store at h
  split at h
  · cases h
  next hm =>
    split at h
    · next b' st hw =>
      injection h with h
      injection h with _ h
      injection h with h1 h2
      subst h1 h2
      refine ⟨rfl, rfl, hm, rfl, ?_⟩
      rw [mapped_grown hw]
      unfold Wr.full
      by_cases hc : w.st.out.length + BUFFER > w.st.mapped
      · rw [if_pos hc, if_pos (by simpa using hc)]
      · rw [if_neg hc, if_neg (by simpa using hc)]
    · cases h
    · cases h

/-- What a write does to the things of the process: nothing, or the mapping of the writer is replaced by a larger one. -/
theorem write_os (hm : w.mem ≠ 0) (h : writeW w r e os = .ok (b, w', os')) :
    w'.fd = w.fd ∧ w'.mem ≠ 0 ∧ ((os' = os ∧ w'.mem = w.mem ∧ w'.st.mapped = w.st.mapped) ∨
      (os' = { os with maps := (w'.mem, w'.st.mapped) :: os.maps.erase (w.mem, w.st.mapped) } ∧ w'.st.mapped = w.st.mapped + BUFFER)) := by
  unfold writeW at h
  split at h
  · next hf =>
    split at h
    · injection h with h
      injection h with _ h
      injection h with h1 h2
      subst h1 h2
      exact ⟨rfl, hm, Or.inl ⟨rfl, rfl, rfl⟩⟩
    · split at h
      · injection h with h
        injection h with _ h
        injection h with h1 h2
        subst h1 h2
        exact ⟨rfl, hm, Or.inl ⟨rfl, rfl, rfl⟩⟩
      · next a _ =>
        obtain ⟨h1, h2, h3, h4, h5⟩ := store_os h
        have hf' : ({ w with mem := a.1 } : Wr).full = true := hf
        rw [if_pos hf'] at h5
        refine ⟨h1, by rw [h2]; exact h3, Or.inr ⟨?_, h5⟩⟩
        rw [h4, h2, h5]
  · next hf =>
    obtain ⟨h1, h2, h3, h4, h5⟩ := store_os h
    rw [if_neg hf] at h5
    exact ⟨h1, by rw [h2]; exact h3, Or.inl ⟨h4, h2, h5⟩⟩

theorem write_not_null (hm : w.mem ≠ 0) : writeW w r e os ≠ .null := by
  have st : ∀ (w : Wr) os, w.mem ≠ 0 → store w r os ≠ .null := by
    intro w os hm h
    unfold store at h
    rw [if_neg hm] at h
    split at h <;> cases h
  intro h
  unfold writeW at h
  split at h
  · split at h
    · cases h
    · split at h
      · cases h
      · next a _ => exact st { w with mem := a.1 } _ a.2 h
  · exact st _ _ hm h

theorem owned_write (hm : w.mem ≠ 0) (ho : Owned w os) (h : writeW w r e os = .ok (b, w', os')) : Owned w' os' := by
  obtain ⟨h1, -, h2⟩ := write_os hm h
  unfold Owned at ho ⊢
  rw [h1]
  rcases h2 with ⟨rfl, h3, h4⟩ | ⟨rfl, -⟩
  · rw [h3, h4]; exact ho
  · exact ⟨ho.1, ho.2.1, List.mem_cons_self⟩

theorem run_owned : ∀ (l : List Ev) (w : Wr) (os : Os), w.mem ≠ 0 → Owned w os → 0 < w.st.mapped → Fair w os l → runW w os l ≠ .null ∧
    ∀ w' os', runW w os l = .ok (w', os') → w'.mem ≠ 0 ∧ Owned w' os' ∧ 0 < w'.st.mapped ∧ w'.fd = w.fd := by
  intro l
  induction l with
  | nil =>
    intro w os hm ho hp _
    refine ⟨fun h => (by cases h), fun w' os' h => ?_⟩
    simp only [runW, Step.ok.injEq, Prod.mk.injEq] at h
    rw [← h.1, ← h.2]
    exact ⟨hm, ho, hp, rfl⟩
  | cons ev l ih =>
    intro w os hm ho hp hf
    cases ev with
    | others os' =>
      simp only [runW]
      exact ih w os' hm hf.1 hp hf.2
    | write r e =>
      simp only [runW]
      cases hw : writeW w r e os with
      | ok p =>
        obtain ⟨b, w', os'⟩ := p
        obtain ⟨k1, k2⟩ := ih w' os' (write_os hm hw).2.1 (owned_write hm ho hw) (by rcases (write_os hm hw).2.2 with ⟨-, -, h4⟩ | ⟨-, h4⟩ <;> omega) (hf b w' os' hw)
        refine ⟨k1, fun w'' os'' h => ?_⟩
        obtain ⟨j1, j2, j3, j4⟩ := k2 w'' os'' h
        exact ⟨j1, j2, j3, j4.trans (write_os hm hw).1⟩
      | abort => exact ⟨fun h => (by cases h), fun _ _ h => (by cases h)⟩
      | ub => exact ⟨fun h => (by cases h), fun _ _ h => (by cases h)⟩
      | null => exact absurd hw (write_not_null hm)

theorem close_owned (hm : w.mem ≠ 0) (ho : Owned w os) (hp : 0 < w.st.mapped) (h : closeW w e os = .ok os₃) :
    os₃ = { os with fds := os.fds.erase w.fd, maps := os.maps.erase (w.mem, w.st.mapped) } := by
  unfold closeW at h
  split at h
  · next b w' os' hw =>
    injection h with h
    subst h
    obtain ⟨h1, h2, h3⟩ := write_os hm hw
    have hp' : w'.st.mapped ≠ 0 := by
      rcases h3 with ⟨-, -, h4⟩ | ⟨-, h4⟩ <;> omega
    obtain ⟨o1, o2, o3⟩ := ho
    rcases h3 with ⟨rfl, h4, h5⟩ | ⟨rfl, -⟩
    · unfold Os.munmap Os.close
      rw [if_neg hp', h4, h5, if_pos o3, h1, if_neg o1]
      dsimp only
      rw [if_pos o2]
    · unfold Os.munmap Os.close
      rw [if_neg hp', if_pos List.mem_cons_self, h1, if_neg o1]
      dsimp only
      rw [if_pos o2, List.erase_cons_head]
  · cases h
  · cases h
  · cases h

theorem open_true {magic : BitVec 32} {fd : Option Nat} (h : openW magic fd e os = (true, w, os₁)) :
    w.mem ≠ 0 ∧ Owned w os₁ ∧ 0 < w.st.mapped ∧ os₁ = { os with fds := w.fd :: os.fds, maps := (w.mem, w.st.mapped) :: os.maps } := by
  unfold openW at h
  split at h
  · simp at h
  · next n =>
    dsimp only at h
    split at h
    · simp at h
    · split at h
      · simp at h
      · next a _ =>
        simp only [Prod.mk.injEq, true_and] at h
        obtain ⟨rfl, rfl⟩ := h
        refine ⟨a.2, ⟨?_, List.mem_cons_self, List.mem_cons_self⟩, by change 0 < BUFFER; decide, rfl⟩
        change (n : Int) ≠ -1
        omega

/-- A trace that was opened for writing: whatever is written, whether the file can be grown or not, and whatever the rest of the program does with other files, no
call stores at a null pointer, and closing gives back the descriptor and the mapping, those and nothing else. -/
theorem C115_writer {magic : BitVec 32} {fd : Option Nat} {l : List Ev} (h : openW magic fd e os = (true, w, os₁)) (hf : Fair w os₁ l) :
    runW w os₁ l ≠ .null ∧ ∀ w' os₂, runW w os₁ l = .ok (w', os₂) → w'.fd = w.fd ∧ w'.fd ∈ os₂.fds ∧ (w'.mem, w'.st.mapped) ∈ os₂.maps ∧
      ∀ e', closeW w' e' os₂ ≠ .null ∧
        ∀ os₃, closeW w' e' os₂ = .ok os₃ → os₃ = { os₂ with fds := os₂.fds.erase w.fd, maps := os₂.maps.erase (w'.mem, w'.st.mapped) } := by
  obtain ⟨h1, h2, h3, -⟩ := open_true h
  obtain ⟨k1, k2⟩ := run_owned l w os₁ h1 h2 h3 hf
  refine ⟨k1, fun w' os₂ hr => ?_⟩
  obtain ⟨j1, j2, j3, j4⟩ := k2 w' os₂ hr
  refine ⟨j4, j2.2.1, j2.2.2, fun e' => ⟨?_, fun os₃ hc => ?_⟩⟩
  · intro hc
    unfold closeW at hc
    split at hc
    · cases hc
    · cases hc
    · cases hc
    · next hw => exact write_not_null j1 hw
  · rw [close_owned j1 j2 j3 hc, j4]

theorem run_alone : ∀ (l : List Ev) (w : Wr) (os₁ : Os), w.mem ≠ 0 → os₁ = { os with fds := w.fd :: os.fds, maps := (w.mem, w.st.mapped) :: os.maps } → Alone l →
    ∀ w' os₂, runW w os₁ l = .ok (w', os₂) → os₂ = { os with fds := w'.fd :: os.fds, maps := (w'.mem, w'.st.mapped) :: os.maps } := by
  intro l
  induction l with
  | nil =>
    intro w os₁ _ ho _ w' os₂ h
    simp only [runW, Step.ok.injEq, Prod.mk.injEq] at h
    rw [← h.1, ← h.2]; exact ho
  | cons ev l ih =>
    intro w os₁ hm ho ha w' os₂ h
    cases ev with
    | others os' => exact absurd ha id
    | write r e =>
      simp only [runW] at h
      cases hw : writeW w r e os₁ with
      | ok p =>
        obtain ⟨b, w₁, os'⟩ := p
        rw [hw] at h
        obtain ⟨h1, h2, h3⟩ := write_os hm hw
        refine ih w₁ os' h2 ?_ ha w' os₂ h
        rcases h3 with ⟨rfl, h4, h5⟩ | ⟨rfl, -⟩
        · rw [ho, h1, h4, h5]
        · rw [ho, h1, List.erase_cons_head]
      | abort => rw [hw] at h; cases h
      | ub => rw [hw] at h; cases h
      | null => rw [hw] at h; cases h

theorem alone_fair : ∀ (l : List Ev) (w : Wr) (os : Os), Alone l → Fair w os l := by
  intro l
  induction l with
  | nil => intro _ _ _; trivial
  | cons ev l ih =>
    intro w os ha
    cases ev with
    | others os' => exact absurd ha id
    | write r e => exact fun _ w' os' _ => ih w' os' ha

/-- If nothing else happens, the process has after closing what it had before opening. -/
theorem C115_writer_alone {magic : BitVec 32} {fd : Option Nat} {l : List Ev} (h : openW magic fd e os = (true, w, os₁)) (ha : Alone l)
    (hr : runW w os₁ l = .ok (w', os₂)) (e' : Env) (hc : closeW w' e' os₂ = .ok os₃) : os₃ = os := by
  obtain ⟨h1, -, -, h4⟩ := open_true h
  have k := run_alone l w os₁ h1 h4 ha w' os₂ hr
  obtain ⟨-, k2⟩ := C115_writer h (alone_fair l w os₁ ha)
  obtain ⟨j1, -, -, j4⟩ := k2 w' os₂ hr
  rw [(j4 e').2 os₃ hc, k, j1, List.erase_cons_head, List.erase_cons_head]

/-- Two records are written to a new file, and closing has the file grown. -/
example : (match openW 0#32 (some 5) ⟨.unsupported, true, some ⟨4096, by decide⟩⟩ ⟨[0, 1, 2], [(100, 7)], false⟩ with
    | (b, w, os₁) =>
      match runW w os₁ [.write Record.zero ⟨.ok, true, none⟩, .write Record.zero ⟨.ok, true, some ⟨8192, by decide⟩⟩] with
      | .ok (w', os₂) => match closeW w' ⟨.ok, true, some ⟨12288, by decide⟩⟩ os₂ with
        | .ok os₃ => some (b, os₂, os₃)
        | _ => none
      | _ => none) =
    some (true, ⟨[5, 0, 1, 2], [(8192, 262144), (100, 7)], false⟩, ⟨[0, 1, 2], [(100, 7)], false⟩) := by decide +kernel

/-- If the file cannot be opened at all, every write fails, and closing does nothing. -/
theorem C115_not_opened_partial {magic : BitVec 32} (h : openW magic none e os = (b, w, os₁)) :
    b = false ∧ os₁ = os ∧ ∀ r e' os', writeW w r e' os' = .ok (false, w, os') ∧ closeW w e' os' = .ok os' := by
  unfold openW at h
  simp only [Prod.mk.injEq] at h
  obtain ⟨rfl, rfl, rfl⟩ := h
  have key : ∀ r e' os', writeW ⟨-1, 0, { writerOpen magic with mapped := 0 }⟩ r e' os' = .ok (false, ⟨-1, 0, { writerOpen magic with mapped := 0 }⟩, os') := by
    intro r e' os'
    unfold writeW
    have : (⟨-1, 0, { writerOpen magic with mapped := 0 }⟩ : Wr).full = true := by
      unfold Wr.full
      change decide (0 + BUFFER > 0) = true
      decide
    rw [if_pos this, if_pos (by simp)]
  refine ⟨rfl, rfl, fun r e' os' => ⟨key r e' os', ?_⟩⟩
  unfold closeW
  rw [key]
  rfl

/-- If there is no room for the file, the descriptor stays open, and the first record written although opening has failed (`ptracer` does not look at the result of
opening) is stored at a null pointer. -/
theorem C115_no_room_refuted : ∃ (e : Env) (w : Wr) (os os₁ : Os), openW 0#32 (some 5) e os = (false, w, os₁) ∧ 5 ∉ os.fds ∧ 5 ∈ os₁.fds ∧
    ∀ r e', writeW w r e' os₁ = .null := by
  refine ⟨⟨.failed, false, none⟩, _, ⟨[0, 1, 2], [], false⟩, _, rfl, by decide, by decide, fun r e' => ?_⟩
  unfold writeW
  have : (⟨5, 0, writerOpen 0#32⟩ : Wr).full = false := by
    unfold Wr.full
    change decide (0 + BUFFER > BUFFER) = false
    decide
  rw [if_neg (by simp [this])]
  rfl

/-- The system has made the file larger: by `fallocate`, or by `ftruncate` if the file system does not support that. -/
def Enlarged (e : Env) : Prop := e.falloc = .ok ∨ e.falloc = .unsupported ∧ e.ftruncate = true

theorem enlarged_iff (e : Env) : allocate e.falloc e.ftruncate = true ↔ Enlarged e := by
  unfold Enlarged allocate
  cases e.falloc <;> simp

/-- Opening succeeds exactly if the file was opened, has room and was mapped. -/
theorem C115_opens (magic : BitVec 32) (fd : Option Nat) (e : Env) (os : Os) :
    (openW magic fd e os).1 = true ↔ fd ≠ none ∧ Enlarged e ∧ e.map ≠ none := by
  rw [← enlarged_iff]
  unfold openW
  cases fd with
  | none => simp
  | some fd =>
    cases allocate e.falloc e.ftruncate
    · simp
    · cases e.map <;> simp

/-- A record that needs a larger file is refused, and nothing changes, if the file was not enlarged or not mapped; nothing is stored beyond the end of a file. -/
theorem C115_refused {w : Wr} (hw : w.st.mapped < w.st.out.length + BUFFER) (r : Record) {e : Env} (he : ¬ (Enlarged e ∧ e.map ≠ none)) (os : Os) :
    writeW w r e os = .ok (false, w, os) := by
  rw [← enlarged_iff] at he
  unfold writeW
  rw [if_pos (by unfold Wr.full; exact decide_eq_true hw)]
  cases ha : allocate e.falloc e.ftruncate
  · simp
  · cases hm : e.map with
    | none => simp
    | some a => exact absurd ⟨ha, by simp [hm]⟩ he

/-- A file system without `fallocate` on a full disk. -/
example : (openW 0#32 (some 5) ⟨.unsupported, false, some ⟨4096, by decide⟩⟩ ⟨[0, 1, 2], [], false⟩).1 = false := by decide +kernel

/-- After the first record the file is too small for another one of the greatest size. -/
example (r : Record) (os : Os) : writeW ⟨5, 4096, { writerOpen 0#32 with out := [0, 0] }⟩ r ⟨.failed, true, some ⟨8192, by decide⟩⟩ os =
    .ok (false, ⟨5, 4096, { writerOpen 0#32 with out := [0, 0] }⟩, os) :=
  C115_refused (by change BUFFER < 2 + BUFFER; omega) r (fun h => by rcases h.1 with h | h <;> simp at h) os

variable {s s' : Rd} {fd : Int} {stat map : Option Nat} {header : Bool}

/-- A reader that was opened, and whatever the rest of the program does with other files: destroying it gives back its mapping and the descriptor, those and nothing else. -/
theorem C115_reader (hd : fd ≠ -1) (h : initFd s fd stat map header os = (true, s', os₁)) (ho : fd ∈ os₂.fds) (hm : (s'.mem, s'.size) ∈ os₂.maps) :
    s'.fd = fd ∧ (s'.mem, s'.size) ∈ os₁.maps ∧ os₁.fds = os.fds ∧ destroy s' os₂ = { os₂ with fds := os₂.fds.erase fd, maps := os₂.maps.erase (s'.mem, s'.size) } := by
  unfold initFd at h
  split at h
  · simp at h
  · next size =>
    split at h
    · simp at h
    · next p hp =>
      simp only [Prod.mk.injEq] at h
      obtain ⟨rfl, rfl, rfl⟩ := h
      have hs : size ≠ 0 := by
        rintro rfl
        rw [if_pos rfl] at hp
        cases hp
      refine ⟨rfl, List.mem_cons_self, rfl, ?_⟩
      unfold destroy
      dsimp only [initMem] at hm ⊢
      rw [if_pos hd]
      unfold Os.munmap Os.close
      rw [if_neg hs, if_pos hm, if_neg hd]
      dsimp only
      rw [if_pos ho]

/-- If nothing else happens, what is left is what there was, without the descriptor. -/
theorem C115_reader_alone (hd : fd ≠ -1) (h : initFd s fd stat map header os = (true, s', os₁)) (ho : fd ∈ os.fds) :
    destroy s' os₁ = { os with fds := os.fds.erase fd } := by
  have e1 : os₁ = { os with maps := (s'.mem, s'.size) :: os.maps } := by
    unfold initFd at h
    split at h
    · simp at h
    · split at h
      · simp at h
      · simp only [Prod.mk.injEq] at h
        obtain ⟨-, rfl, rfl⟩ := h
        rfl
  obtain ⟨-, -, -, k⟩ := C115_reader (os₂ := os₁) hd h (by rw [e1]; exact ho) (by rw [e1]; exact List.mem_cons_self)
  rw [k, e1, List.erase_cons_head]

/-- A reader of memory of the caller gives nothing back. -/
theorem C115_memory (mem size : Nat) : destroy (initMem mem size) os = os := rfl

example : initFd ⟨0, 0, 0⟩ 3 (some 78) (some 4096) true ⟨[0, 1, 2, 3], [], false⟩ = (true, ⟨4096, 78, 3⟩, ⟨[0, 1, 2, 3], [(4096, 78)], false⟩) ∧
    destroy ⟨4096, 78, 3⟩ ⟨[0, 1, 2, 3], [(4096, 78)], false⟩ = ⟨[0, 1, 2], [], false⟩ := by decide +kernel

/-- After a failure either nothing has happened, to the state neither, or the file is mapped and destroying would give it back. -/
theorem C115_reader_failed_partial (hd : fd ≠ -1) (ho : fd ∈ os.fds) (h : initFd s fd stat map header os = (false, s', os₁)) :
    (s' = s ∧ os₁ = os) ∨ (os₁ = { os with maps := (s'.mem, s'.size) :: os.maps } ∧ destroy s' os₁ = { os with fds := os.fds.erase fd }) := by
  unfold initFd at h
  split at h
  · simp only [Prod.mk.injEq, true_and] at h
    exact Or.inl ⟨h.1.symm, h.2.symm⟩
  · next size =>
    split at h
    · simp only [Prod.mk.injEq, true_and] at h
      exact Or.inl ⟨h.1.symm, h.2.symm⟩
    · next p hp =>
      have h' : initFd s fd (some size) (some p) true os = (true, s', os₁) := by
        have hs : size ≠ 0 := by
          rintro rfl
          rw [if_pos rfl] at hp
          cases hp
        unfold initFd
        dsimp only
        rw [if_neg hs]
        simp only [Prod.mk.injEq] at h ⊢
        exact ⟨trivial, h.2⟩
      simp only [Prod.mk.injEq] at h
      obtain ⟨-, rfl, rfl⟩ := h
      exact Or.inr ⟨rfl, C115_reader_alone hd h' ho⟩

/-- The caller cannot tell the two cases apart: a file with a bad header stays mapped, while after a failed `fstat` the state holds what was there before, and destroying it
closes a descriptor of somebody else. -/
theorem C115_reader_failed_refuted :
    (∃ s', initFd ⟨0, 0, 1⟩ 3 (some 78) (some 4096) false ⟨[0, 1, 2, 3], [], false⟩ = (false, s', ⟨[0, 1, 2, 3], [(4096, 78)], false⟩)) ∧
    (∃ s', initFd ⟨0, 0, 1⟩ 3 none none false ⟨[0, 1, 2, 3], [], false⟩ = (false, s', ⟨[0, 1, 2, 3], [], false⟩) ∧
      destroy s' ⟨[0, 1, 2, 3], [], false⟩ = ⟨[0, 2, 3], [], false⟩) :=
  ⟨⟨_, rfl⟩, ⟨_, rfl, by decide +kernel⟩⟩

/-- Destroying a reader twice closes a file that was opened in between under the same number. -/
theorem C115_twice_refuted : ∃ s : Rd, destroy s ⟨[0, 1, 2, 3], [(4096, 78)], false⟩ = ⟨[0, 1, 2], [], false⟩ ∧
    (destroy s ⟨[3, 0, 1, 2], [], false⟩).fds = [0, 1, 2] := ⟨⟨4096, 78, 3⟩, by decide +kernel, by decide +kernel⟩

end Res
