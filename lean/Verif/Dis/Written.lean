import Verif.Dis.Lemmas
import Verif.Qt.PropsRoundTrip

/-! # Helper lemmas: the listing of a trace in terms of what the reader and the writer do -/

namespace Dis
open Qt DisSpec
open Qt.Spec hiding IsPrefix

theorem list_expected (m : Mem) (hC : Complete (readTrace m false false).records) :
    (∀ c, readerInit m = .ok () c →
      (list m).shown.map line = expected c.st.nextInsnAddr false 0 (instructions (readTrace m false false).records)) ∧
    (list m).shown.map (·.rcd) = (instructions (readTrace m false false).records).map (·.1) ∧
    (list m).final = (readTrace m false false).final ∧
    ∀ x ∈ (list m).shown, ∃ s', s'.wantBranch = false ∧ s'.wantTlbie = false ∧
      nextRecord m s' = .ok () ⟨x.st, x.rcd⟩ := by
  cases h : readerInit m with
  | err e c =>
    have e1 : list m = { shown := [], final := e } := by simp [list, h]
    have e2 : (readTrace m false false).records = [] := by simp [readTrace, h]
    have e3 : (readTrace m false false).final = e := by simp [readTrace, h]
    rw [e1, e2, e3]
    exact ⟨fun c h => by simp at h, rfl, rfl, fun x hx => by cases hx⟩
  | ok a c =>
    have k := kheader _ _ _ _ (show parseHeader m { st := .initial, rcd := .zero } = .ok a c from h)
    unfold wordKey at k
    simp only [Prod.mk.injEq] at k
    obtain ⟨-, k2, k3, k4, k5⟩ := k
    have k2 : c.st.prefixed = false := k2
    have k3 : c.st.suffix = 0 := k3
    have k4 : c.st.wantBranch = false := k4
    have k5 : c.st.wantTlbie = false := k5
    have e0 : ({ c.st with wantBranch := false, wantTlbie := false } : RState) = c.st := by
      cases hc : c.st
      rw [hc] at k4 k5
      simp only at k4 k5
      subst k4 k5
      rfl
    have e1 : list m = loop m (m.bytes.length + 1) c.st.nextInsnAddr c.st := by simp [list, h]
    have e2 : readTrace m false false = readLoop m (m.bytes.length + 1) c.st := by
      unfold readTrace; rw [h]; dsimp only; rw [e0]
    rw [e1]
    rw [e2] at hC ⊢
    have := loop_expected m (m.bytes.length + 1) c.st c.st.nextInsnAddr (by omega) (by omega) k4 k5 hC
    rw [k2, k3] at this
    refine ⟨fun c' hc' => ?_, this.2⟩
    obtain ⟨-, rfl⟩ := Out.ok.inj hc'
    exact this.1

/-- The listing starts at the address in the header, and of nothing but that. -/
theorem list_some_start (m : Mem) (hC : Complete (readTrace m false false).records) :
    ∃ ea, (list m).shown.map line = expected ea false 0 (instructions (readTrace m false false).records) := by
  cases h : readerInit m with
  | err e c =>
    refine ⟨0, ?_⟩
    have e1 : list m = { shown := [], final := e } := by simp [list, h]
    have e2 : (readTrace m false false).records = [] := by simp [readTrace, h]
    rw [e1, e2]; rfl
  | ok a c => exact ⟨_, (list_expected m hC).1 c h⟩

theorem linked_of : ∀ (l : List Record),
    (∀ i (a b : Record), l[i]? = some a → l[i + 1]? = some b → b.insnAddr = a.nextInsnAddr) → Linked l
  | [], _ => trivial
  | [_], _ => trivial
  | a :: b :: l, h => ⟨h 0 a b rfl rfl, linked_of (b :: l) fun i a b h1 h2 => h (i + 1) a b h1 h2⟩

theorem instructions_map {κ} (f : Record → κ) : ∀ (n : Nat) (a b : List Record), a.length ≤ n →
    a.map (·.insn) = b.map (·.insn) → a.map f = b.map f →
    (instructions a).map (fun x => (f x.1, x.2.map f)) = (instructions b).map (fun x => (f x.1, x.2.map f)) ∧
    (Complete b → Complete a)
  | _, [], b, _, h, _ => by
    cases b with
    | nil => exact ⟨rfl, id⟩
    | cons => simp at h
  | 0, _ :: _, _, h, _, _ => by simp at h
  | n + 1, r :: a, b, hn, h1, h2 => by
    cases b with
    | nil => simp at h1
    | cons r' b =>
      rw [List.map_cons, List.map_cons] at h1 h2
      obtain ⟨hr, h1⟩ := List.cons.inj h1
      obtain ⟨hf, h2⟩ := List.cons.inj h2
      simp only [List.length_cons] at hn
      by_cases hp : IsPrefix r.insn
      · have hp' : IsPrefix r'.insn := by rw [← hr]; exact hp
        cases a with
        | nil =>
          cases b with
          | cons => simp at h1
          | nil =>
            refine ⟨by simp [instructions, hf], fun hc => ?_⟩
            exact absurd hp' (hc (r', none) (by simp [instructions]) rfl)
        | cons s a =>
          cases b with
          | nil => simp at h1
          | cons s' b =>
            rw [List.map_cons, List.map_cons] at h1 h2
            obtain ⟨hs, h1⟩ := List.cons.inj h1
            obtain ⟨hg, h2⟩ := List.cons.inj h2
            simp only [List.length_cons] at hn
            obtain ⟨i1, i2⟩ := instructions_map f n a b (by omega) h1 h2
            unfold Complete
            rw [instructions_prefix _ _ _ hp, instructions_prefix _ _ _ hp', List.map_cons, List.map_cons, i1, hf]
            refine ⟨by simp only [Option.map_some, hg], fun hc x hx => ?_⟩
            rcases List.mem_cons.mp hx with rfl | hx
            · intro h; cases h
            · exact i2 (fun y hy => hc y (List.mem_cons_of_mem _ hy)) x hx
      · have hp' : ¬ IsPrefix r'.insn := by rw [← hr]; exact hp
        obtain ⟨i1, i2⟩ := instructions_map f n a b (by omega) h1 h2
        unfold Complete
        rw [instructions_plain _ _ hp, instructions_plain _ _ hp', List.map_cons, List.map_cons, i1, hf]
        refine ⟨rfl, fun hc x hx => ?_⟩
        rcases List.mem_cons.mp hx with rfl | hx
        · intro _; exact hp
        · exact i2 (fun y hy => hc y (List.mem_cons_of_mem _ hy)) x hx

/-- The header of a written trace gives the address of the first record. -/
theorem init_closed (magic : BitVec 32) (r : Record) (rs : List Record) (H : Expressible (r :: rs)) {file : Bytes}
    (e : writeTrace magic (r :: rs) = .ok file) (beyond : Nat → Byte) {c : Ctx}
    (hi : readerInit { bytes := file, beyond := beyond } = .ok () c) : c.st.nextInsnAddr = r.insnAddr := by
  obtain ⟨hR, hC, hH⟩ := H
  have hr := hR r (by simp)
  have hrs : ∀ x ∈ rs, RecordOk x := fun x hx => hR x (by simp [hx])
  have hlast : RecordOk (lastOf r rs) := by
    have : ∀ (rs : List Record) (r : Record), RecordOk r → (∀ x ∈ rs, RecordOk x) → RecordOk (lastOf r rs) := by
      intro rs
      induction rs with
      | nil => intro r h _; exact h
      | cons a l ih => intro r _ h; exact ih a (h a (by simp)) (fun x hx => h x (by simp [hx]))
    exact this rs r hr hrs
  obtain ⟨hz, hnw⟩ := hH r rfl
  obtain ⟨w, h, hw, hh, hn⟩ := headerBytes_total (magic := magic) (version := QTWRITER_VERSION) hr hnw
  obtain ⟨b, hb⟩ := bodyBytes_total rs r hr hrs
  obtain ⟨b', hb'⟩ := recordBytes_total hlast (closer_ok (lastOf r rs))
  rw [writeTrace_cons hh hb hb'] at e
  obtain rfl := WRes.ok.inj e
  have e := parseHeader_reads (m := { bytes := h ++ (b ++ b'), beyond := beyond })
    (c := { st := .initial, rcd := .zero }) hh hw hr.1 hn 0 (b ++ b') rfl
  have e2 := (show parseHeader _ _ = _ from hi).symm.trans e
  obtain ⟨-, rfl⟩ := Out.ok.inj e2
  rfl

end Dis
