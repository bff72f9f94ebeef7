import Verif.Ptracer.SpecPagemap
import Verif.Ptracer.SeqLemmas
import Verif.Ptracer.PropsPids

/-! # Staleness of cached physical addresses (C41) -/

namespace Ptr
open PmSpec

/-- The entry was filled by the `j`-th access of the history (or never). -/
def EntryOk (h : List Access) (shift i : Nat) (e : MapEntry) : Prop :=
  (e.ea = 0#64 ∧ e.pa = 0#64 ∧ e.seq = 0#32) ∨
  ∃ (j : Nat) (b : Access), h[j]? = some b ∧ e.seq = BitVec.ofNat 32 (j + 1) ∧ e.ea = b.ea >>> shift ∧ e.ea.toNat % 4096 = i ∧ Says b e.pa shift

structure Inv (h : List Access) (s : Maps) : Prop where
  seq : s.seq = BitVec.ofNat 32 h.length
  base : ∀ i, EntryOk h 16 i (s.base i)
  huge : ∀ i, EntryOk h 21 i (s.huge i)

theorem EntryOk.snoc {h : List Access} {shift i : Nat} {e : MapEntry} (he : EntryOk h shift i e) (a : Access) :
    EntryOk (h ++ [a]) shift i e := by
  rcases he with he | ⟨j, b, h1, h2⟩
  · exact .inl he
  · refine .inr ⟨j, b, ?_, h2⟩
    rw [List.getElem?_append_left (List.getElem?_eq_some_iff.1 h1).1]; exact h1

theorem and_bit (w : BitVec 64) (i : Nat) (hi : i < 64) : (w &&& (1#64 <<< i) = 0#64) ↔ bit w i = false := by
  have e : (1#64 <<< i) = BitVec.ofNat 64 ((2 ^ (i + 1 - i) - 1) * 2 ^ i) := by
    rw [show i + 1 - i = 1 by omega]
    apply BitVec.eq_of_toNat_eq
    rw [BitVec.toNat_shiftLeft, Nat.shiftLeft_eq, BitVec.toNat_ofNat, BitVec.toNat_ofNat]
  have h := band_mask w (lo := i) (hi := i + 1) (by omega) (by omega)
  rw [← e] at h
  unfold bit
  rw [decide_eq_false_iff_not, ← BitVec.toNat_inj, h, BitVec.toNat_ofNat, Nat.zero_mod]
  have e2 : w.toNat % 2 ^ (i + 1) / 2 ^ i = w.toNat / 2 ^ i % 2 := by
    rw [Nat.pow_succ, Nat.mod_mul_right_div_self]
  rw [e2]
  have hp := Nat.two_pow_pos i
  constructor
  · intro h1 h2
    rw [h2] at h1; omega
  · intro h1
    rw [show w.toNat / 2 ^ i % 2 = 0 by omega, Nat.zero_mul]

theorem and_hugeMask (f : BitVec 64) : (f &&& ((1#64 <<< 17) ||| (1#64 <<< 22)) ≠ 0#64) ↔ (bit f 17 || bit f 22) = true := by
  have h1 := and_bit f 17 (by omega)
  have h2 := and_bit f 22 (by omega)
  rw [BitVec.and_or_distrib_left, Ne, BitVec.or_eq_zero_iff, h1, h2]
  cases bit f 17 <;> cases bit f 22 <;> simp

theorem pa_toNat (w : BitVec 64) : ((w &&& 0x3fffffffffffff#64) <<< 16).toNat = w.toNat % 2 ^ 54 * 2 ^ 16 % 2 ^ 64 := by
  have h := band_mask w (lo := 0) (hi := 54) (by omega) (by omega)
  rw [BitVec.toNat_shiftLeft, Nat.shiftLeft_eq]
  have e : (0x3fffffffffffff#64) = BitVec.ofNat 64 ((2 ^ (54 - 0) - 1) * 2 ^ 0) := by decide
  rw [e, h]; simp

theorem shift_ofNat (x : BitVec 64) (n : Nat) : x >>> n = BitVec.ofNat 64 (x.toNat / 2 ^ n) := by
  apply BitVec.eq_of_toNat_eq
  rw [BitVec.toNat_ushiftRight, Nat.shiftRight_eq_div_pow, BitVec.toNat_ofNat, Nat.mod_eq_of_lt]
  exact Nat.lt_of_le_of_lt (Nat.div_le_self _ _) x.isLt

/-- What a fill returns is what the kernel says now; the entry written says the same. -/
theorem fill_spec (s : Maps) (a : Access) :
    (fill s a).1.seq = s.seq ∧
    (∀ i, (fill s a).1.base i = s.base i ∨ ((fill s a).1.base i).ea = a.ea >>> 16 ∧ ((fill s a).1.base i).seq = s.seq ∧
      (a.ea >>> 16).toNat % 4096 = i ∧ Says a ((fill s a).1.base i).pa 16) ∧
    (∀ i, (fill s a).1.huge i = s.huge i ∨ ((fill s a).1.huge i).ea = a.ea >>> 21 ∧ ((fill s a).1.huge i).seq = s.seq ∧
      (a.ea >>> 21).toNat % 4096 = i ∧ Says a ((fill s a).1.huge i).pa 21) ∧
    ∀ pa sh, (fill s a).2 = .yes pa sh → Says a pa sh := by
  unfold fill
  dsimp only
  cases hk : a.kernel.pagemap (a.ea >>> basePshift) with
  | none => exact ⟨rfl, fun i => .inl rfl, fun i => .inl rfl, fun pa sh h => by cases h⟩
  | some w =>
    dsimp only
    by_cases hp : w &&& (1#64 <<< 63) = 0#64
    · rw [if_pos hp]
      exact ⟨rfl, fun i => .inl rfl, fun i => .inl rfl, fun pa sh h => by cases h⟩
    · rw [if_neg hp]
      cases hf : a.kernel.kpageflags (((w &&& 0x3fffffffffffff#64) <<< basePshift) >>> basePshift) with
      | none => exact ⟨rfl, fun i => .inl rfl, fun i => .inl rfl, fun pa sh h => by cases h⟩
      | some f =>
        dsimp only
        have hb : bit w 63 = true := by
          cases hb : bit w 63 with
          | true => rfl
          | false => exact absurd ((and_bit w 63 (by omega)).2 hb) hp
        have key : ∀ sh, sh = (if bit f 17 || bit f 22 then 21 else 16) →
            Says a ((w &&& 0x3fffffffffffff#64) <<< basePshift) sh := by
          intro sh hsh
          refine ⟨w, f, ?_, hb, pa_toNat w, ?_, hsh⟩
          · rw [← shift_ofNat]; exact hk
          · rw [← shift_ofNat]; exact hf
        by_cases hh : (bit f 17 || bit f 22) = true
        · rw [if_pos ((and_hugeMask f).2 hh)]
          have k21 := key 21 (by rw [if_pos hh])
          refine ⟨rfl, fun i => .inl rfl, fun i => ?_, fun pa sh h => ?_⟩
          · by_cases hi : i = (a.ea >>> hugePshift).toNat % 4096
            · right
              dsimp only
              unfold setEntry
              rw [if_pos hi]
              exact ⟨rfl, rfl, hi.symm, k21⟩
            · left
              dsimp only
              unfold setEntry
              rw [if_neg hi]
          · obtain ⟨rfl, rfl⟩ := Pa.yes.inj h
            exact k21
        · rw [if_neg (fun x => hh ((and_hugeMask f).1 x))]
          have k16 := key 16 (by rw [if_neg hh])
          refine ⟨rfl, fun i => ?_, fun i => .inl rfl, fun pa sh h => ?_⟩
          · by_cases hi : i = (a.ea >>> basePshift).toNat % 4096
            · right
              dsimp only
              unfold setEntry
              rw [if_pos hi]
              exact ⟨rfl, rfl, hi.symm, k16⟩
            · left
              dsimp only
              unfold setEntry
              rw [if_neg hi]
          · obtain ⟨rfl, rfl⟩ := Pa.yes.inj h
            exact k16

/-- A cache hit, or the kernel was asked. -/
theorem eaToPa_cases (s : Maps) (a : Access) :
    let s1 : Maps := { s with seq := s.seq + 1#32 }
    (∃ e sh i, (sh = 16 ∧ e = s.base i ∨ sh = 21 ∧ e = s.huge i) ∧ e.ea = a.ea >>> sh ∧
      recent s1.seq e (maxInterval a.iside) = true ∧ eaToPa s a = (s1, .yes e.pa sh)) ∨
    eaToPa s a = fill s1 a := by
  dsimp only
  unfold eaToPa
  dsimp only
  split
  · next h => exact .inl ⟨_, 16, _, .inl ⟨rfl, rfl⟩, h.1, h.2, rfl⟩
  · split
    · next h => exact .inl ⟨_, 21, _, .inr ⟨rfl, rfl⟩, h.1, h.2, rfl⟩
    · exact .inr rfl

theorem inv_run (h : List Access) : Inv h (runMaps h) := by
  induction h using snocInd with
  | h0 => exact ⟨rfl, fun i => .inl ⟨rfl, rfl, rfl⟩, fun i => .inl ⟨rfl, rfl, rfl⟩⟩
  | h1 h a ih =>
    have e : runMaps (h ++ [a]) = (eaToPa (runMaps h) a).1 := by unfold runMaps; rw [List.foldl_append]; rfl
    have hseq : (runMaps h).seq + 1#32 = BitVec.ofNat 32 (h ++ [a]).length := by
      rw [ih.seq, List.length_append, List.length_singleton, BitVec.ofNat_add]
    have hlast : (h ++ [a])[h.length]? = some a := by simp
    rw [e]
    rcases eaToPa_cases (runMaps h) a with ⟨en, sh, i, -, -, -, he⟩ | he
    · rw [he]
      exact ⟨hseq, fun i => (ih.base i).snoc a, fun i => (ih.huge i).snoc a⟩
    · rw [he]
      obtain ⟨f1, f2, f3, -⟩ := fill_spec { runMaps h with seq := (runMaps h).seq + 1#32 } a
      refine ⟨f1.trans hseq, fun i => ?_, fun i => ?_⟩
      · rcases f2 i with hi | ⟨g1, g2, g3, g4⟩
        · rw [hi]; exact (ih.base i).snoc a
        · exact .inr ⟨h.length, a, hlast, by rw [g2, hseq, List.length_append]; rfl, g1, by rw [g1]; exact g3, g4⟩
      · rcases f3 i with hi | ⟨g1, g2, g3, g4⟩
        · rw [hi]; exact (ih.huge i).snoc a
        · exact .inr ⟨h.length, a, hlast, by rw [g2, hseq, List.length_append]; rfl, g1, by rw [g1]; exact g3, g4⟩

/-- C41 (partial). In a history of fewer than 2³² calls, a translation returned for an address above the
first 2 MiB is what the kernel said at most one refresh interval earlier, about an address in the same page
(of the size reported). Missing: the first 2 MiB (`C41_refuted`) and longer histories (`C41_wrap_refuted`). -/
theorem C41_fresh_partial (h : List Access) (a : Access) (pa : BitVec 64) (sh : Nat)
    (hlen : h.length + 1 < 2 ^ 32) (hea : 2 ^ 21 ≤ a.ea.toNat) (hr : (eaToPa (runMaps h) a).2 = .yes pa sh) :
    ∃ (j : Nat) (b : Access), (h ++ [a])[j]? = some b ∧ h.length - j < interval a.iside ∧
      b.ea.toNat / 2 ^ sh = a.ea.toNat / 2 ^ sh ∧ Says b pa sh := by
  have inv := inv_run h
  rcases eaToPa_cases (runMaps h) a with ⟨e, s, i, hs, he, hrec, hres⟩ | hres
  · rw [hres] at hr
    injection hr with h1 h2
    subst h1 h2
    have hok : EntryOk h s i e := by
      rcases hs with ⟨rfl, rfl⟩ | ⟨rfl, rfl⟩
      · exact inv.base i
      · exact inv.huge i
    have hs21 : s = 16 ∨ s = 21 := by rcases hs with ⟨rfl, _⟩ | ⟨rfl, _⟩ <;> simp
    have hdiv : (a.ea >>> s).toNat = a.ea.toNat / 2 ^ s := by
      rw [BitVec.toNat_ushiftRight, Nat.shiftRight_eq_div_pow]
    rcases hok with ⟨hz, _, _⟩ | ⟨j, b, hj, hseq, heb, _, hsays⟩
    · exfalso
      rw [hz] at he
      have := congrArg BitVec.toNat he
      rw [hdiv] at this
      simp only [BitVec.toNat_ofNat, Nat.zero_mod] at this
      have hpos : 0 < a.ea.toNat / 2 ^ s := Nat.div_pos (by rcases hs21 with rfl | rfl <;> omega) (Nat.two_pow_pos s)
      omega
    · have hjl := (List.getElem?_eq_some_iff.1 hj).1
      refine ⟨j, b, by rw [List.getElem?_append_left hjl]; exact hj, ?_, ?_, hsays⟩
      · unfold recent at hrec
        have := of_decide_eq_true hrec
        dsimp only at this
        rw [inv.seq, hseq, BitVec.toNat_sub, BitVec.toNat_add, BitVec.toNat_ofNat, BitVec.toNat_ofNat] at this
        simp only [BitVec.toNat_ofNat] at this
        unfold maxInterval at this
        unfold interval
        generalize (if a.iside = true then 10000 else 100) = iv at this ⊢
        omega
      · have : (a.ea >>> s).toNat = (b.ea >>> s).toNat := by rw [← he, heb]
        rw [hdiv, BitVec.toNat_ushiftRight, Nat.shiftRight_eq_div_pow] at this
        exact this.symm
  · rw [hres] at hr
    refine ⟨h.length, a, by simp, ?_, rfl, (fill_spec _ a).2.2.2 pa sh hr⟩
    unfold interval
    cases a.iside <;> simp

/-- A kernel that maps every page, to the frame with number 7 (never huge). -/
def kernel7 : Kernel := ⟨fun _ => some 0x8000000000000007#64, fun _ => some 0#64⟩
/-- A kernel that maps nothing. -/
def kernel0 : Kernel := ⟨fun _ => some 0#64, fun _ => some 0#64⟩

/-- The hypotheses of `C41_fresh_partial` are met, and its conclusion is not about the last access only: the
second access is answered from the cache although the page is gone. -/
example : (eaToPa (runMaps [⟨kernel7, 0x10000000#64, true⟩]) ⟨kernel0, 0x10000004#64, true⟩).2 = .yes 0x70000#64 16 := by decide

/-- C41 in full is violated: the very first translation, of an address in the first 2 MiB, is answered
from the zero-initialised cache, with physical address 0, although the kernel says that nothing is mapped. -/
theorem C41_refuted : ∃ a : Access, (eaToPa (runMaps []) a).2 = .yes 0#64 21 ∧ ∀ pa sh, ¬ Says a pa sh := by
  refine ⟨⟨kernel0, 0x10000#64, true⟩, by decide, ?_⟩
  rintro pa sh ⟨w, f, h1, h2, _⟩
  injection h1 with h1
  rw [← h1] at h2
  exact absurd h2 (by decide)

/-- An access to a page with another cache index leaves a base entry alone. -/
theorem base_frame (s : Maps) (a : Access) (i : Nat) (hi : (a.ea >>> 16).toNat % 4096 ≠ i) :
    (eaToPa s a).1.base i = s.base i := by
  rcases eaToPa_cases s a with ⟨e, sh, k, -, -, -, he⟩ | he
  · rw [he]
  · rw [he]
    rcases (fill_spec { s with seq := s.seq + 1#32 } a).2.1 i with h | ⟨_, _, h, _⟩
    · exact h
    · exact absurd h hi

/-- The two accesses of the witness: page `0x1000` of the address space, and page `0x1001`. -/
def accA (k : Kernel) : Access := ⟨k, 0x10000000#64, false⟩
def accB : Access := ⟨kernel7, 0x10010000#64, false⟩

theorem run_AB (n : Nat) : (runMaps (accA kernel7 :: List.replicate n accB)).base 0 = ⟨0x1000#64, 0x70000#64, 1#32⟩ ∧
    (runMaps (accA kernel7 :: List.replicate n accB)).seq = BitVec.ofNat 32 (n + 1) := by
  refine ⟨?_, by rw [(inv_run _).seq]; simp⟩
  induction n with
  | zero => rfl
  | succ n ih =>
    rw [List.replicate_succ', ← List.cons_append]
    unfold runMaps at ih ⊢
    rw [List.foldl_append]
    show (eaToPa _ accB).1.base 0 = _
    rw [base_frame _ _ _ (by decide)]
    exact ih

theorem seq_wrap (n : Nat) (hn : n + 1 = 2 ^ 32) : BitVec.ofNat 32 (n + 1) + 1#32 = 1#32 := by
  rw [hn]; decide

/-- C41 is violated in long runs as well: the access counter has 32 bits. After one access to a page and
2³² - 1 accesses to another one, the first page is taken to have been looked up just now: its old
translation is returned although the kernel says that the page is gone, and no access within the interval
(nor any but the first) was to that page. -/
theorem C41_wrap_refuted : ∃ (h : List Access) (a : Access) (pa : BitVec 64) (sh : Nat),
    2 ^ 21 ≤ a.ea.toNat ∧ (eaToPa (runMaps h) a).2 = .yes pa sh ∧ h.length = 2 ^ 32 ∧
    ∀ (j : Nat) (b : Access), 0 < j → (h ++ [a])[j]? = some b →
      ¬ (b.ea.toNat / 2 ^ sh = a.ea.toNat / 2 ^ sh ∧ Says b pa sh) := by
  obtain ⟨n, hn⟩ : ∃ n, n + 1 = 2 ^ 32 := ⟨2 ^ 32 - 1, by omega⟩
  obtain ⟨hb, hs⟩ := run_AB n
  refine ⟨accA kernel7 :: List.replicate n accB, accA kernel0, 0x70000#64, 16, by decide, ?_, ?_, ?_⟩
  · unfold eaToPa
    dsimp only
    rw [show (accA kernel0).ea >>> basePshift = 0x1000#64 by decide]
    rw [show (0x1000#64).toNat % 4096 = 0 by decide, hb, hs, seq_wrap n hn]
    rw [if_pos ⟨rfl, by decide⟩]
  · rw [List.length_cons, List.length_replicate, hn]
  · intro j b hj hjb ⟨h1, h2⟩
    rw [List.cons_append] at hjb
    obtain ⟨i, rfl⟩ : ∃ i, j = i + 1 := ⟨j - 1, by omega⟩
    rw [List.getElem?_cons_succ] at hjb
    have hm : b ∈ List.replicate n accB ++ [accA kernel0] := List.mem_of_getElem? hjb
    rcases List.mem_append.1 hm with hm | hm
    · rw [List.eq_of_mem_replicate hm] at h1
      exact absurd h1 (by decide)
    · rw [List.mem_singleton] at hm
      rw [hm] at h2
      obtain ⟨w, f, g1, g2, _⟩ := h2
      have g1 : some 0#64 = some w := g1
      injection g1 with g1
      rw [← g1] at g2
      exact absurd g2 (by decide)

end Ptr
