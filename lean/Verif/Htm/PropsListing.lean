import Verif.Htm.Listing
import Verif.Htm.SpecListing
import Verif.Htm.SummaryLemmas
import Verif.Htm.PropsReal9
/-! # Properties of the listing of htmdecode -/
namespace Htm
open Htm.Spec

/-! ### Words -/

theorem blanks_ne : ∀ l, blanks l ≠ []
  | [] => by simp [blanks]
  | c :: l => by
    unfold blanks
    split
    · simp
    · split <;> simp

theorem blanks_word (w rest : Text) (h : ∀ c ∈ w, c ≠ ' ') : blanks (w ++ ' ' :: rest) = w :: blanks rest := by
  induction w with
  | nil => rw [List.nil_append, blanks, if_pos rfl]
  | cons c l ih => rw [List.cons_append, blanks, if_neg (h c List.mem_cons_self), ih fun x hx => h x (List.mem_cons_of_mem _ hx)]

theorem blanks_last (w : Text) (h : ∀ c ∈ w, c ≠ ' ') : blanks w = [w] := by
  induction w with
  | nil => rfl
  | cons c l ih => rw [blanks, if_neg (h c List.mem_cons_self), ih fun x hx => h x (List.mem_cons_of_mem _ hx)]

/-- A word of a line. -/
def Wordy (w : Text) : Prop := w ≠ [] ∧ ∀ c ∈ w, c ≠ ' ' ∧ c ≠ '\n'

theorem words_word {w : Text} (h : Wordy w) (rest : Text) : words (w ++ ' ' :: rest) = w :: words rest := by
  unfold words
  rw [blanks_word w rest fun c hc => (h.2 c hc).1, List.filter_cons_of_pos (by simpa using h.1)]

theorem words_last {w : Text} (h : Wordy w) : words w = [w] := by
  unfold words
  rw [blanks_last w fun c hc => (h.2 c hc).1, List.filter_cons_of_pos (by simpa using h.1), List.filter_nil]

theorem words_blank (rest : Text) : words (' ' :: rest) = words rest := by
  unfold words
  rw [blanks, if_pos rfl]
  rfl

/-- Words, each with a blank before it. -/
def spaced (l : List Text) : Text := l.flatMap fun w => ' ' :: w

theorem words_spaced : ∀ l : List Text, (∀ w ∈ l, Wordy w) → words (spaced l) = l
  | [], _ => rfl
  | [w], h => by
    show words (' ' :: w ++ []) = [w]
    rw [List.append_nil, words_blank, words_last (h w List.mem_cons_self)]
  | w :: x :: l, h => by
    show words (' ' :: (w ++ ' ' :: (x ++ spaced l))) = w :: x :: l
    rw [words_blank, words_word (h w List.mem_cons_self), ← words_blank]
    exact congrArg _ (words_spaced (x :: l) fun y hy => h y (List.mem_cons_of_mem _ hy))

theorem words_spaced' (l : List Text) (h : ∀ w ∈ l, Wordy w) : words (spaced l).tail = l := by
  cases l with
  | nil => rfl
  | cons w l =>
    rw [show (spaced (w :: l)).tail = w ++ spaced l from rfl, ← words_blank]
    exact words_spaced (w :: l) h

theorem spaced_line (l : List Text) (h : ∀ w ∈ l, Wordy w) : ∀ c ∈ spaced l, c ≠ '\n' := by
  intro c hc
  obtain ⟨w, hw, hc⟩ := List.mem_flatMap.1 hc
  rcases List.mem_cons.1 hc with rfl | hc
  · decide
  · exact ((h w hw).2 c hc).2

/-! ### Numbers -/

theorem digit_plain (n : Nat) (h : n < 16) : Nat.digitChar n ≠ ' ' ∧ Nat.digitChar n ≠ '\n' ∧ Nat.digitChar n ≠ ':' :=
  (by decide : ∀ k : Fin 16, Nat.digitChar k ≠ ' ' ∧ Nat.digitChar k ≠ '\n' ∧ Nat.digitChar k ≠ ':') ⟨n, h⟩

theorem toDigits_plain {b : Nat} (hb : 1 < b) (h16 : b ≤ 16) (n : Nat) : ∀ c ∈ Nat.toDigits b n, c ≠ ' ' ∧ c ≠ '\n' ∧ c ≠ ':' := by
  induction n using Nat.strongRecOn with
  | _ n ih =>
    intro c hc
    by_cases h : n < b
    · rw [Nat.toDigits_of_lt_base h, List.mem_singleton] at hc
      rw [hc]; exact digit_plain n (by omega)
    · rw [Nat.toDigits_of_base_le hb (by omega), List.mem_append] at hc
      rcases hc with hc | hc
      · exact ih (n / b) (Nat.div_lt_self (by omega) hb) c hc
      · rw [List.mem_singleton] at hc
        rw [hc]; exact digit_plain _ (Nat.lt_of_lt_of_le (Nat.mod_lt _ (by omega)) h16)

theorem wordy_of {w : Text} (h : w ≠ []) (hc : ∀ c ∈ w, c ≠ ' ' ∧ c ≠ '\n' ∧ c ≠ ':') : Wordy w := ⟨h, fun c hx => ⟨(hc c hx).1, (hc c hx).2.1⟩⟩

theorem decimal_wordy (n : Nat) : Wordy (decimal n) := wordy_of Nat.toDigits_ne_nil (toDigits_plain (by omega) (by omega) n)

theorem fmtPad_wordy (k n : Nat) : Wordy (Ptr.Log.fmtPad k n) := by
  refine ⟨fun h => Nat.toDigits_ne_nil (List.append_eq_nil_iff.1 h).2, ?_⟩
  intro c hc
  unfold Ptr.Log.fmtPad Ptr.Log.fmtX at hc
  rcases List.mem_append.1 hc with hc | hc
  · rw [List.eq_of_mem_replicate hc]; decide
  · exact ⟨(toDigits_plain (by omega) (by omega) n c hc).1, (toDigits_plain (by omega) (by omega) n c hc).2.1⟩

theorem fmtI_small {n : BitVec 32} (h : n.toNat < 2 ^ 31) : fmtI n = decimal n.toNat := if_pos h

theorem wordy_append {a b : Text} (ha : Wordy a) (hb : ∀ c ∈ b, c ≠ ' ' ∧ c ≠ '\n') : Wordy (a ++ b) :=
  ⟨fun h => ha.1 (List.append_eq_nil_iff.1 h).1, fun c hc => (List.mem_append.1 hc).elim (ha.2 c) (hb c)⟩

def wordyB (w : Text) : Bool := !w.isEmpty && w.all fun c => decide (c ≠ ' ') && decide (c ≠ '\n')

theorem wordy_of_b {w : Text} (h : wordyB w = true) : Wordy w := by
  unfold wordyB at h
  rw [Bool.and_eq_true] at h
  refine ⟨by intro h'; rw [h'] at h; exact absurd h.1 (by decide), fun c hc => ?_⟩
  simpa using List.all_eq_true.1 h.2 c hc

/-! ### Instructions -/

def valueWords (r : Qt.Record) : List (String × Text) :=
  [("iea", hex16 r.insnAddr.toNat), ("op", hex8 r.insn.toNat)] ++ (if r.insnRaValid then [("ira", hex16 r.insnRa.toNat)] else []) ++
    (if r.insnPageShiftValid then [("ipgsize", decimal r.insnPageShift)] else []) ++ (if r.dataAddrValid then [("dea", hex16 r.dataAddr.toNat)] else []) ++
    (if r.dataRaValid then [("dra", hex16 r.dataRa.toNat)] else []) ++ (if r.dataPageShiftValid then [("dpgsize", decimal r.dataPageShift)] else [])

def pairWord (p : String × Text) : Text := p.1.toList ++ ':' :: p.2

theorem keyed_pair {p : String × Text} (h : (p.1.toList.all fun c => decide (c ≠ ':')) = true) : keyed (pairWord p) = (p.1.toList, p.2) := by
  unfold keyed pairWord
  have h' : ∀ c ∈ p.1.toList, decide (c ≠ ':') = true := List.all_eq_true.1 h
  rw [List.takeWhile_append_of_pos h', List.dropWhile_append_of_pos h']
  simp

theorem hex16_pad (n : Nat) : Ptr.Log.fmtPad 16 n = hex16 n := rfl
theorem hex8_pad (n : Nat) : Ptr.Log.fmtPad 8 n = hex8 n := rfl

theorem spaced_append (a b : List Text) : spaced (a ++ b) = spaced a ++ spaced b := List.flatMap_append

/-- The sizes of pages that can be printed. -/
def Sized (r : Qt.Record) : Prop := (r.insnPageShiftValid = true → r.insnPageShift < 2 ^ 31) ∧ (r.dataPageShiftValid = true → r.dataPageShift < 2 ^ 31)

theorem insnText_spaced {r : Qt.Record} (h : Sized r) : insnText r = "INSN ".toList ++ spaced ((valueWords r).map pairWord) := by
  have hi : ∀ n, n < 2 ^ 31 → fmtI (BitVec.ofNat 32 n) = decimal n := by
    intro n hn
    have : (BitVec.ofNat 32 n).toNat = n := by rw [BitVec.toNat_ofNat]; exact Nat.mod_eq_of_lt (by omega)
    rw [fmtI_small (by rw [this]; exact hn), this]
  unfold insnText valueWords
  simp only [List.map_append, spaced_append]
  have e1 : ∀ (b : Bool) (k : String) (v : Text), spaced ((if b then [(k, v)] else []).map pairWord) = if b then ' ' :: (k.toList ++ ':' :: v) else [] := by
    intro b k v
    cases b
    · rfl
    · show (' ' :: (k.toList ++ ':' :: v)) ++ [] = _
      rw [List.append_nil]; rfl
  rw [e1, e1, e1, e1, e1]
  have e2 : (if r.insnPageShiftValid then " ipgsize:".toList ++ fmtI (BitVec.ofNat 32 r.insnPageShift) else []) =
      if r.insnPageShiftValid then ' ' :: ("ipgsize".toList ++ ':' :: decimal r.insnPageShift) else [] := by
    cases hv : r.insnPageShiftValid
    · rfl
    · rw [if_pos rfl, if_pos rfl, hi _ (h.1 hv)]; rfl
  have e3 : (if r.dataPageShiftValid then " dpgsize:".toList ++ fmtI (BitVec.ofNat 32 r.dataPageShift) else []) =
      if r.dataPageShiftValid then ' ' :: ("dpgsize".toList ++ ':' :: decimal r.dataPageShift) else [] := by
    cases hv : r.dataPageShiftValid
    · rfl
    · rw [if_pos rfl, if_pos rfl, hi _ (h.2 hv)]; rfl
  rw [e2, e3]
  have e4 : spaced ([("iea", hex16 r.insnAddr.toNat), ("op", hex8 r.insn.toNat)].map pairWord) =
      " iea:".toList ++ hex16 r.insnAddr.toNat ++ " op:".toList ++ hex8 r.insn.toNat := by
    show (' ' :: ("iea".toList ++ ':' :: hex16 r.insnAddr.toNat)) ++ ((' ' :: ("op".toList ++ ':' :: hex8 r.insn.toNat)) ++ []) = _
    simp
  rw [e4]
  simp only [hex16_pad, hex8_pad, List.append_assoc]
  rfl

theorem valueWords_wordy (r : Qt.Record) : ∀ w ∈ (valueWords r).map pairWord, Wordy w := by
  have key : ∀ p : String × Text, wordyB p.1.toList = true → Wordy p.2 → Wordy (pairWord p) := by
    intro p h1 h2
    exact wordy_append (wordy_of_b h1) fun c hc => (List.mem_cons.1 hc).elim (fun e => by rw [e]; decide) (h2.2 c)
  intro w hw
  obtain ⟨p, hp, rfl⟩ := List.mem_map.1 hw
  unfold valueWords at hp
  simp only [List.mem_append, List.mem_cons, List.not_mem_nil, or_false, List.mem_ite_nil_right] at hp
  rcases hp with (((((rfl | rfl) | ⟨-, rfl⟩) | ⟨-, rfl⟩) | ⟨-, rfl⟩) | ⟨-, rfl⟩) | ⟨-, rfl⟩ <;>
    exact key _ (by dsimp only; decide) (by first | exact fmtPad_wordy _ _ | exact decimal_wordy _)

theorem shown_insn {r : Qt.Record} (h : Sized r) : shown (insnText r) = some (showOf r) := by
  rw [insnText_spaced h]
  unfold shown
  rw [if_pos (show ("INSN ".toList ++ spaced ((valueWords r).map pairWord)).take 5 = "INSN ".toList from rfl)]
  rw [show ("INSN ".toList ++ spaced ((valueWords r).map pairWord)).drop 5 = spaced ((valueWords r).map pairWord) from rfl]
  rw [words_spaced _ (valueWords_wordy r)]
  have hk : ((valueWords r).map pairWord).map keyed = (valueWords r).map fun p => (p.1.toList, p.2) := by
    rw [List.map_map]
    refine List.map_congr_left fun p hp => keyed_pair ?_
    unfold valueWords at hp
    simp only [List.mem_append, List.mem_cons, List.not_mem_nil, or_false, List.mem_ite_nil_right] at hp
    rcases hp with (((((rfl | rfl) | ⟨-, rfl⟩) | ⟨-, rfl⟩) | ⟨-, rfl⟩) | ⟨-, rfl⟩) | ⟨-, rfl⟩ <;> (dsimp only; decide)
  rw [hk]
  unfold showOf valueWords
  cases r.insnRaValid <;> cases r.insnPageShiftValid <;> cases r.dataAddrValid <;> cases r.dataRaValid <;> cases r.dataPageShiftValid <;> simp

/-! ### Stamps -/

/-- The numbers of a stamp can be printed. -/
def SmallStamp : Stamp → Prop
  | .record c => c.toNat < 2 ^ 31
  | .complete e => e.toNat < 2 ^ 31
  | .pause e => e.toNat < 2 ^ 31
  | .mark g c u i _ => g.toNat < 2 ^ 31 ∧ c.toNat < 2 ^ 31 ∧ u.toNat < 2 ^ 31 ∧ i.toNat < 2 ^ 31
  | .sync => True
  | .time _ e c => e.toNat < 2 ^ 31 ∧ c.toNat < 2 ^ 31

theorem says_small {v : BitVec 64} {s : Stamp} (h : Says v s) : SmallStamp s := by
  have hn : ∀ n k, n < 2 ^ k → k < 31 → (BitVec.ofNat 32 n).toNat < 2 ^ 31 := by
    intro n k hn hk
    rw [BitVec.toNat_ofNat]
    exact Nat.lt_of_le_of_lt (Nat.mod_le _ _) (Nat.lt_trans hn (Nat.pow_lt_pow_right (by omega) hk))
  cases h with
  | record c l hc => exact hn _ _ hc (by omega)
  | complete m e _ he => exact hn _ _ he (by omega)
  | pause m e _ he => exact hn _ _ he (by omega)
  | mark g c u i d hg hc hu hi => exact ⟨hn _ _ hg (by omega), hn _ _ hc (by omega), hn _ _ hu (by omega), hn _ _ hi (by omega)⟩
  | sync l _ => trivial
  | time i c e _ _ hc he =>
    refine ⟨?_, ?_⟩
    · split
      · exact hn _ _ he (by omega)
      · decide
    · split
      · exact hn _ _ hc (by omega)
      · decide

theorem reported_small {S : List (BitVec 64)} {ss : List Stamp} (h : Reported S ss) : ∀ s ∈ ss, SmallStamp s := by
  induction h with
  | nil => intro s hs; cases hs
  | stamp h _ ih =>
    intro s hs
    rcases List.mem_cons.1 hs with rfl | hs
    · exact says_small h
    · exact ih s hs
  | other _ _ ih => exact ih

theorem texts_wordy {l : List String} (h : (l.all fun s => wordyB s.toList) = true) : ∀ w ∈ texts l, Wordy w := by
  intro w hw
  obtain ⟨s, hs, rfl⟩ := List.mem_map.1 hw
  exact wordy_of_b (List.all_eq_true.1 h s hs)

theorem append_wordy {a b : List Text} (ha : ∀ w ∈ a, Wordy w) (hb : ∀ w ∈ b, Wordy w) : ∀ w ∈ a ++ b, Wordy w :=
  fun w hw => (List.mem_append.1 hw).elim (ha w) (hb w)

theorem one_wordy {a : Text} (ha : Wordy a) : ∀ w ∈ [a], Wordy w := fun w hw => by rw [List.mem_singleton.1 hw]; exact ha

theorem comma_wordy (n : Nat) : Wordy (decimal n ++ [',']) := wordy_append (decimal_wordy n) fun c hc => by rw [List.mem_singleton.1 hc]; decide

theorem remarkOf_wordy (s : Stamp) : ∀ w ∈ (remarkOf s).2, Wordy w := by
  have hn := fun n => one_wordy (decimal_wordy n)
  have hm := fun n => one_wordy (comma_wordy n)
  cases s with
  | record c => exact append_wordy (texts_wordy (by decide)) (hn _)
  | complete c => exact append_wordy (texts_wordy (by decide)) (hn _)
  | pause c => exact append_wordy (texts_wordy (by decide)) (hn _)
  | mark g c u i d =>
    refine append_wordy (append_wordy (append_wordy (append_wordy (append_wordy (append_wordy (append_wordy (append_wordy (append_wordy
      (texts_wordy (by decide)) (hm _)) (texts_wordy (by decide))) (hm _)) (texts_wordy (by decide))) (hm _)) (texts_wordy (by decide))) (hm _)) (texts_wordy (by decide))) (hn _)
  | sync => intro w hw; cases hw
  | time i e c =>
    show ∀ w ∈ (if i.toNat = 0x80 then _ else reason i.toNat c.toNat), Wordy w
    split
    · exact append_wordy (texts_wordy (by decide)) (hn _)
    · unfold reason
      repeat' split
      all_goals first
        | exact append_wordy (texts_wordy (by decide)) (hn _)
        | exact texts_wordy (by decide)
        | (intro w hw; cases hw)

theorem kind_length (s : Stamp) : (remarkOf s).1.length = 5 := by cases s <;> rfl

theorem kind_insn (s : Stamp) : (remarkOf s).1 ≠ "INSN ".toList := by
  cases s <;> (show String.toList _ ≠ _) <;> decide

theorem stampText_spaced {s : Stamp} (h : SmallStamp s) : stampText s = (remarkOf s).1 ++ (spaced (remarkOf s).2).tail := by
  cases s with
  | record c =>
    unfold stampText remarkOf
    dsimp only
    rw [fmtI_small h]
    simp [spaced, texts]
  | complete c =>
    unfold stampText remarkOf
    dsimp only
    rw [fmtI_small h]
    simp [spaced, texts]
  | pause c =>
    unfold stampText remarkOf
    dsimp only
    rw [fmtI_small h]
    simp [spaced, texts]
  | mark g c u i d =>
    obtain ⟨h1, h2, h3, h4⟩ := h
    unfold stampText remarkOf
    dsimp only
    rw [fmtI_small h1, fmtI_small h2, fmtI_small h3, fmtI_small h4]
    cases d <;> simp [spaced, texts, decimal]
    rfl
  | sync => rfl
  | time i e c =>
    obtain ⟨h1, h2⟩ := h
    unfold stampText remarkOf timeText reason
    dsimp only
    rw [fmtI_small h1, fmtI_small h2]
    have hi : ∀ n : Nat, n < 2 ^ 32 → (i = BitVec.ofNat 32 n ↔ i.toNat = n) := by
      intro n hn
      rw [← BitVec.toNat_inj, BitVec.toNat_ofNat, Nat.mod_eq_of_lt hn]
    simp only [show (0x80 : BitVec 32) = BitVec.ofNat 32 0x80 from rfl, show (0x90 : BitVec 32) = BitVec.ofNat 32 0x90 from rfl,
      show (0xA0 : BitVec 32) = BitVec.ofNat 32 0xA0 from rfl, show (0xB0 : BitVec 32) = BitVec.ofNat 32 0xB0 from rfl,
      show (0x88 : BitVec 32) = BitVec.ofNat 32 0x88 from rfl, show (0x84 : BitVec 32) = BitVec.ofNat 32 0x84 from rfl,
      show (0x82 : BitVec 32) = BitVec.ofNat 32 0x82 from rfl, hi _ (show 0x80 < 2 ^ 32 by omega), hi _ (show 0x90 < 2 ^ 32 by omega),
      hi _ (show 0xA0 < 2 ^ 32 by omega), hi _ (show 0xB0 < 2 ^ 32 by omega), hi _ (show 0x88 < 2 ^ 32 by omega), hi _ (show 0x84 < 2 ^ 32 by omega),
      hi _ (show 0x82 < 2 ^ 32 by omega)]
    repeat' split
    all_goals simp [spaced, texts]

theorem remark_stamp {s : Stamp} (h : SmallStamp s) : remark (stampText s) = some (remarkOf s) := by
  rw [stampText_spaced h]
  unfold remark
  have hk := kind_length s
  rw [show 5 = (remarkOf s).1.length from hk.symm, List.take_left, List.drop_left, if_neg (kind_insn s), words_spaced' _ (remarkOf_wordy s)]

theorem shown_stamp {s : Stamp} (h : SmallStamp s) : shown (stampText s) = none := by
  rw [stampText_spaced h]
  unfold shown
  have hk := kind_length s
  rw [show 5 = (remarkOf s).1.length from hk.symm, List.take_left, if_neg (kind_insn s)]

theorem remark_insn {r : Qt.Record} (h : Sized r) : remark (insnText r) = none := by
  rw [insnText_spaced h]
  exact if_pos rfl

theorem insn_line {r : Qt.Record} (h : Sized r) : ∀ c ∈ insnText r, c ≠ '\n' := by
  rw [insnText_spaced h]
  intro c hc
  rcases List.mem_append.1 hc with hc | hc
  · exact (by decide : ∀ c ∈ "INSN ".toList, c ≠ '\n') c hc
  · exact spaced_line _ (valueWords_wordy r) c hc

theorem stamp_line {s : Stamp} (h : SmallStamp s) : ∀ c ∈ stampText s, c ≠ '\n' := by
  rw [stampText_spaced h]
  intro c hc
  rcases List.mem_append.1 hc with hc | hc
  · have : ∀ s : Stamp, ∀ c ∈ (remarkOf s).1, c ≠ '\n' := by
      intro s
      cases s <;> (unfold remarkOf; dsimp only; decide)
    exact this s c hc
  · exact spaced_line _ (remarkOf_wordy s) c (List.mem_of_mem_tail hc)

/-! ### The listing -/

theorem listing_read (debug detail : Bool) : ∀ out : List Ev, (∀ r ∈ instructions out, Sized r) → (∀ s ∈ stamps out, SmallStamp s) →
    (textLines (listing debug detail out)).filterMap shown = (if debug || detail then (instructions out).map showOf else []) ∧
    (textLines (listing debug detail out)).filterMap remark = if debug then (stamps out).map remarkOf else []
  | [], _, _ => by cases debug <;> cases detail <;> exact ⟨rfl, rfl⟩
  | e :: out, hi, hs => by
    have key : ∀ (l rest : Text), listLine debug detail e = l ++ ['\n'] → (∀ c ∈ l, c ≠ '\n') →
        textLines (listing debug detail (e :: out)) = l :: textLines (listing debug detail out) := by
      intro l rest h1 h2
      show textLines (listLine debug detail e ++ listing debug detail out) = _
      rw [h1, List.append_assoc, List.singleton_append, textLines_line l _ h2]
    have skip : listLine debug detail e = [] → listing debug detail (e :: out) = listing debug detail out := by
      intro h
      show listLine debug detail e ++ listing debug detail out = _
      rw [h, List.nil_append]
    cases e with
    | stamp s =>
      have hs' : SmallStamp s := hs s List.mem_cons_self
      obtain ⟨a, b⟩ := listing_read debug detail out hi fun x hx => hs x (List.mem_cons_of_mem _ hx)
      cases debug with
      | true =>
        rw [key (stampText s) [] rfl (stamp_line hs'), List.filterMap_cons_none (shown_stamp hs'), List.filterMap_cons_some (remark_stamp hs'), a, b]
        exact ⟨rfl, rfl⟩
      | false =>
        rw [skip rfl]
        exact ⟨a, b⟩
    | insn r =>
      have hr : Sized r := hi r List.mem_cons_self
      obtain ⟨a, b⟩ := listing_read debug detail out (fun x hx => hi x (List.mem_cons_of_mem _ hx)) hs
      by_cases hd : (debug || detail) = true
      · rw [key (insnText r) [] (if_pos hd) (insn_line hr), List.filterMap_cons_some (shown_insn hr), List.filterMap_cons_none (remark_insn hr), a, b,
          if_pos hd, if_pos hd]
        exact ⟨rfl, rfl⟩
      · rw [skip (if_neg hd), a, b, if_neg hd, if_neg hd]
        exact ⟨rfl, rfl⟩
    | count k => rw [skip rfl]; exact listing_read debug detail out hi hs
    | cycles n => rw [skip rfl]; exact listing_read debug detail out hi hs
    | ea a => rw [skip rfl]; exact listing_read debug detail out hi hs
    | inst a b => rw [skip rfl]; exact listing_read debug detail out hi hs
    | tlb o => rw [skip rfl]; exact listing_read debug detail out hi hs

/-- **C100**: whatever was decoded, the listing has a line for every instruction that is handed on to be written, in order, with its word, its address and
everything that is known of its pages and its data; with `-D` it has a line for every stamp among the records, in order, with what it says. Without
`-d` and `-D` there is no listing. -/
theorem C100_listed_partial {junk : Qt.Record} (hq : QuietJunk junk) (debug detail : Bool) (eof : Bool) (bytes : List (BitVec 8)) (failing : Bool) (fill phantom : BitVec 64)
    {text : Text} (h : listed junk debug detail eof bytes failing fill phantom = some text) :
    ∃ l ss, decoded { fn := true, private_ := true, junk := junk } eof bytes failing fill phantom = some l ∧ Reported (stream bytes failing eof fill phantom) ss ∧
      (textLines text).filterMap shown = (if debug || detail then l.map showOf else []) ∧
      (textLines text).filterMap remark = (if debug then ss.map remarkOf else []) ∧
      (debug = false → detail = false → text = []) := by
  unfold listed at h
  cases hr : decode { fn := true, private_ := true, junk := junk } eof bytes failing fill phantom with
  | error e => rw [hr] at h; cases h
  | ok p =>
    obtain ⟨s, r⟩ := p
    rw [hr] at h
    have h : some (listing debug detail r.out) = some text := h
    obtain rfl := Option.some.inj h
    obtain ⟨ss, h1, h2, -⟩ := C72_stamps_partial _ eof bytes failing fill phantom hr
    have h2 : stamps r.out = ss := h2
    have hd : decoded { fn := true, private_ := true, junk := junk } eof bytes failing fill phantom = some (instructions r.out) := by
      unfold decoded; rw [hr]; rfl
    have h3 := listing_read debug detail r.out
      (fun x hx => ⟨fun hv => by have := (decoded_storable hq hd x hx).1.1.1 hv; omega, fun hv => by have := (decoded_storable hq hd x hx).1.1.2.2.1 hv; omega⟩)
      (by rw [h2]; exact reported_small h1)
    refine ⟨instructions r.out, ss, hd, h1, h3.1, by rw [h3.2, h2], ?_⟩
    rintro rfl rfl
    unfold listing
    rw [List.flatMap_eq_nil_iff]
    intro e _
    cases e <;> rfl

theorem listed_of {junk : Qt.Record} {debug detail eof failing : Bool} {bytes : List (BitVec 8)} {fill phantom : BitVec 64} {l : List Qt.Record}
    (h : decoded { fn := true, private_ := true, junk := junk } eof bytes failing fill phantom = some l) :
    ∃ text, listed junk debug detail eof bytes failing fill phantom = some text := by
  unfold decoded at h
  unfold listed
  cases hr : decode { fn := true, private_ := true, junk := junk } eof bytes failing fill phantom with
  | error e => rw [hr] at h; cases h
  | ok p => exact ⟨_, rfl⟩

/-- **C100**, POWER9: the listing has the instructions of the dump, with the real addresses and page sizes that are known of them (C98), and the trace has the same
ones. -/
theorem C100_power9_partial (t : Layout) {junk : Qt.Record} (hq : QuietJunk junk) (debug detail : Bool) (hd : (debug || detail) = true) {eof failing : Bool}
    {bytes : List (BitVec 8)} {fill phantom : BitVec 64} (items : List Item9r)
    (tail : List (BitVec 64)) (hk : AllKnown (stream bytes failing eof fill phantom)) (hi : Trace9 t 0 items)
    (hw : plain (stream bytes failing eof fill phantom) = items.flatMap Item9r.words ++ tail) (htail : ∀ v ∈ tail, Other v) :
    ∃ text l file, listed junk debug detail eof bytes failing fill phantom = some text ∧ (textLines text).filterMap shown = l.map showOf ∧
      AllShow l (expect9r t [] 0 items) ∧ l.map pagesOf = pages9r t [] 0 items ∧
      convert junk eof bytes failing fill phantom = .file file ∧ Contains file (expect9r t [] 0 items) := by
  obtain ⟨l, h1, h2, h3, -⟩ := C98_decoded t { fn := true, private_ := true, junk := junk } rfl items tail hk hi hw htail
  obtain ⟨file, h4, h5⟩ := C98_contents t hq items tail hk hi hw htail
  obtain ⟨text, h6⟩ := listed_of (debug := debug) (detail := detail) h1
  obtain ⟨l', ss, h7, -, h8, -⟩ := C100_listed_partial hq debug detail eof bytes failing fill phantom h6
  obtain rfl := Option.some.inj (h1.symm.trans h7)
  exact ⟨text, l, file, h6, by rw [h8, if_pos hd], h2, h3, h4, h5⟩

/-! ### Examples -/

/-- The dump of C98. -/
example : QuietJunk {} ∧ Trace9 layout9 0 trace9r ∧ plain (stream (bytes9 trace9r) false false 0 0) = trace9r.flatMap Item9r.words ++ [0] ∧
    listed {} false true false (bytes9 trace9r) false 0 0 = some ("INSN  iea:c000000000001000 op:60000000 ira:0000000005001000 ipgsize:24\n" ++
      "INSN  iea:c000000000001004 op:f8630000 dea:c00000000000f008 dra:0000000000005008 dpgsize:12\n" ++
      "INSN  iea:0000000010000000 op:60000000 ira:0000000010007000 ipgsize:12\n" ++
      "INSN  iea:c000000000f00004 op:60000000 ira:0000000005f00004 ipgsize:24\n").toList := by
  refine ⟨⟨rfl, rfl, rfl, rfl⟩, trace9r_ok, by decide +kernel, by decide +kernel⟩

/-- The dump of C72. -/
example : listed {} true true true exStamps false 0 0 = some ("REC  counter = 7\nTIME cycles = 5\n" ++
      "INSN  iea:0000000000001000 op:60000000 ira:0000000000001000 ipgsize:12\nTIME record dropped counter overflow, counter= 52\nSYNC \n" ++
      "MARK group = 1, chip = 1, unit = 1, marker = 1, set = 1\nPAUSEcycles = 6\nEND  cycles = 9\n").toList := by
  decide +kernel

/-- **C100, the exception**: a time stamp that says that both markers and triggers were lost (0x94) is listed like one that says nothing of the kind (0x81). -/
theorem C100_time_refuted : Says 0xaceff94000000000 (.time 0x94 0 0) ∧ Says 0xaceff81000000000 (.time 0x81 0 0) ∧
    listed {} true true true [0xac, 0xef, 0xf9, 0x40, 0, 0, 0, 0] false 0 0 = some "TIME \n".toList ∧
    listed {} true true true [0xac, 0xef, 0xf8, 0x10, 0, 0, 0, 0] false 0 0 = some "TIME \n".toList := by
  refine ⟨?_, ?_, by decide +kernel, by decide +kernel⟩
  · exact .time 0x94 0 0 (by omega) (by omega) (by omega) (by omega) (by decide)
  · exact .time 0x81 0 0 (by omega) (by omega) (by omega) (by omega) (by decide)

end Htm
