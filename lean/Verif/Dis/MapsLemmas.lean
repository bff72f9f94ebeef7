import Verif.Dis.Maps
import Verif.Dis.SpecMaps
import Verif.Stats.ScriptLemmas
/-! Reading /proc/pid/maps: helper lemmas. -/
namespace Sym
open Sym.Spec
open Ptr.Log (fmtX fmtX_low fmtX_step fmtPad)

/-- What is known of the digits of a number. -/
def Digit (c : Char) : Prop :=
  (hexDigit c).isSome = true ∧ isSpace c = false ∧ c ≠ '-' ∧ c ≠ '+' ∧ c ≠ 'x' ∧ c ≠ 'X' ∧ c ≠ '\n' ∧ c ≠ '\x00'

theorem digit_value : ∀ d : Fin 16, (hexDigit (Nat.digitChar d)).getD 0 = d.val := by decide

theorem digit_props : ∀ d : Fin 16, Digit (Nat.digitChar d) := by unfold Digit; decide

theorem hexValue_snoc (l : List Char) (c : Char) : hexValue (l ++ [c]) = 16 * hexValue l + (hexDigit c).getD 0 := by simp [hexValue]

theorem hexValue_zeros : ∀ (k : Nat) (l : List Char), hexValue (List.replicate k '0' ++ l) = hexValue l
  | 0, _ => rfl
  | k + 1, l => by
    rw [List.replicate_succ]
    exact hexValue_zeros k l

theorem hexValue_fmtX (v : Nat) : hexValue (fmtX v) = v := by
  induction v using Nat.strongRecOn with
  | _ v ih =>
    by_cases h : v < 16
    · rw [fmtX_low v h]
      show 16 * 0 + (hexDigit (Nat.digitChar v)).getD 0 = v
      rw [digit_value ⟨v, h⟩]; show 16 * 0 + v = v; omega
    · rw [fmtX_step v (by omega), hexValue_snoc, ih (v / 16) (by omega), digit_value ⟨v % 16, by omega⟩]
      show 16 * (v / 16) + v % 16 = v
      omega

theorem hexValue_fmtPad (w v : Nat) : hexValue (fmtPad w v) = v := by rw [fmtPad, hexValue_zeros, hexValue_fmtX]

theorem takeWhile_all {p : Char → Bool} {a b : List Char} (ha : ∀ c ∈ a, p c = true) (hb : ∀ c, b.head? = some c → p c = false) :
    (a ++ b).takeWhile p = a ∧ (a ++ b).dropWhile p = b := by
  rw [List.takeWhile_append_of_pos ha, List.dropWhile_append_of_pos ha]
  cases b with
  | nil => simp
  | cons c b =>
    have := hb c rfl
    rw [List.takeWhile_cons_of_neg (by rw [this]; decide), List.dropWhile_cons_of_neg (by rw [this]; decide)]
    simp

theorem fmtPad_two (w v : Nat) (hw : 2 ≤ w) : ∃ a b l, fmtPad w v = a :: b :: l := by
  have h : 2 ≤ (fmtPad w v).length := by
    unfold fmtPad
    rw [List.length_append, List.length_replicate]
    omega
  match hf : fmtPad w v, h with
  | a :: b :: l, _ => exact ⟨a, b, l, rfl⟩

theorem scanHex_pad (v : BitVec 64) (r : List Char) (hr : ∀ c, r.head? = some c → hexDigit c = none) :
    scanHex (fmtPad 8 v.toNat ++ r) = some (v, r) := by
  have hall := Script.fmtPad_all digit_props 8 v.toNat
  have hv := hexValue_fmtPad 8 v.toNat
  obtain ⟨a, b, l, hf⟩ := fmtPad_two 8 v.toNat (by omega)
  rw [hf] at hall hv ⊢
  obtain ⟨_, ha1, ha2, ha3, _⟩ := hall a (by simp)
  obtain ⟨_, _, _, _, hb1, hb2, _⟩ := hall b (by simp)
  have e1 : ((a :: b :: l) ++ r).dropWhile isSpace = (a :: b :: l) ++ r := by
    rw [List.cons_append, List.dropWhile_cons_of_neg (by rw [ha1]; decide)]
  have e2 : sign ((a :: b :: l) ++ r) = (false, (a :: b :: l) ++ r) := by
    unfold sign
    rw [List.cons_append, List.head?_cons, if_neg (by simpa using ha2), if_neg (by simpa using ha3)]
  have e3 : skip0x ((a :: b :: l) ++ r) = (a :: b :: l) ++ r := by
    unfold skip0x
    rw [if_neg]
    rintro ⟨_, h | h⟩
    · exact hb1 (by simpa using h)
    · exact hb2 (by simpa using h)
  have e4 := takeWhile_all (p := fun c => (hexDigit c).isSome) (a := a :: b :: l) (b := r) (fun c hc => (hall c hc).1)
    (fun c hc => by rw [hr c hc]; rfl)
  unfold scanHex
  rw [e1, e2]
  simp only [e3, e4.1, e4.2, hv]
  rw [if_neg (by simp), Nat.min_eq_left (by have := v.isLt; omega)]
  simp

theorem scanWord_word (sp w r : List Char) (c : Char) (hsp : ∀ x ∈ sp, isSpace x = true) (hw : ∀ x ∈ w, isSpace x = false) (hn : w ≠ [])
    (hc : isSpace c = true) : scanWord (sp ++ (w ++ c :: r)) = some (w, c :: r) := by
  have e1 := (takeWhile_all (p := isSpace) (a := sp) (b := w ++ c :: r) hsp (fun x hx => by
    cases w with
    | nil => exact absurd rfl hn
    | cons y w => rw [List.cons_append, List.head?_cons] at hx; exact hw x (by simp [Option.some.inj hx]))).2
  have e2 := takeWhile_all (p := fun c => !isSpace c) (a := w) (b := c :: r) (fun x hx => by rw [hw x hx]; rfl)
    (fun x hx => by rw [← Option.some.inj hx, hc]; rfl)
  unfold scanWord
  simp only [e1, e2.1, e2.2]
  rw [if_neg hn]

/-- One space before the word. -/
theorem scanWord_one (w r : List Char) (c : Char) (hw : ∀ x ∈ w, isSpace x = false) (hn : w ≠ []) (hc : isSpace c = true) :
    scanWord (' ' :: (w ++ c :: r)) = some (w, c :: r) :=
  scanWord_word [' '] w r c (by decide) hw hn hc

theorem getLine_line : ∀ (n : Nat) (l s : List Char), '\n' ∉ l → l.length < n → getLine n (l ++ '\n' :: s) = (l ++ ['\n'], s)
  | 0, _, _, _, h => absurd h (by omega)
  | n + 1, [], s, _, _ => by simp [getLine]
  | n + 1, c :: l, s, hl, h => by
    have ih := getLine_line n l s (fun hm => hl (List.mem_cons_of_mem _ hm)) (by simpa using h)
    have hc : c ≠ '\n' := fun e => hl (by simp [e])
    rw [List.cons_append, getLine, if_neg hc, ih, List.cons_append]

attribute [local irreducible] bufSize in
theorem stringIn_store (w : List Char) (a : Nat → Char) (hw : '\x00' ∉ w) (hl : w.length < bufSize) : stringIn (storeStr w a) = some w := by
  have hat : ∀ i, i < w.length → storeStr w a i ≠ '\x00' := by
    intro i hi he
    rw [storeStr, if_pos hi, List.getElem?_eq_getElem hi] at he
    exact hw (he ▸ List.getElem_mem hi)
  have hend : storeStr w a w.length = '\x00' := by rw [storeStr, if_neg (by omega), if_pos rfl]
  have hf : (List.range bufSize).find? (fun i => storeStr w a i = '\x00') = some w.length := by
    rw [List.find?_range_eq_some]
    exact ⟨by simpa using hend, List.mem_range.2 hl, fun j hj => by simpa using hat j hj⟩
  unfold stringIn
  rw [hf]
  show some _ = some w
  congr 1
  apply List.ext_getElem
  · simp
  · intro i h1 h2
    rw [List.getElem_map, List.getElem_range, storeStr, if_pos h2, List.getElem?_eq_getElem h2]
    rfl

theorem dec_all {P : Char → Prop} (hP : ∀ d : Fin 16, P (Nat.digitChar d)) (v : Nat) : ∀ c ∈ Nat.toDigits 10 v, P c := by
  induction v using Nat.strongRecOn with
  | _ v ih =>
    intro c hc
    by_cases h : v < 10
    · rw [Nat.toDigits_of_lt_base h, List.mem_singleton] at hc
      subst hc
      exact hP ⟨v, by omega⟩
    · rw [Nat.toDigits_of_base_le (by omega) (by omega), List.mem_append, List.mem_singleton] at hc
      rcases hc with hc | rfl
      · exact ih _ (by omega) c hc
      · exact hP ⟨v % 10, by omega⟩

theorem dec_ne (v : Nat) : Nat.toDigits 10 v ≠ [] := by
  by_cases h : v < 10
  · rw [Nat.toDigits_of_lt_base h]; simp
  · rw [Nat.toDigits_of_base_le (by omega) (by omega)]; simp

/-- Characters that end neither a word, a line nor a string. -/
def Inner (c : Char) : Prop := isSpace c = false ∧ c ≠ '\n' ∧ c ≠ '\x00'

theorem inner_of_digit {c : Char} (h : Digit c) : Inner c := ⟨h.2.1, h.2.2.2.2.2.2.1, h.2.2.2.2.2.2.2⟩

theorem pad_inner (w v : Nat) : ∀ c ∈ fmtPad w v, Inner c := fun c hc => inner_of_digit (Script.fmtPad_all digit_props w v c hc)

theorem dec_inner (v : Nat) : ∀ c ∈ Nat.toDigits 10 v, Inner c := fun c hc => inner_of_digit (dec_all digit_props v c hc)

theorem perm_inner (e : Entry) : ∀ c ∈ e.perm, Inner c := by
  unfold Entry.perm Inner
  cases e.read <;> cases e.write <;> cases e.exec <;> cases e.shared <;> decide

theorem device_inner (a b : Nat) : ∀ c ∈ fmtPad 2 a ++ ':' :: fmtPad 2 b, Inner c := by
  intro c hc
  rw [List.mem_append, List.mem_cons] at hc
  rcases hc with hc | rfl | hc
  · exact pad_inner _ _ c hc
  · unfold Inner; decide
  · exact pad_inner _ _ c hc

/-- What stands behind the permissions, up to the path. -/
def middle (e : Entry) (r : List Char) : List Char :=
  ' ' :: (fmtPad 8 e.offset.toNat ++ ' ' :: ((fmtPad 2 e.major ++ ':' :: fmtPad 2 e.minor) ++ ' ' :: (Nat.toDigits 10 e.inode ++ ' ' :: r)))

/-- What stands behind the inode. -/
def ending (e : Entry) : List Char := if e.path = [] then [] else List.replicate (72 - e.head.length) ' ' ++ ' ' :: e.path

theorem line_split (e : Entry) :
    e.line = (fmtPad 8 e.start.toNat ++ '-' :: (fmtPad 8 e.stop.toNat ++ ' ' :: (e.perm ++ middle e (ending e)))) ++ ['\n'] := by
  unfold Entry.line ending middle
  split
  · simp [Entry.head]
  · generalize List.replicate (72 - e.head.length) ' ' = sp
    simp [Entry.head]

theorem ending_mem (e : Entry) (c : Char) (h : c ∈ ending e) : c = ' ' ∨ c ∈ e.path := by
  unfold ending at h
  split at h
  · cases h
  · rw [List.mem_append, List.mem_cons] at h
    rcases h with h | h | h
    · exact Or.inl (List.eq_of_mem_replicate h)
    · exact Or.inl h
    · exact Or.inr h

theorem body_mem (e : Entry) (hp : ∀ c ∈ e.path, c ≠ '\n' ∧ c ≠ '\x00') :
    ∀ c ∈ fmtPad 8 e.start.toNat ++ '-' :: (fmtPad 8 e.stop.toNat ++ ' ' :: (e.perm ++ middle e (ending e))), c ≠ '\n' ∧ c ≠ '\x00' := by
  intro c hc
  have sp : ∀ {c : Char}, c = ' ' → c ≠ '\n' ∧ c ≠ '\x00' := fun h => by subst h; decide
  rw [List.mem_append, List.mem_cons, List.mem_append, List.mem_cons, List.mem_append, middle, List.mem_cons, List.mem_append, List.mem_cons,
    List.mem_append, List.mem_cons, List.mem_append (s := Nat.toDigits 10 e.inode), List.mem_cons] at hc
  rcases hc with h | h | h | h | h | h | h | h | h | h | h | h | h
  · exact (pad_inner _ _ c h).2
  · subst h; decide
  · exact (pad_inner _ _ c h).2
  · exact sp h
  · exact (perm_inner e c h).2
  · exact sp h
  · exact (pad_inner _ _ c h).2
  · exact sp h
  · exact (device_inner _ _ c h).2
  · exact sp h
  · exact (dec_inner _ c h).2
  · exact sp h
  · rcases ending_mem e c h with h | h
    · exact sp h
    · exact hp c h

theorem takeWhile_self {p : Char → Bool} (l : List Char) (h : ∀ c ∈ l, p c = true) : l.takeWhile p = l := by
  have := (takeWhile_all (p := p) (a := l) (b := []) h (fun c hc => by cases hc)).1
  rwa [List.append_nil] at this

/-- What is read of a line. -/
theorem scanLine_line (l : Locals) (e : Entry) (hp : ∀ c ∈ e.path, c ≠ '\n' ∧ c ≠ '\x00') :
    scanLine l e.line = scanPath { l with start := e.start, stop := e.stop, perm := storeStr e.perm l.perm } (middle e (ending e) ++ ['\n']) := by
  have h0 : e.line.takeWhile (· ≠ '\x00') = e.line := by
    apply takeWhile_self
    intro c hc
    rw [line_split, List.mem_append, List.mem_singleton] at hc
    rcases hc with hc | rfl
    · simpa using (body_mem e hp c hc).2
    · decide
  have h1 := scanHex_pad e.start ('-' :: (fmtPad 8 e.stop.toNat ++ ' ' :: (e.perm ++ middle e (ending e))) ++ ['\n'])
    (fun c hc => by rw [← Option.some.inj hc]; decide)
  have h2 := scanHex_pad e.stop (' ' :: (e.perm ++ middle e (ending e)) ++ ['\n']) (fun c hc => by rw [← Option.some.inj hc]; decide)
  have h3 : scanWord (' ' :: (e.perm ++ middle e (ending e)) ++ ['\n']) = some (e.perm, middle e (ending e) ++ ['\n']) := by
    have := scanWord_one e.perm ((fmtPad 8 e.offset.toNat ++ ' ' :: ((fmtPad 2 e.major ++ ':' :: fmtPad 2 e.minor) ++
      ' ' :: (Nat.toDigits 10 e.inode ++ ' ' :: ending e))) ++ ['\n']) ' ' (fun x hx => (perm_inner e x hx).1) (by simp [Entry.perm]) rfl
    simpa [middle] using this
  unfold scanLine
  rw [h0, line_split, List.append_assoc, h1]
  simp only []
  unfold scanStop
  rw [List.cons_append, List.head?_cons, if_pos rfl, List.tail_cons, List.append_assoc, h2]
  simp only []
  unfold scanPerm
  rw [h3]

/-- The path that is read of a line. -/
theorem scanPath_path (l : Locals) (e : Entry) (hp : Plain e.path) (hn : e.path ≠ []) :
    scanPath l (middle e (ending e) ++ ['\n']) = { l with library := storeStr e.path l.library } := by
  have hd : fmtPad 2 e.major ++ ':' :: fmtPad 2 e.minor ≠ [] := by simp
  have hw : ∀ x ∈ e.path, isSpace x = false := fun x hx => by
    obtain ⟨h1, h2, h3, h4, h5, h6, -⟩ := hp x hx
    simp [isSpace, h1, h2, h3, h4, h5, h6]
  have hend : ending e = List.replicate (72 - e.head.length) ' ' ++ ' ' :: e.path := by rw [ending, if_neg hn]
  have w1 := scanWord_one (fmtPad 8 e.offset.toNat) (((fmtPad 2 e.major ++ ':' :: fmtPad 2 e.minor) ++
    ' ' :: (Nat.toDigits 10 e.inode ++ ' ' :: ending e)) ++ ['\n']) ' ' (fun x hx => (pad_inner _ _ x hx).1) (Script.fmtPad_ne _ _) rfl
  have w2 := scanWord_one (fmtPad 2 e.major ++ ':' :: fmtPad 2 e.minor) ((Nat.toDigits 10 e.inode ++ ' ' :: ending e) ++ ['\n']) ' '
    (fun x hx => (device_inner _ _ x hx).1) hd rfl
  have w3 := scanWord_one (Nat.toDigits 10 e.inode) (ending e ++ ['\n']) ' ' (fun x hx => (dec_inner _ x hx).1) (dec_ne _) rfl
  have w4 := scanWord_word (' ' :: (List.replicate (72 - e.head.length) ' ' ++ [' '])) e.path [] '\n' (fun x hx => by
    rw [List.mem_cons, List.mem_append, List.mem_singleton] at hx
    rcases hx with rfl | hx | rfl
    · rfl
    · rw [List.eq_of_mem_replicate hx]; rfl
    · rfl) hw hn rfl
  have e4 : ' ' :: (List.replicate (72 - e.head.length) ' ' ++ [' ']) ++ (e.path ++ ['\n']) = ' ' :: (ending e ++ ['\n']) := by
    rw [hend]; simp only [List.cons_append, List.append_assoc, List.nil_append]
  rw [e4] at w4
  unfold scanPath
  have e1 : middle e (ending e) ++ ['\n'] = ' ' :: (fmtPad 8 e.offset.toNat ++ ' ' :: (((fmtPad 2 e.major ++ ':' :: fmtPad 2 e.minor) ++
    ' ' :: (Nat.toDigits 10 e.inode ++ ' ' :: ending e)) ++ ['\n'])) := by
    unfold middle; simp only [List.cons_append, List.append_assoc]
  have e2 : ' ' :: (((fmtPad 2 e.major ++ ':' :: fmtPad 2 e.minor) ++ ' ' :: (Nat.toDigits 10 e.inode ++ ' ' :: ending e)) ++ ['\n']) =
      ' ' :: ((fmtPad 2 e.major ++ ':' :: fmtPad 2 e.minor) ++ ' ' :: ((Nat.toDigits 10 e.inode ++ ' ' :: ending e) ++ ['\n'])) := by
    simp only [List.cons_append, List.append_assoc]
  have e3 : ' ' :: ((Nat.toDigits 10 e.inode ++ ' ' :: ending e) ++ ['\n']) = ' ' :: (Nat.toDigits 10 e.inode ++ ' ' :: (ending e ++ ['\n'])) := by
    simp only [List.cons_append, List.append_assoc]
  rw [e1, w1, Option.bind_some, e2, w2, Option.bind_some, e3, w3, Option.bind_some, w4]

theorem scanPath_perm (l : Locals) (s : List Char) : (scanPath l s).perm = l.perm := by
  unfold scanPath
  split <;> rfl

theorem perm_exec (e : Entry) (a : Nat → Char) : storeStr e.perm a 2 = 'x' ↔ e.exec = true := by
  show (if e.exec then 'x' else '-') = 'x' ↔ _
  cases e.exec <;> decide

attribute [local irreducible] bufSize in
theorem readMaps_turn (junk : Nat → Locals) (files : List Char → Option (List Symbol)) (n k : Nat) (first : Bool) (ts : List Table)
    (s : List Char) (hs : s ≠ []) : readMaps junk files (n + 1) k first ts s =
      (useLine files (scanLine (junk k) (getLine (bufSize - 1) s).1) first ts).bind
        fun x => readMaps junk files n (k + 1) x.1 x.2 (getLine (bufSize - 1) s).2 := by
  cases s with
  | nil => exact absurd rfl hs
  | cons c s =>
    have e : readMaps junk files (n + 1) k first ts (c :: s) =
        match useLine files (scanLine (junk k) (getLine (bufSize - 1) (c :: s)).1) first ts with
        | none => none
        | some (first, ts) => readMaps junk files n (k + 1) first ts (getLine (bufSize - 1) (c :: s)).2 := rfl
    rw [e]
    generalize getLine (bufSize - 1) (c :: s) = g
    cases useLine files (scanLine (junk k) g.1) first ts with
    | none => rfl
    | some x => rfl

theorem readMaps_text (junk : Nat → Locals) (files : List Char → Option (List Symbol)) (es : List Entry) (he : ∀ e ∈ es, Readable e) :
    ∀ (n k : Nat) (first : Bool) (ts : List Table), es.length < n →
      readMaps junk files n k first ts (text es) = memMap first ts (es.map (Entry.mapping files)) := by
  induction es with
  | nil =>
    intro n k first ts hn
    obtain ⟨n, rfl⟩ : ∃ m, n = m + 1 := ⟨n - 1, by simp at hn; omega⟩
    rfl
  | cons e es ih =>
    intro n k first ts hn
    obtain ⟨n, rfl⟩ : ∃ m, n = m + 1 := ⟨n - 1, by simp at hn; omega⟩
    obtain ⟨h1, h2, h3⟩ := he e (by simp)
    have hbuf : bufSize = 2048 := rfl
    have ih := ih (fun x hx => he x (List.mem_cons_of_mem _ hx)) n (k + 1)
    have hlen : es.length < n := by simpa using hn
    have htext : text (e :: es) = e.line ++ text es := rfl
    have hget : getLine (bufSize - 1) (e.line ++ text es) = (e.line, text es) := by
      have hb := body_mem e h2
      rw [line_split] at h1 ⊢
      generalize fmtPad 8 e.start.toNat ++ '-' :: (fmtPad 8 e.stop.toNat ++ ' ' :: (e.perm ++ middle e (ending e))) = b at h1 hb ⊢
      rw [List.append_assoc]
      refine getLine_line _ b (text es) (fun hm => (hb _ hm).1 rfl) ?_
      rw [List.length_append, List.length_singleton] at h1
      omega
    have hne : e.line ++ text es ≠ [] := by rw [line_split]; simp
    rw [htext, readMaps_turn _ _ _ _ _ _ _ hne, hget, scanLine_line _ e h2, List.map_cons, memMap]
    show (useLine files _ first ts).bind _ = if e.exec = true then (match files e.path with | none => _ | some syms => _) else _
    cases hx : e.exec with
    | false =>
      have hperm : storeStr e.perm (junk k).perm 2 ≠ 'x' := fun h => by rw [perm_exec, hx] at h; cases h
      unfold useLine
      rw [scanPath_perm, if_pos hperm, Option.bind_some, ih first ts hlen]
      rfl
    | true =>
      obtain ⟨hn1, hn2⟩ := h3 hx
      have hperm : ¬ storeStr e.perm (junk k).perm 2 ≠ 'x' := fun h => h ((perm_exec e _).2 hx)
      have hpl : e.path.length < bufSize := by
        have : e.path.length ≤ e.line.length := by
          unfold Entry.line
          rw [if_neg hn1]
          simp only [List.length_append]
          omega
        omega
      rw [scanPath_path _ e hn2 hn1]
      unfold useLine
      rw [if_neg hperm]
      simp only []
      rw [stringIn_store _ _ (fun h => (hn2 _ h).2.2.2.2.2.2 rfl) hpl]
      simp only [if_true]
      unfold syminit
      cases files e.path with
      | none => exact ih false ts hlen
      | some syms =>
        simp only []
        split
        · exact ih false _ hlen
        · rfl

end Sym
