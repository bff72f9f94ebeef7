import Verif.Htm.Decode
import Verif.Htm.SpecSource
import Verif.Htm.PropsBits
/-!
Reading a trace: what has been consumed and what is pending.
-/
namespace Htm

/-! ### Lemmas -/

/-- What is still to be read. -/
def pending (r : Rd) : List (BitVec 64) :=
  (if r.rewind then [r.prev] else []) ++ stream r.bytes r.failing r.eof r.fill r.phantom

theorem long_cases {α : Type} {l : List α} (h : 8 ≤ l.length) : ∃ a b c d e f g i rest, l = a :: b :: c :: d :: e :: f :: g :: i :: rest := by
  match l, h with
  | a :: b :: c :: d :: e :: f :: g :: i :: rest, _ => exact ⟨a, b, c, d, e, f, g, i, rest, rfl⟩

theorem short_records {l : List (BitVec 8)} (h : ¬ 8 ≤ l.length) : records l = [] ∧ remainder l = l := by
  match l, h with
  | [], _ => exact ⟨rfl, rfl⟩
  | [_], _ => exact ⟨rfl, rfl⟩
  | [_, _], _ => exact ⟨rfl, rfl⟩
  | [_, _, _], _ => exact ⟨rfl, rfl⟩
  | [_, _, _, _], _ => exact ⟨rfl, rfl⟩
  | [_, _, _, _, _], _ => exact ⟨rfl, rfl⟩
  | [_, _, _, _, _, _], _ => exact ⟨rfl, rfl⟩
  | [_, _, _, _, _, _, _], _ => exact ⟨rfl, rfl⟩
  | _ :: _ :: _ :: _ :: _ :: _ :: _ :: _ :: _, h => simp at h

theorem append_toNat {m n : Nat} (x : BitVec m) (y : BitVec n) : (x ++ y).toNat = x.toNat * 2 ^ n + y.toNat := by
  rw [BitVec.toNat_append, Nat.shiftLeft_eq, Nat.mul_comm, ← Nat.two_pow_add_eq_or_of_lt y.isLt]

theorem of64_toNat (a b c d e f g h : BitVec 8) : (Qt.of64 a b c d e f g h).toNat =
    ((((((a.toNat * 256 + b.toNat) * 256 + c.toNat) * 256 + d.toNat) * 256 + e.toNat) * 256 + f.toNat) * 256 + g.toNat) * 256 + h.toNat := by
  unfold Qt.of64
  simp only [append_toNat]

theorem byte_toNat (v : BitVec 64) (k : Nat) : (v.extractLsb' k 8).toNat = v.toNat / 2 ^ k % 256 := by
  rw [BitVec.extractLsb'_toNat, Nat.shiftRight_eq_div_pow]

theorem word_padded (fill : BitVec 64) {l : List (BitVec 8)} (h0 : l ≠ []) (h8 : ¬ 8 ≤ l.length) :
    word (l ++ (Qt.be64 fill).drop l.length) =
      BitVec.ofNat 64 (l.foldl (fun n b => n * 256 + b.toNat) 0 * 2 ^ (64 - 8 * l.length) + fill.toNat % 2 ^ (64 - 8 * l.length)) := by
  have hf := fill.isLt
  have h1 := byte_toNat fill 48; have h2 := byte_toNat fill 40; have h3 := byte_toNat fill 32; have h4 := byte_toNat fill 24
  have h5 := byte_toNat fill 16; have h6 := byte_toNat fill 8; have h7 := byte_toNat fill 0
  match l, h0, h8 with
  | [a], _, _ =>
    apply BitVec.eq_of_toNat_eq
    show (Qt.of64 a _ _ _ _ _ _ _).toNat = _
    rw [of64_toNat, BitVec.toNat_ofNat, h1, h2, h3, h4, h5, h6, h7]
    have := a.isLt
    simp only [List.foldl, List.length_cons, List.length_nil]
    simp only [Nat.reduceMul, Nat.reduceSub, Nat.reducePow, Nat.reduceAdd, Nat.zero_mul, Nat.zero_add, Nat.div_one] at *
    omega
  | [a, b], _, _ =>
    apply BitVec.eq_of_toNat_eq
    show (Qt.of64 a b _ _ _ _ _ _).toNat = _
    rw [of64_toNat, BitVec.toNat_ofNat, h2, h3, h4, h5, h6, h7]
    have := a.isLt; have := b.isLt
    simp only [List.foldl, List.length_cons, List.length_nil]
    simp only [Nat.reduceMul, Nat.reduceSub, Nat.reducePow, Nat.reduceAdd, Nat.zero_mul, Nat.zero_add, Nat.div_one] at *
    omega
  | [a, b, c], _, _ =>
    apply BitVec.eq_of_toNat_eq
    show (Qt.of64 a b c _ _ _ _ _).toNat = _
    rw [of64_toNat, BitVec.toNat_ofNat, h3, h4, h5, h6, h7]
    have := a.isLt; have := b.isLt; have := c.isLt
    simp only [List.foldl, List.length_cons, List.length_nil]
    simp only [Nat.reduceMul, Nat.reduceSub, Nat.reducePow, Nat.reduceAdd, Nat.zero_mul, Nat.zero_add, Nat.div_one] at *
    omega
  | [a, b, c, d], _, _ =>
    apply BitVec.eq_of_toNat_eq
    show (Qt.of64 a b c d _ _ _ _).toNat = _
    rw [of64_toNat, BitVec.toNat_ofNat, h4, h5, h6, h7]
    have := a.isLt; have := b.isLt; have := c.isLt; have := d.isLt
    simp only [List.foldl, List.length_cons, List.length_nil]
    simp only [Nat.reduceMul, Nat.reduceSub, Nat.reducePow, Nat.reduceAdd, Nat.zero_mul, Nat.zero_add, Nat.div_one] at *
    omega
  | [a, b, c, d, e], _, _ =>
    apply BitVec.eq_of_toNat_eq
    show (Qt.of64 a b c d e _ _ _).toNat = _
    rw [of64_toNat, BitVec.toNat_ofNat, h5, h6, h7]
    have := a.isLt; have := b.isLt; have := c.isLt; have := d.isLt; have := e.isLt
    simp only [List.foldl, List.length_cons, List.length_nil]
    simp only [Nat.reduceMul, Nat.reduceSub, Nat.reducePow, Nat.reduceAdd, Nat.zero_mul, Nat.zero_add, Nat.div_one] at *
    omega
  | [a, b, c, d, e, f], _, _ =>
    apply BitVec.eq_of_toNat_eq
    show (Qt.of64 a b c d e f _ _).toNat = _
    rw [of64_toNat, BitVec.toNat_ofNat, h6, h7]
    have := a.isLt; have := b.isLt; have := c.isLt; have := d.isLt; have := e.isLt; have := f.isLt
    simp only [List.foldl, List.length_cons, List.length_nil]
    simp only [Nat.reduceMul, Nat.reduceSub, Nat.reducePow, Nat.reduceAdd, Nat.zero_mul, Nat.zero_add, Nat.div_one] at *
    omega
  | [a, b, c, d, e, f, g], _, _ =>
    apply BitVec.eq_of_toNat_eq
    show (Qt.of64 a b c d e f g _).toNat = _
    rw [of64_toNat, BitVec.toNat_ofNat, h7]
    have := a.isLt; have := b.isLt; have := c.isLt; have := d.isLt; have := e.isLt; have := f.isLt; have := g.isLt
    simp only [List.foldl, List.length_cons, List.length_nil]
    simp only [Nat.reduceMul, Nat.reduceSub, Nat.reducePow, Nat.reduceAdd, Nat.zero_mul, Nat.zero_add, Nat.div_one] at *
    omega
  | _ :: _ :: _ :: _ :: _ :: _ :: _ :: _ :: _, _, h => simp at h

theorem read_none {r r' : Rd} (h : read r = (none, r')) : r' = r ∧ pending r = [] := by
  unfold read at h
  by_cases h1 : r.rewind
  · rw [if_pos h1] at h; cases h
  · rw [if_neg h1] at h
    by_cases h2 : 8 ≤ r.bytes.length
    · rw [if_pos h2] at h; cases h
    · rw [if_neg h2] at h
      obtain ⟨hr, hl⟩ := short_records h2
      unfold pending stream
      rw [if_neg h1, hr]
      by_cases h3 : r.failing
      · rw [if_pos h3] at h; cases h; rw [if_pos h3]; exact ⟨rfl, rfl⟩
      · rw [if_neg h3] at h
        by_cases h4 : r.bytes ≠ []
        · rw [if_pos h4] at h; cases h
        · rw [if_neg h4] at h
          by_cases h5 : r.eof
          · rw [if_pos h5] at h; cases h
            unfold padded
            rw [hl, if_neg h3, if_pos h5, if_pos (Classical.not_not.1 h4)]
            exact ⟨rfl, rfl⟩
          · rw [if_neg h5] at h; cases h

/-- The fields that reading a record does not change. -/
structure Same (r r' : Rd) : Prop where
  nr : r'.nr = r.nr
  nrRewind : r'.nrRewind = r.nrRewind
  checksum : r'.checksum = r.checksum
  scanned : r'.scanned = r.scanned
  out : r'.out = r.out

theorem read_some {r r' : Rd} {v : BitVec 64} (h : read r = (some v, r')) :
    pending r = v :: pending r' ∧ r'.rewind = false ∧ r'.offset = r.offset + 8 ∧ Same r r' := by
  unfold read at h
  by_cases h1 : r.rewind
  · rw [if_pos h1] at h; cases h
    refine ⟨?_, rfl, rfl, ⟨rfl, rfl, rfl, rfl, rfl⟩⟩
    unfold pending; rw [if_pos h1]; rfl
  · rw [if_neg h1] at h
    have h1' : r.rewind = false := by revert h1; cases r.rewind <;> simp
    by_cases h2 : 8 ≤ r.bytes.length
    · rw [if_pos h2] at h; cases h
      refine ⟨?_, h1', rfl, ⟨rfl, rfl, rfl, rfl, rfl⟩⟩
      obtain ⟨a, b, c, d, e, f, g, i, rest, hb⟩ := long_cases h2
      unfold pending stream padded
      dsimp only
      rw [if_neg h1, hb]
      rfl
    · rw [if_neg h2] at h
      obtain ⟨hr, hl⟩ := short_records h2
      by_cases h3 : r.failing
      · rw [if_pos h3] at h; cases h
      · rw [if_neg h3] at h
        by_cases h4 : r.bytes ≠ []
        · rw [if_pos h4] at h; cases h
          refine ⟨?_, h1', rfl, ⟨rfl, rfl, rfl, rfl, rfl⟩⟩
          unfold pending stream padded
          dsimp only
          rw [if_neg h1, if_neg h3, hr, hl, if_neg h4, show records [] = [] from rfl, show remainder [] = [] from rfl, if_pos rfl, word_padded _ h4 h2]
          simp [h3]
        · rw [if_neg h4] at h
          by_cases h5 : r.eof
          · rw [if_pos h5] at h; cases h
          · rw [if_neg h5] at h; cases h
            refine ⟨?_, h1', rfl, ⟨rfl, rfl, rfl, rfl, rfl⟩⟩
            unfold pending stream padded
            dsimp only
            rw [if_neg h1, if_neg h3, if_neg h5, hr, hl, if_pos (Classical.not_not.1 h4)]
            simp [h3]

theorem records_length (l : List (BitVec 8)) : (records l).length + (if remainder l = [] then 0 else 1) ≤ l.length := by
  fun_induction records l with
  | case1 a b c d e f g h rest ih =>
    rw [show remainder (a :: b :: c :: d :: e :: f :: g :: h :: rest) = remainder rest from rfl]
    simp only [List.length_cons]; omega
  | case2 l h =>
    have : ¬ 8 ≤ l.length := by
      intro h8
      obtain ⟨a, b, c, d, e, f, g, i, rest, hb⟩ := long_cases h8
      exact h _ _ _ _ _ _ _ _ _ hb
    rw [(short_records this).2]
    by_cases hl : l = []
    · rw [if_pos hl, hl]; exact Nat.le_refl _
    · rw [if_neg hl]
      have := List.length_pos_iff.2 hl
      show 0 + 1 ≤ l.length
      omega

theorem pending_left (r : Rd) : (pending r).length ≤ r.left := by
  have h := records_length r.bytes
  unfold pending stream padded Rd.left
  simp only [List.length_append]
  cases r.rewind <;> cases r.failing <;> cases r.eof <;> split at h <;> simp_all <;> omega

/-- After reading `c`, of everything there is to read. -/
structure Acc (S c : List (BitVec 64)) (r : Rd) : Prop where
  rest : S = c ++ pending r
  sum : r.checksum = checksum c
  count : r.scanned = BitVec.ofNat 32 c.length
  offset : r.offset = BitVec.ofNat 64 (8 * c.length)
  nr : r.nr = c.length

theorem checksum_snoc (c : List (BitVec 64)) (v : BitVec 64) : checksum (c ++ [v]) = checksum c + sumOf v := by
  have h : sumOf v = BitVec.ofNat 64 (halves v) := by
    have hv := v.isLt
    apply BitVec.eq_of_toNat_eq
    unfold sumOf halves
    rw [BitVec.toNat_setWidth, BitVec.toNat_add, BitVec.toNat_setWidth, BitVec.toNat_setWidth, bits_toNat (by omega) (by omega),
      bits_toNat (by omega) (by omega), BitVec.toNat_ofNat]
    simp only [Nat.reduceSub, Nat.reducePow, Nat.reduceAdd] at *
    omega
  unfold checksum
  rw [List.map_append, List.sum_append, BitVec.ofNat_add, h]
  simp

theorem fetchInternal_none {r r' : Rd} (h : fetchInternal r = (none, r')) : r' = r ∧ pending r = [] := by
  unfold fetchInternal at h
  cases h1 : read r with
  | mk a b =>
    rw [h1] at h
    cases a with
    | none => cases h; exact read_none h1
    | some v => cases h

theorem fetchInternal_some {S c : List (BitVec 64)} {r r' : Rd} {v : BitVec 64} (ha : Acc S c r) (h : fetchInternal r = (some v, r')) :
    Acc S (c ++ [v]) r' ∧ r'.rewind = false ∧ r'.prev = v ∧ r'.nrRewind = r.nrRewind ∧ r'.nr = r.nr + 1 ∧ r'.out = r.out ∧
    pending r = v :: pending r' := by
  unfold fetchInternal at h
  cases h1 : read r with
  | mk a b =>
    rw [h1] at h
    cases a with
    | none => cases h
    | some w =>
      cases h
      obtain ⟨hp, hw, ho, hs⟩ := read_some h1
      have hpend : pending ({ b with prev := v, nr := b.nr + 1, scanned := b.scanned + 1, checksum := b.checksum + sumOf v } : Rd) = pending b := by
        unfold pending; dsimp only; rw [hw]; rfl
      refine ⟨⟨?_, ?_, ?_, ?_, ?_⟩, hw, rfl, hs.nrRewind, by rw [← hs.nr], hs.out, by rw [hp, hpend]⟩
      · rw [hpend, ha.rest, hp]; simp
      · rw [checksum_snoc, ← ha.sum, ← hs.checksum]
      · show b.scanned + 1 = _
        rw [hs.scanned, ha.count, List.length_append, List.length_singleton, BitVec.ofNat_add]; rfl
      · show b.offset = _
        rw [ho, ha.offset, List.length_append, List.length_singleton, Nat.mul_add, BitVec.ofNat_add]; rfl
      · show b.nr + 1 = _
        rw [hs.nr, ha.nr, List.length_append, List.length_singleton]; rfl

theorem rewind_ok {S c : List (BitVec 64)} {r r' : Rd} {v : BitVec 64} (ha : Acc S (c ++ [v]) r) (hr : r.rewind = false) (hp : r.prev = v)
    (h : rewind r v = .ok r') :
    Acc S c r' ∧ r'.nrRewind = r'.nr + 1 ∧ r'.out = r.out ∧ pending r' = v :: pending r := by
  unfold rewind at h
  by_cases hc : r.nrRewind = r.nr
  · rw [if_pos hc] at h; cases h
  · rw [if_neg hc] at h; cases h
    have hpend : pending ({ r with offset := r.offset - 8, rewind := true, nrRewind := r.nr, nr := r.nr - 1, scanned := r.scanned - 1, checksum := r.checksum - sumOf v } : Rd) = v :: pending r := by
      unfold pending; dsimp only; rw [hr, hp]; rfl
    refine ⟨⟨?_, ?_, ?_, ?_, ?_⟩, ?_, rfl, hpend⟩
    · rw [hpend, ha.rest]; simp
    · show r.checksum - sumOf v = _
      rw [ha.sum, checksum_snoc, BitVec.add_sub_cancel]
    · show r.scanned - 1 = _
      rw [ha.count, List.length_append, List.length_singleton, BitVec.ofNat_add]
      exact BitVec.add_sub_cancel _ _
    · show r.offset - 8 = _
      rw [ha.offset, List.length_append, List.length_singleton, Nat.mul_add, BitVec.ofNat_add]
      exact BitVec.add_sub_cancel _ _
    · show r.nr - 1 = _
      rw [ha.nr, List.length_append, List.length_singleton]; simp
    · show r.nr = r.nr - 1 + 1
      omega

theorem stamp_frame {c : Conf} {r r' : Rd} {v : BitVec 64} {b : Bool} (h : stamp c r v = .ok (b, r')) :
    ∃ o, r' = { r with out := o } := by
  unfold stamp at h
  cases h1 : stampOf v with
  | error e => rw [h1] at h; cases h
  | ok s =>
    rw [h1] at h
    cases s with
    | none => cases h; exact ⟨_, rfl⟩
    | some s => cases h; exact ⟨_, rfl⟩

theorem stamp_error {c : Conf} {r : Rd} {v : BitVec 64} {h : Halt} (hs : stamp c r v = .error h) : h = .assert := by
  have ho : ∀ h, stampOf v = .error h → h = .assert := by
    intro h hh
    unfold stampOf at hh
    dsimp only at hh
    repeat' split at hh
    all_goals first | cases hh; done | (cases hh; rfl)
  unfold stamp at hs
  cases h1 : stampOf v with
  | error e => rw [h1] at hs; cases hs; exact ho _ h1
  | ok s =>
    rw [h1] at hs
    cases s <;> cases hs

theorem acc_out {S c : List (BitVec 64)} {r : Rd} (h : Acc S c r) (o : List Ev) : Acc S c { r with out := o } :=
  ⟨h.rest, h.sum, h.count, h.offset, h.nr⟩

/-- What a fetch does: nothing but stamps is skipped. -/
theorem fetchLoop_spec {S : List (BitVec 64)} (cf : Conf) : ∀ (n : Nat) {c : List (BitVec 64)} {r : Rd}, Acc S c r → (pending r).length < n →
    match fetchLoop cf n r with
    | .error h => h = .assert
    | .ok (none, r') => ∃ skip, Acc S (c ++ skip) r' ∧ (∀ w ∈ skip, isStamp w = true) ∧ r'.nrRewind = r.nrRewind
    | .ok (some v, r') => ∃ skip, Acc S (c ++ skip ++ [v]) r' ∧ (∀ w ∈ skip, isStamp w = true) ∧ isStamp v = false ∧
        r'.rewind = false ∧ r'.prev = v ∧ r'.nrRewind = r.nrRewind := by
  intro n
  induction n with
  | zero => intro c r _ h; omega
  | succ n ih =>
    intro c r ha hn
    unfold fetchLoop
    cases h1 : fetchInternal r with
    | mk a b =>
      cases a with
      | none =>
        obtain ⟨hb, _⟩ := fetchInternal_none h1
        subst hb
        exact ⟨[], by rw [List.append_nil]; exact ha, by simp, rfl⟩
      | some v =>
        obtain ⟨hacc, hrw, hpv, hnr, _, _, hpend⟩ := fetchInternal_some ha h1
        dsimp only
        cases hst : isStamp v with
        | false =>
          exact ⟨[], by rw [List.append_nil]; exact hacc, by simp, hst, hrw, hpv, hnr⟩
        | true =>
          rw [if_pos rfl]
          cases h2 : stamp cf b v with
          | error e => exact stamp_error h2
          | ok p =>
            obtain ⟨ok, b'⟩ := p
            obtain ⟨o, ho⟩ := stamp_frame h2
            have hacc' := acc_out hacc o
            rw [← ho] at hacc'
            have hnr' : b'.nrRewind = r.nrRewind := by rw [ho]; exact hnr
            cases ok with
            | false => exact ⟨[v], hacc', by simpa using hst, hnr'⟩
            | true =>
              dsimp only
              have hlen : (pending b').length < n := by
                have : pending b' = pending b := by rw [ho]; rfl
                rw [this]; rw [hpend] at hn; simp at hn; omega
              have hih := ih hacc' hlen
              cases h3 : fetchLoop cf n b' with
              | error e => rw [h3] at hih; exact hih
              | ok q =>
                rw [h3] at hih
                obtain ⟨w, r'⟩ := q
                cases w with
                | none =>
                  obtain ⟨skip, ha', hs', hn'⟩ := hih
                  refine ⟨v :: skip, by simpa using ha', ?_, by rw [hn', hnr']⟩
                  intro w hw
                  rcases List.mem_cons.1 hw with hw | hw
                  · rw [hw]; exact hst
                  · exact hs' w hw
                | some w =>
                  obtain ⟨skip, ha', hs', hw', h5, h6, hn'⟩ := hih
                  refine ⟨v :: skip, by simpa using ha', ?_, hw', h5, h6, by rw [hn', hnr']⟩
                  intro x hx
                  rcases List.mem_cons.1 hx with hx | hx
                  · rw [hx]; exact hst
                  · exact hs' x hx

/-! ### Programs that step back only over the record they read last, and once -/

/-- A program that neither reads nor steps back. -/
def Quiet {α : Type} (P : α → Prop) : Prog α → Prop
  | .done a => P a
  | .stop h => h = .assert ∨ h = .undefined
  | .fetch _ => False
  | .back _ _ => False
  | .tell _ k => Quiet P k

/-- `last` is the record read last, if that was the last action; `n` bounds the records that can be read; `P` holds of the
result and whether the program stepped back. -/
def Ok {α : Type} (P : α → Bool → Prop) : Option (BitVec 64) → Nat → Prog α → Prop
  | _, _, .done a => P a false
  | _, _, .stop h => h = .assert ∨ h = .undefined
  | _, n, .fetch k => Ok P none n (k none) ∧ ∀ v m, m < n → Ok P (some v) m (k (some v))
  | l, _, .back v k => l = some v ∧ Quiet (fun a => P a true) k
  | l, n, .tell _ k => Ok P l n k

theorem quiet_bind {α β : Type} {P : α → Prop} {Q : β → Prop} {f : α → Prog β} (hf : ∀ a, P a → Quiet Q (f a)) :
    ∀ p : Prog α, Quiet P p → Quiet Q (p.bind f)
  | .done a, h => hf a h
  | .stop _, h => h
  | .tell _ k, h => quiet_bind hf k h

theorem ok_bind {α β : Type} {P : α → Bool → Prop} {Q : β → Bool → Prop} {f : α → Prog β} : ∀ (p : Prog α) (l : Option (BitVec 64)) (n : Nat),
    Ok P l n p → (∀ a l m, m ≤ n → P a false → Ok Q l m (f a)) → (∀ a, P a true → Quiet (fun b => Q b true) (f a)) → Ok Q l n (p.bind f)
  | .done a, l, n, h, h1, _ => h1 a l n (Nat.le_refl n) h
  | .stop _, _, _, h, _, _ => h
  | .fetch k, l, n, h, h1, h2 =>
    ⟨ok_bind (k none) none n h.1 h1 h2, fun v m hm => ok_bind (k (some v)) (some v) m (h.2 v m hm) (fun a l m' hm' => h1 a l m' (by omega)) h2⟩
  | .back v k, l, n, h, _, h2 => ⟨h.1, quiet_bind h2 k h.2⟩
  | .tell _ k, l, n, h, h1, h2 => ok_bind k l n h h1 h2

theorem quiet_tellAll {α : Type} {P : α → Prop} {p : Prog α} (h : Quiet P p) : ∀ l, Quiet P (tellAll l p)
  | [] => h
  | _ :: l => quiet_tellAll h l

theorem ok_tellAll {α : Type} {P : α → Bool → Prop} {p : Prog α} {x n} (h : Ok P x n p) : ∀ l, Ok P x n (tellAll l p)
  | [] => h
  | _ :: l => ok_tellAll h l

theorem quiet_ok {α : Type} {P : α → Bool → Prop} {l n} : ∀ p : Prog α, Quiet (fun a => P a false) p → Ok P l n p
  | .done _, h => h
  | .stop _, h => h
  | .tell _ k, h => quiet_ok k h

theorem quiet_mono {α : Type} {P Q : α → Prop} (hpq : ∀ a, P a → Q a) : ∀ p : Prog α, Quiet P p → Quiet Q p
  | .done _, h => hpq _ h
  | .stop _, h => h
  | .tell _ k, h => quiet_mono hpq k h

theorem quiet_run {α : Type} {P : α → Prop} (cf : Conf) : ∀ (p : Prog α) (r : Rd), Quiet P p →
    match p.run cf r with
    | .error h => h = .assert ∨ h = .undefined
    | .ok (a, r') => P a ∧ ∃ o, r' = { r with out := o }
  | .done a, r, h => ⟨h, r.out, rfl⟩
  | .stop _, _, h => h
  | .tell e k, r, h => by
    have := quiet_run cf k (r.tell e) h
    unfold Prog.run
    cases hk : k.run cf (r.tell e) with
    | error x => rw [hk] at this; exact this
    | ok q =>
      rw [hk] at this
      obtain ⟨o, ho⟩ := this.2
      exact ⟨this.1, o, by rw [ho]; rfl⟩

/-- The condition on the reader when `l` was read last. -/
def Last (base c : List (BitVec 64)) (r : Rd) : Option (BitVec 64) → Prop
  | none => base <+: c
  | some v => ∃ c0, c = c0 ++ [v] ∧ base <+: c0 ∧ r.rewind = false ∧ r.prev = v ∧ r.nrRewind < r.nr

theorem run_spec {α : Type} {P : α → Bool → Prop} {S base : List (BitVec 64)} (cf : Conf) : ∀ (p : Prog α) (l : Option (BitVec 64)) (n : Nat)
    (c : List (BitVec 64)) (r : Rd), Ok P l n p → Acc S c r → (pending r).length ≤ n → r.nrRewind ≤ r.nr → Last base c r l → 
    match p.run cf r with
    | .error h => h = .assert ∨ h = .undefined
    | .ok (a, r') => (∃ b, P a b) ∧ ∃ c', Acc S c' r' ∧ base <+: c' ∧ r'.nrRewind ≤ r'.nr + 1
  | .done a, l, n, c, r, h, ha, hp, hn, hl => by
    refine ⟨⟨false, h⟩, c, ha, ?_, by omega⟩
    cases l with
    | none => exact hl
    | some v => obtain ⟨c0, hc, hb, _⟩ := hl; rw [hc]; exact hb.trans (List.prefix_append _ _)
  | .stop _, _, _, _, _, h, _, _, _, _ => h
  | .tell e k, l, n, c, r, h, ha, hp, hn, hl => by
    have hl' : Last base c (r.tell e) l := by
      cases l with
      | none => exact hl
      | some v => exact hl
    exact run_spec cf k l n c (r.tell e) h (acc_out ha _) hp hn hl'
  | .back v k, l, n, c, r, h, ha, hp, hn, hl => by
    obtain ⟨hlv, hq⟩ := h
    subst hlv
    obtain ⟨c0, hc, hb, hrw, hpv, hlt⟩ := hl
    subst hc
    unfold Prog.run
    cases h1 : Htm.rewind r v with
    | error e =>
      exfalso
      unfold Htm.rewind at h1
      rw [if_neg (by omega)] at h1
      cases h1
    | ok r1 =>
      obtain ⟨ha1, hn1, _, _⟩ := rewind_ok ha hrw hpv h1
      have h2 := quiet_run cf k r1 hq
      cases h3 : k.run cf r1 with
      | error e => rw [h3] at h2; simpa only [h3] using h2
      | ok q =>
        rw [h3] at h2
        obtain ⟨a, r2⟩ := q
        obtain ⟨hP, o, ho⟩ := h2
        subst ho
        simp only [h3]
        exact ⟨⟨true, hP⟩, c0, acc_out ha1 o, hb, by show r1.nrRewind ≤ r1.nr + 1; omega⟩
  | .fetch k, l, n, c, r, h, ha, hp, hn, hl => by
    have hb : base <+: c := by
      cases l with
      | none => exact hl
      | some v => obtain ⟨c0, hc, hb, _⟩ := hl; rw [hc]; exact hb.trans (List.prefix_append _ _)
    have hf := fetchLoop_spec cf (r.left + 1) ha (by have := pending_left r; omega)
    unfold Prog.run
    rw [show Htm.fetch cf r = fetchLoop cf (r.left + 1) r from rfl]
    cases h1 : fetchLoop cf (r.left + 1) r with
    | error e => rw [h1] at hf; exact Or.inl hf
    | ok q =>
      rw [h1] at hf
      obtain ⟨v, r1⟩ := q
      have hlen : ∀ d, Acc S (c ++ d) r1 → (pending r1).length + d.length = (pending r).length := by
        intro d hd
        have e1 := congrArg List.length hd.rest
        have e2 := congrArg List.length ha.rest
        simp only [List.length_append] at e1 e2
        omega
      cases v with
      | none =>
        obtain ⟨skip, ha1, _, hn1⟩ := hf
        have := hlen skip ha1
        refine run_spec cf (k none) none n (c ++ skip) r1 h.1 ha1 (by omega) ?_ ?_
        · have e1 := ha1.nr; have e2 := ha.nr; rw [List.length_append] at e1; omega
        · exact hb.trans (List.prefix_append _ _)
      | some v =>
        obtain ⟨skip, ha1, _, _, hrw, hpv, hn1⟩ := hf
        have h2 := hlen (skip ++ [v]) (by rw [← List.append_assoc]; exact ha1)
        have e1 := ha1.nr
        have e2 := ha.nr
        simp only [List.length_append, List.length_singleton] at h2 e1
        have hlt : r1.nrRewind < r1.nr := by omega
        exact run_spec cf (k (some v)) (some v) (n - 1) (c ++ skip ++ [v]) r1 (h.2 v (n - 1) (by omega)) ha1 (by omega) (by omega)
          ⟨c ++ skip, rfl, hb.trans (List.prefix_append _ _), hrw, hpv, hlt⟩

end Htm
