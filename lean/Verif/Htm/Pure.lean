import Verif.Htm.PropsSource
/-!
Decoding as a function of the list of records, without the stamps.
-/
namespace Htm

/-! ### Specification -/

/-- The stamps that `htm_decode_stamp` knows and accepts. -/
def Known (v : BitVec 64) : Prop := ∃ s, stampOf v = .ok (some s)

/-- The records that are not stamps. -/
def plain (l : List (BitVec 64)) : List (BitVec 64) := l.filter fun v => !isStamp v

/-- All stamps are known. -/
def AllKnown (l : List (BitVec 64)) : Prop := ∀ v ∈ l, isStamp v = true → Known v

/-- What the decoder does because of instructions: everything but what it does because of stamps, and the count of records. -/
def ofInsn : Ev → Bool
  | .stamp _ => false
  | .cycles _ => false
  | .count .recordsProcessed => false
  | .count .timestampsScanned => false
  | .count .timestampsProcessed => false
  | _ => true

def insnEvents (l : List Ev) : List Ev := l.filter ofInsn

/-! ### Programs -/

/-- A function that decodes, on a list of records. -/
def Prog.eval {α : Type} : Prog α → List (BitVec 64) → Except Halt (α × List (BitVec 64) × List Ev)
  | .done a, l => .ok (a, l, [])
  | .stop h, _ => .error h
  | .fetch k, [] => (k none).eval []
  | .fetch k, v :: l => (k (some v)).eval l
  | .back v k, l => k.eval (v :: l)
  | .tell e k, l =>
    match k.eval l with
    | .error h => .error h
    | .ok (a, l, es) => .ok (a, l, e :: es)

theorem plain_cons_stamp {v : BitVec 64} {l : List (BitVec 64)} (h : isStamp v = true) : plain (v :: l) = plain l := by
  unfold plain; rw [List.filter_cons_of_neg (by simp [h])]

theorem plain_cons {v : BitVec 64} {l : List (BitVec 64)} (h : isStamp v = false) : plain (v :: l) = v :: plain l := by
  unfold plain; rw [List.filter_cons_of_pos (by simp [h])]

theorem insnEvents_append (a b : List Ev) : insnEvents (a ++ b) = insnEvents a ++ insnEvents b := List.filter_append ..

theorem insnEvents_stamp (c : Conf) (s : Stamp) :
    insnEvents ([Ev.count .recordsProcessed] ++ timeEvents s ++ (if c.fn then [.stamp s] else [])) = [] := by
  cases s with
  | time i e k =>
    unfold timeEvents
    dsimp only
    by_cases hi : i = 0x80
    · rw [if_pos hi]; cases c.fn <;> rfl
    · rw [if_neg hi]; cases c.fn <;> rfl
  | _ => cases c.fn <;> rfl

theorem stamp_known {cf : Conf} {r : Rd} {v : BitVec 64} (h : Known v) :
    ∃ o, stamp cf r v = .ok (true, { r with out := o }) ∧ insnEvents o = insnEvents r.out := by
  obtain ⟨s, hs⟩ := h
  unfold stamp
  rw [hs]
  refine ⟨_, rfl, ?_⟩
  rw [insnEvents_append, insnEvents_stamp, List.append_nil]

theorem fetchLoop_known {S : List (BitVec 64)} (cf : Conf) : ∀ (n : Nat) {c : List (BitVec 64)} {r : Rd}, Acc S c r → (pending r).length < n →
    AllKnown (pending r) →
    match plain (pending r) with
    | [] => ∃ r', fetchLoop cf n r = .ok (none, r') ∧ pending r' = [] ∧ insnEvents r'.out = insnEvents r.out
    | v :: rest => ∃ r', fetchLoop cf n r = .ok (some v, r') ∧ plain (pending r') = rest ∧ AllKnown (pending r') ∧
        insnEvents r'.out = insnEvents r.out := by
  intro n
  induction n with
  | zero => intro c r _ h; omega
  | succ n ih =>
    intro c r ha hn hk
    unfold fetchLoop
    cases h1 : fetchInternal r with
    | mk a b =>
      cases a with
      | none =>
        obtain ⟨hb, hp⟩ := fetchInternal_none h1
        subst hb
        rw [hp]
        exact ⟨b, rfl, hp, rfl⟩
      | some v =>
        obtain ⟨hacc, _, _, _, _, hout, hpend⟩ := fetchInternal_some ha h1
        rw [hpend] at hk hn ⊢
        dsimp only
        have hk' : AllKnown (pending b) := fun w hw => hk w (List.mem_cons_of_mem _ hw)
        cases hst : isStamp v with
        | false =>
          rw [plain_cons hst]
          exact ⟨b, rfl, rfl, hk', by rw [hout]⟩
        | true =>
          rw [plain_cons_stamp hst, if_pos rfl]
          obtain ⟨o, ho, hoe⟩ := stamp_known (cf := cf) (r := b) (hk v List.mem_cons_self hst)
          rw [ho]
          dsimp only
          have h2 := ih (c := c ++ [v]) (r := { b with out := o }) (acc_out hacc o) (by show (pending b).length < n; simp at hn; omega) hk'
          rw [show pending { b with out := o } = pending b from rfl] at h2
          rw [show insnEvents r.out = insnEvents o from by rw [hoe, hout]]
          exact h2

theorem quiet_eval {α : Type} {P : α → Prop} (cf : Conf) : ∀ (p : Prog α) (r : Rd), Quiet P p →
    match p.run cf r with
    | .error h => p.eval (plain (pending r)) = .error h
    | .ok (a, r') => ∃ es, p.eval (plain (pending r)) = .ok (a, plain (pending r), es) ∧ pending r' = pending r ∧
        insnEvents r'.out = insnEvents r.out ++ insnEvents es
  | .done a, r, _ => ⟨[], rfl, rfl, by simp [insnEvents]⟩
  | .stop _, _, _ => rfl
  | .tell e k, r, h => by
    have h1 := quiet_eval cf k (r.tell e) h
    unfold Prog.run Prog.eval
    rw [show pending (r.tell e) = pending r from rfl] at h1
    cases hk : k.run cf (r.tell e) with
    | error x => rw [hk] at h1; dsimp only at h1 ⊢; rw [h1]
    | ok q =>
      obtain ⟨a, r'⟩ := q
      rw [hk] at h1
      obtain ⟨es, h2, h3, h4⟩ := h1
      refine ⟨e :: es, by rw [h2], h3, ?_⟩
      rw [h4]
      show insnEvents (r.out ++ [e]) ++ _ = _
      rw [insnEvents_append, List.append_assoc, ← insnEvents_append]; rfl

/-- Running a decoding function is evaluating it on the records without the stamps. -/
theorem run_eval {α : Type} {P : α → Bool → Prop} {S base : List (BitVec 64)} (cf : Conf) : ∀ (p : Prog α) (l : Option (BitVec 64)) (n : Nat)
    (c : List (BitVec 64)) (r : Rd), Ok P l n p → Acc S c r → (pending r).length ≤ n → r.nrRewind ≤ r.nr → Last base c r l →
    (∀ v, l = some v → isStamp v = false) → AllKnown (pending r) →
    match p.run cf r with
    | .error h => p.eval (plain (pending r)) = .error h
    | .ok (a, r') => ∃ es, p.eval (plain (pending r)) = .ok (a, plain (pending r'), es) ∧ AllKnown (pending r') ∧
        insnEvents r'.out = insnEvents r.out ++ insnEvents es
  | .done a, l, n, c, r, h, ha, hp, hn, hl, hs, hk => ⟨[], rfl, hk, by simp [insnEvents]⟩
  | .stop _, _, _, _, _, h, _, _, _, _, _, _ => rfl
  | .tell e k, l, n, c, r, h, ha, hp, hn, hl, hs, hk => by
    have hl' : Last base c (r.tell e) l := by
      cases l with
      | none => exact hl
      | some v => exact hl
    have h1 := run_eval cf k l n c (r.tell e) h (acc_out ha _) hp hn hl' hs hk
    unfold Prog.run Prog.eval
    rw [show pending (r.tell e) = pending r from rfl] at h1
    cases hk : k.run cf (r.tell e) with
    | error x => rw [hk] at h1; dsimp only at h1 ⊢; rw [h1]
    | ok q =>
      obtain ⟨a, r'⟩ := q
      rw [hk] at h1
      obtain ⟨es, h2, h3, h4⟩ := h1
      refine ⟨e :: es, by rw [h2], h3, ?_⟩
      rw [h4]
      show insnEvents (r.out ++ [e]) ++ _ = _
      rw [insnEvents_append, List.append_assoc, ← insnEvents_append]; rfl
  | .back v k, l, n, c, r, h, ha, hp, hn, hl, hs, hk => by
    obtain ⟨hlv, hq⟩ := h
    subst hlv
    obtain ⟨c0, hc, hb, hrw, hpv, hlt⟩ := hl
    subst hc
    have hv := hs v rfl
    unfold Prog.run Prog.eval
    cases h1 : Htm.rewind r v with
    | error e =>
      exfalso
      unfold Htm.rewind at h1
      rw [if_neg (by omega)] at h1
      cases h1
    | ok r1 =>
      obtain ⟨ha1, hn1, hout, hpend⟩ := rewind_ok ha hrw hpv h1
      have h2 := quiet_eval cf k r1 hq
      rw [hpend, plain_cons hv] at h2
      cases h3 : k.run cf r1 with
      | error e => rw [h3] at h2; dsimp only; rw [h3]; exact h2
      | ok q =>
        rw [h3] at h2
        obtain ⟨a, r2⟩ := q
        obtain ⟨es, h4, h5, h6⟩ := h2
        dsimp only
        rw [h3]
        refine ⟨es, by rw [h4, h5, plain_cons hv], ?_, by rw [h6, hout]⟩
        rw [h5]
        intro w hw hw'
        rcases List.mem_cons.1 hw with hw | hw
        · rw [hw] at hw'; rw [hw'] at hv; cases hv
        · exact hk w hw hw'
  | .fetch k, l, n, c, r, h, ha, hp, hn, hl, hs, hk => by
    have hb : base <+: c := by
      cases l with
      | none => exact hl
      | some v => obtain ⟨c0, hc, hb, _⟩ := hl; rw [hc]; exact hb.trans (List.prefix_append _ _)
    have hf := fetchLoop_spec cf (r.left + 1) ha (by have := pending_left r; omega)
    have hg := fetchLoop_known cf (r.left + 1) ha (by have := pending_left r; omega) hk
    unfold Prog.run
    rw [show Htm.fetch cf r = fetchLoop cf (r.left + 1) r from rfl]
    have hlen : ∀ d r1, Acc S (c ++ d) r1 → (pending r1).length + d.length = (pending r).length := by
      intro d r1 hd
      have e1 := congrArg List.length hd.rest
      have e2 := congrArg List.length ha.rest
      simp only [List.length_append] at e1 e2
      omega
    cases hpl : plain (pending r) with
    | nil =>
      rw [hpl] at hg
      obtain ⟨r1, h1, h2, h3⟩ := hg
      rw [h1] at hf ⊢
      obtain ⟨skip, ha1, _, hn1⟩ := hf
      have := hlen skip r1 ha1
      have hr := run_eval cf (k none) none n (c ++ skip) r1 h.1 ha1 (by omega)
        (by have e1 := ha1.nr; have e2 := ha.nr; rw [List.length_append] at e1; omega) (hb.trans (List.prefix_append _ _)) (fun v hv => by cases hv)
        (by rw [h2]; intro w hw; cases hw)
      rw [h3, h2] at hr
      exact hr
    | cons v rest =>
      rw [hpl] at hg
      obtain ⟨r1, h1, h2, h3, h4⟩ := hg
      rw [h1] at hf ⊢
      obtain ⟨skip, ha1, _, hv, hrw, hpv, hn1⟩ := hf
      have h5 := hlen (skip ++ [v]) r1 (by rw [← List.append_assoc]; exact ha1)
      have e1 := ha1.nr
      have e2 := ha.nr
      simp only [List.length_append, List.length_singleton] at h5 e1
      have hlt : r1.nrRewind < r1.nr := by omega
      have hr := run_eval cf (k (some v)) (some v) (n - 1) (c ++ skip ++ [v]) r1 (h.2 v (n - 1) (by omega)) ha1 (by omega) (by omega)
        ⟨c ++ skip, rfl, hb.trans (List.prefix_append _ _), hrw, hpv, hlt⟩ (fun w hw => by cases hw; exact hv) h3
      rw [h4, h2] at hr
      exact hr

/-! ### The fuel of the loop over the records before an instruction -/

theorem eval_tell {α : Type} (e : Ev) (k : Prog α) (l : List (BitVec 64)) : (Prog.tell e k).eval l =
    match k.eval l with
    | .error h => .error h
    | .ok (a, l, es) => .ok (a, l, e :: es) := rfl

theorem eval_bind {α β : Type} (f : α → Prog β) : ∀ (p : Prog α) (l : List (BitVec 64)), (p.bind f).eval l =
    match p.eval l with
    | .error h => .error h
    | .ok (a, l', es) =>
      match (f a).eval l' with
      | .error h => .error h
      | .ok (b, l'', es') => .ok (b, l'', es ++ es')
  | .done a, l => by
    unfold Prog.bind
    rw [show (Prog.done a).eval l = .ok (a, l, []) from rfl]
    dsimp only
    cases (f a).eval l with
    | error h => rfl
    | ok q => rfl
  | .stop h, l => rfl
  | .fetch k, [] => eval_bind f (k none) []
  | .fetch k, v :: l => eval_bind f (k (some v)) l
  | .back v k, l => eval_bind f k (v :: l)
  | .tell e k, l => by
    have h := eval_bind f k l
    rw [show (Prog.tell e k).bind f = .tell e (k.bind f) from rfl, eval_tell, eval_tell, h]
    cases k.eval l with
    | error h => rfl
    | ok q =>
      obtain ⟨a, l', es⟩ := q
      dsimp only
      cases (f a).eval l' with
      | error h => rfl
      | ok q => rfl

theorem quiet_length {α : Type} {P : α → Prop} : ∀ (p : Prog α) (l : List (BitVec 64)), Quiet P p → ∀ a l' es, p.eval l = .ok (a, l', es) → l' = l
  | .done _, _, _, _, _, _, he => by cases he; rfl
  | .stop _, _, _, _, _, _, he => by cases he
  | .tell e k, l, h, a, l', es, he => by
    rw [eval_tell] at he
    cases hk : k.eval l with
    | error x => rw [hk] at he; cases he
    | ok q =>
      obtain ⟨a1, l1, es1⟩ := q
      rw [hk] at he
      cases he
      exact quiet_length k l h _ _ _ hk

/-- A program leaves no more records than there were. -/
theorem eval_length {α : Type} {P : α → Bool → Prop} : ∀ (p : Prog α) (x : Option (BitVec 64)) (n : Nat) (l : List (BitVec 64)), Ok P x n p →
    l.length ≤ n → ∀ a l' es, p.eval l = .ok (a, l', es) → l'.length ≤ l.length + (if x.isSome then 1 else 0)
  | .done _, _, _, _, _, _, _, _, _, he => by cases he; exact Nat.le_add_right _ _
  | .stop _, _, _, _, _, _, _, _, _, he => by cases he
  | .fetch k, _, n, [], h, hl, a, l', es, he => by
    have := eval_length (k none) none n [] h.1 hl a l' es he
    simp only [Option.isSome_none, Bool.false_eq_true, if_false] at this
    omega
  | .fetch k, _, n, v :: l, h, hl, a, l', es, he => by
    rw [List.length_cons] at hl
    have := eval_length (k (some v)) (some v) (n - 1) l (h.2 v (n - 1) (by omega)) (by omega) a l' es he
    simp only [Option.isSome_some, if_true] at this
    rw [List.length_cons]; omega
  | .back v k, x, n, l, h, hl, a, l', es, he => by
    have := quiet_length k (v :: l) h.2 a l' es he
    rw [this, h.1]
    simp
  | .tell e k, x, n, l, h, hl, a, l', es, he => by
    rw [eval_tell] at he
    cases hk : k.eval l with
    | error x => rw [hk] at he; cases he
    | ok q =>
      obtain ⟨a1, l1, es1⟩ := q
      rw [hk] at he
      cases he
      exact eval_length k x n l h hl _ _ _ hk

theorem bind_eval_congr {α β : Type} {p : Prog α} {f g : α → Prog β} {l : List (BitVec 64)}
    (h : ∀ a l' es, p.eval l = .ok (a, l', es) → (f a).eval l' = (g a).eval l') : (p.bind f).eval l = (p.bind g).eval l := by
  rw [eval_bind, eval_bind]
  cases hp : p.eval l with
  | error e => rfl
  | ok q =>
    obtain ⟨a, l', es⟩ := q
    dsimp only
    rw [h a l' es hp]

theorem fetch_eval_congr {β : Type} {f g : Option (BitVec 64) → Prog β} {l : List (BitVec 64)}
    (h0 : (f none).eval [] = (g none).eval []) (h : ∀ v l', l = v :: l' → (f (some v)).eval l' = (g (some v)).eval l') :
    (Prog.fetch f).eval l = (Prog.fetch g).eval l := by
  cases l with
  | nil => exact h0
  | cons v l' => exact h v l' rfl

theorem head10_fuel : ∀ (m n : Nat) (s : Dec) (ix : List Pwc.Xlate) (i : I10) (v : BitVec 64) (l : List (BitVec 64)), l.length < m → l.length < n →
    (head10 m s ix i v).eval l = (head10 n s ix i v).eval l
  | 0, _, _, _, _, _, _, h, _ => absurd h (by omega)
  | _ + 1, 0, _, _, _, _, _, _, h => absurd h (by omega)
  | m + 1, n + 1, s, ix, i, v, l, hm, hn => by
    unfold head10
    by_cases h3 : recType v = 3
    · rw [if_pos h3, if_pos h3]
      apply bind_eval_congr
      intro a l' es he
      have hlen := eval_length (P := fun _ b => b = false) _ none l.length l (ok_ieara10 ..) (Nat.le_refl _) _ _ _ he
      cases a with
      | none => rfl
      | some p =>
        obtain ⟨a, r⟩ := p
        dsimp only
        cases gotIeara s ix i a r with
        | error e => rfl
        | ok q =>
          dsimp only
          apply fetch_eval_congr
          · rfl
          · intro w l'' hl
            rw [hl, List.length_cons] at hlen
            simp only [Option.isSome_none, Bool.false_eq_true, if_false] at hlen
            exact head10_fuel m n _ _ _ _ _ (by omega) (by omega)
    · rw [if_neg h3, if_neg h3]
      by_cases h1 : recType v = 1
      · rw [if_pos h1, if_pos h1]
        cases bit v 0 with
        | true =>
          rw [if_pos rfl, if_pos rfl]
          by_cases hd : i.ndxlates < 2
          · rw [if_pos hd, if_pos hd]
            apply bind_eval_congr
            intro a l' es he
            have hlen := eval_length (P := fun _ b => b = false) _ none l.length l (ok_walks10 ..) (Nat.le_refl _) _ _ _ he
            cases a with
            | none => rfl
            | some x =>
              dsimp only
              apply fetch_eval_congr
              · rfl
              · intro w l'' hl
                rw [hl, List.length_cons] at hlen
                simp only [Option.isSome_none, Bool.false_eq_true, if_false] at hlen
                exact head10_fuel m n _ _ _ _ _ (by omega) (by omega)
          · rw [if_neg hd, if_neg hd]
        | false =>
          rw [if_neg (show ¬ (false = true) by decide), if_neg (show ¬ (false = true) by decide)]
          by_cases hd : ix.length < 2
          · rw [if_pos hd, if_pos hd]
            apply bind_eval_congr
            intro a l' es he
            have hlen := eval_length (P := fun _ b => b = false) _ none l.length l (ok_walks10 ..) (Nat.le_refl _) _ _ _ he
            cases a with
            | none => rfl
            | some x =>
              dsimp only
              apply fetch_eval_congr
              · rfl
              · intro w l'' hl
                rw [hl, List.length_cons] at hlen
                simp only [Option.isSome_none, Bool.false_eq_true, if_false] at hlen
                exact head10_fuel m n _ _ _ _ _ (by omega) (by omega)
          · rw [if_neg hd, if_neg hd]
      · rw [if_neg h1, if_neg h1]

theorem insn10_fuel (c : Conf) {m n : Nat} (s : Dec) (v : BitVec 64) {l : List (BitVec 64)} (hm : l.length < m) (hn : l.length < n) :
    (insn10 c m s v).eval l = (insn10 c n s v).eval l := by
  unfold insn10
  have : ∀ (p q : Prog (Dec × Bool)), p.eval l = q.eval l → ∀ e e', (Prog.tell e (.tell e' p)).eval l = (Prog.tell e (.tell e' q)).eval l := by
    intro p q h e e'
    unfold Prog.eval Prog.eval
    rw [h]
  apply this
  rw [eval_bind, eval_bind, head10_fuel m n s [] {} v l hm hn]

end Htm
