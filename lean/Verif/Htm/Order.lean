import Verif.Htm.SpecOrder
import Verif.Htm.PropsListing
import Verif.Htm.PropsGuest
/-! The order of what the decoder tells about stamps and instructions. -/
namespace Htm
open Htm.Spec

/-- What is listed, and whether it is an instruction. -/
def kind : Ev → Option Bool
  | .stamp _ => some false
  | .insn _ => some true
  | _ => none

def kinds (l : List Ev) : List Bool := l.filterMap kind

theorem kinds_append (a b : List Ev) : kinds (a ++ b) = kinds a ++ kinds b := List.filterMap_append ..

/-- A program that reads no more; it tells of no stamps. -/
def Closing {α : Type} : Prog α → Prop
  | .done _ => True
  | .stop _ => True
  | .fetch _ => False
  | .back _ _ => False
  | .tell e k => kind e ≠ some false ∧ Closing k

/-- A program that tells of nothing that is listed while it reads; if there is nothing to read, it ends with a result in `F`, and if it
steps back with one in `B`. -/
def Reading {α : Type} (F B : α → Prop) : Prog α → Prop
  | .done _ => True
  | .stop _ => True
  | .fetch k => (∃ a, k none = .done a ∧ F a) ∧ ∀ v, Reading F B (k (some v))
  | .back _ k => ∃ a, k = .done a ∧ B a
  | .tell e k => kind e = none ∧ Reading F B k

/-- A program that tells of instructions once it has read everything. -/
inductive Prompt {α : Type} (F : α → Prop) : Prog α → Prop
  | closing {p} : Closing p → Prompt F p
  | fetch {k} {a : α} : k none = .done a → F a → (∀ v, Prompt F (k (some v))) → Prompt F (.fetch k)
  | back {v k} : Closing k → Prompt F (.back v k)
  | tell {e k} : kind e = none → Prompt F k → Prompt F (.tell e k)

theorem prompt_bind {α β : Type} {F B : α → Prop} {G : β → Prop} {f : α → Prog β} (hF : ∀ a, F a → ∃ b, f a = .done b ∧ G b) (hB : ∀ a, B a → Closing (f a))
    (hf : ∀ a, Prompt G (f a)) : ∀ p : Prog α, Reading F B p → Prompt G (p.bind f)
  | .done a, _ => hf a
  | .stop _, _ => .closing trivial
  | .fetch k, h => by
    obtain ⟨⟨a, h1, h2⟩, h3⟩ := h
    obtain ⟨b, h4, h5⟩ := hF a h2
    exact .fetch (k := fun v => (k v).bind f) (a := b) (by show (k none).bind f = _; rw [h1]; exact h4) h5 fun v => prompt_bind hF hB hf _ (h3 v)
  | .back v k, h => by
    obtain ⟨a, rfl, h2⟩ := h
    exact .back (hB a h2)
  | .tell e k, h => .tell h.1 (prompt_bind hF hB hf k h.2)

theorem reading_bind {α β : Type} {F B : α → Prop} {G C : β → Prop} {f : α → Prog β} (hF : ∀ a, F a → ∃ b, f a = .done b ∧ G b) (hB : ∀ a, B a → ∃ b, f a = .done b ∧ C b)
    (hf : ∀ a, Reading G C (f a)) : ∀ p : Prog α, Reading F B p → Reading G C (p.bind f)
  | .done a, _ => hf a
  | .stop _, _ => trivial
  | .fetch k, h => by
    obtain ⟨⟨a, h1, h2⟩, h3⟩ := h
    obtain ⟨b, h4, h5⟩ := hF a h2
    exact ⟨⟨b, by show (k none).bind f = _; rw [h1]; exact h4, h5⟩, fun v => reading_bind hF hB hf _ (h3 v)⟩
  | .back v k, h => by
    obtain ⟨a, rfl, h2⟩ := h
    exact hB a h2
  | .tell e k, h => ⟨h.1, reading_bind hF hB hf k h.2⟩

theorem closing_tellAll {α : Type} {p : Prog α} (h : Closing p) : ∀ l : List Ev, (∀ e ∈ l, kind e ≠ some false) → Closing (tellAll l p)
  | [], _ => h
  | e :: l, hl => ⟨hl e List.mem_cons_self, closing_tellAll h l fun x hx => hl x (List.mem_cons_of_mem _ hx)⟩

theorem prompt_tellAll {α : Type} {F : α → Prop} {p : Prog α} (h : Prompt F p) : ∀ l : List Ev, (∀ e ∈ l, kind e = none) → Prompt F (tellAll l p)
  | [], _ => h
  | e :: l, hl => .tell (hl e List.mem_cons_self) (prompt_tellAll h l fun x hx => hl x (List.mem_cons_of_mem _ hx))

/-! ### Running such a program -/

theorem closing_run {α : Type} (cf : Conf) : ∀ (p : Prog α) (r : Rd) (l : List (BitVec 64)) a l' es, Closing p → p.eval l = .ok (a, l', es) →
    l' = l ∧ p.run cf r = .ok (a, { r with out := r.out ++ es }) ∧ kinds es = List.replicate (instructions es).length true
  | .done a, r, l, _, _, _, _, he => by
    cases he
    exact ⟨rfl, by rw [List.append_nil]; rfl, rfl⟩
  | .stop _, _, _, _, _, _, _, he => by cases he
  | .tell e k, r, l, a, l', es, h, he => by
    rw [eval_tell] at he
    cases hk : k.eval l with
    | error x => rw [hk] at he; cases he
    | ok q =>
      obtain ⟨a1, l1, es1⟩ := q
      rw [hk] at he
      cases he
      obtain ⟨h1, h2, h3⟩ := closing_run cf k (r.tell e) l _ _ _ h.2 hk
      refine ⟨h1, ?_, ?_⟩
      · show k.run cf (r.tell e) = _
        rw [h2]
        show Except.ok (_, { r with out := r.out ++ [e] ++ es1 }) = _
        rw [List.append_assoc]
        rfl
      · have h4 := h.1
        cases e with
        | stamp s => exact absurd rfl h4
        | insn x => show true :: kinds es1 = List.replicate ((instructions es1).length + 1) true; rw [h3]; rfl
        | _ => exact h3

theorem kinds_stamp {cf : Conf} (hfn : cf.fn = true) {r : Rd} {v : BitVec 64} (h : Known v) :
    ∃ o, stamp cf r v = .ok (true, { r with out := o }) ∧ kinds o = kinds r.out ++ [false] := by
  obtain ⟨s, hs⟩ := h
  unfold stamp
  rw [hs]
  refine ⟨_, rfl, ?_⟩
  rw [kinds_append, hfn]
  congr 1
  cases s with
  | time i e k =>
    unfold timeEvents
    dsimp only
    by_cases hi : i = 0x80
    · rw [if_pos hi]; rfl
    · rw [if_neg hi]; rfl
  | _ => rfl

/-- A fetch: the stamps before the record are told. -/
theorem fetch_kinds {S : List (BitVec 64)} {cf : Conf} (hfn : cf.fn = true) : ∀ (n : Nat) {c : List (BitVec 64)} {r : Rd}, Acc S c r → (pending r).length < n →
    AllKnown (pending r) → ∀ v rest, plain (pending r) = v :: rest →
    ∃ r' skip, fetchLoop cf n r = .ok (some v, r') ∧ pending r = skip ++ v :: pending r' ∧ (∀ w ∈ skip, isStamp w = true) ∧ isStamp v = false ∧
      plain (pending r') = rest ∧ AllKnown (pending r') ∧ Acc S (c ++ (skip ++ [v])) r' ∧ kinds r'.out = kinds r.out ++ List.replicate skip.length false := by
  intro n
  induction n with
  | zero => intro c r _ h; omega
  | succ n ih =>
    intro c r ha hn hk v rest hp
    unfold fetchLoop
    cases h1 : fetchInternal r with
    | mk a b =>
      cases a with
      | none =>
        obtain ⟨_, hpe⟩ := fetchInternal_none h1
        rw [hpe] at hp
        cases hp
      | some w =>
        obtain ⟨hacc, _, _, _, _, hout, hpend⟩ := fetchInternal_some ha h1
        rw [hpend] at hk hn hp ⊢
        dsimp only
        have hk' : AllKnown (pending b) := fun w hw => hk w (List.mem_cons_of_mem _ hw)
        cases hst : isStamp w with
        | false =>
          rw [plain_cons hst] at hp
          obtain ⟨h2, h3⟩ := List.cons.inj hp
          subst h2
          exact ⟨b, [], rfl, rfl, by simp, hst, h3, hk', hacc, by rw [hout]; simp⟩
        | true =>
          rw [plain_cons_stamp hst] at hp
          rw [if_pos rfl]
          obtain ⟨o, ho, hoe⟩ := kinds_stamp hfn (r := b) (hk w List.mem_cons_self hst)
          rw [ho]
          dsimp only
          obtain ⟨r', skip, g1, g2, g3, g4, g5, g6, g7, g8⟩ := ih (c := c ++ [w]) (r := { b with out := o }) (acc_out hacc o) (by show (pending b).length < n; simp at hn; omega) hk' v rest hp
          refine ⟨r', w :: skip, g1, ?_, ?_, g4, g5, g6, ?_, ?_⟩
          · rw [show pending b = _ from g2]; rfl
          · intro x hx
            rcases List.mem_cons.1 hx with rfl | hx
            · exact hst
            · exact g3 x hx
          · rw [List.append_assoc] at g7; exact g7
          · rw [g8, show kinds ({ b with out := o } : Rd).out = kinds b.out ++ [false] from hoe, hout, List.append_assoc]; rfl

/-- Records with the last one not a stamp, unless there are none. -/
def Whole (seg : List (BitVec 64)) : Prop := ∀ v, seg.getLast? = some v → isStamp v = false

theorem prompt_run {β : Type} {S : List (BitVec 64)} {cf : Conf} (hfn : cf.fn = true) {p : Prog (β × Bool)} (hp : Prompt (fun a => a.2 = false) p) :
    ∀ (ws x : List (BitVec 64)) (s : β) (es : List Ev) (c : List (BitVec 64)) (r : Rd), Acc S c r → AllKnown (pending r) → plain (pending r) = ws ++ x →
    p.eval ws = .ok ((s, true), [], es) →
    ∃ r' seg, p.run cf r = .ok ((s, true), r') ∧ pending r = seg ++ pending r' ∧ plain seg = ws ∧ Whole seg ∧ Acc S (c ++ seg) r' ∧ AllKnown (pending r') ∧
      kinds r'.out = kinds r.out ++ List.replicate (seg.length - ws.length) false ++ List.replicate (instructions es).length true := by
  induction hp with
  | @closing p hc =>
    intro ws x s es c r ha hk hpl he
    obtain ⟨h1, h2, h3⟩ := closing_run cf p r ws _ _ _ hc he
    subst h1
    refine ⟨_, [], h2, rfl, rfl, fun v hv => (by cases hv), (by rw [List.append_nil]; exact acc_out ha _), hk, ?_⟩
    show kinds (r.out ++ es) = _
    rw [kinds_append, h3]
    simp
  | @fetch k a h1 h2 _ ih =>
    intro ws x s es c r ha hk hpl he
    cases ws with
    | nil =>
      have he : (k none).eval [] = _ := he
      rw [h1] at he
      cases he
      cases h2
    | cons v ws =>
      obtain ⟨r1, skip, g1, g2, g3, g4, g5, g6, g7, g8⟩ := fetch_kinds hfn (r.left + 1) ha (by have := pending_left r; omega) hk v (ws ++ x) hpl
      obtain ⟨r2, seg, k1, k2, k3, k4, k5, k6, k7⟩ := ih v ws x s es _ r1 g7 g6 g5 he
      have hlen : ws.length ≤ seg.length := by rw [← k3]; exact List.length_filter_le ..
      refine ⟨r2, skip ++ v :: seg, ?_, ?_, ?_, ?_, ?_, k6, ?_⟩
      · unfold Prog.run
        rw [show Htm.fetch cf r = fetchLoop cf (r.left + 1) r from rfl, g1]
        exact k1
      · rw [g2, k2]; simp
      · unfold plain
        rw [List.filter_append, List.filter_eq_nil_iff.2 (fun w hw => by rw [g3 w hw]; simp)]
        show plain (v :: seg) = _
        rw [plain_cons g4, k3]
      · intro w hw
        cases seg with
        | nil => simp at hw; rw [← hw]; exact g4
        | cons u seg => exact k4 w (by simpa [List.getLast?_append, List.getLast?_cons_cons] using hw)
      · simpa using k5
      · rw [k7, g8]
        have : (skip ++ v :: seg).length - (v :: ws).length = skip.length + (seg.length - ws.length) := by simp; omega
        rw [this, ← List.replicate_append_replicate]
        simp
  | @back v k hc =>
    intro ws x s es c r ha hk hpl he
    have := (closing_run cf k r (v :: ws) _ _ _ hc he).1
    cases this
  | @tell e k h1 _ ih =>
    intro ws x s es c r ha hk hpl he
    rw [eval_tell] at he
    cases hke : k.eval ws with
    | error x => rw [hke] at he; cases he
    | ok q =>
      obtain ⟨a1, l1, es1⟩ := q
      rw [hke] at he
      cases he
      obtain ⟨r2, seg, k1, k2, k3, k4, k5, k6, k7⟩ := ih ws x s es1 c (r.tell e) (acc_out ha _) hk hpl hke
      refine ⟨r2, seg, k1, k2, k3, k4, k5, k6, ?_⟩
      rw [k7]
      have e1 : kinds (r.tell e).out = kinds r.out := by
        show kinds (r.out ++ [e]) = _
        rw [kinds_append]
        show kinds r.out ++ List.filterMap kind [e] = _
        rw [List.filterMap_cons_none h1]
        simp
      have e2 : instructions (e :: es1) = instructions es1 := by
        cases e with
        | insn x => cases h1
        | _ => rfl
      rw [e1, e2]

/-! ### The programs of the decoder -/

theorem jumpEvents_kind (s : Dec) : ∀ e ∈ jumpEvents s, kind e = none := by
  unfold jumpEvents
  split
  · split
    · simp [kind]
    · split <;> simp [kind]
  · simp

theorem closing_finish9 (c : Conf) (s : Dec) (i : I9) : Closing (finish9 c s i) := by
  unfold finish9
  cases wordOf i.branch i.opcode (recodeP9 i.opcode s.insnAddr) with
  | none => trivial
  | some w =>
    refine ⟨by simp [kind], ?_⟩
    split
    · refine closing_tellAll (p := .tell _ (.done _)) ?_ _ fun e he => by rw [jumpEvents_kind s e he]; simp
      exact ⟨by simp [kind], trivial⟩
    · trivial

/-- The failures of the functions for instructions. -/
abbrev Failed : Dec × Bool → Prop := fun a => a.2 = false

theorem dataPages9_kind (n : Nat) : ∀ e ∈ dataPages9 n, kind e = none := by
  unfold dataPages9
  split
  · simp [kind]
  · split
    · simp [kind]
    · split <;> simp [kind]

theorem prompt_draStep9 (c : Conf) (s : Dec) (i : I9) : Prompt Failed (draStep9 c s i) := by
  unfold draStep9
  split
  · refine .fetch (a := (s, false)) rfl rfl fun v => ?_
    dsimp only
    split
    · exact .closing (closing_finish9 ..)
    · split
      · split
        · exact .back (closing_finish9 ..)
        · exact .tell rfl (.tell rfl (.closing (closing_finish9 ..)))
      · split
        · exact .back (closing_finish9 ..)
        · exact prompt_tellAll (.tell rfl (.closing (closing_finish9 ..))) _ (dataPages9_kind _)
  · exact .closing (closing_finish9 ..)

theorem prompt_deaStep9 (c : Conf) (s : Dec) (i : I9) : Prompt Failed (deaStep9 c s i) := by
  unfold deaStep9
  split
  · refine .fetch (a := (s, false)) rfl rfl fun v => ?_
    dsimp only
    split
    · exact prompt_draStep9 ..
    · split
      · exact .back (closing_finish9 ..)
      · split <;> exact prompt_draStep9 ..
  · exact prompt_draStep9 ..

theorem prompt_iraStep9 (c : Conf) (s : Dec) (i : I9) : Prompt Failed (iraStep9 c s i) := by
  unfold iraStep9
  refine .tell rfl ?_
  split
  · refine .fetch (a := (s, false)) rfl rfl fun v => ?_
    dsimp only
    split
    · exact prompt_deaStep9 ..
    · split
      · exact .back (closing_finish9 ..)
      · refine .tell rfl (.tell (by split <;> rfl) (.tell rfl ?_))
        split
        · exact .closing trivial
        · exact .tell rfl (prompt_deaStep9 ..)
  · exact .tell rfl (prompt_deaStep9 ..)

theorem prompt_insn9 (c : Conf) (s : Dec) (v : BitVec 64) : Prompt Failed (insn9 c s v) := by
  unfold insn9
  refine .tell rfl (.tell rfl ?_)
  split
  · exact .closing trivial
  · split
    · refine .tell rfl ?_
      unfold ieaStep9
      split
      · refine .fetch (a := (s, false)) rfl rfl fun v => ?_
        dsimp only
        split
        · exact .back (closing_finish9 ..)
        · unfold cached9
          split
          · refine .tell rfl ?_
            split
            · exact .closing trivial
            · exact prompt_iraStep9 ..
            · exact prompt_iraStep9 ..
          · exact prompt_iraStep9 ..
      · exact prompt_iraStep9 ..
    · exact .closing trivial

/-! ### POWER10 -/

theorem reading_walks10 : ∀ (n i : Nat) (x : Pwc.Xlate), Reading (fun a => a = none) (fun _ => False) (walks10 x n i)
  | 0, _, _ => trivial
  | n + 1, i, x => by
    refine ⟨⟨none, rfl, rfl⟩, fun v => ?_⟩
    dsimp only
    split
    · trivial
    · exact reading_walks10 n _ _

theorem reading_head10 : ∀ (n : Nat) (s : Dec) (ix : List Pwc.Xlate) (l : I10) (v : BitVec 64), Reading (fun a => a.2 = none) (fun _ => False) (head10 n s ix l v)
  | 0, _, _, _, _ => trivial
  | n + 1, s, ix, l, v => by
    unfold head10
    split
    · refine reading_bind (F := fun a => a = none) (B := fun _ => False) (fun a ha => by subst ha; exact ⟨_, rfl, rfl⟩) (fun _ h => h.elim) (fun a => ?_) ieara10 ?_
      · cases a with
        | none => trivial
        | some q =>
          obtain ⟨a, r⟩ := q
          dsimp only
          cases gotIeara s ix l a r with
          | error e => trivial
          | ok q => exact ⟨⟨_, rfl, rfl⟩, fun v => reading_head10 n _ _ _ v⟩
      · exact ⟨⟨none, rfl, rfl⟩, fun v => ⟨⟨none, rfl, rfl⟩, fun w => trivial⟩⟩
    · split
      · split
        · split
          · refine reading_bind (F := fun a => a = none) (B := fun _ => False) (fun a ha => by subst ha; exact ⟨_, rfl, rfl⟩) (fun _ h => h.elim) (fun a => ?_) _ (reading_walks10 ..)
            cases a with
            | none => trivial
            | some q => exact ⟨⟨_, rfl, rfl⟩, fun v => reading_head10 n _ _ _ v⟩
          · trivial
        · split
          · refine reading_bind (F := fun a => a = none) (B := fun _ => False) (fun a ha => by subst ha; exact ⟨_, rfl, rfl⟩) (fun _ h => h.elim) (fun a => ?_) _ (reading_walks10 ..)
            cases a with
            | none => trivial
            | some q => exact ⟨⟨_, rfl, rfl⟩, fun v => reading_head10 n _ _ _ v⟩
          · trivial
      · trivial

/-- A turn that ends the loop. -/
abbrev Ended : Option (Bool × I10) → Prop := fun a => ∃ l, a = some (true, l)

theorem reading_draStep10 (c : Conf) (i : Nat) (l : I10) : Reading (fun a => a = none) Ended (draStep10 c i l) := by
  unfold draStep10
  split
  · refine ⟨⟨none, rfl, rfl⟩, fun v => ?_⟩
    dsimp only
    split
    · trivial
    · split
      · split
        · exact ⟨_, rfl, _, rfl⟩
        · trivial
      · split <;> trivial
  · trivial

theorem reading_dataStep10 (c : Conf) (i : Nat) (l : I10) : Reading (fun a => a = none) Ended (dataStep10 c i l) := by
  unfold dataStep10
  split
  · refine ⟨⟨none, rfl, rfl⟩, fun v => ?_⟩
    dsimp only
    split
    · exact reading_draStep10 ..
    · split
      · split
        · exact ⟨_, rfl, _, rfl⟩
        · exact reading_draStep10 ..
      · split <;> exact reading_draStep10 ..
  · exact reading_draStep10 ..

theorem reading_data10 (c : Conf) (l : I10) : Reading (fun a => a = none) (fun a => ∃ l, a = some l) (data10 c l) := by
  unfold data10
  split
  · refine reading_bind (F := fun a => a = none) (B := Ended) (fun a ha => by subst ha; exact ⟨_, rfl, rfl⟩) ?_ (fun a => ?_) _ (reading_dataStep10 ..)
    · rintro a ⟨l, rfl⟩
      exact ⟨_, rfl, _, rfl⟩
    · match a with
      | none => trivial
      | some (true, l) => trivial
      | some (false, l) =>
        dsimp only
        split
        · refine reading_bind (F := fun a => a = none) (B := Ended) (fun a ha => by subst ha; exact ⟨_, rfl, rfl⟩) ?_ (fun a => ?_) _ (reading_dataStep10 ..)
          · rintro a ⟨l, rfl⟩
            exact ⟨_, rfl, _, rfl⟩
          · trivial
        · trivial
  · trivial

theorem pageEvents_kind (f : Nat → Counter) (n : Nat) : ∀ e ∈ pageEvents f n, kind e ≠ some false := by
  unfold pageEvents
  split <;> simp [kind]

theorem iside_kind {s s' : Dec} {l : I10} {es : List Ev} (h : iside s l = .ok (s', es)) : ∀ e ∈ es, kind e ≠ some false := by
  unfold iside at h
  split at h
  · split at h
    · unfold newLine at h
      dsimp only at h
      split at h
      · split at h
        · cases h
        · cases h
          intro e he
          rcases List.mem_cons.1 he with rfl | he
          · simp [kind]
          · exact pageEvents_kind _ _ e he
      · split at h
        · cases h
        · cases h; simp [kind]
    · unfold sameLine at h
      split at h
      · split at h
        · split at h
          · cases h
          · cases h; simp [kind]
        · cases h; simp [kind]
      · cases h; simp
  · cases h; simp

theorem dside0_kind {s : Dec} {l l' : I10} {d : Xl.Res} {xl : Xl.St} {es : List Ev} (h : dside0 s l = .ok (d, es, xl, l')) : ∀ e ∈ es, kind e ≠ some false := by
  unfold dside0 at h
  split at h
  · unfold dside at h
    dsimp only at h
    split at h
    · split at h
      · cases h
      · cases h
        intro e he
        rcases List.mem_cons.1 he with rfl | he
        · simp [kind]
        · exact pageEvents_kind _ _ e he
    · split at h
      · cases h
      · cases h; simp [kind]
  · cases h; simp

theorem closing_emit10 (c : Conf) (s : Dec) (l : I10) : Closing (emit10 c s l) := by
  unfold emit10
  split
  · trivial
  · rename_i s1 e1 h1
    split
    · trivial
    · rename_i d e2 xl l1 h2
      split
      · trivial
      · split
        · trivial
        · refine closing_tellAll (p := .done _) trivial _ fun e he => ?_
          simp only [List.mem_append, List.mem_singleton] at he
          rcases he with ((he | he) | he) | he
          · exact iside_kind h1 e he
          · exact dside0_kind h2 e he
          · rw [he]; simp [kind]
          · unfold suffix10 at he
            split at he
            · rw [List.mem_singleton.1 he]; simp [kind]
            · cases he

theorem closing_finish10 (c : Conf) (s : Dec) (l : I10) : Closing (finish10 c s l) := by
  unfold finish10
  split
  · trivial
  · refine ⟨by simp [kind], by simp [kind], ?_⟩
    split
    · exact closing_emit10 ..
    · trivial

theorem prompt_body10 (c : Conf) (s : Dec) (l : I10) : Prompt Failed (body10 c s l) := by
  unfold body10
  refine prompt_bind (F := fun a => a = none) (B := fun a => ∃ l, a = some l) (fun a ha => by subst ha; exact ⟨_, rfl, rfl⟩) ?_ (fun a => ?_) _ (reading_data10 ..)
  · rintro a ⟨l, rfl⟩
    exact closing_finish10 ..
  · cases a with
    | none => exact .closing trivial
    | some l => exact .closing (closing_finish10 ..)

theorem prompt_msr10 (c : Conf) (s : Dec) (l : I10) : Prompt Failed (msr10 c s l) := by
  unfold msr10
  refine .fetch (a := (s, false)) rfl rfl fun v => ?_
  dsimp only
  unfold prefix10
  split
  · exact .fetch (a := (s, false)) rfl rfl fun v => prompt_body10 ..
  · exact prompt_body10 ..

theorem prompt_insn10 (c : Conf) (n : Nat) (s : Dec) (v : BitVec 64) : Prompt Failed (insn10 c n s v) := by
  unfold insn10
  refine .tell rfl (.tell rfl (prompt_bind (F := fun a => a.2 = none) (B := fun _ => False) ?_ (fun _ h => h.elim) (fun a => ?_) _ (reading_head10 ..)))
  · rintro ⟨s, o⟩ ha
    cases ha
    exact ⟨_, rfl, rfl⟩
  · obtain ⟨s, o⟩ := a
    cases o with
    | none => exact .closing trivial
    | some q =>
      dsimp only
      split
      · exact .closing trivial
      · exact .tell rfl (prompt_msr10 ..)

/-! ### A whole dump -/

/-- An instruction with its records `v` and `l0`, and nothing else among them. -/
theorem dispatch_order {S c : List (BitVec 64)} {cf : Conf} (hfn : cf.fn = true) {s s' : Dec} {v : BitVec 64} {l0 x : List (BitVec 64)} {es : List Ev} {r : Rd}
    (hv : isStamp v = false) (ha : Acc S c r) (hk : AllKnown (pending r)) (hp : plain (pending r) = l0 ++ x)
    (he : pureStep cf s v l0 = .ok ((s', true), [], es)) :
    ∃ r' seg, dispatch cf s r v = .ok ((s', true), r') ∧ pending r = seg ++ pending r' ∧ plain seg = l0 ∧ Whole seg ∧ Acc S (c ++ seg) r' ∧ AllKnown (pending r') ∧
      kinds r'.out = kinds r.out ++ List.replicate (seg.length - l0.length) false ++ List.replicate (instructions es).length true := by
  unfold pureStep at he
  unfold dispatch
  rw [hv, if_neg (show ¬ (false = true) by decide)]
  by_cases h9 : u32 v 36 55 = 0xABCDE
  · rw [if_pos h9] at he ⊢
    exact prompt_run hfn (prompt_insn9 cf s v) l0 x s' es c r ha hk hp he
  · rw [if_neg h9] at he ⊢
    by_cases h10 : u32 v 36 55 = 0xABCDF
    · rw [if_pos h10] at he ⊢
      have hlen : l0.length < r.left + 1 := by
        have h1 := pending_left r
        have h2 := plain_length (pending r)
        rw [hp, List.length_append] at h2
        omega
      rw [insn10_fuel cf s v (n := r.left + 1) (Nat.lt_succ_self _) hlen] at he
      exact prompt_run hfn (prompt_insn10 cf _ s v) l0 x s' es c r ha hk hp he
    · rw [if_neg h10] at he ⊢
      cases he
      exact ⟨r, [], rfl, rfl, rfl, (fun _ h => by cases h), by rw [List.append_nil]; exact ha, hk, by simp [instructions]⟩

theorem order_cons (items : List (Nat × Nat)) (v : BitVec 64) (l : List (BitVec 64)) : order items (v :: l) =
    if IsStamp v then false :: order items l
    else
      match items with
      | [] => order [] l
      | (n, m) :: items => if n ≤ 1 then List.replicate m true ++ order items l else order ((n - 1, m) :: items) l := by
  cases items <;> rfl

theorem order_seg {n m : Nat} {items : List (Nat × Nat)} : ∀ {seg P : List (BitVec 64)}, Whole seg → (plain seg).length = n + 1 →
    order ((n + 1, m) :: items) (seg ++ P) = List.replicate (seg.length - (n + 1)) false ++ List.replicate m true ++ order items P := by
  intro seg
  induction seg generalizing n with
  | nil => intro P _ h; cases h
  | cons v seg ih =>
    intro P hw hn
    have hw' : Whole seg := by
      intro w h
      cases seg with
      | nil => cases h
      | cons u l => exact hw w (by rw [List.getLast?_cons_cons]; exact h)
    rw [List.cons_append, order_cons]
    cases hst : isStamp v with
    | true =>
      rw [if_pos ((isStamp_iff v).1 hst)]
      rw [plain_cons_stamp hst] at hn
      rw [ih hw' hn]
      have h1 := plain_length seg
      rw [hn] at h1
      rw [show (v :: seg).length - (n + 1) = (seg.length - (n + 1)) + 1 by simp; omega]
      rfl
    | false =>
      rw [if_neg (fun h => by rw [(isStamp_iff v).2 h] at hst; cases hst)]
      rw [plain_cons hst, List.length_cons] at hn
      dsimp only
      cases n with
      | zero =>
        have : seg = [] := by
          cases seg with
          | nil => rfl
          | cons u l =>
            exfalso
            have hne : (u :: l) ≠ [] := by simp
            have h2 := hw' _ (List.getLast?_eq_some_getLast hne)
            have h3 : (u :: l).getLast hne ∈ plain (u :: l) := List.mem_filter.2 ⟨List.getLast_mem hne, by rw [h2]; rfl⟩
            have h4 : plain (u :: l) = [] := List.length_eq_zero_iff.1 (by omega)
            rw [h4] at h3
            cases h3
        subst this
        simp
      | succ n =>
        rw [if_neg (by omega), show n + 1 + 1 - 1 = n + 1 from rfl, ih hw' (by omega)]
        rw [show (v :: seg).length - (n + 1 + 1) = seg.length - (n + 1) by simp]

/-- Instructions one after the other, with their records and how many lines they have. -/
def Chain (c : Conf) : Dec → List (List (BitVec 64) × Nat) → Prop
  | _, [] => True
  | s, (ws, m) :: items => ∃ v l0 s' es, ws = v :: l0 ∧ v ≠ 0 ∧ pureStep c s v l0 = .ok ((s', true), [], es) ∧ (instructions es).length = m ∧ Chain c s' items

theorem loop_order {S : List (BitVec 64)} {cf : Conf} (hfn : cf.fn = true) :
    ∀ (n e : Nat) (tail : List (BitVec 64)) (s : Dec) (c : List (BitVec 64)) (r : Rd) (items : List (List (BitVec 64) × Nat)), (∀ v ∈ tail, Other v) → Acc S c r → (pending r).length < n → AllKnown (pending r) →
    plain (pending r) = items.flatMap (·.1) ++ tail → Chain cf s items →
    ∃ s' r', decodeLoop cf n e s r = .ok (s', r') ∧ kinds r'.out = kinds r.out ++ order (items.map fun x => (x.1.length, x.2)) (pending r) := by
  intro n
  induction n with
  | zero => intro e tail s c r items _ _ h; omega
  | succ n ih =>
    intro e tail s c r items htail ha hn hk hp hch
    unfold decodeLoop decodeOne
    cases h1 : fetchInternal r with
    | mk a b =>
      cases a with
      | none =>
        obtain ⟨hbr, hpe⟩ := fetchInternal_none h1
        subst hbr
        rw [hpe]
        exact ⟨s, b, rfl, by cases items <;> simp [order]⟩
      | some v =>
        obtain ⟨hacc, _, _, _, _, hout, hpend⟩ := fetchInternal_some ha h1
        rw [hpend] at hn hk hp ⊢
        rw [List.length_cons] at hn
        have hkb : AllKnown (pending b) := hk.tail
        dsimp only
        cases hst : isStamp v with
        | true =>
          obtain ⟨o, ho, hoe⟩ := kinds_stamp hfn (r := b) (hk v List.mem_cons_self hst)
          rw [plain_cons_stamp hst] at hp
          have hd : dispatch cf s b v = .ok ((s, true), { b with out := o }) := by
            unfold dispatch
            rw [hst, if_pos rfl, ho]
          rw [if_neg (stamp_nonzero hst), hd]
          obtain ⟨s', r', g1, g2⟩ := ih 0 tail s _ { b with out := o } items htail (acc_out hacc o) (by show (pending b).length < n; omega) hkb hp hch
          refine ⟨s', r', g1, ?_⟩
          rw [g2, show kinds ({ b with out := o } : Rd).out = kinds b.out ++ [false] from hoe, hout, order_cons, if_pos ((isStamp_iff v).1 hst), List.append_assoc]
          rfl
        | false =>
          rw [plain_cons hst] at hp
          have hns : ¬ IsStamp v := fun h => by rw [(isStamp_iff v).2 h] at hst; cases hst
          cases items with
          | nil =>
            have hvt : v ∈ tail := by rw [show tail = v :: plain (pending b) from hp.symm]; exact List.mem_cons_self
            have hpt : plain (pending b) = ([] : List (List (BitVec 64) × Nat)).flatMap (·.1) ++ tail.tail := by
              rw [show tail = v :: plain (pending b) from hp.symm]; rfl
            have htt : ∀ w ∈ tail.tail, Other w := fun w hw => htail w (List.mem_of_mem_tail hw)
            have hord : order [] (v :: pending b) = order [] (pending b) := by rw [order_cons, if_neg hns]
            rw [List.map_nil, hord, ← hout]
            by_cases h0 : v = 0
            · rw [if_pos h0]
              exact ih e tail.tail s _ b [] htt hacc (by omega) hkb hpt hch
            · obtain ⟨o1, o2⟩ := htail v hvt
              have hd : dispatch cf s b v = .ok ((s, true), b) := by
                unfold dispatch
                rw [hst, if_neg (show ¬ (false = true) by decide), if_neg (fun h => o1 ((u32_eq (by omega) (by omega) (by omega) _).1 h)),
                  if_neg (fun h => o2 ((u32_eq (by omega) (by omega) (by omega) _).1 h))]
              rw [if_neg h0, hd]
              exact ih 0 tail.tail s _ b [] htt hacc (by omega) hkb hpt hch
          | cons i items =>
            obtain ⟨ws, m⟩ := i
            obtain ⟨w, l0, s1, es, rfl, hv0, hstep, hm, hch⟩ := hch
            rw [List.flatMap_cons, List.append_assoc, List.cons_append] at hp
            obtain ⟨h2, h3⟩ := List.cons.inj hp
            subst h2
            rw [if_neg hv0]
            obtain ⟨r1, seg, k1, k2, k3, k4, k5, k6, k7⟩ := dispatch_order hfn hst hacc hkb h3 hstep
            rw [k1]
            have hp1 : plain (pending r1) = items.flatMap (·.1) ++ tail := by
              have : plain (pending b) = plain seg ++ plain (pending r1) := by rw [k2]; exact List.filter_append ..
              rw [h3, k3] at this
              exact (List.append_cancel_left this).symm
            obtain ⟨s', r', g1, g2⟩ := ih 0 tail s1 _ r1 items htail k5 (by rw [k2, List.length_append] at hn; omega) k6 hp1 hch
            refine ⟨s', r', g1, ?_⟩
            have hl : (plain (v :: seg)).length = l0.length + 1 := by rw [plain_cons hst, k3, List.length_cons]
            have hwh : Whole (v :: seg) := by
              intro w hw
              cases seg with
              | nil => simp at hw; rw [← hw]; exact hst
              | cons u l => exact k4 w (by rw [List.getLast?_cons_cons] at hw; exact hw)
            have hord := order_seg (n := l0.length) (m := m) (items := items.map fun x => (x.1.length, x.2)) (seg := v :: seg) (P := pending r1) hwh hl
            rw [g2, k7, hout, hm, k2]
            show _ = _ ++ order ((l0.length + 1, m) :: _) ((v :: seg) ++ pending r1)
            rw [hord, show (v :: seg).length - (l0.length + 1) = seg.length - l0.length by simp]
            simp

end Htm
