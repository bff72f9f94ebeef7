import Verif.Clist.Fragments

/-! # Properties of the store of interrupted walks: C67 -/

namespace FragmentsSpec
open Htm.Pwc Clist.Fragments

/-- Two fragments of walks overlap: of the same partition and process, and the first step of `x` is one of the steps of `n`. -/
def Overlap (n x : Xlate) : Prop :=
  n.lpid = x.lpid ∧ n.pid = x.pid ∧ ∃ w ∈ n.walks.take n.nwalks, (x.walks[0]?).map (·.ra) = some w.ra

/-- A fragment ends at one of the two addresses: at the real address, or, without a host, at the effective address. -/
def Ends (n : Xlate) (address real : BitVec 64) : Prop :=
  ∃ w ∈ n.walks.take n.nwalks, w.finalRa = true ∧
    ((w.hostRa = false ∧ address &&& ~~~ 0xc00000000000000f#64 = w.ra) ∨ real = w.ra)

/-- What a use of the store returns and leaves, for the fragments in the order of their arrival: the first one that fits is
taken. -/
inductive Does : List Xlate → Use → Option Xlate → List Xlate → Prop
  | kept (l x a) : (∀ n ∈ l, ¬Overlap n x) → Does l (.insert x a) none (l ++ [x])
  | joined (as n bs x a y) : (∀ n ∈ as, ¬Overlap n x) → Overlap n x → merge n x = .ok y →
      Does (as ++ n :: bs) (.insert x a) none (as ++ y :: bs)
  | missed (l x) : (∀ n ∈ l, ¬Overlap n x) → Does l (.lookup x) none l
  | found (as n bs x y) : (∀ n ∈ as, ¬Overlap n x) → Overlap n x → merge n x = .ok y →
      Does (as ++ n :: bs) (.lookup x) (some y) (as ++ bs)
  | elsewhere (l a r) : (∀ n ∈ l, ¬Ends n a r) → Does l (.byAddress a r) none l
  | ended (as n bs a r) : (∀ n ∈ as, ¬Ends n a r) → Ends n a r → Does (as ++ n :: bs) (.byAddress a r) (some n) (as ++ bs)

/-- A series of uses. -/
inductive Series : List Xlate → List Use → List (Option Xlate) → List Xlate → Prop
  | nil (l) : Series l [] [] l
  | cons (l u y l1 us ys l2) : Does l u y l1 → Series l1 us ys l2 → Series l (u :: us) (y :: ys) l2

end FragmentsSpec

namespace Clist.Fragments
open Htm.Pwc FragmentsSpec

theorem xmatch_iff (n x : Xlate) : xmatch n x = true ↔ Overlap n x := by
  simp only [xmatch, Overlap, Bool.and_eq_true, beq_iff_eq, List.any_eq_true, and_assoc]
  constructor
  · rintro ⟨h1, h2, w, h3, h4⟩; exact ⟨h1, h2, w, h3, h4.symm⟩
  · rintro ⟨h1, h2, w, h3, h4⟩; exact ⟨h1, h2, w, h3, h4.symm⟩

theorem matchAddress_iff (n : Xlate) (a r : BitVec 64) : matchAddress n a r = true ↔ Ends n a r := by
  simp only [matchAddress, Ends, List.any_eq_true, Bool.and_eq_true, Bool.or_eq_true, Bool.not_eq_true', beq_iff_eq]

theorem first (p : Xlate → Bool) : ∀ l : List Xlate, (∀ n ∈ l, p n = false) ∨
    ∃ as n bs, l = as ++ n :: bs ∧ p n = true ∧ ∀ n ∈ as, p n = false
  | [] => Or.inl fun _ h => by cases h
  | n :: l => by
    cases hp : p n with
    | true => exact Or.inr ⟨[], n, l, rfl, hp, fun _ h => by cases h⟩
    | false =>
      rcases first p l with h | ⟨as, m, bs, rfl, h1, h2⟩
      · left
        intro k hk
        rcases List.mem_cons.mp hk with rfl | hk
        · exact hp
        · exact h k hk
      · right
        refine ⟨n :: as, m, bs, rfl, h1, ?_⟩
        intro k hk
        rcases List.mem_cons.mp hk with rfl | hk
        · exact hp
        · exact h2 k hk

theorem useList_does (l : List Xlate) (u : Use) (y : Option Xlate) (l' : List Xlate) (h : useList l u = .ok (y, l')) :
    Does l u y l' := by
  have no : ∀ x, ∀ l : List Xlate, (∀ n ∈ l, xmatch n x = false) → ∀ n ∈ l, ¬Overlap n x := by
    intro x l hl n hn
    rw [← xmatch_iff, hl n hn]; simp
  have no' : ∀ a r, ∀ l : List Xlate, (∀ n ∈ l, matchAddress n a r = false) → ∀ n ∈ l, ¬Ends n a r := by
    intro a r l hl n hn
    rw [← matchAddress_iff, hl n hn]; simp
  cases u with
  | insert x a =>
    rw [useList] at h
    rcases first (xmatch · x) l with hl | ⟨as, n, bs, rfl, h1, h2⟩
    · rw [insert_none x l hl] at h
      cases h
      exact .kept l x a (no x l hl)
    · rw [insert_some x n bs h1 as h2] at h
      cases hm : merge n x with
      | error e => rw [hm] at h; cases h
      | ok z =>
        rw [hm] at h
        cases h
        exact .joined as n bs x a z (no x as h2) ((xmatch_iff n x).mp h1) hm
  | lookup x =>
    rw [useList] at h
    rcases first (xmatch · x) l with hl | ⟨as, n, bs, rfl, h1, h2⟩
    · rw [lookup_none x l hl] at h
      cases h
      exact .missed l x (no x l hl)
    · rw [lookup_some x n bs h1 as h2] at h
      cases hm : merge n x with
      | error e => rw [hm] at h; cases h
      | ok z =>
        rw [hm] at h
        cases h
        exact .found as n bs x z (no x as h2) ((xmatch_iff n x).mp h1) hm
  | byAddress a r =>
    rw [useList] at h
    rcases first (matchAddress · a r) l with hl | ⟨as, n, bs, rfl, h1, h2⟩
    · rw [address_none a r l hl] at h
      cases h
      exact .elsewhere l a r (no' a r l hl)
    · rw [address_some a r n bs h1 as h2] at h
      cases h
      exact .ended as n bs a r (no' a r as h2) ((matchAddress_iff n a r).mp h1)

theorem usesList_series : ∀ (us : List Use) (l : List Xlate) (ys : List (Option Xlate)) (l' : List Xlate),
    usesList l us = .ok (ys, l') → Series l us ys l'
  | [], l, ys, l', h => by cases h; exact .nil l
  | u :: us, l, ys, l', h => by
    rw [usesList] at h
    cases hu : useList l u with
    | error e => rw [hu] at h; cases h
    | ok r =>
      obtain ⟨y, l1⟩ := r
      rw [hu] at h
      dsimp only at h
      cases hs : usesList l1 us with
      | error e => rw [hs] at h; cases h
      | ok r =>
        obtain ⟨zs, l2⟩ := r
        rw [hs] at h
        cases h
        exact .cons l u y l1 us zs _ (useList_does l u y l1 hu) (usesList_series us l1 zs _ hs)

/-- C67: from the start, and as long as the allocator hands out memory that is not in use, any series of uses of the store of
interrupted walks touches no freed memory and every search of it ends; each use takes the oldest fragment that fits, a fragment
that is used is gone, and all others stay in their order.  The only thing that can go wrong is the joining of two fragments. -/
theorem C67_store (m : Mem) (h : Clist.Addr) (walk : Clist.Addr → Xlate) (hl : m.live h = true) (us : List Use) (fuel : Nat)
    (hf : us.length ≤ fuel) :
    ∃ s, init m h walk = .ok s ∧ (Fresh fuel s us →
      (∃ b, uses fuel s us = .error (.merge b)) ∨
      ∃ ys s' l, uses fuel s us = .ok (ys, s') ∧ Series [] us ys l ∧ s'.count.toNat = l.length % 2 ^ 32 ∧
        ∃ xs, (∀ n, l.length ≤ n → forEach s'.mem h n = .ok (some xs)) ∧ xs.map s'.walk = l) := by
  refine ⟨_, by unfold init; rw [headInit_link hl], fun fr => ?_⟩
  have i : Holds { mem := m.link h h, head := h, count := 0, walk := walk } [] := ⟨[], ring_init hl, rfl, rfl⟩
  have key := uses_eq us i (by simpa using hf) fr
  have heads : ∀ (us : List Use) (s s' : Store) (ys : List (Option Xlate)), uses fuel s us = .ok (ys, s') → s'.head = s.head := by
    have one : ∀ (u : Use) (s s' : Store) (y : Option Xlate), use fuel s u = .ok (y, s') → s'.head = s.head := by
      have rmv : ∀ (s s' : Store) (n : Clist.Addr), remove s n = .ok s' → s'.head = s.head := by
        intro s s' n h
        unfold remove at h
        cases hd : del s.mem n with
        | error e => rw [hd] at h; cases h
        | ok m => rw [hd] at h; cases h; rfl
      intro u s s' y h
      cases u with
      | insert x a =>
        simp only [use, Fragments.insert] at h
        cases hs : search s (xmatch · x) fuel with
        | error e => rw [hs] at h; cases h
        | ok o =>
          rw [hs] at h
          cases o with
          | none =>
            dsimp only at h
            cases ha : addTail (alloc s.mem a 0 0) s.head a with
            | error e => rw [ha] at h; cases h
            | ok m => rw [ha] at h; cases h; rfl
          | some n =>
            dsimp only at h
            cases ha : merge (s.walk n) x with
            | error e => rw [ha] at h; cases h
            | ok m => rw [ha] at h; cases h; rfl
      | lookup x =>
        simp only [use, Fragments.lookup] at h
        cases hs : search s (xmatch · x) fuel with
        | error e => rw [hs] at h; cases h
        | ok o =>
          rw [hs] at h
          cases o with
          | none => cases h; rfl
          | some n =>
            dsimp only at h
            cases ha : merge (s.walk n) x with
            | error e => rw [ha] at h; cases h
            | ok m =>
              rw [ha] at h
              dsimp only at h
              cases hr : remove s n with
              | error e => rw [hr] at h; cases h
              | ok s1 => rw [hr] at h; cases h; exact rmv s _ n hr
      | byAddress a r =>
        simp only [use, Fragments.byAddress] at h
        cases hs : search s (matchAddress · a r) fuel with
        | error e => rw [hs] at h; cases h
        | ok o =>
          rw [hs] at h
          cases o with
          | none => cases h; rfl
          | some n =>
            dsimp only at h
            cases hr : remove s n with
            | error e => rw [hr] at h; cases h
            | ok s1 => rw [hr] at h; cases h; exact rmv s _ n hr
    intro us
    induction us with
    | nil => intro s s' ys h; cases h; rfl
    | cons u us ih =>
      intro s s' ys h
      rw [uses] at h
      cases hu : use fuel s u with
      | error e => rw [hu] at h; cases h
      | ok r =>
        obtain ⟨y, s1⟩ := r
        rw [hu] at h
        dsimp only at h
        cases hs : uses fuel s1 us with
        | error e => rw [hs] at h; cases h
        | ok r =>
          obtain ⟨zs, s2⟩ := r
          rw [hs] at h
          cases h
          rw [ih _ _ _ hs, one _ _ _ _ hu]
  cases hu : usesList [] us with
  | error b => rw [hu] at key; exact Or.inl ⟨b, key⟩
  | ok r =>
    obtain ⟨ys, l⟩ := r
    rw [hu] at key
    obtain ⟨s', h1, xs, h2, h3, h4⟩ := key
    refine Or.inr ⟨ys, s', l, h1, usesList_series us [] ys l hu, by rw [h4]; simp, xs, fun n hn => ?_, h3⟩
    have hh := heads us _ s' ys h1
    dsimp only at hh
    rw [hh] at h2
    refine forEach_eq h2 ?_
    rw [← h3, List.length_map] at hn
    exact hn

/-- Two fragments of one walk, that overlap in the step at 0x2000. -/
def fragA : Xlate :=
  { nwalks := 2, walks := { ra := 0x1000 } :: { ra := 0x2000 } :: List.replicate (MAXW - 2) {} }
def fragB : Xlate :=
  { nwalks := 2, walks := { ra := 0x2000 } :: { ra := 0x3000, finalRa := true } :: List.replicate (MAXW - 2) {} }

/-- The allocator is well behaved, the fragments are joined, and what was found is gone. -/
example : ∃ s, init (alloc Mem.empty 1 0 0) 1 (fun _ => {}) = .ok s ∧
    Fresh 4 s [.insert fragA 10, .lookup fragB, .lookup fragB] ∧
    ∃ y s', uses 4 s [.insert fragA 10, .lookup fragB, .lookup fragB] = .ok ([none, some y, none], s') ∧ y.nwalks = 3 := by
  refine ⟨_, rfl, ?_, ?_⟩
  · refine ⟨fun x a e => ?_, fun y s' _ => ⟨fun x a e => (by cases e), fun y s' _ => ⟨fun x a e => (by cases e), fun _ _ _ => trivial⟩⟩⟩
    cases e; rfl
  · exact ⟨_, _, rfl, rfl⟩

end Clist.Fragments
