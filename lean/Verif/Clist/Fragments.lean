import Verif.Clist.Joins
import Verif.Htm.Pwc

/-! # The store of interrupted walks in memory: htm/pwc.c:498-719

The nodes are structures in memory, linked by `ccan/list`; `Htm.Pwc.partialInsert` and so on are the same functions over a list
of walks. -/

namespace Clist.Fragments
open Clist Htm.Pwc

/-- 502-519: the list head of `partial_cache`, `nnodes`, and the walks of the nodes. -/
structure Store where
  mem : Mem
  head : Clist.Addr
  count : BitVec 32
  walk : Clist.Addr → Xlate

/-- What can go wrong: an access to memory that is not there, an error in merging, and a loop that has not ended in the number of
steps given. -/
inductive Wrong where
  | mem (f : Fault)
  | merge (b : Bad)
  | running
  deriving DecidableEq

/-- 714-719 of `pwc_init`. -/
def init (m : Mem) (h : Clist.Addr) (walk : Clist.Addr → Xlate) : Except Wrong Store :=
  match headInit m h with
  | .error f => .error (.mem f)
  | .ok m => .ok { mem := m, head := h, count := 0, walk := walk }

/-- The `list_for_each` of 622-627, 650-658 and 696-704: the first node that matches. -/
def find (s : Store) (p : Xlate → Bool) : Nat → Clist.Addr → Except Wrong (Option Clist.Addr)
  | fuel, n =>
    if n = s.head then .ok none
    else match fuel with
      | 0 => .error .running
      | fuel + 1 =>
        if s.mem.live n then
          if p (s.walk n) then .ok (some n)
          else find s p fuel (s.mem.next n)
        else .error (.mem .dead)

/-- The start of the loop. -/
def search (s : Store) (p : Xlate → Bool) (fuel : Nat) : Except Wrong (Option Clist.Addr) :=
  match getNext s.mem s.head with
  | .error f => .error (.mem f)
  | .ok n => find s p fuel n

/-- 617-638 `pwc_partial_insert`, where `calloc` returns `a`. -/
def insert (fuel : Nat) (s : Store) (x : Xlate) (a : Clist.Addr) : Except Wrong Store :=
  match search s (xmatch · x) fuel with
  | .error e => .error e
  | .ok (some n) =>
    match merge (s.walk n) x with
    | .error b => .error (.merge b)
    | .ok y => .ok { s with walk := fun k => if k = n then y else s.walk k }
  | .ok none =>
    match addTail (alloc s.mem a 0 0) s.head a with
    | .error f => .error (.mem f)
    | .ok m => .ok { s with mem := m, walk := fun k => if k = a then x else s.walk k, count := s.count + 1 }

/-- 653-655, 699-701: unlink and free. -/
def remove (s : Store) (n : Clist.Addr) : Except Wrong Store :=
  match del s.mem n with
  | .error f => .error (.mem f)
  | .ok m => .ok { s with mem := free m n, count := s.count - 1 }

/-- 645-660 `pwc_partial_lookup`. -/
def lookup (fuel : Nat) (s : Store) (x : Xlate) : Except Wrong (Option Xlate × Store) :=
  match search s (xmatch · x) fuel with
  | .error e => .error e
  | .ok none => .ok (none, s)
  | .ok (some n) =>
    match merge (s.walk n) x with
    | .error b => .error (.merge b)
    | .ok y => match remove s n with
      | .error e => .error e
      | .ok s => .ok (some y, s)

/-- 691-706 `pwc_address_lookup`. -/
def byAddress (fuel : Nat) (s : Store) (address real : BitVec 64) : Except Wrong (Option Xlate × Store) :=
  match search s (matchAddress · address real) fuel with
  | .error e => .error e
  | .ok none => .ok (none, s)
  | .ok (some n) => match remove s n with
    | .error e => .error e
    | .ok s' => .ok (some (s.walk n), s')

/-- What the decoder does with the store; with the address `calloc` would return. -/
inductive Use where
  | insert (x : Xlate) (a : Clist.Addr)
  | lookup (x : Xlate)
  | byAddress (address real : BitVec 64)

/-- One use. -/
def use (fuel : Nat) (s : Store) : Use → Except Wrong (Option Xlate × Store)
  | .insert x a => match insert fuel s x a with
    | .error e => .error e
    | .ok s => .ok (none, s)
  | .lookup x => lookup fuel s x
  | .byAddress a r => byAddress fuel s a r

/-- A series of uses: what each returns, and the store then. -/
def uses (fuel : Nat) (s : Store) : List Use → Except Wrong (List (Option Xlate) × Store)
  | [] => .ok ([], s)
  | u :: us => match use fuel s u with
    | .error e => .error e
    | .ok (y, s) => match uses fuel s us with
      | .error e => .error e
      | .ok (ys, s) => .ok (y :: ys, s)

/-- The same on the list of walks (`Verif/Htm/Pwc.lean`). -/
def useList (l : List Xlate) : Use → Except Bad (Option Xlate × List Xlate)
  | .insert x _ => match partialInsert l x with
    | .error e => .error e
    | .ok l => .ok (none, l)
  | .lookup x => partialLookup l x
  | .byAddress a r => .ok (addressLookup l a r)

def usesList (l : List Xlate) : List Use → Except Bad (List (Option Xlate) × List Xlate)
  | [] => .ok ([], l)
  | u :: us => match useList l u with
    | .error e => .error e
    | .ok (y, l) => match usesList l us with
      | .error e => .error e
      | .ok (ys, l) => .ok (y :: ys, l)

/-- The allocator returns addresses where nothing lives. -/
def Fresh (fuel : Nat) : Store → List Use → Prop
  | _, [] => True
  | s, u :: us => (∀ x a, u = .insert x a → s.mem.live a = false) ∧ ∀ y s', use fuel s u = .ok (y, s') → Fresh fuel s' us

/-- The store holds the walks `l`. -/
def Holds (s : Store) (l : List Xlate) : Prop :=
  ∃ xs, Ring s.mem s.head xs ∧ xs.map s.walk = l ∧ s.count = BitVec.ofNat 32 l.length

theorem find_eq (s : Store) (p : Xlate → Bool) : ∀ {xs : List Clist.Addr} {q : Clist.Addr} (_ : Seg s.mem q xs s.head)
    (_ : s.head ∉ xs) (fuel : Nat), xs.length ≤ fuel →
    find s p fuel (s.mem.next q) = .ok (xs.find? fun n => p (s.walk n))
  | [], q, h, hh, fuel, hf => by
    rw [h.2.2.1]; unfold find; rw [if_pos rfl]; rfl
  | x :: xs, q, h, hh, fuel, hf => by
    rw [h.1.2.2.1]
    simp only [List.mem_cons, not_or] at hh
    unfold find
    rw [if_neg (Ne.symm hh.1)]
    cases fuel with
    | zero => simp at hf
    | succ fuel =>
      have := find_eq s p h.2 hh.2 fuel (by simpa using hf)
      dsimp only
      rw [if_pos h.1.2.1, List.find?_cons]
      by_cases hp : p (s.walk x) = true
      · rw [if_pos hp, hp]
      · rw [if_neg hp, this]
        simp [hp]

theorem search_eq {s : Store} {xs : List Clist.Addr} (r : Ring s.mem s.head xs) (p : Xlate → Bool) {fuel : Nat}
    (hf : xs.length ≤ fuel) : search s p fuel = .ok (xs.find? fun n => p (s.walk n)) := by
  unfold search
  rw [getNext_ok (ring_live r _ (by simp))]
  exact find_eq s p r.2 (List.nodup_cons.mp r.1).1 fuel hf

theorem insert_none (x : Xlate) : ∀ l : List Xlate, (∀ n ∈ l, xmatch n x = false) → partialInsert l x = .ok (l ++ [x])
  | [], _ => rfl
  | n :: l, h => by
    rw [partialInsert, h n (by simp), if_neg (by simp), insert_none x l fun m hm => h m (by simp [hm])]
    rfl

theorem insert_some (x : Xlate) (n : Xlate) (bs : List Xlate) (hn : xmatch n x = true) : ∀ as : List Xlate,
    (∀ n ∈ as, xmatch n x = false) → partialInsert (as ++ n :: bs) x = match merge n x with
      | .error e => .error e
      | .ok m => .ok (as ++ m :: bs)
  | [], _ => by
    rw [List.nil_append, partialInsert, if_pos hn]; rfl
  | a :: as, h => by
    rw [List.cons_append, partialInsert, h a (by simp), if_neg (by simp),
      insert_some x n bs hn as fun m hm => h m (by simp [hm])]
    cases merge n x <;> rfl

theorem lookup_none (x : Xlate) : ∀ l : List Xlate, (∀ n ∈ l, xmatch n x = false) → partialLookup l x = .ok (none, l)
  | [], _ => rfl
  | n :: l, h => by
    rw [partialLookup, h n (by simp), if_neg (by simp), lookup_none x l fun m hm => h m (by simp [hm])]

theorem lookup_some (x : Xlate) (n : Xlate) (bs : List Xlate) (hn : xmatch n x = true) : ∀ as : List Xlate,
    (∀ n ∈ as, xmatch n x = false) → partialLookup (as ++ n :: bs) x = match merge n x with
      | .error e => .error e
      | .ok m => .ok (some m, as ++ bs)
  | [], _ => by
    rw [List.nil_append, partialLookup, if_pos hn]; rfl
  | a :: as, h => by
    rw [List.cons_append, partialLookup, h a (by simp), if_neg (by simp),
      lookup_some x n bs hn as fun m hm => h m (by simp [hm])]
    cases merge n x <;> rfl

theorem address_none (a r : BitVec 64) : ∀ l : List Xlate, (∀ n ∈ l, matchAddress n a r = false) →
    addressLookup l a r = (none, l)
  | [], _ => rfl
  | n :: l, h => by
    rw [addressLookup, h n (by simp), if_neg (by simp), address_none a r l fun m hm => h m (by simp [hm])]

theorem address_some (a r : BitVec 64) (n : Xlate) (bs : List Xlate) (hn : matchAddress n a r = true) : ∀ as : List Xlate,
    (∀ n ∈ as, matchAddress n a r = false) → addressLookup (as ++ n :: bs) a r = (some n, as ++ bs)
  | [], _ => by
    rw [List.nil_append, addressLookup, if_pos hn]; rfl
  | x :: as, h => by
    rw [List.cons_append, addressLookup, h x (by simp), if_neg (by simp),
      address_some a r n bs hn as fun m hm => h m (by simp [hm])]
    rfl

theorem remove_ok {s : Store} {as bs : List Clist.Addr} {n : Clist.Addr} (r : Ring s.mem s.head (as ++ n :: bs))
    (hc : s.count = BitVec.ofNat 32 (as ++ n :: bs).length) :
    ∃ s', remove s n = .ok s' ∧ Holds s' (as.map s.walk ++ bs.map s.walk) := by
  obtain ⟨l1, l2, l3, l4, l5, l6⟩ := ring_live_split r
  obtain ⟨_, _, hp, hn, d1, d2, d3, d4, d5, _⟩ := ring_split r
  refine ⟨_, by unfold remove; rw [del_link l2 l3 l4 l6], as ++ bs, ring_free (ring_del r) ?_, by simp, ?_⟩
  · simp only [List.mem_cons, List.mem_append, not_or]; exact ⟨Ne.symm d1, d4, d5⟩
  · show s.count - 1 = _
    rw [hc]
    apply BitVec.eq_of_toNat_eq
    simp
    omega

theorem find_split {xs : List Clist.Addr} {p : Clist.Addr → Bool} {n : Clist.Addr} (h : xs.find? p = some n) :
    ∃ as bs, xs = as ++ n :: bs ∧ p n = true ∧ ∀ a ∈ as, p a = false := by
  obtain ⟨h1, as, bs, h2, h3⟩ := List.find?_eq_some_iff_append.mp h
  exact ⟨as, bs, h2, h1, fun a ha => by simpa using h3 a ha⟩

/-- One use of the store does what it does on the list. -/
theorem use_eq {s : Store} {l : List Xlate} (i : Holds s l) {fuel : Nat} (hf : l.length ≤ fuel) (u : Use)
    (hu : ∀ x a, u = .insert x a → s.mem.live a = false) :
    match useList l u with
    | .error b => use fuel s u = .error (.merge b)
    | .ok (y, l') => ∃ s', use fuel s u = .ok (y, s') ∧ Holds s' l' ∧ l'.length ≤ l.length + 1 := by
  obtain ⟨xs, r, hm, hc⟩ := i
  have hlen : xs.length = l.length := by rw [← hm]; simp
  have hf' : xs.length ≤ fuel := by omega
  cases u with
  | insert x a =>
    have ha := hu x a rfl
    simp only [useList, use, Fragments.insert, search_eq r (xmatch · x) hf']
    cases hx : xs.find? (fun n => xmatch (s.walk n) x) with
    | none =>
      have hall : ∀ n ∈ l, xmatch n x = false := by
        intro n hn
        rw [← hm, List.mem_map] at hn
        obtain ⟨k, hk, rfl⟩ := hn
        simpa using List.find?_eq_none.mp hx k hk
      rw [insert_none x l hall]
      dsimp only
      have aout : a ∉ s.head :: xs := by
        intro h
        have := ring_live r a h
        rw [ha] at this; cases this
      have r' : Ring (alloc s.mem a 0 0) s.head xs := by
        refine ring_congr r fun b hb => ?_
        have : b ≠ a := fun e => aout (e ▸ hb)
        simp [alloc, upd, this]
      have pv := ring_prev r'
      have hla : (alloc s.mem a 0 0).live a = true := by simp [alloc]
      have ht : addTail (alloc s.mem a 0 0) s.head a = .ok _ := addBefore_link (ring_live r' _ (by simp)) hla
        (ring_live r' _ pv) (fun h => aout (by simp [h])) (fun h => aout (h ▸ pv))
      rw [ht]
      refine ⟨_, rfl, ⟨xs ++ [a], ring_addTail r' hla aout, ?_, ?_⟩, by simp⟩
      · show (xs ++ [a]).map (fun k => if k = a then x else s.walk k) = _
        rw [List.map_append, List.map_cons, List.map_nil, if_pos rfl, ← hm]
        congr 1
        apply List.map_congr_left
        intro k hk
        rw [if_neg]
        rintro rfl
        exact aout (by simp [hk])
      · show s.count + 1 = _
        rw [hc]
        apply BitVec.eq_of_toNat_eq
        simp
    | some n =>
      obtain ⟨as, bs, rfl, hn, hall⟩ := find_split hx
      have hall' : ∀ m ∈ as.map s.walk, xmatch m x = false := by
        intro m h
        obtain ⟨k, hk, rfl⟩ := List.mem_map.mp h
        exact hall k hk
      rw [List.map_append, List.map_cons] at hm
      rw [← hm, insert_some x _ _ hn _ hall']
      cases hg : merge (s.walk n) x with
      | error b => dsimp only; simp only [hg]
      | ok y =>
        obtain ⟨_, _, _, _, d1, d2, d3, d4, d5, _⟩ := ring_split r
        dsimp only
        simp only [hg]
        refine ⟨_, rfl, ⟨as ++ n :: bs, r, ?_, ?_⟩, by simp⟩
        · show (as ++ n :: bs).map (fun k => if k = n then y else s.walk k) = _
          rw [List.map_append, List.map_cons, if_pos rfl]
          congr 1
          · apply List.map_congr_left
            intro k hk
            rw [if_neg]
            rintro rfl; exact d4 hk
          · congr 1
            apply List.map_congr_left
            intro k hk
            rw [if_neg]
            rintro rfl; exact d5 hk
        · rw [← hm] at hc
          show s.count = _
          rw [hc]; simp
  | lookup x =>
    simp only [useList, use, Fragments.lookup, search_eq r (xmatch · x) hf']
    cases hx : xs.find? (fun n => xmatch (s.walk n) x) with
    | none =>
      have hall : ∀ n ∈ l, xmatch n x = false := by
        intro n hn
        rw [← hm, List.mem_map] at hn
        obtain ⟨k, hk, rfl⟩ := hn
        simpa using List.find?_eq_none.mp hx k hk
      rw [lookup_none x l hall]
      exact ⟨s, rfl, ⟨xs, r, hm, hc⟩, by simp⟩
    | some n =>
      obtain ⟨as, bs, rfl, hn, hall⟩ := find_split hx
      have hall' : ∀ m ∈ as.map s.walk, xmatch m x = false := by
        intro m h
        obtain ⟨k, hk, rfl⟩ := List.mem_map.mp h
        exact hall k hk
      obtain ⟨s', h1, h2⟩ := remove_ok r (by rw [hc, hlen])
      rw [List.map_append, List.map_cons] at hm
      rw [← hm, lookup_some x _ _ hn _ hall']
      cases hg : merge (s.walk n) x with
      | error b => dsimp only; simp only [hg]
      | ok y =>
        dsimp only
        simp only [hg, h1]
        exact ⟨s', rfl, h2, by simp; omega⟩
  | byAddress ad re =>
    simp only [useList, use, Fragments.byAddress, search_eq r (matchAddress · ad re) hf']
    cases hx : xs.find? (fun n => matchAddress (s.walk n) ad re) with
    | none =>
      have hall : ∀ n ∈ l, matchAddress n ad re = false := by
        intro n hn
        rw [← hm, List.mem_map] at hn
        obtain ⟨k, hk, rfl⟩ := hn
        simpa using List.find?_eq_none.mp hx k hk
      rw [address_none ad re l hall]
      exact ⟨s, rfl, ⟨xs, r, hm, hc⟩, by simp⟩
    | some n =>
      obtain ⟨as, bs, rfl, hn, hall⟩ := find_split hx
      have hall' : ∀ m ∈ as.map s.walk, matchAddress m ad re = false := by
        intro m h
        obtain ⟨k, hk, rfl⟩ := List.mem_map.mp h
        exact hall k hk
      obtain ⟨s', h1, h2⟩ := remove_ok r (by rw [hc, hlen])
      rw [List.map_append, List.map_cons] at hm
      rw [← hm, address_some ad re _ _ hn _ hall']
      dsimp only
      simp only [h1]
      exact ⟨s', rfl, h2, by simp; omega⟩

theorem uses_eq {fuel : Nat} : ∀ (us : List Use) {s : Store} {l : List Xlate} (_ : Holds s l)
    (_ : l.length + us.length ≤ fuel) (_ : Fresh fuel s us),
    match usesList l us with
    | .error b => uses fuel s us = .error (.merge b)
    | .ok (ys, l') => ∃ s', uses fuel s us = .ok (ys, s') ∧ Holds s' l'
  | [], s, l, i, hf, _ => ⟨s, rfl, i⟩
  | u :: us, s, l, i, hf, fr => by
    simp only [List.length_cons] at hf
    have h := use_eq i (fuel := fuel) (by omega) u fr.1
    rw [usesList, uses]
    cases hu : useList l u with
    | error b =>
      rw [hu] at h
      dsimp only at h ⊢
      rw [h]
    | ok r =>
      obtain ⟨y, l1⟩ := r
      rw [hu] at h
      obtain ⟨s1, h1, h2, h3⟩ := h
      have ih := uses_eq us h2 (by omega) (fr.2 y s1 h1)
      dsimp only at ih ⊢
      rw [h1]
      dsimp only
      cases hus : usesList l1 us with
      | error b =>
        rw [hus] at ih
        dsimp only at ih ⊢
        rw [ih]
      | ok r =>
        obtain ⟨ys, l2⟩ := r
        rw [hus] at ih
        obtain ⟨s2, h4, h5⟩ := ih
        dsimp only
        rw [h4]
        exact ⟨s2, rfl, h5⟩

end Clist.Fragments
