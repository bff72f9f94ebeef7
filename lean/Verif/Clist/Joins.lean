import Verif.Clist.Steps

/-! # Joining lists and going through them -/

namespace Clist
open ClistSpec

theorem two_out {s : State} {m : Mem} (i : Inv s m) {t f k : Addr} {xs ys zs : List Addr} (et : s.lists t = some xs)
    (ef : s.lists f = some ys) (hk : s.lists k = some zs) (h1 : k ≠ t) (h2 : k ≠ f) :
    ∀ x, x ∈ t :: xs ∨ x ∈ f :: ys → x ∉ k :: zs := by
  rintro x (h | h)
  · exact i.disj t k xs zs (Ne.symm h1) et hk x h
  · exact i.disj f k ys zs (Ne.symm h2) ef hk x h

/-- What the joins have in common: a ring of both lists with the second head in it, made by links within the two. -/
theorem inv_join {s : State} {m m2 : Mem} {t f : Addr} {xs ys as bs : List Addr} (i : Inv s m) (et : s.lists t = some xs)
    (ef : s.lists f = some ys) (hl : m2.live = m.live) (r : Ring m2 t (as ++ f :: bs))
    (hx : ∀ x ∈ as ++ bs, x ∈ xs ∨ x ∈ ys)
    (hf : ∀ k zs, k ≠ t → k ≠ f → s.lists k = some zs → Seg m2 k zs k) :
    ∃ m', ((del m2 f) >>= fun m => headInit m f) = .ok m' ∧ Inv ((s.put t (as ++ bs)).put f []) m' := by
  obtain ⟨l1, l2, l3, l4, l5, l6⟩ := ring_live_split r
  obtain ⟨_, _, hp, hn, d1, d2, d3, d4, d5, _⟩ := ring_split r
  have hr := ring_del r
  have mem : ∀ x, x ∈ t :: (as ++ f :: bs) → x ∈ t :: xs ∨ x ∈ f :: ys := by
    intro x hx'
    simp only [List.mem_cons, List.mem_append] at hx' hx ⊢
    rcases hx' with h | h | h | h
    · exact Or.inl (Or.inl h)
    · rcases hx x (Or.inl h) with h | h
      · exact Or.inl (Or.inr h)
      · exact Or.inr (Or.inr h)
    · exact Or.inr (Or.inl h)
    · rcases hx x (Or.inr h) with h | h
      · exact Or.inl (Or.inr h)
      · exact Or.inr (Or.inr h)
  have tf : t ≠ f := d1
  have fout : f ∉ t :: (as ++ bs) := by
    simp only [List.mem_cons, List.mem_append, not_or]; exact ⟨Ne.symm d1, d4, d5⟩
  refine ⟨(m2.link (m2.prev f) (m2.next f)).link f f, ?_, ?_⟩
  · rw [del_link l2 l3 l4 l6, ok_bind, headInit_link (by exact l2)]
  · constructor
    · show m2.live = s.live
      rw [hl]; exact i.live
    · intro k zs e
      rw [put_lists, put_lists] at e
      by_cases hk : k = f
      · rw [if_pos hk] at e; cases e; subst hk
        exact ring_init (by exact l2)
      · rw [if_neg hk] at e
        by_cases hk' : k = t
        · rw [if_pos hk'] at e; cases e; subst hk'
          exact ⟨hr.1, seg_outside hr.2 fout fout⟩
        · rw [if_neg hk'] at e
          have out := two_out i et ef e hk' hk
          have of := out f (Or.inr (by simp))
          refine ⟨(i.ring k zs e).1, seg_outside (seg_outside (hf k zs hk' hk e) (out _ (mem _ (mem_prev hp)))
            (out _ (mem _ (mem_next hn)))) of of⟩
    · have base : ∀ k zs, k ≠ t → k ≠ f → s.lists k = some zs → ∀ a, a ∈ t :: (as ++ bs) ∨ a = f → a ∉ k :: zs := by
        intro k zs h1 h2 e a ha
        refine two_out i et ef e h1 h2 a (mem a ?_)
        simp only [List.mem_cons, List.mem_append] at ha ⊢
        rcases ha with (h | h | h) | h <;> simp [h]
      intro k l zs ws hkl e1 e2 a ha
      rw [put_lists, put_lists] at e1 e2
      by_cases k1 : k = f
      · rw [if_pos k1] at e1; cases e1
        rw [List.mem_singleton] at ha
        subst ha; subst k1
        rw [if_neg (Ne.symm hkl)] at e2
        by_cases l1 : l = t
        · rw [if_pos l1] at e2; cases e2; subst l1; exact fout
        · rw [if_neg l1] at e2
          exact base l ws l1 (Ne.symm hkl) e2 a (Or.inr rfl)
      · rw [if_neg k1] at e1
        by_cases k2 : k = t
        · rw [if_pos k2] at e1; cases e1; subst k2
          by_cases l1 : l = f
          · rw [if_pos l1] at e2; cases e2; subst l1
            rw [List.mem_singleton]; rintro rfl; exact fout ha
          · rw [if_neg l1, if_neg (Ne.symm hkl)] at e2
            exact base l ws (Ne.symm hkl) l1 e2 a (Or.inl ha)
        · rw [if_neg k2] at e1
          by_cases l1 : l = f
          · rw [if_pos l1] at e2; cases e2; subst l1
            rw [List.mem_singleton]; rintro rfl; exact base k zs k2 k1 e1 a (Or.inr rfl) ha
          · rw [if_neg l1] at e2
            by_cases l2 : l = t
            · rw [if_pos l2] at e2; cases e2; subst l2
              exact fun hb => base k zs k2 k1 e1 a (Or.inl hb) ha
            · rw [if_neg l2] at e2
              exact i.disj k l zs ws hkl e1 e2 a ha

theorem step_append {s : State} {m : Mem} (i : Inv s m) {t f : Addr} (ht : Head s t) (hf : Head s f) (ne : t ≠ f) :
    ∃ m', appendList m t f = .ok m' ∧ Inv ((s.put t (s.at t ++ s.at f)).put f []) m' := by
  obtain ⟨xs, et⟩ := ht
  obtain ⟨ys, ef⟩ := hf
  rw [at_eq et, at_eq ef]
  have rt := i.ring _ _ et
  have rf := i.ring _ _ ef
  have hd := i.disj t f xs ys ne et ef
  have pt := ring_prev rt
  have pf := ring_prev rf
  obtain ⟨m', h1, h2⟩ := inv_join (m2 := (m.link (m.prev f) t).link (m.prev t) f) i et ef rfl (ring_append rt rf hd)
    (fun x hx => List.mem_append.mp hx) (by
      intro k zs h1 h2 e
      have out := two_out i et ef e h1 h2
      exact seg_outside (seg_outside (i.ring k zs e).2 (out _ (Or.inr pf)) (out _ (Or.inl (by simp))))
        (out _ (Or.inl pt)) (out _ (Or.inr (by simp))))
  refine ⟨m', ?_, h2⟩
  rw [← h1]
  simp only [appendList, getPrev, setPrev, setNext, ring_live rt _ pt, ring_live rf _ pf, ring_live rt t (by simp),
    ring_live rf f (by simp), if_true, ok_bind, Mem.link]

theorem step_prepend {s : State} {m : Mem} (i : Inv s m) {t f : Addr} (ht : Head s t) (hf : Head s f) (ne : t ≠ f) :
    ∃ m', prependList m t f = .ok m' ∧ Inv ((s.put t (s.at f ++ s.at t)).put f []) m' := by
  obtain ⟨xs, et⟩ := ht
  obtain ⟨ys, ef⟩ := hf
  rw [at_eq et, at_eq ef]
  have rt := i.ring _ _ et
  have rf := i.ring _ _ ef
  have hd := i.disj t f xs ys ne et ef
  have nt := ring_next rt
  have pf := ring_prev rf
  obtain ⟨m', h1, h2⟩ := inv_join (m2 := (m.link t f).link (m.prev f) (m.next t)) (as := []) i et ef rfl
    (ring_prepend rt rf hd) (fun x hx => (List.mem_append.mp (show x ∈ ys ++ xs from hx)).symm) (by
      intro k zs h1 h2 e
      have out := two_out i et ef e h1 h2
      exact seg_outside (seg_outside (i.ring k zs e).2 (out _ (Or.inl (by simp))) (out _ (Or.inr (by simp))))
        (out _ (Or.inr pf)) (out _ (Or.inl nt)))
  refine ⟨m', ?_, h2⟩
  rw [← h1]
  simp only [prependList, getPrev, getNext, setPrev, setNext, ring_live rt _ nt, ring_live rf _ pf, ring_live rt t (by simp),
    ring_live rf f (by simp), if_true, ok_bind, Mem.link]

/-! ## Going through a list -/

theorem visit_next {m : Mem} {h : Addr} : ∀ {xs : List Addr} {p : Addr} (_ : Seg m p xs h) (_ : h ∉ xs) (fuel : Nat),
    xs.length ≤ fuel → visit m getNext h fuel (m.next p) = .ok (some xs)
  | [], p, s, hh, fuel, hf => by
    rw [s.2.2.1]; unfold visit; rw [if_pos rfl]
  | x :: xs, p, s, hh, fuel, hf => by
    rw [s.1.2.2.1]
    simp only [List.mem_cons, not_or] at hh
    unfold visit
    rw [if_neg (Ne.symm hh.1)]
    cases fuel with
    | zero => simp at hf
    | succ fuel =>
      have := visit_next s.2 hh.2 fuel (by simpa using hf)
      simp only [getNext_ok s.1.2.1, ok_bind, this]
      rfl

theorem visit_prev {m : Mem} {h : Addr} : ∀ (n : Nat) {xs : List Addr} {q : Addr} (_ : xs.length = n) (_ : Seg m h xs q) (_ : h ∉ xs)
    (fuel : Nat), xs.length ≤ fuel → visit m getPrev h fuel (m.prev q) = .ok (some xs.reverse)
  | 0, xs, q, hn, s, hh, fuel, hf => by
    obtain rfl := List.length_eq_zero_iff.mp hn
    rw [s.2.2.2]; unfold visit; rw [if_pos rfl]; rfl
  | n + 1, xs, q, hn, s, hh, fuel, hf => by
    have hne : xs ≠ [] := by rintro rfl; simp at hn
    have e := (List.dropLast_concat_getLast hne).symm
    generalize xs.dropLast = as at e
    generalize xs.getLast hne = l at e
    subst e
    obtain ⟨s1, s2⟩ := seg_append.mp s
    rw [s2.2.2.2]
    simp only [List.mem_append, List.mem_singleton, not_or] at hh
    unfold visit
    rw [if_neg (Ne.symm hh.2)]
    cases fuel with
    | zero => simp at hf
    | succ fuel =>
      have := visit_prev n (by simpa using hn) s1 hh.1 fuel (by simpa using hf)
      simp only [getPrev_ok s2.1, ok_bind, this]
      simp [pure, Except.pure]

theorem forEach_eq {m : Mem} {h : Addr} {xs : List Addr} (r : Ring m h xs) {fuel : Nat} (hf : xs.length ≤ fuel) :
    forEach m h fuel = .ok (some xs) := by
  unfold forEach
  rw [getNext_ok (ring_live r h (by simp)), ok_bind]
  exact visit_next r.2 (List.nodup_cons.mp r.1).1 fuel hf

theorem forEachRev_eq {m : Mem} {h : Addr} {xs : List Addr} (r : Ring m h xs) {fuel : Nat} (hf : xs.length ≤ fuel) :
    forEachRev m h fuel = .ok (some xs.reverse) := by
  unfold forEachRev
  rw [getPrev_ok (ring_live r h (by simp)), ok_bind]
  exact visit_prev _ rfl r.2 (List.nodup_cons.mp r.1).1 fuel hf

theorem checkLoop_eq {m : Mem} {h : Addr} : ∀ {xs : List Addr} {p : Addr} (_ : Seg m p xs h) (_ : h ∉ xs) (fuel : Nat),
    xs.length ≤ fuel → checkLoop m h fuel p (m.next p) = .ok (some (some (m.prev h)))
  | [], p, s, hh, fuel, hf => by
    rw [s.2.2.1]; unfold checkLoop; rw [if_pos rfl, s.2.2.2]
  | x :: xs, p, s, hh, fuel, hf => by
    rw [s.1.2.2.1]
    simp only [List.mem_cons, not_or] at hh
    unfold checkLoop
    rw [if_neg (Ne.symm hh.1)]
    cases fuel with
    | zero => simp at hf
    | succ fuel =>
      have := checkLoop_eq s.2 hh.2 fuel (by simpa using hf)
      simp [getNext_ok s.1.2.1, getPrev_ok s.1.2.1, ok_bind, this, s.1.2.2.2]

theorem check_eq {m : Mem} {h : Addr} {xs : List Addr} (r : Ring m h xs) {fuel : Nat} (hf : xs.length ≤ fuel) :
    check m h fuel = .ok (some true) := by
  unfold check
  have hl := ring_live r h (by simp)
  rw [getNext_ok hl, ok_bind, checkLoop_eq r.2 (List.nodup_cons.mp r.1).1 fuel hf, ok_bind]
  simp [getPrev_ok hl, ok_bind, pure, Except.pure]

theorem top_eq {m : Mem} {h : Addr} {xs : List Addr} (r : Ring m h xs) : top m h = .ok xs.head? := by
  have hl := ring_live r h (by simp)
  cases xs with
  | nil => simp [top, isEmpty_eq r, ok_bind, pure, Except.pure]
  | cons x xs =>
    have hn : m.next h = x := r.2.1.2.2.1
    simp [top, isEmpty_eq r, ok_bind, pure, Except.pure, getNext_ok hl, hn]

theorem seg_last {m : Mem} : ∀ {xs : List Addr} {p q : Addr}, Seg m p xs q → m.prev q = (xs.getLast?).getD p
  | [], _, _, h => h.2.2.2
  | x :: xs, p, q, h => by
    rw [seg_last h.2]
    cases xs with
    | nil => rfl
    | cons y ys => simp [List.getLast?_cons]

theorem tail_eq {m : Mem} {h : Addr} {xs : List Addr} (r : Ring m h xs) : tail m h = .ok xs.getLast? := by
  have hl := ring_live r h (by simp)
  have hp := seg_last r.2
  cases xs with
  | nil => simp [tail, isEmpty_eq r, ok_bind, pure, Except.pure]
  | cons x xs =>
    simp only [tail, isEmpty_eq r, ok_bind, pure, Except.pure, getPrev_ok hl, hp, List.isEmpty_cons]
    simp [List.getLast?_cons]

/-! ## Taking elements off on the way -/

theorem ring_free {m : Mem} {h a : Addr} {xs : List Addr} (r : Ring m h xs) (ha : a ∉ h :: xs) : Ring (free m a) h xs := by
  refine ring_congr r fun b hb => ?_
  have : b ≠ a := fun e => ha (e ▸ hb)
  simp [free, this]

theorem seg_free {m : Mem} {k a : Addr} {ys : List Addr} (s : Seg m k ys k) (ha : a ∉ k :: ys) : Seg (free m a) k ys k := by
  refine seg_congr s fun b hb => ?_
  have : b ≠ a := by
    rintro rfl
    apply ha
    rcases hb with h | h | h <;> simp [h]
  simp [free, this]

theorem ring_next_split {m : Mem} {h x : Addr} {as bs : List Addr} (r : Ring m h (as ++ x :: bs)) :
    m.next x = (bs ++ [h]).head (by simp) := by
  have s := (ring_split r).2.1
  cases bs with
  | nil => exact s.2.2.1
  | cons b bs => exact s.1.2.2.1

theorem sweep_eq (rm : Addr → Bool) (h : Addr) : ∀ (R K : List Addr) (m : Mem) (fuel : Nat) (i nxt : Addr),
    Ring m h (K ++ R) → R.length ≤ fuel → i = (R ++ [h]).head (by simp) → nxt = m.next i →
    ∃ m', sweep rm h fuel m i nxt = .ok (some m') ∧ Ring m' h (K ++ R.filter fun x => !rm x) ∧
      (∀ b, m'.live b = (m.live b && !(R.contains b && rm b))) ∧
      ∀ k ys, (∀ a ∈ h :: (K ++ R), a ∉ k :: ys) → Seg m k ys k → Seg m' k ys k
  | [], K, m, fuel, i, nxt, r, hf, hi, hn => by
    simp only [List.nil_append, List.head_cons] at hi
    refine ⟨m, ?_, by simpa using r, by simp, fun _ _ _ s => s⟩
    unfold sweep
    rw [if_pos hi]
  | x :: R, K, m, fuel, i, nxt, r, hf, hi, hn => by
    simp only [List.cons_append, List.head_cons] at hi
    subst hi
    obtain ⟨l1, l2, l3, l4, l5, l6⟩ := ring_live_split r
    obtain ⟨_, _, hp, hnx, d1, d2, d3, d4, d5, d6, d7, d8, d9⟩ := ring_split r
    have hhead := ring_next_split r
    unfold sweep
    rw [if_neg (Ne.symm d1)]
    cases fuel with
    | zero => simp at hf
    | succ fuel =>
      dsimp only
      by_cases hr : rm i = true
      · rw [if_pos hr, del_link l2 l3 l4 l6, ok_bind]
        have r' := ring_del r
        have xout : i ∉ h :: (K ++ R) := by
          simp only [List.mem_cons, List.mem_append, not_or]; exact ⟨Ne.symm d1, d4, d5⟩
        have r'' := ring_free r' xout
        have lx : (free (m.link (m.prev i) (m.next i)) i).live nxt = true := by
          simp only [free, Mem.link]
          rw [hn, if_neg l6]; exact l4
        obtain ⟨m', e, h1, h2, h3⟩ := sweep_eq rm h R K (free (m.link (m.prev i) (m.next i)) i) fuel nxt
          ((free (m.link (m.prev i) (m.next i)) i).next nxt) r'' (by simpa using hf) (by rw [hn, hhead]) rfl
        refine ⟨m', ?_, ?_, ?_, ?_⟩
        · show (getNext (free (m.link (m.prev i) (m.next i)) i) nxt >>= _) = _
          rw [getNext_ok lx, ok_bind, e]
        · rw [List.filter_cons, if_neg (by simp [hr])]; exact h1
        · intro b
          rw [h2 b]
          simp only [free, Mem.link, List.contains_cons]
          by_cases hb : b = i
          · subst hb; simp [hr]
          · have hb' : (b == i) = false := by simpa using hb
            simp [hb, hb']
        · intro k ys hk s
          apply h3 k ys
          · intro a ha
            apply hk
            simp only [List.mem_cons, List.mem_append] at ha ⊢
            rcases ha with h | h | h <;> simp [h]
          · apply seg_free _ (hk i (by simp))
            exact seg_outside s (hk _ (mem_prev hp)) (hk _ (mem_next hnx))
      · rw [if_neg hr]
        have lx : m.live nxt = true := by rw [hn]; exact l4
        obtain ⟨m', e, h1, h2, h3⟩ := sweep_eq rm h R (K ++ [i]) m fuel nxt (m.next nxt) (by simpa using r)
          (by simpa using hf) (by rw [hn, hhead]) rfl
        refine ⟨m', ?_, ?_, ?_, ?_⟩
        · rw [getNext_ok lx, ok_bind, e]
        · rw [List.filter_cons, if_pos (by simp [hr])]
          rw [List.append_assoc] at h1
          exact h1
        · intro b
          rw [h2 b]
          simp only [List.contains_cons]
          by_cases hb : b = i
          · subst hb; simp [hr]
          · have hb' : (b == i) = false := by simpa using hb
            simp [hb, hb']
        · intro k ys hk s
          refine h3 k ys ?_ s
          intro a ha
          apply hk
          simp only [List.mem_cons, List.mem_append, List.not_mem_nil, or_false] at ha ⊢
          rcases ha with h | (h | h) | h <;> simp [h]

theorem step_sweep {s : State} {m : Mem} (i : Inv s m) {h : Addr} {xs : List Addr} (e : s.lists h = some xs) (rm : Addr → Bool)
    {fuel : Nat} (hf : xs.length ≤ fuel) :
    ∃ m', forEachSafe rm m h fuel = .ok (some m') ∧ Inv (after s (.sweep h rm fuel)) m' := by
  have r := i.ring _ _ e
  have hl := ring_live r h (by simp)
  have hnl := ring_live r _ (ring_next r)
  have hh : m.next h = (xs ++ [h]).head (by simp) := by
    cases xs with
    | nil => exact r.2.2.2.1
    | cons x xs => exact r.2.1.2.2.1
  obtain ⟨m', h1, h2, h3, h4⟩ := sweep_eq rm h xs [] m fuel (m.next h) (m.next (m.next h)) r hf hh rfl
  refine ⟨m', by unfold forEachSafe; rw [getNext_ok hl, ok_bind, getNext_ok hnl, ok_bind, h1], ?_⟩
  have key : Inv (s.put h (xs.filter fun x => !rm x)) { m' with live := m.live } := by
    refine inv_put i rfl ?_ ?_ ?_
    · refine ring_congr h2 fun b hb => ⟨?_, rfl, rfl⟩
      rw [ring_live h2 b hb]
      apply ring_live r
      simp only [List.nil_append, List.mem_cons, List.mem_filter] at hb ⊢
      rcases hb with h | h
      · exact Or.inl h
      · exact Or.inr h.1
    · intro k ys hk e'
      have s' := h4 k ys (by simpa using i.disj h k xs ys (Ne.symm hk) e e') (i.ring k ys e').2
      refine seg_congr s' fun b hb => ⟨?_, rfl, rfl⟩
      have hb' : b ∈ k :: ys := by rcases hb with h | h | h <;> simp [h]
      rw [ring_live ⟨(i.ring k ys e').1, s'⟩ b hb']
      exact ring_live (i.ring k ys e') b hb'
    · intro k ys hk e' a ha
      refine i.disj h k xs ys (Ne.symm hk) e e' a ?_
      simp only [List.mem_cons, List.mem_filter] at ha ⊢
      rcases ha with h | h
      · exact Or.inl h
      · exact Or.inr h.1
  constructor
  · funext b
    rw [h3 b, i.live]
    simp only [after, at_eq e]
  · intro k ys e'
    simp only [after, at_eq e] at e'
    by_cases hk : k = h
    · rw [put_lists, if_pos hk] at e'; cases e'; subst hk; exact h2
    · rw [put_lists, if_neg hk] at e'
      exact ⟨(i.ring k ys e').1, h4 k ys (by simpa using i.disj h k xs ys (Ne.symm hk) e e') (i.ring k ys e').2⟩
  · have := key.disj
    simp only [after, at_eq e]
    exact this

theorem step_ok {s : State} {m : Mem} (i : Inv s m) (o : Op) (a : Allowed s o) : ∃ m', stepOp m o = .ok m' ∧ Inv (after s o) m' := by
  cases o with
  | alloc a' x y => exact ⟨_, rfl, step_alloc i a⟩
  | free a' => exact ⟨_, rfl, step_free i a⟩
  | init h => exact step_init i a.1 a.2
  | add h n => exact step_add i a.1 a.2
  | addTail h n => exact step_addTail i a.1 a.2
  | addAfter h p n => exact step_addAfter i a.1 a.2
  | addBefore h p n => exact step_addBefore i a.1 a.2
  | del h n => exact step_del i a
  | delInit h n => exact step_delInit i a
  | delFrom h n => exact step_delFrom i a
  | swap h o n => exact step_swap i a.1 a.2
  | pop h =>
    obtain ⟨m', h1, h2⟩ := step_pop i a
    exact ⟨m', by simp only [stepOp, h1], h2⟩
  | append t f => exact step_append i a.1 a.2.1 a.2.2
  | prepend t f => exact step_prepend i a.1 a.2.1 a.2.2
  | sweep h rm fuel =>
    obtain ⟨xs, e, hf⟩ := a
    obtain ⟨m', h1, h2⟩ := step_sweep i e rm hf
    exact ⟨m', by simp only [stepOp, h1], h2⟩

theorem run_ok {s s' : State} {m : Mem} {ops : List Op} (i : Inv s m) (h : History s ops s') :
    ∃ m', run m ops = .ok m' ∧ Inv s' m' := by
  induction h generalizing m with
  | nil s => exact ⟨m, rfl, i⟩
  | cons s o ops s' a _ ih =>
    obtain ⟨m1, h1, h2⟩ := step_ok i o a
    obtain ⟨m', h3, h4⟩ := ih h2
    exact ⟨m', by simp only [run, h1, h3], h4⟩

theorem inv_start : Inv State.start Mem.empty :=
  ⟨rfl, fun _ _ e => (nomatch e), fun _ _ _ _ _ e => (nomatch e)⟩

end Clist
