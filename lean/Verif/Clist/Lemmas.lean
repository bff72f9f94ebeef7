import Verif.Clist.Model
import Verif.Clist.Spec

/-! # Chains of nodes and the links between them -/

namespace Clist

/-- `b` made the successor of `a`. -/
def Mem.link (m : Mem) (a b : Addr) : Mem := { m with next := upd m.next a b, prev := upd m.prev b a }

/-- The chain from `p` over `xs` to `q`. -/
def Seg (m : Mem) : Addr → List Addr → Addr → Prop
  | p, [], q => m.live p = true ∧ m.live q = true ∧ m.next p = q ∧ m.prev q = p
  | p, x :: xs, q => (m.live p = true ∧ m.live x = true ∧ m.next p = x ∧ m.prev x = p) ∧ Seg m x xs q

theorem upd_self (f : Addr → Addr) (a v : Addr) : upd f a v a = v := by simp [upd]

theorem upd_ne (f : Addr → Addr) (a v b : Addr) (h : b ≠ a) : upd f a v b = f b := by simp [upd, h]

theorem seg_append {m : Mem} : ∀ {xs : List Addr} {p y : Addr} {ys : List Addr} {q : Addr},
    Seg m p (xs ++ y :: ys) q ↔ Seg m p xs y ∧ Seg m y ys q
  | [], p, y, ys, q => by simp [Seg]
  | x :: xs, p, y, ys, q => by
    rw [List.cons_append, Seg, Seg, seg_append]
    exact and_assoc.symm

theorem seg_frame {m : Mem} {a b : Addr} : ∀ {xs : List Addr} {p q : Addr}, Seg m p xs q → a ∉ p :: xs → b ∉ xs ++ [q] →
    Seg (m.link a b) p xs q
  | [], p, q, h, ha, hb => by
    simp only [List.mem_cons, List.not_mem_nil, or_false, List.nil_append] at ha hb
    refine ⟨h.1, h.2.1, ?_, ?_⟩
    · simp only [Mem.link]; rw [upd_ne _ _ _ _ (Ne.symm ha)]; exact h.2.2.1
    · simp only [Mem.link]; rw [upd_ne _ _ _ _ (Ne.symm hb)]; exact h.2.2.2
  | x :: xs, p, q, h, ha, hb => by
    simp only [List.mem_cons, List.cons_append, not_or] at ha hb
    refine ⟨⟨h.1.1, h.1.2.1, ?_, ?_⟩, seg_frame h.2 (by simp [ha]) hb.2⟩
    · simp only [Mem.link]; rw [upd_ne _ _ _ _ (Ne.symm ha.1)]; exact h.1.2.2.1
    · simp only [Mem.link]; rw [upd_ne _ _ _ _ (Ne.symm hb.1)]; exact h.1.2.2.2

theorem seg_link {m : Mem} {a b : Addr} (ha : m.live a = true) (hb : m.live b = true) : Seg (m.link a b) a [] b :=
  ⟨ha, hb, upd_self .., upd_self ..⟩

theorem seg_live {m : Mem} : ∀ {xs : List Addr} {p q : Addr}, Seg m p xs q →
    m.live p = true ∧ m.live q = true ∧ ∀ x ∈ xs, m.live x = true
  | [], _, _, h => ⟨h.1, h.2.1, fun _ hx => by cases hx⟩
  | x :: xs, p, q, h => by
    obtain ⟨h1, h2, h3⟩ := seg_live h.2
    refine ⟨h.1.1, h2, fun y hy => ?_⟩
    rcases List.mem_cons.mp hy with rfl | hy
    · exact h1
    · exact h3 y hy

theorem seg_next {m : Mem} : ∀ {xs : List Addr} {p q : Addr}, Seg m p xs q → m.next p ∈ xs ++ [q]
  | [], _, _, h => by simp [h.2.2.1]
  | x :: xs, p, q, h => by simp [h.1.2.2.1]

theorem seg_prev {m : Mem} : ∀ {xs : List Addr} {p q : Addr}, Seg m p xs q → m.prev q ∈ p :: xs
  | [], _, _, h => by simp [h.2.2.2]
  | x :: xs, p, q, h => List.mem_cons_of_mem _ (seg_prev h.2)

/-- Another node at the beginning of a chain. -/
theorem seg_front {m : Mem} {p n : Addr} {xs : List Addr} {q : Addr} (h : Seg m p xs q) (hn : m.live n = true) (hx : n ∉ xs)
    (hd : (xs ++ [q]).Nodup) : Seg (m.link n (m.next p)) n xs q := by
  cases xs with
  | nil => rw [h.2.2.1]; exact seg_link hn h.2.1
  | cons x xs =>
    rw [h.1.2.2.1]
    rw [List.cons_append, List.nodup_cons] at hd
    exact ⟨seg_link hn h.1.2.1, seg_frame h.2 hx hd.1⟩

/-- Another node at the end of a chain. -/
theorem seg_back {m : Mem} {n : Addr} : ∀ {xs : List Addr} {p q : Addr}, Seg m p xs q → m.live n = true → n ∉ xs →
    (p :: xs).Nodup → Seg (m.link (m.prev q) n) p xs n
  | [], p, q, h, hn, _, _ => by rw [h.2.2.2]; exact seg_link h.1 hn
  | x :: xs, p, q, h, hn, hx, hd => by
    rw [List.nodup_cons] at hd
    have hp := seg_prev h.2
    have hxn : x ≠ n := fun e => hx (by simp [e])
    refine ⟨⟨h.1.1, h.1.2.1, ?_, ?_⟩, seg_back h.2 hn (fun e => hx (by simp [e])) hd.2⟩
    · simp only [Mem.link]
      rw [upd_ne _ _ _ _ (fun e => hd.1 (by rw [e]; exact hp))]
      exact h.1.2.2.1
    · simp only [Mem.link]
      rw [upd_ne _ _ _ _ hxn]
      exact h.1.2.2.2

/-- Two chains joined without the node between them. -/
theorem seg_cut {m : Mem} {p n' n q : Addr} {as bs : List Addr} (ha : Seg m p as n') (hb : Seg m n bs q) (hp : (p :: as).Nodup)
    (hd : (bs ++ [q]).Nodup) (hq : ∀ x ∈ as, x ∉ bs ++ [q]) (hpb : p ∉ bs) :
    Seg (m.link (m.prev n') (m.next n)) p (as ++ bs) q := by
  cases bs with
  | nil =>
    rw [List.append_nil, hb.2.2.1]
    exact seg_back ha hb.2.1 (fun h => hq q h (by simp)) hp
  | cons b bs =>
    rw [hb.1.2.2.1]
    rw [List.cons_append, List.nodup_cons] at hd
    rw [seg_append]
    refine ⟨seg_back ha hb.1.2.1 (fun h => hq b h (by simp)) hp, seg_frame hb.2 ?_ hd.1⟩
    intro hm
    have := seg_prev ha
    rcases List.mem_cons.mp this with e | e
    · exact hpb (e ▸ hm)
    · exact hq _ e (by rw [List.mem_append]; exact Or.inl hm)

theorem link_live (m : Mem) (a b : Addr) : (m.link a b).live = m.live := rfl

/-! ## The operations as links -/

theorem getNext_ok {m : Mem} {a : Addr} (h : m.live a = true) : getNext m a = .ok (m.next a) := by simp [getNext, h]
theorem getPrev_ok {m : Mem} {a : Addr} (h : m.live a = true) : getPrev m a = .ok (m.prev a) := by simp [getPrev, h]
theorem setNext_ok {m : Mem} {a v : Addr} (h : m.live a = true) : setNext m a v = .ok { m with next := upd m.next a v } := by
  simp [setNext, h]
theorem setPrev_ok {m : Mem} {a v : Addr} (h : m.live a = true) : setPrev m a v = .ok { m with prev := upd m.prev a v } := by
  simp [setPrev, h]

theorem ok_bind {α β ε : Type} (a : α) (f : α → Except ε β) : (Except.ok a >>= f) = f a := rfl

theorem headInit_link {m : Mem} {h : Addr} (hl : m.live h = true) : headInit m h = .ok (m.link h h) := by
  simp only [headInit, setPrev, setNext, hl, if_true, ok_bind, Mem.link]

theorem addAfter_link {m : Mem} {p n : Addr} (hp : m.live p = true) (hn : m.live n = true) (hs : m.live (m.next p) = true)
    (h1 : n ≠ p) (h2 : m.next p ≠ n) : addAfter m p n = .ok ((m.link n (m.next p)).link p n) := by
  simp only [addAfter, getNext, setPrev, setNext, hp, hn, hs, if_true, ok_bind, Mem.link, upd_ne _ _ _ _ (Ne.symm h1)]
  congr 2
  funext b
  simp only [upd]
  by_cases e1 : b = n
  · subst e1; simp [Ne.symm h2]
  · simp [e1]

theorem addBefore_link {m : Mem} {p n : Addr} (hp : m.live p = true) (hn : m.live n = true) (hs : m.live (m.prev p) = true)
    (h1 : n ≠ p) (h2 : m.prev p ≠ n) : addBefore m p n = .ok ((m.link n p).link (m.prev p) n) := by
  simp only [addBefore, getPrev, setPrev, setNext, hp, hn, hs, if_true, ok_bind, Mem.link, upd_ne _ _ _ _ (Ne.symm h1)]
  congr 2
  funext b
  simp only [upd]
  by_cases e1 : b = n
  · subst e1; simp [h1]
  · simp [e1]

theorem del_link {m : Mem} {n : Addr} (hn : m.live n = true) (hp : m.live (m.prev n) = true) (hs : m.live (m.next n) = true)
    (h : m.next n ≠ n) : del m n = .ok (m.link (m.prev n) (m.next n)) := by
  simp only [del, getPrev, getNext, setPrev, setNext, hp, hn, hs, if_true, ok_bind, Mem.link, upd_ne _ _ _ _ (Ne.symm h)]

theorem swap_link {m : Mem} {o n : Addr} (hn : m.live n = true) (ho : m.live o = true) (hp : m.live (m.prev o) = true)
    (hs : m.live (m.next o) = true) (h : m.next o ≠ n) (h' : m.prev o ≠ n) :
    swap m o n = .ok ((m.link n (m.next o)).link (m.prev o) n) := by
  simp only [swap, getPrev, getNext, setPrev, setNext, hp, hn, ho, hs, if_true, ok_bind, Mem.link, upd_self,
    upd_ne _ _ _ _ (Ne.symm h)]
  congr 2
  funext b
  simp only [upd]
  by_cases e1 : b = n
  · subst e1; simp [Ne.symm h]
  · simp [e1]

end Clist
