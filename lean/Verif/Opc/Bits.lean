import Verif.Opc.Model

/-!
Words made from the bits of two words by masks, shifts and "or": where every bit of the result comes from.  Two such words are equal when their bits
have the same origins, which is a computation over the 64 positions.
-/
namespace Opc

/-- Origin of a bit: a bit of the instruction, a bit of the value, or a one. -/
inductive Atom
  | i (j : Nat) | v (j : Nat) | one
deriving DecidableEq

def Atom.eval (i v : W) : Atom → Bool
  | .i j => i.getLsbD j
  | .v j => v.getLsbD j
  | .one => true

/-- Bit `k` of `x` is the "or" of the bits `s k`. -/
class Lin (i v x : W) (s : outParam (Nat → List Atom)) : Prop where
  bit : ∀ k, x.getLsbD k = (s k).any (Atom.eval i v)

instance (priority := high) linI (i v : W) : Lin i v i (fun k => [.i k]) := ⟨fun k => by simp [Atom.eval]⟩

instance (priority := high) linV (i v : W) : Lin i v v (fun k => [.v k]) := ⟨fun k => by simp [Atom.eval]⟩

instance linLit (i v : W) (n : Nat) : Lin i v (BitVec.ofNat 64 n) (fun k => if (BitVec.ofNat 64 n).getLsbD k then [.one] else []) :=
  ⟨fun k => by cases h : (BitVec.ofNat 64 n).getLsbD k <;> simp [Atom.eval]⟩

instance linAnd (i v x c : W) (s : Nat → List Atom) [h : Lin i v x s] :
    Lin i v (x &&& c) (fun k => if c.getLsbD k then s k else []) :=
  ⟨fun k => by
    rw [BitVec.getLsbD_and, h.bit]
    cases hc : c.getLsbD k <;> simp⟩

instance linOr (i v x y : W) (s t : Nat → List Atom) [hx : Lin i v x s] [hy : Lin i v y t] :
    Lin i v (x ||| y) (fun k => s k ++ t k) :=
  ⟨fun k => by rw [BitVec.getLsbD_or, hx.bit, hy.bit, List.any_append]⟩

instance linShl (i v x : W) (n : Nat) (s : Nat → List Atom) [h : Lin i v x s] :
    Lin i v (x <<< n) (fun k => if k < n then [] else if k < 64 then s (k - n) else []) :=
  ⟨fun k => by
    rw [BitVec.getLsbD_shiftLeft, h.bit]
    by_cases h1 : k < n
    · simp [h1]
    · by_cases h2 : k < 64 <;> simp [h1, h2]⟩

instance linShr (i v x : W) (n : Nat) (s : Nat → List Atom) [h : Lin i v x s] : Lin i v (x >>> n) (fun k => s (n + k)) :=
  ⟨fun k => by rw [BitVec.getLsbD_ushiftRight, h.bit]⟩

/-- The origins that can be one, given the bits of the instruction that are zero (`m`) and the bits of the value that may be one (`n`). -/
def alive (m n : W) : Atom → Bool
  | .i j => decide (j < 64) && !m.getLsbD j
  | .v j => n.getLsbD j
  | .one => true

def sub (a b : List Atom) : Bool := a.all (fun x => b.contains x)

/-- The two words have the same origins at all 64 positions. -/
def same (m n : W) (s t : Nat → List Atom) : Bool :=
  (List.range 64).all fun k => sub ((s k).filter (alive m n)) (t k) && sub ((t k).filter (alive m n)) (s k)

theorem alive_of_eval {m n i v : W} (hi : i &&& m = 0#64) (hv : v &&& ~~~n = 0#64) {a : Atom} (h : a.eval i v = true) : alive m n a = true := by
  cases a with
  | one => rfl
  | i j =>
    have hj : i.getLsbD j = true := h
    have hlt : j < 64 := BitVec.lt_of_getLsbD hj
    have := congrArg (fun w => w.getLsbD j) hi
    simp [hj] at this
    simp only [alive, hlt, decide_true, Bool.true_and, this, Bool.not_false]
  | v j =>
    have hj : v.getLsbD j = true := h
    have hlt : j < 64 := BitVec.lt_of_getLsbD hj
    have := congrArg (fun w => w.getLsbD j) hv
    simp [hj, hlt] at this
    exact this

theorem sub_any {m n i v : W} (hi : i &&& m = 0#64) (hv : v &&& ~~~n = 0#64) {a b : List Atom}
    (h : sub (a.filter (alive m n)) b = true) (ha : a.any (Atom.eval i v) = true) : b.any (Atom.eval i v) = true := by
  obtain ⟨x, hx, he⟩ := List.any_eq_true.mp ha
  have h1 := List.all_eq_true.mp h x (List.mem_filter.mpr ⟨hx, alive_of_eval hi hv he⟩)
  exact List.any_eq_true.mpr ⟨x, List.contains_iff_mem.mp h1, he⟩

/-- Words whose bits have the same origins are equal. -/
theorem lin_eq {i v x y : W} {s t : Nat → List Atom} (m n : W) [hx : Lin i v x s] [hy : Lin i v y t] (h : same m n s t = true)
    (hi : i &&& m = 0#64) (hv : v &&& ~~~n = 0#64) : x = y := by
  apply BitVec.eq_of_getLsbD_eq
  intro k hk
  have h1 := List.all_eq_true.mp h k (List.mem_range.mpr hk)
  simp only [Bool.and_eq_true] at h1
  rw [hx.bit, hy.bit]
  have a := sub_any hi hv h1.1
  have b := sub_any hi hv h1.2
  cases e1 : (s k).any (Atom.eval i v) <;> cases e2 : (t k).any (Atom.eval i v) <;> simp_all

theorem and_nothing (v : W) : v &&& ~~~(~~~0#64) = 0#64 := by simp

/-- Same without hypothesis on the value. -/
theorem lin_eq_any {i v x y : W} {s t : Nat → List Atom} (m : W) [hx : Lin i v x s] [hy : Lin i v y t]
    (h : same m (~~~0#64) s t = true) (hi : i &&& m = 0#64) : x = y := lin_eq m (~~~0#64) h hi (and_nothing v)

/-- Same without hypotheses. -/
theorem lin_eq_all {i v x y : W} {s t : Nat → List Atom} [hx : Lin i v x s] [hy : Lin i v y t]
    (h : same 0#64 (~~~0#64) s t = true) : x = y := lin_eq (i := i) (v := v) 0#64 (~~~0#64) h (by simp) (and_nothing v)

/-- What was set stays set. -/
theorem and_not_or (i x : W) : i &&& ~~~(i ||| x) = 0#64 := by
  apply BitVec.eq_of_getLsbD_eq
  intro k hk
  simp only [BitVec.getLsbD_and, BitVec.getLsbD_not, BitVec.getLsbD_or, hk, decide_true, Bool.true_and]
  cases i.getLsbD k <;> simp

example (i v : W) (hi : i &&& 0x1ff800#64 = 0#64) (hv : v &&& ~~~0x3ff#64 = 0#64) :
    (((i ||| ((v &&& 0x1f#64) <<< 16) ||| ((v &&& 0x3e0#64) <<< 6)) >>> 16) &&& 0x1f#64) |||
      (((i ||| ((v &&& 0x1f#64) <<< 16) ||| ((v &&& 0x3e0#64) <<< 6)) >>> 6) &&& 0x3e0#64) = v :=
  lin_eq 0x1ff800#64 0x3ff#64 (by decide +kernel) hi hv

end Opc
