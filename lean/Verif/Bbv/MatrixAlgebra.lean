import Verif.Bbv.PropsMatrix

/-! Sums of words, for the laws of the product. -/
namespace Bbv

/-- `F 0 + … + F (n - 1)` in 64 bits. -/
def total : Nat → (Nat → BitVec 64) → BitVec 64
  | 0, _ => 0
  | n + 1, F => total n F + F n

theorem product_total (K : Nat) (f g : Nat → Nat → BitVec 64) (r c : Nat) : product K f g r c = total K fun x => f r x * g x c := by
  induction K with
  | zero => rfl
  | succ K ih => rw [product_succ, ih, total]

theorem total_congr {n : Nat} {F G : Nat → BitVec 64} (h : ∀ x, x < n → F x = G x) : total n F = total n G := by
  induction n with
  | zero => rfl
  | succ n ih => rw [total, total, ih (fun x hx => h x (by omega)), h n (by omega)]

theorem total_add (n : Nat) (F G : Nat → BitVec 64) : (total n fun x => F x + G x) = total n F + total n G := by
  induction n with
  | zero => rfl
  | succ n ih => rw [total, total, total, ih]; ac_rfl

theorem total_mul (n : Nat) (F : Nat → BitVec 64) (a : BitVec 64) : total n F * a = total n fun x => F x * a := by
  induction n with
  | zero => exact BitVec.zero_mul
  | succ n ih => rw [total, total, BitVec.add_mul, ih]

theorem mul_total (n : Nat) (F : Nat → BitVec 64) (a : BitVec 64) : a * total n F = total n fun x => a * F x := by
  rw [BitVec.mul_comm, total_mul]
  exact total_congr fun x _ => BitVec.mul_comm ..

theorem total_zero (n : Nat) : (total n fun _ => 0#64) = 0 := by
  induction n with
  | zero => rfl
  | succ n ih => rw [total, ih]; rfl

theorem total_swap (m n : Nat) (F : Nat → Nat → BitVec 64) : (total m fun x => total n fun y => F x y) = total n fun y => total m fun x => F x y := by
  induction m with
  | zero => exact (total_zero n).symm
  | succ m ih => rw [total, ih, ← total_add]; rfl

theorem product_assoc (K L : Nat) (f g h : Nat → Nat → BitVec 64) (r c : Nat) :
    product L (product K f g) h r c = product K f (product L g h) r c := by
  rw [product_total, product_total]
  have e1 : (total L fun x => product K f g r x * h x c) = total L fun x => total K fun y => f r y * g y x * h x c :=
    total_congr fun x _ => by rw [product_total, total_mul]
  have e2 : (total K fun y => f r y * product L g h y c) = total K fun y => total L fun x => f r y * g y x * h x c :=
    total_congr fun y _ => by rw [product_total, mul_total]; exact total_congr fun x _ => (BitVec.mul_assoc ..).symm
  rw [e1, e2, total_swap]

theorem total_single (n k : Nat) (F : Nat → BitVec 64) (hk : k < n) (h : ∀ x, x ≠ k → F x = 0) : total n F = F k := by
  induction n with
  | zero => omega
  | succ n ih =>
    rw [total]
    by_cases e : k = n
    · subst e
      have : total k F = 0 := by rw [total_congr (G := fun _ => 0#64) (fun x hx => h x (by omega)), total_zero]
      rw [this]; exact BitVec.zero_add ..
    · rw [ih (by omega), h n (by omega)]; exact BitVec.add_zero ..

/-- The entries of an identity matrix. -/
def one (r c : Nat) : BitVec 64 := if r = c then 1 else 0

theorem product_one_right (K : Nat) (f : Nat → Nat → BitVec 64) (r c : Nat) (hc : c < K) : product K f one r c = f r c := by
  rw [product_total, total_single K c _ hc]
  · unfold one; rw [if_pos rfl]; exact BitVec.mul_one ..
  · intro x hx; unfold one; rw [if_neg hx]; exact BitVec.mul_zero ..

theorem product_one_left (K : Nat) (f : Nat → Nat → BitVec 64) (r c : Nat) (hr : r < K) : product K one f r c = f r c := by
  rw [product_total, total_single K r _ hr]
  · unfold one; rw [if_pos rfl]; exact BitVec.one_mul ..
  · intro x hx; unfold one; rw [if_neg (Ne.symm hx)]; exact BitVec.zero_mul ..

end Bbv
