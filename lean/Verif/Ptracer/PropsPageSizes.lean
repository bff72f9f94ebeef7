import Verif.Ptracer.PageSizes

/-! # Page sizes (C124) -/
namespace Ptr

theorem lowest {n k : Nat} {w : BitVec n} (hk : w.getLsbD k = true) (hlt : ∀ i, i < k → w.getLsbD i = false) : ffs n w = k + 1 := by
  have hw : w ≠ 0#n := by
    intro h
    rw [h] at hk
    simp at hk
  unfold ffs
  rw [if_neg hw]
  have h1 := BitVec.getLsbD_true_ctz_of_ne_zero hw
  have h2 : ¬ k < w.ctz.toNat := fun h => by
    rw [BitVec.getLsbD_false_of_lt_ctz h] at hk
    cases hk
  have h3 : ¬ w.ctz.toNat < k := fun h => by
    rw [hlt _ h] at h1
    cases h1
  omega

theorem lower_toNat {size : BitVec 64} (h : size ≠ 0) : (~~~ (size - 1)).toNat = 2 ^ 64 - size.toNat := by
  have h0 : size.toNat ≠ 0 := fun hz => h (BitVec.eq_of_toNat_eq hz)
  have hl := size.isLt
  rw [BitVec.toNat_not, BitVec.toNat_sub, show (1 : BitVec 64).toNat = 1 from rfl]
  omega

theorem lower_bit {size : BitVec 64} {n m i : Nat} (hs : size.toNat = 2 ^ n * (2 * m + 1)) (hn : n < 32) (hi : i ≤ n) :
    ((~~~ (size - 1)).setWidth 32).getLsbD i = decide (i = n) := by
  have hl := size.isLt
  have hp : 0 < 2 ^ n := Nat.two_pow_pos n
  have hz : size ≠ 0 := by
    intro h
    rw [h] at hs
    have : 0 < 2 ^ n * (2 * m + 1) := Nat.mul_pos hp (by omega)
    rw [show (0 : BitVec 64).toNat = 0 from rfl] at hs
    omega
  rw [BitVec.getLsbD_setWidth, decide_eq_true (by omega : i < 32), Bool.true_and]
  change (~~~ (size - 1)).toNat.testBit i = _
  rw [lower_toNat hz, hs]
  have e : (2 : Nat) ^ 64 = 2 ^ n * (2 * 2 ^ (63 - n)) := by
    rw [← Nat.pow_succ', ← Nat.pow_add]
    congr 1
    omega
  have hm : 2 * m + 1 ≤ 2 * 2 ^ (63 - n) := by
    have : 2 ^ n * (2 * m + 1) < 2 ^ n * (2 * 2 ^ (63 - n)) := by rw [← e, ← hs]; exact hl
    exact Nat.le_of_lt (Nat.lt_of_mul_lt_mul_left this)
  rw [e, ← Nat.mul_sub, Nat.mul_comm, Nat.testBit_mul_two_pow]
  by_cases h : i = n
  · subst h
    simp only [Nat.le_refl, decide_true, Nat.sub_self, Bool.true_and, Nat.testBit_zero]
    apply decide_eq_true
    omega
  · rw [decide_eq_false (by omega : ¬ n ≤ i), decide_eq_false h, Bool.false_and]

/-- The lowest bit of the size decides. -/
theorem shift_lowest {size : BitVec 64} {n m : Nat} (hs : size.toNat = 2 ^ n * (2 * m + 1)) (hn : n < 32) : pageShift size = BitVec.ofNat 64 n := by
  have h := lowest (k := n) (w := (~~~ (size - 1)).setWidth 32) (by rw [lower_bit hs hn (Nat.le_refl n)]; simp)
    (fun i hi => by rw [lower_bit hs hn (Nat.le_of_lt hi)]; exact decide_eq_false (by omega))
  unfold pageShift
  rw [h, show ((n + 1 : Nat) : Int) - 1 = (n : Int) by omega]
  have key : ∀ n : Fin 32, (BitVec.ofInt 32 (n.1 : Int)).signExtend 64 = BitVec.ofNat 64 n.1 := by decide
  exact key ⟨n, hn⟩

/-- Sizes that are multiples of 4 GiB. -/
theorem shift_great {size : BitVec 64} (hs : 2 ^ 32 ∣ size.toNat) : pageShift size = 0xffffffffffffffff#64 := by
  have h : (~~~ (size - 1)).setWidth 32 = 0#32 := by
    by_cases hz : size = 0
    · subst hz; decide
    · apply BitVec.eq_of_toNat_eq
      rw [BitVec.toNat_setWidth, lower_toNat hz]
      obtain ⟨c, hc⟩ := hs
      have := size.isLt
      rw [hc, show (2 : Nat) ^ 64 = 2 ^ 32 * 2 ^ 32 by decide, ← Nat.mul_sub, Nat.mul_mod_right]
      rfl
  unfold pageShift
  rw [h]
  decide

/-- `size` is 2 to the power of `n`. -/
def Power (size : BitVec 64) (n : Nat) : Prop := size.toNat = 2 ^ n

theorem Power.shift {size : BitVec 64} {n : Nat} (h : Power size n) (hn : n < 32) : pageShift size = BitVec.ofNat 64 n :=
  shift_lowest (m := 0) (by rw [h]; simp) hn

theorem Power.eq {size : BitVec 64} {n : Nat} (h : Power size n) (hn : n < 32) : 1#64 <<< (BitVec.ofNat 64 n).toNat = size := by
  apply BitVec.eq_of_toNat_eq
  rw [h, BitVec.toNat_ofNat, Nat.mod_eq_of_lt (by omega), BitVec.toNat_shiftLeft, Nat.shiftLeft_eq, show (1#64).toNat = 1 from rfl, Nat.one_mul]
  exact Nat.mod_eq_of_lt (Nat.pow_lt_pow_right (by omega) (by omega))

/-- **C124** for sizes below 4 GiB that are powers of two: the tracer goes on exactly if both files can be opened and the page size of the machine is the one it was told.
It then reads the map of the process it was told, and pages are numbered by address / size. -/
theorem C124_sizes_partial (f : PageFiles) (sysconf : BitVec 64) (pid : Int) {basesz hugesz : BitVec 64} {a b : Nat} (ha : Power basesz a) (hb : Power hugesz b)
    (ha' : a < 32) (hb' : b < 32) :
    initPagemaps f sysconf pid basesz hugesz ≠ .undefined ∧
    ((∃ s, initPagemaps f sysconf pid basesz hugesz = .ok s) ↔
      f.pagemap s!"/proc/{pid}/pagemap" ≠ none ∧ f.kpageflags ≠ none ∧ sysconf = basesz) ∧
    ∀ s, initPagemaps f sysconf pid basesz hugesz = .ok s →
      f.pagemap s!"/proc/{pid}/pagemap" = some s.pmFd ∧ f.kpageflags = some s.kpfFd ∧
      ∀ ea : BitVec 64, ∃ p q, pageNumbers s ea = some (p, q) ∧ p.toNat = ea.toNat / basesz.toNat ∧ q.toNat = ea.toNat / hugesz.toNat := by
  have hpath : s!"/proc/{pid}/pagemap" = "/proc/" ++ toString pid ++ "/pagemap" := rfl
  have ta : (BitVec.ofNat 64 a).toNat = a := by rw [BitVec.toNat_ofNat]; exact Nat.mod_eq_of_lt (by omega)
  have tb : (BitVec.ofNat 64 b).toNat = b := by rw [BitVec.toNat_ofNat]; exact Nat.mod_eq_of_lt (by omega)
  rw [hpath]
  unfold initPagemaps
  rw [ha.shift ha', hb.shift hb', ha.eq ha']
  cases h1 : f.pagemap ("/proc/" ++ toString pid ++ "/pagemap") with
  | none => simp
  | some pm =>
    cases h2 : f.kpageflags with
    | none => simp
    | some kpf =>
      dsimp only
      rw [if_neg (by omega)]
      by_cases hs : sysconf = basesz
      · rw [if_neg (fun h => h hs)]
        refine ⟨by simp, ⟨fun _ => ⟨by simp, by simp, hs⟩, fun _ => ⟨_, rfl⟩⟩, fun s h => ?_⟩
        cases h
        refine ⟨rfl, rfl, fun ea => ⟨ea >>> (BitVec.ofNat 64 a).toNat, ea >>> (BitVec.ofNat 64 b).toNat, ?_, ?_, ?_⟩⟩
        · unfold pageNumbers
          rw [if_neg (by dsimp only; omega)]
        · rw [ta, BitVec.toNat_ushiftRight, Nat.shiftRight_eq_div_pow, ha]
        · rw [tb, BitVec.toNat_ushiftRight, Nat.shiftRight_eq_div_pow, hb]
      · rw [if_pos hs]
        simp [hs]

/-- With the sizes that ptracer uses (main.c:404) the shifts are those of C41. -/
theorem C124_main : pageShift (64 * 1024) = BitVec.ofNat 64 basePshift ∧ pageShift (2 * 1024 * 1024) = BitVec.ofNat 64 hugePshift :=
  ⟨shift_lowest (n := 16) (m := 0) (by decide) (by decide), shift_lowest (n := 21) (m := 0) (by decide) (by decide)⟩

/-- A machine with pages of 64 KiB. -/
example : initPagemaps ⟨fun p => if p = "/proc/712/pagemap" then some 5 else none, some 6⟩ 0x10000 712 (64 * 1024) (2 * 1024 * 1024) = .ok ⟨5, 6, 16, 21⟩ := by decide +kernel
example := C124_sizes_partial ⟨fun p => if p = "/proc/712/pagemap" then some 5 else none, some 6⟩ 0x10000 712 (basesz := 64 * 1024) (hugesz := 2 * 1024 * 1024) (a := 16) (b := 21)
  (by unfold Power; decide) (by unfold Power; decide) (by decide) (by decide)

/-- A machine with pages of 4 KiB: refused. -/
example : initPagemaps ⟨fun _ => some 5, some 6⟩ 0x1000 712 (64 * 1024) (2 * 1024 * 1024) = .exit := by decide +kernel

/-- **C124 is refuted for pages of 4 GiB and more** (POWER has pages of 16 GiB): such a size of great pages is accepted, and the first translation shifts by 2^64 - 1 bits.
Such a base size gives an undefined shift at once. -/
theorem C124_great_refuted (f : PageFiles) {pm kpf : Nat} (pid : Int) (h1 : f.pagemap s!"/proc/{pid}/pagemap" = some pm) (h2 : f.kpageflags = some kpf)
    {size : BitVec 64} (hs : 2 ^ 32 ∣ size.toNat) :
    (∃ s, initPagemaps f 0x10000 pid 0x10000 size = .ok s ∧ ∀ ea, pageNumbers s ea = none) ∧ ∀ sysconf huge, initPagemaps f sysconf pid size huge = .undefined := by
  have hpath : s!"/proc/{pid}/pagemap" = "/proc/" ++ toString pid ++ "/pagemap" := rfl
  rw [hpath] at h1
  constructor
  · refine ⟨⟨pm, kpf, 16, 0xffffffffffffffff#64⟩, ?_, fun ea => rfl⟩
    unfold initPagemaps
    rw [h1, h2, shift_great hs, show pageShift 0x10000 = 16 from C124_main.1]
    rfl
  · intro sysconf huge
    unfold initPagemaps
    rw [h1, h2, shift_great hs]
    rfl

example : initPagemaps ⟨fun _ => some 5, some 6⟩ 0x10000 712 (64 * 1024) (16 * 1024 * 1024 * 1024) = .ok ⟨5, 6, 16, 0xffffffffffffffff⟩ := by decide +kernel

/-- **C124 is refuted for sizes that are no powers of two**: three pages of 64 KiB are taken for one. -/
theorem C124_odd_refuted : initPagemaps ⟨fun _ => some 5, some 6⟩ 0x10000 712 (192 * 1024) (2 * 1024 * 1024) = .ok ⟨5, 6, 16, 21⟩ := by decide +kernel

end Ptr
