import Verif.Bbv.Pam
import Verif.Bbv.SpecPam
/-!
Distances and costs.
-/
namespace Bbv

theorem abs_toNat {z : BitVec 64} (h : z ≠ 0x8000000000000000) : (if z.msb then -z else z).toNat = z.toInt.natAbs := by
  have h0 : z.toNat ≠ 2 ^ 63 := fun hx => h (BitVec.eq_of_toNat_eq hx)
  have hlt := z.isLt
  rw [BitVec.toInt_eq_msb_cond]
  cases hm : z.msb with
  | true =>
    rw [BitVec.msb_eq_true_iff_two_mul_ge] at hm
    simp only [if_true, BitVec.toNat_neg]
    omega
  | false =>
    simp

theorem llabs_gap {x y : BitVec 64} (h : gap x y < 2 ^ 63) : ∃ v, llabs (x - y) = some v ∧ v.toNat = gap x y := by
  unfold gap at *
  have hi : (x - y).toInt = x.toInt - y.toInt := by
    rw [BitVec.toInt_sub, Int.bmod_def]
    split <;> omega
  have hn : x - y ≠ 0x8000000000000000 := by
    intro hx
    rw [hx] at hi
    have : (0x8000000000000000 : BitVec 64).toInt = -2 ^ 63 := by decide
    omega
  refine ⟨_, by unfold llabs; rw [if_neg hn], ?_⟩
  rw [abs_toNat hn, hi]

theorem apart_nil (b : Row) : apart [] b = 0 := by unfold apart; rw [List.zip_nil_left]; rfl

theorem apart_nil' (b : Row) : apart b [] = 0 := by unfold apart; rw [List.zip_nil_right]; rfl

theorem apart_cons (x y : BitVec 64) (a b : Row) : apart (x :: a) (y :: b) = gap x y + apart a b := by
  unfold apart; rw [List.zip_cons_cons, List.map_cons, List.sum_cons]

theorem distanceFrom_apart : ∀ (a b : Row) (d : BitVec 64), d.toNat + apart a b < 2 ^ 63 → ∃ v, distanceFrom d a b = some v ∧ v.toNat = d.toNat + apart a b
  | [], b, d, _ => ⟨d, by rw [distanceFrom]; simp, by rw [apart_nil]; omega⟩
  | x :: a, [], d, _ => ⟨d, by rw [distanceFrom]; simp, by rw [apart_nil']; omega⟩
  | x :: a, y :: b, d, h => by
    rw [apart_cons] at h
    obtain ⟨v, h1, h2⟩ := llabs_gap (x := x) (y := y) (by omega)
    have h3 : (d + v).toNat = d.toNat + gap x y := by
      rw [BitVec.toNat_add, h2]
      apply Nat.mod_eq_of_lt
      omega
    obtain ⟨w, h4, h5⟩ := distanceFrom_apart a b (d + v) (by rw [h3]; omega)
    exact ⟨w, by rw [distanceFrom, h1]; exact h4, by rw [h5, h3, apart_cons]; omega⟩

theorem distance_apart {a b : Row} (h : apart a b < 2 ^ 63) : ∃ v, distance a b = some v ∧ v.toNat = apart a b := by
  obtain ⟨v, h1, h2⟩ := distanceFrom_apart a b 0 (by simpa using h)
  exact ⟨v, h1, by simpa using h2⟩

theorem gap_zero {x y : BitVec 64} : gap x y = 0 ↔ x = y := by
  unfold gap
  constructor
  · intro h; apply BitVec.eq_of_toInt_eq; omega
  · rintro rfl; omega

theorem apart_zero : ∀ {a b : Row}, a.length = b.length → (apart a b = 0 ↔ a = b)
  | [], [], _ => by simp [apart_nil]
  | x :: a, y :: b, h => by
    rw [apart_cons, List.cons.injEq, ← gap_zero, ← apart_zero (Nat.succ.inj h)]
    omega

/-- The loop over medoids. -/
theorem findFrom_min {point : Row} : ∀ (l : List Row) (i : Nat) (ret : Option Nat) (cost : BitVec 64), (∀ m ∈ l, apart point m < 2 ^ 63) →
    ∃ r c, findFrom point l i ret cost = some (r, c) ∧ c.toNat = (l.map (apart point)).foldl min cost.toNat ∧
      (r = ret ∧ c = cost ∨ ∃ j m, r = some (i + j) ∧ l[j]? = some m ∧ apart point m = c.toNat)
  | [], i, ret, cost, _ => ⟨ret, cost, rfl, rfl, Or.inl ⟨rfl, rfl⟩⟩
  | m :: l, i, ret, cost, h => by
    obtain ⟨s, h1, h2⟩ := distance_apart (h m (List.mem_cons_self ..))
    rw [findFrom, h1]
    dsimp only
    rw [List.map_cons, List.foldl_cons]
    by_cases hs : s < cost
    · obtain ⟨r, c, h3, h4, h5⟩ := findFrom_min l (i + 1) (some i) s (fun x hx => h x (List.mem_cons_of_mem _ hx))
      rw [if_pos hs]
      rw [BitVec.lt_def] at hs
      refine ⟨r, c, h3, by rw [h4, ← h2, Nat.min_eq_right (by omega)], Or.inr ?_⟩
      rcases h5 with ⟨rfl, rfl⟩ | ⟨j, x, rfl, h6, h7⟩
      · exact ⟨0, m, rfl, rfl, h2.symm⟩
      · exact ⟨j + 1, x, by rw [show i + 1 + j = i + (j + 1) from by omega], h6, h7⟩
    · obtain ⟨r, c, h3, h4, h5⟩ := findFrom_min l (i + 1) ret cost (fun x hx => h x (List.mem_cons_of_mem _ hx))
      rw [if_neg hs]
      rw [BitVec.lt_def] at hs
      refine ⟨r, c, h3, by rw [h4, ← h2, Nat.min_eq_left (by omega)], ?_⟩
      rcases h5 with h5 | ⟨j, x, rfl, h6, h7⟩
      · exact Or.inl h5
      · exact Or.inr ⟨j + 1, x, by rw [show i + 1 + j = i + (j + 1) from by omega], h6, h7⟩

theorem foldl_min_le (l : List Nat) : ∀ c, l.foldl min c ≤ c ∧ ∀ x ∈ l, l.foldl min c ≤ x := by
  induction l with
  | nil => intro c; exact ⟨Nat.le_refl c, fun x hx => by cases hx⟩
  | cons y l ih =>
    intro c
    rw [List.foldl_cons]
    obtain ⟨h1, h2⟩ := ih (min c y)
    refine ⟨by omega, fun x hx => ?_⟩
    rcases List.mem_cons.1 hx with rfl | hx
    · omega
    · exact h2 x hx

theorem foldl_min_mem (l : List Nat) : ∀ c, l.foldl min c = c ∨ l.foldl min c ∈ l := by
  induction l with
  | nil => intro c; exact Or.inl rfl
  | cons y l ih =>
    intro c
    rw [List.foldl_cons]
    rcases ih (min c y) with h | h
    · rcases Nat.le_total c y with hc | hc
      · rw [h, Nat.min_eq_left hc]; exact Or.inl rfl
      · rw [h, Nat.min_eq_right hc]; exact Or.inr (List.mem_cons_self ..)
    · exact Or.inr (List.mem_cons_of_mem _ h)

/-- The nearest medoid: what it is. -/
theorem nearest_spec {ms : List Row} (hne : ms ≠ []) (p : Row) : (∃ m ∈ ms, nearest ms p = apart p m) ∧ ∀ m ∈ ms, nearest ms p ≤ apart p m := by
  unfold nearest
  have hx : (ms.map (apart p)) ≠ [] := by simpa using hne
  cases hm : (ms.map (apart p)).min? with
  | none => exact absurd (List.min?_eq_none_iff.1 hm) hx
  | some v =>
    rw [List.min?_eq_some_iff] at hm
    obtain ⟨m, h1, h2⟩ := List.mem_map.1 hm.1
    refine ⟨⟨m, h1, h2.symm⟩, fun m hm' => hm.2 _ (List.mem_map_of_mem hm')⟩

theorem nearest_le_iff {ms : List Row} (hne : ms ≠ []) (p : Row) (k : Nat) : k ≤ nearest ms p ↔ ∀ m ∈ ms, k ≤ apart p m := by
  obtain ⟨⟨m, h1, h2⟩, h3⟩ := nearest_spec hne p
  exact ⟨fun h m' hm' => Nat.le_trans h (h3 m' hm'), fun h => by rw [h2]; exact h m h1⟩

/-- More medoids are nearer. -/
theorem nearest_mono {ms ns : List Row} (hne : ms ≠ []) (hs : ∀ m ∈ ms, m ∈ ns) (p : Row) : nearest ns p ≤ nearest ms p := by
  rw [nearest_le_iff hne]
  intro m hm
  exact (nearest_spec (List.ne_nil_of_mem (hs m hm)) p).2 m (hs m hm)

theorem findMedoid_nearest {ms : List Row} (hne : ms ≠ []) {p : Row} (h : ∀ m ∈ ms, apart p m < 2 ^ 63) :
    ∃ j c m, findMedoid ms p = some (some j, c) ∧ ms[j]? = some m ∧ c.toNat = nearest ms p ∧ apart p m = nearest ms p := by
  obtain ⟨r, c, h1, h2, h3⟩ := findFrom_min ms 0 none 0xffffffffffffffff h
  have hmax : (0xffffffffffffffff : BitVec 64).toNat = 2 ^ 64 - 1 := by decide
  rw [hmax] at h2
  obtain ⟨⟨m, hm1, hm2⟩, hm3⟩ := nearest_spec hne p
  have hc : c.toNat = nearest ms p := by
    rw [h2]
    obtain ⟨h4, h5⟩ := foldl_min_le (ms.map (apart p)) (2 ^ 64 - 1)
    have h6 := h5 _ (List.mem_map_of_mem hm1)
    rcases foldl_min_mem (ms.map (apart p)) (2 ^ 64 - 1) with h7 | h7
    · have := h m hm1; omega
    · obtain ⟨m', h8, h9⟩ := List.mem_map.1 h7
      have := hm3 m' h8
      omega
  rcases h3 with ⟨_, h3⟩ | ⟨j, m', h3, h4, h5⟩
  · have := h m hm1
    rw [h3, hmax] at hc
    omega
  · exact ⟨j, c, m', by unfold findMedoid; rw [h1, h3, Nat.zero_add], h4, hc, by rw [h5, hc]⟩

/-- The bound on distances, for a list of medoids. -/
structure Bounded (points ms : List Row) (D : Nat) : Prop where
  bound : ∀ p ∈ points, ∀ m ∈ ms, apart p m ≤ D
  small : D * (points.length + 1) < 2 ^ 63

theorem Bounded.lt {points ms : List Row} {D : Nat} (h : Bounded points ms D) : D < 2 ^ 63 := by
  refine Nat.lt_of_le_of_lt ?_ h.small
  exact Nat.le_mul_of_pos_right D (Nat.succ_pos _)

theorem costFrom_spread {points ms : List Row} {D : Nat} (hne : ms ≠ []) (hb : Bounded points ms D) : ∀ (l : List Row) (sum : BitVec 64), (∀ p ∈ l, p ∈ points) →
    sum.toNat + D * l.length < 2 ^ 63 → ∃ c, costFrom ms l sum = some c ∧ c.toNat = sum.toNat + spread l ms
  | [], sum, _, _ => ⟨sum, rfl, rfl⟩
  | p :: l, sum, hl, h => by
    have hp := hl p (List.mem_cons_self ..)
    obtain ⟨j, c, m, h1, h2, h3, h4⟩ := findMedoid_nearest hne (p := p) (fun m hm => Nat.lt_of_le_of_lt (hb.bound p hp m hm) hb.lt)
    have h5 : nearest ms p ≤ D := by rw [← h4]; exact hb.bound p hp m (List.mem_of_getElem? h2)
    rw [List.length_cons, Nat.mul_succ] at h
    have h6 : (sum + c).toNat = sum.toNat + nearest ms p := by
      rw [BitVec.toNat_add, h3]
      apply Nat.mod_eq_of_lt
      omega
    obtain ⟨d, h7, h8⟩ := costFrom_spread hne hb l (sum + c) (fun x hx => hl x (List.mem_cons_of_mem _ hx)) (by rw [h6]; omega)
    refine ⟨d, by rw [costFrom, h1]; exact h7, ?_⟩
    rw [h8, h6]
    show _ = _ + (List.map (nearest ms) (p :: l)).sum
    rw [List.map_cons, List.sum_cons]
    unfold spread
    omega

theorem totalCost_spread {points ms : List Row} {D : Nat} (hne : ms ≠ []) (hb : Bounded points ms D) :
    ∃ c, totalCost points ms = some c ∧ c.toNat = spread points ms := by
  have := hb.small
  rw [Nat.mul_succ] at this
  obtain ⟨c, h1, h2⟩ := costFrom_spread hne hb points 0 (fun _ h => h) (by simp; omega)
  exact ⟨c, h1, by simpa using h2⟩

theorem isMedoid_mem {p : Row} : ∀ (ms : List Row), (∀ m ∈ ms, apart p m < 2 ^ 63 ∧ p.length = m.length) → isMedoid p ms = some (decide (p ∈ ms))
  | [], _ => rfl
  | m :: l, h => by
    obtain ⟨hlt, hlen⟩ := h m (List.mem_cons_self ..)
    obtain ⟨v, h1, h2⟩ := distance_apart hlt
    have ih := isMedoid_mem l (fun x hx => h x (List.mem_cons_of_mem _ hx))
    rw [isMedoid, h1]
    dsimp only
    have hz : v = 0 ↔ p = m := by
      rw [← apart_zero hlen, ← h2]
      exact ⟨fun hx => by rw [hx]; rfl, fun hx => BitVec.eq_of_toNat_eq hx⟩
    by_cases hp : p = m
    · rw [if_pos (hz.2 hp)]
      simp [hp]
    · rw [if_neg (fun hx => hp (hz.1 hx)), ih]
      simp [hp]

end Bbv
