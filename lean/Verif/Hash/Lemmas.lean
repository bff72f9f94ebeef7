import Verif.Hash.Spec
import Verif.Hash.Model

namespace Hash

theorem rot_eq (x : W) (k : Nat) (h : k < 32) : rot x k = x.rotateLeft k := by
  unfold rot
  rw [BitVec.rotateLeft_def, Nat.mod_eq_of_lt h]

def St.toSpec (s : St) : Spec.S := (s.a, s.b, s.c)

theorem mix_eq (s : St) : (mix s).toSpec = Spec.mix s.toSpec := by
  simp [mix, mixLine, Spec.mix, St.toSpec, rot_eq]

theorem final_eq (s : St) : (final s).toSpec = Spec.final s.toSpec := by
  simp [final, finalLine, Spec.final, St.toSpec, rot_eq]

theorem sh_eq (k : Byte) (n : Nat) (h : n ≤ 24) : sh k n = BitVec.ofNat 32 (2 ^ n * k.toNat) := by
  unfold sh
  apply BitVec.eq_of_toNat_eq
  rw [BitVec.toNat_shiftLeft, BitVec.toNat_setWidth, BitVec.toNat_ofNat, Nat.shiftLeft_eq, Nat.mul_comm (2 ^ n), Nat.mod_eq_of_lt (a := k.toNat) (by omega)]

theorem le32_sum (k0 k1 k2 k3 : Byte) : le32 k0 k1 k2 k3 = sh k0 0 + sh k1 8 + sh k2 16 + sh k3 24 := by
  rw [sh_eq _ _ (by decide), sh_eq _ _ (by decide), sh_eq _ _ (by decide), sh_eq _ _ (by decide)]
  unfold le32
  simp only [BitVec.ofNat_add, Nat.pow_zero, Nat.one_mul]

theorem be32_sum (k0 k1 k2 k3 : Byte) : be32 k0 k1 k2 k3 = sh k3 0 + sh k2 8 + sh k1 16 + sh k0 24 := le32_sum ..

theorem le16_sum (k0 k1 : Byte) : le16 k0 k1 = sh k0 0 + sh k1 8 := by
  rw [sh_eq _ _ (by decide), sh_eq _ _ (by decide)]
  unfold le16
  simp only [BitVec.ofNat_add, Nat.pow_zero, Nat.one_mul]

theorem load32_little (k0 k1 k2 k3 : Byte) : load32 true k0 k1 k2 k3 = le32 k0 k1 k2 k3 := rfl
theorem load32_big (k0 k1 k2 k3 : Byte) : load32 false k0 k1 k2 k3 = be32 k0 k1 k2 k3 := rfl
theorem load16_little (k0 k1 : Byte) : load16 true k0 k1 = le16 k0 k1 := rfl

theorem halves_sum (k0 k1 k2 k3 : Byte) : halves true k0 k1 k2 k3 = sh k0 0 + sh k1 8 + sh k2 16 + sh k3 24 := by
  unfold halves
  rw [load16_little, load16_little]
  have h : le16 k2 k3 <<< 16 = sh k2 16 + sh k3 24 := by
    rw [sh_eq _ _ (by decide), sh_eq _ _ (by decide)]
    unfold le16
    apply BitVec.eq_of_toNat_eq
    have := k2.isLt
    have := k3.isLt
    simp only [BitVec.toNat_shiftLeft, BitVec.toNat_ofNat, BitVec.toNat_add, Nat.shiftLeft_eq]
    omega
  rw [h, le16_sum, BitVec.add_assoc (sh k0 0 + sh k1 8)]

theorem sh_zero (n : Nat) (h : n ≤ 24) : sh 0 n = 0 := by
  rw [sh_eq _ _ h]; simp

/-- Both byte orders: four bytes as a word. -/
def ldOf (ld : (Fin 4 → BitVec 8) → BitVec 32) (k0 k1 k2 k3 : Byte) : W := ld fun i => [k0, k1, k2, k3].getD i.val 0

theorem ldOf_little (k0 k1 k2 k3 : Byte) : ldOf Spec.little k0 k1 k2 k3 = sh k0 0 + sh k1 8 + sh k2 16 + sh k3 24 := by
  rw [← le32_sum]; rfl

theorem ldOf_big (k0 k1 k2 k3 : Byte) : ldOf Spec.big k0 k1 k2 k3 = sh k3 0 + sh k2 8 + sh k1 16 + sh k0 24 := by
  rw [← le32_sum]
  show BitVec.ofNat 32 (2 ^ 24 * k0.toNat + 2 ^ 16 * k1.toNat + 2 ^ 8 * k2.toNat + k3.toNat) = _
  unfold le32
  congr 1
  omega

theorem word_eq (ld) (key : List Byte) (p : Nat) :
    Spec.word ld key p = ldOf ld (key.getD p 0) (key.getD (p + 1) 0) (key.getD (p + 2) 0) (key.getD (p + 3) 0) := by
  unfold Spec.word ldOf
  congr 1
  funext i
  match i with
  | 0 => rfl
  | 1 => rfl
  | 2 => rfl
  | 3 => rfl

/-- The function from a state on. -/
def gen (ld : (Fin 4 → BitVec 8) → BitVec 32) (s : Spec.S) (key : List Byte) : Spec.S :=
  (List.range ((key.length - 1) / 12)).foldl (fun s j => Spec.mix (Spec.absorb ld key s j)) s

theorem absorb_drop (ld) (key : List Byte) (s : Spec.S) (j : Nat) : Spec.absorb ld (key.drop 12) s j = Spec.absorb ld key s (j + 1) := by
  unfold Spec.absorb Spec.word
  have h : ∀ p, (key.drop 12).getD p 0 = key.getD (12 + p) 0 := fun p => by simp [List.getD_eq_getElem?_getD, List.getElem?_drop]
  simp only [h]
  have e : ∀ q (i : Fin 4), 12 + (12 * j + q + i.val) = 12 * (j + 1) + q + i.val := fun q i => by omega
  have e0 : ∀ (i : Fin 4), 12 + (12 * j + i.val) = 12 * (j + 1) + i.val := fun i => by omega
  simp only [e, e0]

theorem gen_long (ld) (s : Spec.S) (key : List Byte) (h : 12 < key.length) :
    gen ld s key = gen ld (Spec.mix (Spec.absorb ld key s 0)) (key.drop 12) := by
  unfold gen
  have e : (key.length - 1) / 12 = ((key.drop 12).length - 1) / 12 + 1 := by rw [List.length_drop]; omega
  rw [e, List.range_succ_eq_map, List.foldl_cons, List.foldl_map]
  congr 1
  funext s j
  rw [absorb_drop]

/-- The last block. -/
def lastOf (ld : (Fin 4 → BitVec 8) → BitVec 32) (s : Spec.S) (key : List Byte) : Spec.S := Spec.absorb ld key s ((key.length - 1) / 12)

theorem lastOf_long (ld) (s : Spec.S) (key : List Byte) (h : 12 < key.length) : lastOf ld s key = lastOf ld s (key.drop 12) := by
  unfold lastOf
  rw [absorb_drop, List.length_drop]
  congr 1
  omega

theorem lookup3_eq (ld) (key : List Byte) (v : W) (h : key ≠ []) :
    Spec.lookup3 ld key v = ((Spec.final (lastOf ld (gen ld (start key.length v).toSpec key) key)).2.2,
      (Spec.final (lastOf ld (gen ld (start key.length v).toSpec key) key)).2.1) := by
  have hl := List.length_pos_iff.2 h
  unfold Spec.lookup3
  have e : (key.length + 11) / 12 = (key.length - 1) / 12 + 1 := by omega
  simp only [e]
  rfl

/-- What a loop body has to do. -/
def BodyOk (ld : (Fin 4 → BitVec 8) → BitVec 32)
    (body : St → Byte → Byte → Byte → Byte → Byte → Byte → Byte → Byte → Byte → Byte → Byte → Byte → St) : Prop :=
  ∀ s k0 k1 k2 k3 k4 k5 k6 k7 k8 k9 k10 k11,
    body s k0 k1 k2 k3 k4 k5 k6 k7 k8 k9 k10 k11 = ⟨s.a + ldOf ld k0 k1 k2 k3, s.b + ldOf ld k4 k5 k6 k7, s.c + ldOf ld k8 k9 k10 k11⟩

/-- What a switch has to do. -/
def LastOk (ld : (Fin 4 → BitVec 8) → BitVec 32) (last : St → List Byte → Option St) : Prop :=
  (∀ s, last s [] = none) ∧
  ∀ s k, k ≠ [] → k.length ≤ 12 → ∃ t, last s k = some t ∧ t.toSpec = Spec.absorb ld k s.toSpec 0

theorem blocks_spec (ld) (body) (hb : BodyOk ld body) (s : St) (key : List Byte) :
    (blocks body s key).2.length ≤ 12 ∧ ((blocks body s key).2 = [] ↔ key = []) ∧ (blocks body s key).1.toSpec = gen ld s.toSpec key ∧
      ∀ t, lastOf ld t key = Spec.absorb ld (blocks body s key).2 t 0 := by
  fun_induction blocks body s key with
  | case1 s k0 k1 k2 k3 k4 k5 k6 k7 k8 k9 k10 k11 k12 r ih =>
    obtain ⟨h1, h2, h3, h4⟩ := ih
    have hl : 12 < (k0 :: k1 :: k2 :: k3 :: k4 :: k5 :: k6 :: k7 :: k8 :: k9 :: k10 :: k11 :: k12 :: r).length := by simp
    refine ⟨h1, ?_, ?_, ?_⟩
    · rw [h2]; simp
    · rw [h3, gen_long _ _ _ hl, mix_eq, hb]
      congr 2
      unfold Spec.absorb
      simp only [word_eq]
      rfl
    · intro t
      rw [lastOf_long _ _ _ hl, ← h4]
      rfl
  | case2 s key hk =>
    have hl : key.length ≤ 12 := by
      rcases key with _ | ⟨k0, _ | ⟨k1, _ | ⟨k2, _ | ⟨k3, _ | ⟨k4, _ | ⟨k5, _ | ⟨k6, _ | ⟨k7, _ | ⟨k8, _ | ⟨k9, _ | ⟨k10, _ | ⟨k11, _ | ⟨k12, r⟩⟩⟩⟩⟩⟩⟩⟩⟩⟩⟩⟩⟩ <;>
        first
        | exact absurd rfl (hk _ _ _ _ _ _ _ _ _ _ _ _ _ _)
        | simp
    have e : (key.length - 1) / 12 = 0 := by omega
    refine ⟨hl, Iff.rfl, ?_, ?_⟩
    · unfold gen; rw [e]; rfl
    · intro t; unfold lastOf; rw [e]

/-- A path of the functions computes `lookup3`. -/
theorem path_spec (ld) (body) (last : St → List Byte → Option St) (hb : BodyOk ld body) (hlast : LastOk ld last) (key : List Byte) (v : W) :
    finish v (blocks body (start key.length v) key).1 (last (blocks body (start key.length v) key).1 (blocks body (start key.length v) key).2)
      = Spec.lookup3 ld key v := by
  obtain ⟨h1, h2, h3, h4⟩ := blocks_spec ld body hb (start key.length v) key
  by_cases hk : key = []
  · subst hk
    rw [h2.2 rfl, hlast.1]
    rfl
  · obtain ⟨t, ht, hs⟩ := hlast.2 (blocks body (start key.length v) key).1 (blocks body (start key.length v) key).2 (fun h => hk (h2.1 h)) h1
    rw [ht, lookup3_eq _ _ _ hk, ← h3, h4, ← hs, ← final_eq]
    rfl

attribute [local irreducible] sh

theorem add_lc (x y z : W) : x + (y + z) = y + (x + z) := by rw [← BitVec.add_assoc, BitVec.add_comm x, BitVec.add_assoc]
theorem add_z (x : W) : x + (0 : W) = x := BitVec.add_zero x
theorem z_add (x : W) : (0 : W) + x = x := BitVec.zero_add x

macro "last_cases" : tactic => `(tactic| (
  refine ⟨fun _ => rfl, fun s k hk hl => ?_⟩
  rcases k with _ | ⟨k0, _ | ⟨k1, _ | ⟨k2, _ | ⟨k3, _ | ⟨k4, _ | ⟨k5, _ | ⟨k6, _ | ⟨k7, _ | ⟨k8, _ | ⟨k9, _ | ⟨k10, _ | ⟨k11, _ | ⟨k12, r⟩⟩⟩⟩⟩⟩⟩⟩⟩⟩⟩⟩⟩
  case nil => exact absurd rfl hk
  all_goals first
  | (exfalso; simp only [List.length_cons] at hl; omega)
  | (refine ⟨_, rfl, ?_⟩
     unfold Spec.absorb St.toSpec
     simp only [word_eq, List.getD_cons_zero, List.getD_cons_succ, List.getD_nil, ldOf_little, ldOf_big, load32_little, load32_big, load16_little, le32_sum, be32_sum, le16_sum, halves_sum,
       sh_zero _ (show 0 ≤ 24 by decide), sh_zero _ (show 8 ≤ 24 by decide), sh_zero _ (show 16 ≤ 24 by decide), sh_zero _ (show 24 ≤ 24 by decide),
       add_z, z_add, Nat.mul_zero, Nat.zero_add, Nat.reduceAdd, Prod.mk.injEq]
     try simp only [and_true, true_and, BitVec.add_assoc, BitVec.add_comm, add_lc, and_self])))

theorem lastWords_ok : LastOk Spec.little (lastWords true) := by last_cases
theorem lastHalves_ok : LastOk Spec.little (lastHalves true) := by last_cases
theorem lastBytes_ok : LastOk Spec.little lastBytes := by last_cases
theorem lastWordsBe_ok : LastOk Spec.big (lastWordsBe false) := by last_cases
theorem lastBytesBe_ok : LastOk Spec.big lastBytesBe := by last_cases

macro "body_ok" : tactic => `(tactic| (
  intro s k0 k1 k2 k3 k4 k5 k6 k7 k8 k9 k10 k11
  simp only [bodyWords, bodyHalves, bodyBytes, bodyWordsBe, bodyBytesBe, ldOf_little, ldOf_big, load32_little, load32_big, le32_sum, be32_sum, halves_sum, St.mk.injEq]
  try simp only [and_true, true_and, BitVec.add_assoc, BitVec.add_comm, add_lc, and_self]))

theorem bodyWords_ok : BodyOk Spec.little (bodyWords true) := by body_ok
theorem bodyHalves_ok : BodyOk Spec.little (bodyHalves true) := by body_ok
theorem bodyBytes_ok : BodyOk Spec.little bodyBytes := by body_ok
theorem bodyWordsBe_ok : BodyOk Spec.big (bodyWordsBe false) := by body_ok
theorem bodyBytesBe_ok : BodyOk Spec.big bodyBytesBe := by body_ok

end Hash
