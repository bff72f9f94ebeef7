import Verif.Htm.SpecStamps
import Verif.Htm.PropsBits
import Verif.Htm.PropsSource
/-!
Stamps: what is read is told, once.
-/
namespace Htm

/-! ### The fields -/

theorem u32_toNat {v : BitVec 64} {a b : Nat} (hb : b < 64) (hab : a ≤ b) (hw : b - a < 32) :
    (u32 v a b).toNat = v.toNat / 2 ^ (63 - b) % 2 ^ (b - a + 1) := by
  unfold u32
  rw [BitVec.toNat_setWidth, bits_toNat hb hab]
  have : (2 : Nat) ^ (b - a + 1) ∣ 2 ^ 32 := Nat.pow_dvd_pow 2 (by omega)
  exact Nat.mod_eq_of_lt (Nat.lt_of_lt_of_le (Nat.mod_lt _ (Nat.two_pow_pos _)) (Nat.pow_le_pow_right (by omega) (by omega)))

theorem u32_ofNat {v : BitVec 64} {a b : Nat} (hb : b < 64) (hab : a ≤ b) (hw : b - a < 32) :
    u32 v a b = BitVec.ofNat 32 (v.toNat / 2 ^ (63 - b) % 2 ^ (b - a + 1)) := by
  rw [← u32_toNat hb hab hw, BitVec.ofNat_toNat, BitVec.setWidth_eq]

theorem u32_is {v : BitVec 64} {a b n : Nat} (hb : b < 64) (hab : a ≤ b) (hw : b - a < 32) (hn : n < 2 ^ 32) :
    u32 v a b = BitVec.ofNat 32 n ↔ v.toNat / 2 ^ (63 - b) % 2 ^ (b - a + 1) = n := by
  rw [← u32_toNat hb hab hw, ← BitVec.toNat_inj, BitVec.toNat_ofNat, Nat.mod_eq_of_lt hn]

theorem isStamp_div (v : BitVec 64) : isStamp v = true ↔ v.toNat / 2 ^ 44 = 0xACEFF := by
  unfold isStamp
  rw [beq_iff_eq, show (0xaceff : BitVec 32) = BitVec.ofNat 32 0xaceff from rfl, u32_is (by omega) (by omega) (by omega) (by omega)]
  have := v.isLt
  show v.toNat / 2 ^ 44 % 2 ^ 20 = _ ↔ _
  omega

theorem bit63 (v : BitVec 64) : (bit v 63).toNat = v.toNat % 2 := by
  rw [bit_eq (by omega), BitVec.getMsbD_eq_getLsbD]
  simp only [show (63 : Nat) < 64 by omega, decide_true, Bool.true_and]
  rw [show 64 - 1 - 63 = 0 by omega, BitVec.getLsbD, Nat.testBit_zero]
  rcases Nat.mod_two_eq_zero_or_one v.toNat with h | h <;> simp [h]

theorem type_is (v : BitVec 64) (n : Nat) (hn : n < 2 ^ 32) : u32 v 0 23 = BitVec.ofNat 32 n ↔ v.toNat / 2 ^ 40 = n := by
  rw [u32_is (by omega) (by omega) (by omega) hn]
  have := v.isLt
  show v.toNat / 2 ^ 40 % 2 ^ 24 = _ ↔ _
  omega

/-- The condition for a time stamp, for the sixteen types of stamps. -/
theorem time_types : ∀ k : Fin 16, (BitVec.ofNat 32 (0xACEFF0 + k.val) &&& 0xACEFF8 = (0xACEFF8 : BitVec 32)) ↔ 8 ≤ k.val := by decide

theorem stampOf_cases {v : BitVec 64} (h : isStamp v = true) :
    match stampOf v with
    | .ok (some s) => Says v s
    | .ok none => (∀ s, ¬ Says v s) ∧ ¬ Unfit v
    | .error _ => (∀ s, ¬ Says v s) ∧ Unfit v := by
  rw [isStamp_div] at h
  have hv := v.isLt
  unfold stampOf
  dsimp only
  have t := fun n hn => type_is v n hn
  by_cases h0 : v.toNat / 2 ^ 40 = 0xACEFF0
  · rw [if_pos (show u32 v 0 23 = 0xACEFF0 from (t 0xACEFF0 (by omega)).2 h0)]
    rw [u32_ofNat (by omega) (by omega) (by omega)]
    exact .record _ (v.toNat % 2 ^ 32) (Nat.mod_lt _ (by omega)) (Nat.mod_lt _ (by omega)) (by omega)
  rw [if_neg (show ¬ u32 v 0 23 = 0xACEFF0 from fun x => h0 ((t 0xACEFF0 (by omega)).1 x))]
  by_cases h1 : v.toNat / 2 ^ 40 = 0xACEFF1
  · rw [if_pos (show u32 v 0 23 = 0xACEFF1 from (t 0xACEFF1 (by omega)).2 h1)]
    rw [u32_ofNat (by omega) (by omega) (by omega)]
    exact .complete (v.toNat / 2 ^ 28 % 2 ^ 12) _ (Nat.mod_lt _ (by omega)) (Nat.mod_lt _ (by omega)) (by omega)
  rw [if_neg (show ¬ u32 v 0 23 = 0xACEFF1 from fun x => h1 ((t 0xACEFF1 (by omega)).1 x))]
  by_cases h2 : v.toNat / 2 ^ 40 = 0xACEFF2
  · rw [if_pos (show u32 v 0 23 = 0xACEFF2 from (t 0xACEFF2 (by omega)).2 h2)]
    rw [u32_ofNat (by omega) (by omega) (by omega)]
    exact .pause (v.toNat / 2 ^ 28 % 2 ^ 12) _ (Nat.mod_lt _ (by omega)) (Nat.mod_lt _ (by omega)) (by omega)
  rw [if_neg (show ¬ u32 v 0 23 = 0xACEFF2 from fun x => h2 ((t 0xACEFF2 (by omega)).1 x))]
  by_cases h3 : v.toNat / 2 ^ 40 = 0xACEFF3
  · rw [if_pos (show u32 v 0 23 = 0xACEFF3 from (t 0xACEFF3 (by omega)).2 h3)]
    have hr : bits v 53 62 = 0 ↔ v.toNat / 2 % 2 ^ 10 = 0 := by
      rw [← BitVec.toNat_inj, bits_toNat (by omega) (by omega)]; rfl
    by_cases h4 : bits v 53 62 = 0
    · rw [if_neg (by simpa using h4)]
      rw [u32_ofNat (by omega) (by omega) (by omega), u32_ofNat (by omega) (by omega) (by omega), u32_ofNat (by omega) (by omega) (by omega),
        u32_ofNat (by omega) (by omega) (by omega)]
      have h5 := hr.1 h4
      have h6 := bit63 v
      exact .mark _ _ _ _ _ (Nat.mod_lt _ (by omega)) (Nat.mod_lt _ (by omega)) (Nat.mod_lt _ (by omega)) (Nat.mod_lt _ (by omega)) (by omega)
    · rw [if_pos h4]
      refine ⟨fun s hs => ?_, h3, fun x => h4 (hr.2 x)⟩
      have h7 : v.toNat / 2 % 2 ^ 10 ≠ 0 := fun x => h4 (hr.2 x)
      cases hs with
      | mark g c u i d _ _ _ _ hq =>
        have : d.toNat ≤ 1 := Bool.toNat_le d
        omega
      | _ => omega
  rw [if_neg (show ¬ u32 v 0 23 = 0xACEFF3 from fun x => h3 ((t 0xACEFF3 (by omega)).1 x))]
  by_cases h4 : v.toNat / 2 ^ 40 = 0xACEFF4
  · rw [if_pos (show u32 v 0 23 = 0xACEFF4 from (t 0xACEFF4 (by omega)).2 h4)]
    exact .sync (v.toNat % 2 ^ 40) (Nat.mod_lt _ (by omega)) (by omega)
  rw [if_neg (show ¬ u32 v 0 23 = 0xACEFF4 from fun x => h4 ((t 0xACEFF4 (by omega)).1 x))]
  have hk : v.toNat / 2 ^ 40 = 0xACEFF0 + v.toNat / 2 ^ 40 % 16 := by omega
  have ht : u32 v 0 23 = BitVec.ofNat 32 (0xACEFF0 + (⟨v.toNat / 2 ^ 40 % 16, Nat.mod_lt _ (by omega)⟩ : Fin 16).val) :=
    (t _ (by show 0xACEFF0 + v.toNat / 2 ^ 40 % 16 < _; omega)).2 hk
  rw [ht]
  by_cases h8 : 8 ≤ v.toNat / 2 ^ 40 % 16
  · rw [if_pos ((time_types _).2 h8)]
    have hi : ∀ n, n < 2 ^ 8 → (u32 v 20 27 = BitVec.ofNat 32 n ↔ v.toNat / 2 ^ 36 % 2 ^ 8 = n) :=
      fun n hn => u32_is (by omega) (by omega) (by omega) (by omega)
    have h80 := hi 0x80 (by omega)
    have hA0 := hi 0xA0 (by omega)
    rw [show (0x80 : BitVec 32) = BitVec.ofNat 32 0x80 from rfl, show (0xA0 : BitVec 32) = BitVec.ofNat 32 0xA0 from rfl]
    simp only [h80, hA0]
    rw [u32_ofNat (by omega) (by omega) (by omega), u32_ofNat (by omega) (by omega) (by omega), u32_ofNat (by omega) (by omega) (by omega)]
    exact .time _ _ _ (by show 0x80 ≤ v.toNat / 2 ^ 36 % 2 ^ 8; omega) (Nat.mod_lt _ (by omega)) (Nat.mod_lt _ (by omega)) (Nat.mod_lt _ (by omega)) (by omega)
  · rw [if_neg (fun x => h8 ((time_types _).1 x))]
    refine ⟨fun s hs => ?_, fun hu => h3 hu.1⟩
    cases hs with
    | mark g c u i d _ _ _ _ hq =>
      have : d.toNat ≤ 1 := Bool.toNat_le d
      omega
    | _ => omega

theorem says_stamp {v : BitVec 64} {s : Stamp} (h : Says v s) : isStamp v = true := by
  rw [isStamp_div]
  cases h with
  | mark g c u i d _ _ _ _ hq =>
    have : d.toNat ≤ 1 := Bool.toNat_le d
    omega
  | _ => omega

/-! ### Programs that tell nothing about stamps -/

/-- What is told because of stamps. -/
def ofStamp : Ev → Bool
  | .stamp _ => true
  | .cycles _ => true
  | .count .timestampsScanned => true
  | .count .timestampsProcessed => true
  | _ => false

/-- What is told because of stamps, or first of all because of an instruction. -/
def ofHead : Ev → Bool
  | .stamp _ => true
  | .cycles _ => true
  | .count .timestampsScanned => true
  | .count .timestampsProcessed => true
  | .count .recordsProcessed => true
  | .count .instructionsScanned => true
  | _ => false

theorem ofStamp_of {e : Ev} (h : ofHead e = false) : ofStamp e = false := by
  cases e with
  | count c => cases c <;> first | rfl | cases h
  | _ => first | rfl | cases h

def Mute {α : Type} : Prog α → Prop
  | .done _ => True
  | .stop _ => True
  | .fetch k => ∀ v, Mute (k v)
  | .back _ k => Mute k
  | .tell e k => ofHead e = false ∧ Mute k

/-- A function that first counts a record and an instruction. -/
def Headed {α : Type} (p : Prog α) : Prop := ∃ q, p = .tell (.count .recordsProcessed) (.tell (.count .instructionsScanned) q) ∧ Mute q

theorem mute_bind {α β : Type} {f : α → Prog β} (hf : ∀ a, Mute (f a)) : ∀ p : Prog α, Mute p → Mute (p.bind f)
  | .done a, _ => hf a
  | .stop _, _ => trivial
  | .fetch k, h => fun v => mute_bind hf (k v) (h v)
  | .back _ k, h => mute_bind hf k h
  | .tell _ k, h => ⟨h.1, mute_bind hf k h.2⟩

theorem mute_tellAll {α : Type} {p : Prog α} (hp : Mute p) : ∀ l : List Ev, (∀ e ∈ l, ofHead e = false) → Mute (tellAll l p)
  | [], _ => hp
  | e :: l, h => ⟨h e List.mem_cons_self, mute_tellAll hp l fun x hx => h x (List.mem_cons_of_mem _ hx)⟩

theorem mute_finish9 (c : Conf) (s : Dec) (i : I9) : Mute (finish9 c s i) := by
  unfold finish9
  split
  · trivial
  · refine ⟨rfl, ?_⟩
    split
    · refine mute_tellAll ?_ _ ?_
      · exact ⟨rfl, trivial⟩
      · intro e he
        unfold jumpEvents at he
        split at he
        · split at he
          · cases List.mem_singleton.1 he; rfl
          · split at he
            · cases List.mem_singleton.1 he; rfl
            · cases he
        · cases he
    · trivial

theorem mute_draStep9 (c : Conf) (s : Dec) (i : I9) : Mute (draStep9 c s i) := by
  unfold draStep9
  split
  · intro v
    cases v with
    | none => trivial
    | some v =>
      dsimp only
      split
      · exact mute_finish9 ..
      · split
        · split
          · exact mute_finish9 ..
          · exact ⟨rfl, rfl, mute_finish9 ..⟩
        · split
          · exact mute_finish9 ..
          · refine mute_tellAll (p := Prog.tell _ _) ⟨rfl, mute_finish9 ..⟩ _ ?_
            intro e he
            unfold dataPages9 at he
            repeat' split at he
            all_goals first | (cases List.mem_singleton.1 he; rfl) | cases he
  · exact mute_finish9 ..

theorem mute_deaStep9 (c : Conf) (s : Dec) (i : I9) : Mute (deaStep9 c s i) := by
  unfold deaStep9
  split
  · intro v
    cases v with
    | none => trivial
    | some v =>
      dsimp only
      repeat' split
      all_goals first | exact mute_draStep9 .. | exact mute_finish9 ..
  · exact mute_draStep9 ..

theorem mute_iraStep9 (c : Conf) (s : Dec) (i : I9) : Mute (iraStep9 c s i) := by
  unfold iraStep9
  refine ⟨rfl, ?_⟩
  split
  · intro v
    cases v with
    | none => trivial
    | some v =>
      dsimp only
      split
      · exact mute_deaStep9 ..
      · split
        · exact mute_finish9 ..
        · refine ⟨rfl, ?_, rfl, ?_⟩
          · split <;> rfl
          · split
            · trivial
            · exact ⟨rfl, mute_deaStep9 ..⟩
  · exact ⟨rfl, mute_deaStep9 ..⟩

theorem headed_insn9 (c : Conf) (s : Dec) (v : BitVec 64) : Headed (insn9 c s v) := by
  unfold insn9
  refine ⟨_, rfl, ?_⟩
  split
  · trivial
  · split
    · refine ⟨rfl, ?_⟩
      unfold ieaStep9
      split
      · intro v
        cases v with
        | none => trivial
        | some v =>
          dsimp only
          split
          · exact mute_finish9 ..
          · unfold cached9
            split
            · refine ⟨rfl, ?_⟩
              repeat' split
              all_goals first | trivial | exact mute_iraStep9 ..
            · exact mute_iraStep9 ..
      · exact mute_iraStep9 ..
    · trivial

theorem mute_walks10 : ∀ (k : Nat) (x : Pwc.Xlate) (i : Nat), Mute (walks10 x k i)
  | 0, _, _ => trivial
  | k + 1, x, i => by
    unfold walks10
    intro v
    cases v with
    | none => trivial
    | some v =>
      dsimp only
      split
      · trivial
      · exact mute_walks10 k _ _

theorem mute_ieara10 : Mute ieara10 := by
  unfold ieara10
  intro v
  cases v with
  | none => trivial
  | some v =>
    intro w
    cases w <;> trivial

theorem mute_head10 : ∀ (k : Nat) (s : Dec) (ix : List Pwc.Xlate) (i : I10) (v : BitVec 64), Mute (head10 k s ix i v)
  | 0, _, _, _, _ => trivial
  | k + 1, s, ix, i, v => by
    unfold head10
    split
    · refine mute_bind ?_ _ mute_ieara10
      intro a
      split
      · trivial
      · split
        · trivial
        · intro v
          cases v with
          | none => trivial
          | some v => exact mute_head10 k _ _ _ _
    · split
      · split
        · split
          · refine mute_bind ?_ _ (mute_walks10 ..)
            intro a
            split
            · trivial
            · intro v
              cases v with
              | none => trivial
              | some v => exact mute_head10 k _ _ _ _
          · trivial
        · split
          · refine mute_bind ?_ _ (mute_walks10 ..)
            intro a
            split
            · trivial
            · intro v
              cases v with
              | none => trivial
              | some v => exact mute_head10 k _ _ _ _
          · trivial
      · trivial

theorem mute_draStep10 (c : Conf) (i : Nat) (x : I10) : Mute (draStep10 c i x) := by
  unfold draStep10
  split
  · intro v
    cases v with
    | none => trivial
    | some v =>
      dsimp only
      repeat' split
      all_goals trivial
  · trivial

theorem mute_dataStep10 (c : Conf) (i : Nat) (x : I10) : Mute (dataStep10 c i x) := by
  unfold dataStep10
  split
  · intro v
    cases v with
    | none => trivial
    | some v =>
      dsimp only
      repeat' split
      all_goals first | trivial | exact mute_draStep10 ..
  · exact mute_draStep10 ..

theorem mute_data10 (c : Conf) (x : I10) : Mute (data10 c x) := by
  unfold data10
  split
  · refine mute_bind ?_ _ (mute_dataStep10 ..)
    intro a
    split
    · trivial
    · trivial
    · split
      · refine mute_bind ?_ _ (mute_dataStep10 ..)
        intro a; trivial
      · trivial
  · trivial

theorem pageEvents_mute {f : Nat → Counter} (hf : ∀ n, ofHead (.count (f n)) = false) {n : Nat} : ∀ e ∈ pageEvents f n, ofHead e = false := by
  intro e he
  unfold pageEvents at he
  split at he
  · cases List.mem_singleton.1 he; exact hf n
  · cases he

theorem iside_mute {s s' : Dec} {x : I10} {l : List Ev} (h : iside s x = .ok (s', l)) : ∀ e ∈ l, ofHead e = false := by
  unfold iside at h
  split at h
  · split at h
    · unfold newLine at h
      dsimp only at h
      split at h
      · split at h
        · cases h
        · obtain ⟨rfl, rfl⟩ := Prod.mk.inj (Except.ok.inj h)
          intro e he
          rcases List.mem_cons.1 he with he | he
          · rw [he]; split <;> rfl
          · exact pageEvents_mute (fun _ => rfl) e he
      · split at h
        · cases h
        · obtain ⟨rfl, rfl⟩ := Prod.mk.inj (Except.ok.inj h)
          intro e he
          cases List.mem_singleton.1 he
          split <;> rfl
    · unfold sameLine at h
      repeat' split at h
      all_goals first | (cases h; done) | skip
      all_goals obtain ⟨rfl, rfl⟩ := Prod.mk.inj (Except.ok.inj h)
      all_goals intro e he
      all_goals first | (cases List.mem_singleton.1 he; rfl) | cases he
  · cases h
    intro e he
    cases he

theorem dside0_mute {s : Dec} {x : I10} {d : Xl.Res} {l : List Ev} {xl : Xl.St} {x' : I10} (h : dside0 s x = .ok (d, l, xl, x')) :
    ∀ e ∈ l, ofHead e = false := by
  unfold dside0 at h
  split at h
  · unfold dside at h
    dsimp only at h
    split at h
    · split at h
      · cases h
      · obtain ⟨rfl, h2⟩ := Prod.mk.inj (Except.ok.inj h)
        obtain ⟨rfl, _⟩ := Prod.mk.inj h2
        intro e he
        rcases List.mem_cons.1 he with he | he
        · rw [he]; split <;> rfl
        · exact pageEvents_mute (fun _ => rfl) e he
    · split at h
      · cases h
      · obtain ⟨rfl, h2⟩ := Prod.mk.inj (Except.ok.inj h)
        obtain ⟨rfl, _⟩ := Prod.mk.inj h2
        intro e he
        cases List.mem_singleton.1 he
        split <;> rfl
  · cases h
    intro e he
    cases he

theorem mute_emit10 (c : Conf) (s : Dec) (x : I10) : Mute (emit10 c s x) := by
  unfold emit10
  split
  · trivial
  · rename_i h1
    split
    · trivial
    · rename_i h2
      split
      · trivial
      · split
        · trivial
        · refine mute_tellAll (p := Prog.done _) trivial _ ?_
          intro e he
          rcases List.mem_append.1 he with he | he
          · rcases List.mem_append.1 he with he | he
            · rcases List.mem_append.1 he with he | he
              · exact iside_mute h1 e he
              · exact dside0_mute h2 e he
            · cases List.mem_singleton.1 he; rfl
          · unfold suffix10 at he
            split at he
            · cases List.mem_singleton.1 he; rfl
            · cases he

theorem mute_body10 (c : Conf) (s : Dec) (x : I10) : Mute (body10 c s x) := by
  unfold body10
  refine mute_bind ?_ _ (mute_data10 ..)
  intro a
  split
  · trivial
  · unfold finish10
    split
    · trivial
    · refine ⟨rfl, rfl, ?_⟩
      split
      · exact mute_emit10 ..
      · trivial

theorem headed_insn10 (c : Conf) (k : Nat) (s : Dec) (v : BitVec 64) : Headed (insn10 c k s v) := by
  unfold insn10
  refine ⟨_, rfl, mute_bind ?_ _ (mute_head10 ..)⟩
  intro a
  split
  · trivial
  · split
    · trivial
    · refine ⟨rfl, ?_⟩
      intro v
      cases v with
      | none => trivial
      | some v =>
        dsimp only
        unfold prefix10
        split
        · intro v
          cases v with
          | none => trivial
          | some v => exact mute_body10 ..
        · exact mute_body10 ..

/-! ### What is to be told -/

/-- What is told for a stamp. -/
def tellsOf (cf : Conf) (s : Stamp) : List Ev := timeEvents s ++ (if cf.fn then [.stamp s] else [])

/-- What is told for a record; `none` if it ends the program. -/
def due (cf : Conf) (v : BitVec 64) : List (Option Ev) :=
  if isStamp v then
    match stampOf v with
    | .error _ => [none]
    | .ok none => []
    | .ok (some s) => (tellsOf cf s).map some
  else []

/-- What was told and what is to be told. -/
def total (cf : Conf) (r : Rd) : List (Option Ev) := (r.out.filter ofStamp).map some ++ (pending r).flatMap (due cf)

theorem tells_stamp (cf : Conf) (s : Stamp) : ([Ev.count .recordsProcessed] ++ timeEvents s ++ (if cf.fn then [Ev.stamp s] else [])).filter ofStamp =
    tellsOf cf s := by
  unfold tellsOf
  cases s with
  | time i e k =>
    unfold timeEvents
    dsimp only
    by_cases hi : i = 0x80
    · rw [if_pos hi]; cases cf.fn <;> rfl
    · rw [if_neg hi]; cases cf.fn <;> rfl
  | _ => cases cf.fn <;> rfl

theorem due_stamp {cf : Conf} {r r' : Rd} {v : BitVec 64} {b : Bool} (hv : isStamp v = true) (h : stamp cf r v = .ok (b, r')) :
    pending r' = pending r ∧ (r'.out.filter ofStamp).map some = (r.out.filter ofStamp).map some ++ due cf v := by
  unfold stamp at h
  unfold due
  rw [if_pos hv]
  cases hs : stampOf v with
  | error e => rw [hs] at h; cases h
  | ok o =>
    rw [hs] at h
    cases o with
    | none =>
      cases h
      refine ⟨rfl, ?_⟩
      show ((r.out ++ [_]).filter ofStamp).map some = _
      rw [List.filter_append]; simp [ofStamp]
    | some s =>
      cases h
      refine ⟨rfl, ?_⟩
      show ((r.out ++ _).filter ofStamp).map some = _
      rw [List.filter_append, tells_stamp, List.map_append]

theorem total_fetch {S c : List (BitVec 64)} {cf : Conf} {r r' : Rd} {v : BitVec 64} (ha : Acc S c r) (h : fetchInternal r = (some v, r')) :
    total cf r = (r'.out.filter ofStamp).map some ++ (due cf v ++ (pending r').flatMap (due cf)) := by
  obtain ⟨_, _, _, _, _, hout, hp⟩ := fetchInternal_some ha h
  unfold total
  rw [hp, hout, List.flatMap_cons]

theorem total_plain {cf : Conf} {v : BitVec 64} (h : isStamp v = false) : due cf v = [] := by
  unfold due; rw [h]; rfl

theorem total_stamp {S c : List (BitVec 64)} {cf : Conf} {r r1 r2 : Rd} {v : BitVec 64} {b : Bool} (ha : Acc S c r) (h : fetchInternal r = (some v, r1))
    (hv : isStamp v = true) (h2 : stamp cf r1 v = .ok (b, r2)) : total cf r2 = total cf r := by
  obtain ⟨h3, h4⟩ := due_stamp hv h2
  rw [total_fetch ha h]
  unfold total
  rw [h3, h4, List.append_assoc]

theorem total_tell {cf : Conf} {r : Rd} {e : Ev} (h : ofStamp e = false) : total cf (r.tell e) = total cf r := by
  unfold total
  rw [show pending (r.tell e) = pending r from rfl, show (r.tell e).out = r.out ++ [e] from rfl, List.filter_append]
  simp [h]

/-- A quantity that only the counting of records and instructions changes. -/
structure Kept (cf : Conf) {β : Type} (I : Rd → β) : Prop where
  plain : ∀ {S c : List (BitVec 64)} {r r' : Rd} {v : BitVec 64}, Acc S c r → fetchInternal r = (some v, r') → isStamp v = false → I r' = I r
  stamp : ∀ {S c : List (BitVec 64)} {r r1 r2 : Rd} {v : BitVec 64} {b : Bool}, Acc S c r → fetchInternal r = (some v, r1) → isStamp v = true →
    Htm.stamp cf r1 v = .ok (b, r2) → I r2 = I r
  tell : ∀ {r : Rd} {e : Ev}, ofHead e = false → I (r.tell e) = I r
  back : ∀ {r r1 : Rd} {v : BitVec 64}, isStamp v = false → r1.out = r.out → pending r1 = v :: pending r → I r1 = I r

section
variable {cf : Conf} {β : Type} {I : Rd → β}

theorem kept_fetchLoop (hI : Kept cf I) {S : List (BitVec 64)} : ∀ (n : Nat) {c : List (BitVec 64)} {r r' : Rd} {o : Option (BitVec 64)}, Acc S c r →
    fetchLoop cf n r = .ok (o, r') → I r' = I r := by
  intro n
  induction n with
  | zero => intro c r r' o _ h; cases h
  | succ n ih =>
    intro c r r' o ha h
    unfold fetchLoop at h
    cases h1 : fetchInternal r with
    | mk a b =>
      rw [h1] at h
      cases a with
      | none =>
        obtain ⟨hb, _⟩ := fetchInternal_none h1
        cases h
        rw [hb]
      | some v =>
        dsimp only at h
        obtain ⟨hacc, _⟩ := fetchInternal_some ha h1
        cases hst : isStamp v with
        | false =>
          rw [hst, if_neg (by decide)] at h
          cases h
          exact hI.plain ha h1 hst
        | true =>
          rw [hst, if_pos rfl] at h
          cases h2 : Htm.stamp cf b v with
          | error e => rw [h2] at h; cases h
          | ok p =>
            obtain ⟨ok, b'⟩ := p
            have ht := hI.stamp ha h1 hst h2
            rw [h2] at h
            cases ok with
            | false => cases h; exact ht
            | true =>
              dsimp only at h
              obtain ⟨o', ho⟩ := stamp_frame h2
              have hacc' := acc_out hacc o'
              rw [← ho] at hacc'
              rw [ih hacc' h, ht]

theorem kept_quiet (hI : Kept cf I) {α : Type} {P : α → Prop} : ∀ (p : Prog α) (r : Rd), Quiet P p → Mute p → ∀ {a r'}, p.run cf r = .ok (a, r') →
    I r' = I r
  | .done a, r, _, _, _, _, h => by cases h; rfl
  | .stop _, _, _, _, _, _, h => by cases h
  | .tell e k, r, hq, hm, a, r', h => by
    rw [kept_quiet hI k (r.tell e) hq hm.2 h, hI.tell hm.1]

theorem kept_run (hI : Kept cf I) {α : Type} {P : α → Bool → Prop} {S base : List (BitVec 64)} : ∀ (p : Prog α) (l : Option (BitVec 64)) (n : Nat)
    (c : List (BitVec 64)) (r : Rd), Ok P l n p → Mute p → Acc S c r → (pending r).length ≤ n → r.nrRewind ≤ r.nr → Last base c r l →
    (∀ v, l = some v → isStamp v = false) → ∀ {a r'}, p.run cf r = .ok (a, r') → I r' = I r
  | .done a, _, _, _, _, _, _, _, _, _, _, _, _, _, h => by cases h; rfl
  | .stop _, _, _, _, _, _, _, _, _, _, _, _, _, _, h => by cases h
  | .tell e k, l, n, c, r, h, hm, ha, hp, hn, hl, hs, a, r', hr => by
    have hl' : Last base c (r.tell e) l := by
      cases l with
      | none => exact hl
      | some v => exact hl
    rw [kept_run hI k l n c (r.tell e) h hm.2 (acc_out ha _) hp hn hl' hs hr, hI.tell hm.1]
  | .back v k, l, n, c, r, h, hm, ha, hp, hn, hl, hs, a, r', hr => by
    obtain ⟨hlv, hq⟩ := h
    subst hlv
    obtain ⟨c0, hc, hb, hrw, hpv, hlt⟩ := hl
    subst hc
    have hv := hs v rfl
    unfold Prog.run at hr
    cases h1 : Htm.rewind r v with
    | error e => rw [h1] at hr; cases hr
    | ok r1 =>
      rw [h1] at hr
      obtain ⟨ha1, hn1, hout, hpend⟩ := rewind_ok ha hrw hpv h1
      rw [kept_quiet hI k r1 hq hm hr]
      exact hI.back hv hout hpend
  | .fetch k, l, n, c, r, h, hm, ha, hp, hn, hl, hs, a, r', hr => by
    have hb : base <+: c := by
      cases l with
      | none => exact hl
      | some v => obtain ⟨c0, hc, hb, _⟩ := hl; rw [hc]; exact hb.trans (List.prefix_append _ _)
    have hf := fetchLoop_spec cf (r.left + 1) ha (by have := pending_left r; omega)
    unfold Prog.run at hr
    rw [show Htm.fetch cf r = fetchLoop cf (r.left + 1) r from rfl] at hr
    cases h1 : fetchLoop cf (r.left + 1) r with
    | error e => rw [h1] at hr; cases hr
    | ok q =>
      rw [h1] at hf hr
      obtain ⟨v, r1⟩ := q
      have ht := kept_fetchLoop hI _ ha h1
      have hlen : ∀ d, Acc S (c ++ d) r1 → (pending r1).length + d.length = (pending r).length := by
        intro d hd
        have e1 := congrArg List.length hd.rest
        have e2 := congrArg List.length ha.rest
        simp only [List.length_append] at e1 e2
        omega
      rw [← ht]
      cases v with
      | none =>
        obtain ⟨skip, ha1, _, hn1⟩ := hf
        have := hlen skip ha1
        refine kept_run hI (base := base) (k none) none n (c ++ skip) r1 h.1 (hm none) ha1 (by omega) ?_ ?_ (fun v hv => by cases hv) hr
        · have e1 := ha1.nr; have e2 := ha.nr; rw [List.length_append] at e1; omega
        · exact hb.trans (List.prefix_append _ _)
      | some v =>
        obtain ⟨skip, ha1, _, hv, hrw, hpv, hn1⟩ := hf
        have h2 := hlen (skip ++ [v]) (by rw [← List.append_assoc]; exact ha1)
        have e1 := ha1.nr
        have e2 := ha.nr
        simp only [List.length_append, List.length_singleton] at h2 e1
        have hlt : r1.nrRewind < r1.nr := by omega
        exact kept_run hI (base := base) (k (some v)) (some v) (n - 1) (c ++ skip ++ [v]) r1 (h.2 v (n - 1) (by omega)) (hm (some v)) ha1 (by omega)
          (by omega) ⟨c ++ skip, rfl, hb.trans (List.prefix_append _ _), hrw, hpv, hlt⟩ (fun w hw => by cases hw; exact hv) hr

/-- Count a record and an instruction. -/
def Rd.head (r : Rd) : Rd := (r.tell (.count .recordsProcessed)).tell (.count .instructionsScanned)

theorem kept_headed (hI : Kept cf I) {α : Type} {P : α → Bool → Prop} {S base : List (BitVec 64)} {p : Prog α} (hh : Headed p) (l : Option (BitVec 64)) (n : Nat)
    (c : List (BitVec 64)) (r : Rd) (h : Ok P l n p) (ha : Acc S c r) (hp : (pending r).length ≤ n) (hn : r.nrRewind ≤ r.nr) (hl : Last base c r l)
    (hs : ∀ v, l = some v → isStamp v = false) {a : α} {r' : Rd} (hr : p.run cf r = .ok (a, r')) : I r' = I r.head := by
  obtain ⟨q, rfl, hm⟩ := hh
  have hl' : Last base c r.head l := by
    cases l with
    | none => exact hl
    | some v => exact hl
  exact kept_run hI q l n c r.head h hm (acc_out ha _) hp hn hl' hs hr

theorem kept_decodeOne (hI : Kept cf I) {S c : List (BitVec 64)} {e e' : Nat} {s s' : Dec} {r r' : Rd} {go : Bool} (hb : Between S c r)
    (h : decodeOne cf e s r = .ok (go, e', s', r')) : I r' = I r ∨ ∃ r1, I r1 = I r ∧ I r' = I r1.head := by
  unfold decodeOne at h
  cases h1 : fetchInternal r with
  | mk a r1 =>
    rw [h1] at h
    cases a with
    | none =>
      obtain ⟨h2, h3⟩ := fetchInternal_none h1
      cases h
      exact .inl (by rw [h2])
    | some v =>
      obtain ⟨ha, hrw, hpv, hnr, hnr2, _, hpend⟩ := fetchInternal_some hb.acc h1
      have hn : r1.nrRewind ≤ r1.nr := by have := hb.rewound; omega
      dsimp only at h
      by_cases h0 : v = 0
      · rw [if_pos h0] at h
        cases h
        exact .inl (hI.plain hb.acc h1 (by rw [h0]; decide))
      · rw [if_neg h0] at h
        have hd : ∀ {q : Dec × Bool} {r2 : Rd}, dispatch cf s r1 v = .ok (q, r2) → I r2 = I r ∨ ∃ r1, I r1 = I r ∧ I r2 = I r1.head := by
          intro q r2 hq
          unfold dispatch at hq
          cases hst : isStamp v with
          | true =>
            rw [hst, if_pos rfl] at hq
            cases h2 : stamp cf r1 v with
            | error e => rw [h2] at hq; cases hq
            | ok p =>
              obtain ⟨b, r3⟩ := p
              rw [h2] at hq
              cases hq
              exact .inl (hI.stamp hb.acc h1 hst h2)
          | false =>
            have ht : I r1 = I r := hI.plain hb.acc h1 hst
            rw [hst, if_neg (by decide)] at hq
            by_cases h9 : u32 v 36 55 = 0xABCDE
            · rw [if_pos h9] at hq
              exact .inr ⟨r1, ht, kept_headed hI (base := c ++ [v]) (headed_insn9 cf s v) none r1.left _ r1 (ok_insn9 cf s v none _) ha (pending_left r1) hn
                (List.prefix_refl _) (fun v hv => by cases hv) hq⟩
            · rw [if_neg h9] at hq
              by_cases h10 : u32 v 36 55 = 0xABCDF
              · rw [if_pos h10] at hq
                exact .inr ⟨r1, ht, kept_headed hI (base := c ++ [v]) (headed_insn10 cf _ s v) none r1.left _ r1 (ok_insn10 cf s v none (by omega)) ha
                  (pending_left r1) hn (List.prefix_refl _) (fun v hv => by cases hv) hq⟩
              · rw [if_neg h10] at hq
                cases hq
                exact .inl ht
        cases h2 : dispatch cf s r1 v with
        | error x => rw [h2] at h; cases h
        | ok q =>
          obtain ⟨⟨s2, b⟩, r2⟩ := q
          rw [h2] at h
          cases b with
          | true => cases h; exact hd h2
          | false =>
            dsimp only at h
            split at h
            · cases h
            · cases h; exact hd h2

/-- What is kept, but for the counting of records and instructions, is kept by decoding. -/
theorem kept_decodeLoop (hI : Kept cf I) {Q : Rd → Prop} (hQ : ∀ {r r'}, I r' = I r → Q r → Q r') (hh : ∀ {r}, Q r → Q r.head) {S : List (BitVec 64)} :
    ∀ (n : Nat) {e : Nat} {s s' : Dec} {c : List (BitVec 64)} {r r' : Rd}, Between S c r → Q r → decodeLoop cf n e s r = .ok (s', r') → Q r'
  | 0, _, _, _, _, _, _, _, _, h => by cases h
  | n + 1, e, s, s', c, r, r', hb, hq, h => by
    unfold decodeLoop at h
    have h1 := decodeOne_spec (cf := cf) (e := e) (s := s) hb
    cases h2 : decodeOne cf e s r with
    | error x => rw [h2] at h; cases h
    | ok q =>
      rw [h2] at h1 h
      obtain ⟨go, e', s1, r1⟩ := q
      have ht : Q r1 := by
        rcases kept_decodeOne hI hb h2 with h3 | ⟨r2, h3, h4⟩
        · exact hQ h3 hq
        · exact hQ h4 (hh (hQ h3 hq))
      cases go with
      | false => cases h; exact ht
      | true =>
        obtain ⟨c', hb', _⟩ := h1
        exact kept_decodeLoop hI hQ hh n hb' ht h

end

theorem kept_total (cf : Conf) : Kept cf (total cf) where
  plain ha h hv := by rw [total_fetch ha h, total_plain hv]; rfl
  stamp ha h hv h2 := total_stamp ha h hv h2
  tell h := total_tell (ofStamp_of h)
  back hv hout hp := by
    unfold total
    rw [hout, hp, List.flatMap_cons, total_plain hv]; rfl

theorem total_decodeLoop {S : List (BitVec 64)} (cf : Conf) (n : Nat) {e : Nat} {s s' : Dec} {c : List (BitVec 64)} {r r' : Rd} (hb : Between S c r)
    (h : decodeLoop cf n e s r = .ok (s', r')) : total cf r' = total cf r :=
  kept_decodeLoop (kept_total cf) (Q := fun x => total cf x = total cf r) (fun h1 h2 => h1.trans h2)
    (fun h1 => by rw [← h1]; exact (total_tell rfl).trans (total_tell rfl)) n hb rfl h

end Htm
