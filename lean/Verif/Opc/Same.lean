import Verif.Opc.Check

/-! Operands put back into a word one after the other. -/
namespace Opc

variable {i j x d : W}

/-- The bits of the word that an insertion function looks at; `branch` when the major opcode may be 19. -/
def Ins.looks (branch : Bool) : Ins → W
  | .ral | .ram | .raq | .rbx => 0x3e00000#64
  | .ls => 0x7fe#64
  | .esync => 0x600000#64
  | .bdm | .bdp => 0x2800000#64
  | .bo | .boe => if branch then 0xfc000400#64 else 0xfc000000#64
  | .sprg => 0x100#64
  | .nbi => 0x3ff0000#64
  | .fxm => 0x1007fe#64
  | _ => 0#64

/-- Two insertions add the same bits and the same message. -/
def Same (i j : W) (a b : Inserted) : Prop := (a = none ∧ b = none) ∨ ∃ f e, a = some (i ||| f, e) ∧ b = some (j ||| f, e)

theorem same_add {a b : W} {e e' : Bool} (f : W) (h1 : a = i ||| f) (h2 : b = j ||| f) (he : e = e') : Same i j (some (a, e)) (some (b, e')) :=
  Or.inr ⟨f, e, by rw [h1], by rw [h2, he]⟩

theorem same_none : Same i j none none := Or.inl ⟨rfl, rfl⟩

theorem same_one {f : W} {e : Bool} : Same i j (some (i ||| f, e)) (some (j ||| f, e)) := same_add f rfl rfl rfl
theorem same_two {f g : W} {e : Bool} : Same i j (some (i ||| f ||| g, e)) (some (j ||| f ||| g, e)) :=
  same_add (f ||| g) (BitVec.or_assoc ..) (BitVec.or_assoc ..) rfl
theorem same_three {f g k : W} {e : Bool} : Same i j (some (i ||| f ||| g ||| k, e)) (some (j ||| f ||| g ||| k, e)) :=
  same_add (f ||| g ||| k) (by simp only [BitVec.or_assoc]) (by simp only [BitVec.or_assoc]) rfl

/-- A number read from the bits looked at. -/
theorem look_part {m n : W} {s : Nat} (h : i &&& m = j &&& m) (hn : ((m >>> s) &&& n) = n) : (i >>> s) &&& n = (j >>> s) &&& n := by
  have e : ∀ y : W, (y >>> s) &&& n = ((y &&& m) >>> s) &&& n := by
    intro y
    rw [BitVec.ushiftRight_and_distrib, BitVec.and_assoc, hn]
  rw [e i, e j, h]

theorem look_mask {m n : W} (h : i &&& m = j &&& m) (hn : m &&& n = n) : i &&& n = j &&& n := by
  have e : ∀ y : W, y &&& n = (y &&& m) &&& n := by intro y; rw [BitVec.and_assoc, hn]
  rw [e i, e j, h]

theorem saArx : Same i j (insertArx i x d) (insertArx j x d) := by
  unfold insertArx
  first
    | exact same_one
    | exact same_two
    | exact same_three
    | (try dsimp only
       repeat' split
       all_goals first | exact same_none | exact same_one | exact same_two)

theorem saAry : Same i j (insertAry i x d) (insertAry j x d) := by
  unfold insertAry
  first
    | exact same_one
    | exact same_two
    | exact same_three
    | (try dsimp only
       repeat' split
       all_goals first | exact same_none | exact same_one | exact same_two)

theorem saRx : Same i j (insertRx i x d) (insertRx j x d) := by
  unfold insertRx
  first
    | exact same_one
    | exact same_two
    | exact same_three
    | (try dsimp only
       repeat' split
       all_goals first | exact same_none | exact same_one | exact same_two)

theorem saRy : Same i j (insertRy i x d) (insertRy j x d) := by
  unfold insertRy
  first
    | exact same_one
    | exact same_two
    | exact same_three
    | (try dsimp only
       repeat' split
       all_goals first | exact same_none | exact same_one | exact same_two)

theorem saBab : Same i j (insertBab i x d) (insertBab j x d) := by
  unfold insertBab
  first
    | exact same_one
    | exact same_two
    | exact same_three
    | (try dsimp only
       repeat' split
       all_goals first | exact same_none | exact same_one | exact same_two)

theorem saBtab : Same i j (insertBtab i x d) (insertBtab j x d) := by
  unfold insertBtab
  refine same_add (((x &&& 0x1f#64) <<< 21) ||| ((((x &&& 0x1f#64) &&& 0x1f#64) <<< 16) ||| (((x &&& 0x1f#64) &&& 0x1f#64) <<< 11))) ?_ ?_ rfl
  all_goals rw [BitVec.or_assoc, ← BitVec.or_assoc, BitVec.or_comm ((x &&& 0x1f#64) <<< 21), BitVec.or_assoc]

theorem saBdm (h : i &&& Ins.looks true .bdm = j &&& Ins.looks true .bdm) : Same i j (insertBdm i x d) (insertBdm j x d) := by
  have e1 := look_mask (n := 0x14#64 <<< 21) h (by decide)
  unfold insertBdm
  simp only [e1]
  by_cases c1 : d &&& isaV2 = 0#64
  · by_cases c2 : x &&& 0x8000#64 ≠ 0#64
    · simp only [if_pos c1, if_pos c2]; exact same_two
    · simp only [if_pos c1, if_neg c2]; exact same_one
  · by_cases c2 : j &&& (0x14#64 <<< 21) = 0x04#64 <<< 21
    · simp only [if_neg c1, if_pos c2]; exact same_two
    · by_cases c3 : j &&& (0x14#64 <<< 21) = 0x10#64 <<< 21
      · simp only [if_neg c1, if_neg c2, if_pos c3]; exact same_two
      · simp only [if_neg c1, if_neg c2, if_neg c3]; exact same_one

theorem saBdp (h : i &&& Ins.looks true .bdp = j &&& Ins.looks true .bdp) : Same i j (insertBdp i x d) (insertBdp j x d) := by
  have e1 := look_mask (n := 0x14#64 <<< 21) h (by decide)
  unfold insertBdp
  simp only [e1]
  by_cases c1 : d &&& isaV2 = 0#64
  · by_cases c2 : x &&& 0x8000#64 = 0#64
    · simp only [if_pos c1, if_pos c2]; exact same_two
    · simp only [if_pos c1, if_neg c2]; exact same_one
  · by_cases c2 : j &&& (0x14#64 <<< 21) = 0x04#64 <<< 21
    · simp only [if_neg c1, if_pos c2]; exact same_two
    · by_cases c3 : j &&& (0x14#64 <<< 21) = 0x10#64 <<< 21
      · simp only [if_neg c1, if_neg c2, if_pos c3]; exact same_two
      · simp only [if_neg c1, if_neg c2, if_neg c3]; exact same_one

theorem saBo {b : Bool} (hb : b = false → ppcOp i ≠ 19#64) (h : i &&& Ins.looks b .bo = j &&& Ins.looks b .bo) :
    Same i j (insertBo i x d) (insertBo j x d) := by
  have e2 : ppcOp i = ppcOp j := by cases b <;> (unfold ppcOp; exact look_part h (by decide))
  unfold insertBo
  cases b with
  | true => rw [look_mask (n := 0x400#64) h (by decide), e2]; exact same_one
  | false =>
    have n1 := hb rfl
    have n2 := hb rfl
    rw [e2] at n2
    simp only [n1, n2, false_and, if_false]; exact same_one

theorem saBoe {b : Bool} (hb : b = false → ppcOp i ≠ 19#64) (h : i &&& Ins.looks b .boe = j &&& Ins.looks b .boe) :
    Same i j (insertBoe i x d) (insertBoe j x d) := by
  have e2 : ppcOp i = ppcOp j := by cases b <;> (unfold ppcOp; exact look_part h (by decide))
  unfold insertBoe
  cases b with
  | true => rw [look_mask (n := 0x400#64) h (by decide), e2]; exact same_one
  | false =>
    have n1 := hb rfl
    have n2 := hb rfl
    rw [e2] at n2
    simp only [n1, n2, false_and, if_false]; exact same_one

theorem saDcmxs : Same i j (insertDcmxs i x d) (insertDcmxs j x d) := by
  unfold insertDcmxs
  first
    | exact same_one
    | exact same_two
    | exact same_three
    | (try dsimp only
       repeat' split
       all_goals first | exact same_none | exact same_one | exact same_two)

theorem saDxd : Same i j (insertDxd i x d) (insertDxd j x d) := by
  unfold insertDxd
  first
    | exact same_one
    | exact same_two
    | exact same_three
    | (try dsimp only
       repeat' split
       all_goals first | exact same_none | exact same_one | exact same_two)

theorem saDxdn : Same i j (insertDxdn i x d) (insertDxdn j x d) := by
  unfold insertDxdn
  split
  · exact same_none
  · unfold insertDxd; exact same_two

theorem saFxm (h : i &&& Ins.looks true .fxm = j &&& Ins.looks true .fxm) : Same i j (insertFxm i x d) (insertFxm j x d) := by
  have e1 := look_mask (n := 1#64 <<< 20) h (by decide)
  have e2 : isMfcr i = isMfcr j := by unfold isMfcr; rw [look_mask (n := 0x3ff#64 <<< 1) h (by decide)]
  unfold insertFxm
  rw [e1, e2]
  repeat' split
  all_goals first | exact same_none | exact same_one | exact same_two

theorem saLi20 : Same i j (insertLi20 i x d) (insertLi20 j x d) := by
  unfold insertLi20
  first
    | exact same_one
    | exact same_two
    | exact same_three
    | (try dsimp only
       repeat' split
       all_goals first | exact same_none | exact same_one | exact same_two)

theorem saLs (h : i &&& Ins.looks true .ls = j &&& Ins.looks true .ls) : Same i j (insertLs i x d) (insertLs j x d) := by
  unfold insertLs
  rw [look_part (n := 0x3ff#64) (s := 1) h (by decide)]; exact same_one

theorem saEsync (h : i &&& Ins.looks true .esync = j &&& Ins.looks true .esync) : Same i j (insertEsync i x d) (insertEsync j x d) := by
  unfold insertEsync
  rw [look_part (n := 0x3#64) (s := 21) h (by decide)]; exact same_one

theorem saMbe : Same i j (insertMbe i x d) (insertMbe j x d) := by
  unfold insertMbe
  split
  · exact same_add 0#64 (by simp) (by simp) rfl
  · exact same_two

theorem saMb6 : Same i j (insertMb6 i x d) (insertMb6 j x d) := by
  unfold insertMb6
  first
    | exact same_one
    | exact same_two
    | exact same_three
    | (try dsimp only
       repeat' split
       all_goals first | exact same_none | exact same_one | exact same_two)

theorem saNbi (h : i &&& Ins.looks true .nbi = j &&& Ins.looks true .nbi) : Same i j (insertNbi i x d) (insertNbi j x d) := by
  unfold insertNbi
  rw [look_part (n := 0x1f#64) (s := 21) h (by decide), look_part (n := 0x1f#64) (s := 16) h (by decide)]
  dsimp only
  generalize (if x = 0#64 then 32#64 else x) = y
  split
  all_goals first | exact same_none | exact same_one

theorem saNsi : Same i j (insertNsi i x d) (insertNsi j x d) := by
  unfold insertNsi
  first
    | exact same_one
    | exact same_two
    | exact same_three
    | (try dsimp only
       repeat' split
       all_goals first | exact same_none | exact same_one | exact same_two)

theorem saRal (h : i &&& Ins.looks true .ral = j &&& Ins.looks true .ral) : Same i j (insertRal i x d) (insertRal j x d) := by
  unfold insertRal
  rw [look_part (n := 0x1f#64) (s := 21) h (by decide)]; exact same_one

theorem saRam (h : i &&& Ins.looks true .ram = j &&& Ins.looks true .ram) : Same i j (insertRam i x d) (insertRam j x d) := by
  unfold insertRam
  rw [look_part (n := 0x1f#64) (s := 21) h (by decide)]; exact same_one

theorem saRaq (h : i &&& Ins.looks true .raq = j &&& Ins.looks true .raq) : Same i j (insertRaq i x d) (insertRaq j x d) := by
  unfold insertRaq
  rw [look_part (n := 0x1f#64) (s := 21) h (by decide)]; exact same_one

theorem saRas : Same i j (insertRas i x d) (insertRas j x d) := by
  unfold insertRas
  first
    | exact same_one
    | exact same_two
    | exact same_three
    | (try dsimp only
       repeat' split
       all_goals first | exact same_none | exact same_one | exact same_two)

theorem saRsb : Same i j (insertRsb i x d) (insertRsb j x d) := by
  unfold insertRsb
  first
    | exact same_one
    | exact same_two
    | exact same_three
    | (try dsimp only
       repeat' split
       all_goals first | exact same_none | exact same_one | exact same_two)

theorem saRbx (h : i &&& Ins.looks true .rbx = j &&& Ins.looks true .rbx) : Same i j (insertRbx i x d) (insertRbx j x d) := by
  unfold insertRbx
  rw [look_part (n := 0x1f#64) (s := 21) h (by decide)]; exact same_one

theorem saSci8 : Same i j (insertSci8 i x d) (insertSci8 j x d) := by
  unfold insertSci8
  simp only
  repeat' split
  all_goals exact same_two

theorem saSci8n : Same i j (insertSci8n i x d) (insertSci8n j x d) := by
  unfold insertSci8n
  split
  · exact same_none
  · exact saSci8

theorem saOimm : Same i j (insertOimm i x d) (insertOimm j x d) := by
  unfold insertOimm
  first
    | exact same_one
    | exact same_two
    | exact same_three
    | (try dsimp only
       repeat' split
       all_goals first | exact same_none | exact same_one | exact same_two)

theorem saSh6 : Same i j (insertSh6 i x d) (insertSh6 j x d) := by
  unfold insertSh6
  first
    | exact same_one
    | exact same_two
    | exact same_three
    | (try dsimp only
       repeat' split
       all_goals first | exact same_none | exact same_one | exact same_two)

theorem saSpr : Same i j (insertSpr i x d) (insertSpr j x d) := by
  unfold insertSpr
  first
    | exact same_one
    | exact same_two
    | exact same_three
    | (try dsimp only
       repeat' split
       all_goals first | exact same_none | exact same_one | exact same_two)

theorem saSprbat : Same i j (insertSprbat i x d) (insertSprbat j x d) := by
  unfold insertSprbat
  first
    | exact same_one
    | exact same_two
    | exact same_three
    | (try dsimp only
       repeat' split
       all_goals first | exact same_none | exact same_one | exact same_two)

theorem saSprg (h : i &&& Ins.looks true .sprg = j &&& Ins.looks true .sprg) : Same i j (insertSprg i x d) (insertSprg j x d) := by
  unfold insertSprg
  rw [look_mask (n := 0x100#64) h (by decide)]; exact same_one

theorem saTbr : Same i j (insertTbr i x d) (insertTbr j x d) := by
  unfold insertTbr
  first
    | exact same_one
    | exact same_two
    | exact same_three
    | (try dsimp only
       repeat' split
       all_goals first | exact same_none | exact same_one | exact same_two)

theorem saXt6 : Same i j (insertXt6 i x d) (insertXt6 j x d) := by
  unfold insertXt6
  first
    | exact same_one
    | exact same_two
    | exact same_three
    | (try dsimp only
       repeat' split
       all_goals first | exact same_none | exact same_one | exact same_two)

theorem saXtq6 : Same i j (insertXtq6 i x d) (insertXtq6 j x d) := by
  unfold insertXtq6
  first
    | exact same_one
    | exact same_two
    | exact same_three
    | (try dsimp only
       repeat' split
       all_goals first | exact same_none | exact same_one | exact same_two)

theorem saXa6 : Same i j (insertXa6 i x d) (insertXa6 j x d) := by
  unfold insertXa6
  first
    | exact same_one
    | exact same_two
    | exact same_three
    | (try dsimp only
       repeat' split
       all_goals first | exact same_none | exact same_one | exact same_two)

theorem saXb6 : Same i j (insertXb6 i x d) (insertXb6 j x d) := by
  unfold insertXb6
  first
    | exact same_one
    | exact same_two
    | exact same_three
    | (try dsimp only
       repeat' split
       all_goals first | exact same_none | exact same_one | exact same_two)

theorem saXab6 : Same i j (insertXab6 i x d) (insertXab6 j x d) := by
  unfold insertXab6
  refine same_add ((((x &&& 0x1f#64) <<< 16) ||| ((x &&& 0x20#64) >>> 3)) ||| (((x &&& 0x1f#64) <<< 11) ||| ((x &&& 0x20#64) >>> 4))) ?_ ?_ rfl
  all_goals
    generalize (x &&& 0x1f#64) <<< 16 = a; generalize (x &&& 0x20#64) >>> 3 = b; generalize (x &&& 0x1f#64) <<< 11 = c; generalize (x &&& 0x20#64) >>> 4 = e
    apply BitVec.eq_of_getLsbD_eq
    intro k _
    simp only [BitVec.getLsbD_or]
    cases i.getLsbD k <;> cases j.getLsbD k <;> simp [Bool.or_assoc]

theorem saXc6 : Same i j (insertXc6 i x d) (insertXc6 j x d) := by
  unfold insertXc6
  first
    | exact same_one
    | exact same_two
    | exact same_three
    | (try dsimp only
       repeat' split
       all_goals first | exact same_none | exact same_one | exact same_two)

theorem saDm : Same i j (insertDm i x d) (insertDm j x d) := by
  unfold insertDm
  first
    | exact same_one
    | exact same_two
    | exact same_three
    | (try dsimp only
       repeat' split
       all_goals first | exact same_none | exact same_one | exact same_two)

theorem saVlesi : Same i j (insertVlesi i x d) (insertVlesi j x d) := by
  unfold insertVlesi
  first
    | exact same_one
    | exact same_two
    | exact same_three
    | (try dsimp only
       repeat' split
       all_goals first | exact same_none | exact same_one | exact same_two)

theorem saVlensi : Same i j (insertVlensi i x d) (insertVlensi j x d) := by
  unfold insertVlensi
  first
    | exact same_one
    | exact same_two
    | exact same_three
    | (try dsimp only
       repeat' split
       all_goals first | exact same_none | exact same_one | exact same_two)

theorem saVleui : Same i j (insertVleui i x d) (insertVleui j x d) := by
  unfold insertVleui
  first
    | exact same_one
    | exact same_two
    | exact same_three
    | (try dsimp only
       repeat' split
       all_goals first | exact same_none | exact same_one | exact same_two)

theorem saVleil : Same i j (insertVleil i x d) (insertVleil j x d) := by
  unfold insertVleil
  first
    | exact same_one
    | exact same_two
    | exact same_three
    | (try dsimp only
       repeat' split
       all_goals first | exact same_none | exact same_one | exact same_two)

theorem saEvuimm1Ex0 : Same i j (insertEvuimm1Ex0 i x d) (insertEvuimm1Ex0 j x d) := by
  unfold insertEvuimm1Ex0
  first
    | exact same_one
    | exact same_two
    | exact same_three
    | (try dsimp only
       repeat' split
       all_goals first | exact same_none | exact same_one | exact same_two)

theorem saEvuimm2Ex0 : Same i j (insertEvuimm2Ex0 i x d) (insertEvuimm2Ex0 j x d) := by
  unfold insertEvuimm2Ex0
  first
    | exact same_one
    | exact same_two
    | exact same_three
    | (try dsimp only
       repeat' split
       all_goals first | exact same_none | exact same_one | exact same_two)

theorem saEvuimm4Ex0 : Same i j (insertEvuimm4Ex0 i x d) (insertEvuimm4Ex0 j x d) := by
  unfold insertEvuimm4Ex0
  first
    | exact same_one
    | exact same_two
    | exact same_three
    | (try dsimp only
       repeat' split
       all_goals first | exact same_none | exact same_one | exact same_two)

theorem saEvuimm8Ex0 : Same i j (insertEvuimm8Ex0 i x d) (insertEvuimm8Ex0 j x d) := by
  unfold insertEvuimm8Ex0
  first
    | exact same_one
    | exact same_two
    | exact same_three
    | (try dsimp only
       repeat' split
       all_goals first | exact same_none | exact same_one | exact same_two)

theorem saEvuimmLt8 : Same i j (insertEvuimmLt8 i x d) (insertEvuimmLt8 j x d) := by
  unfold insertEvuimmLt8
  first
    | exact same_one
    | exact same_two
    | exact same_three
    | (try dsimp only
       repeat' split
       all_goals first | exact same_none | exact same_one | exact same_two)

theorem saEvuimmLt16 : Same i j (insertEvuimmLt16 i x d) (insertEvuimmLt16 j x d) := by
  unfold insertEvuimmLt16
  first
    | exact same_one
    | exact same_two
    | exact same_three
    | (try dsimp only
       repeat' split
       all_goals first | exact same_none | exact same_one | exact same_two)

theorem saEven : Same i j (insertEven i x d) (insertEven j x d) := by
  unfold insertEven
  first
    | exact same_one
    | exact same_two
    | exact same_three
    | (try dsimp only
       repeat' split
       all_goals first | exact same_none | exact same_one | exact same_two)

theorem saOffLsp : Same i j (insertOffLsp i x d) (insertOffLsp j x d) := by
  unfold insertOffLsp
  first
    | exact same_one
    | exact same_two
    | exact same_three
    | (try dsimp only
       repeat' split
       all_goals first | exact same_none | exact same_one | exact same_two)

theorem saOffSpe2 : Same i j (insertOffSpe2 i x d) (insertOffSpe2 j x d) := by
  unfold insertOffSpe2
  first
    | exact same_one
    | exact same_two
    | exact same_three
    | (try dsimp only
       repeat' split
       all_goals first | exact same_none | exact same_one | exact same_two)

theorem saDdd : Same i j (insertDdd i x d) (insertDdd j x d) := by
  unfold insertDdd
  first
    | exact same_one
    | exact same_two
    | exact same_three
    | (try dsimp only
       repeat' split
       all_goals first | exact same_none | exact same_one | exact same_two)

theorem saSxl : Same i j (insertSxl i x d) (insertSxl j x d) := by
  unfold insertSxl
  first
    | exact same_one
    | exact same_two
    | exact same_three
    | (try dsimp only
       repeat' split
       all_goals first | exact same_none | exact same_one | exact same_two)

theorem saNull {o : Operand} : Same i j (o.insertNull i x) (o.insertNull j x) := by
  unfold Operand.insertNull
  split
  · exact same_none
  · split <;> exact same_one

/-- Words that agree on the bits looked at. -/
theorem same_row {o : Operand} {b : Bool} (hb : b = false → ppcOp i ≠ 19#64) (h : i &&& o.ins.looks b = j &&& o.ins.looks b) : Same i j (o.insert i x d) (o.insert j x d) := by
  unfold Operand.insert
  cases hs : o.ins
  case null => exact saNull
  case arx => exact saArx
  case ary => exact saAry
  case rx => exact saRx
  case ry => exact saRy
  case bab => exact saBab
  case btab => exact saBtab
  case bdm => rw [hs] at h; exact saBdm h
  case bdp => rw [hs] at h; exact saBdp h
  case bo => rw [hs] at h; exact saBo hb h
  case boe => rw [hs] at h; exact saBoe hb h
  case dcmxs => exact saDcmxs
  case dxd => exact saDxd
  case dxdn => exact saDxdn
  case fxm => rw [hs] at h; exact saFxm h
  case li20 => exact saLi20
  case ls => rw [hs] at h; exact saLs h
  case esync => rw [hs] at h; exact saEsync h
  case mbe => exact saMbe
  case mb6 => exact saMb6
  case nbi => rw [hs] at h; exact saNbi h
  case nsi => exact saNsi
  case ral => rw [hs] at h; exact saRal h
  case ram => rw [hs] at h; exact saRam h
  case raq => rw [hs] at h; exact saRaq h
  case ras => exact saRas
  case rsb => exact saRsb
  case rbx => rw [hs] at h; exact saRbx h
  case sci8 => exact saSci8
  case sci8n => exact saSci8n
  case oimm => exact saOimm
  case sh6 => exact saSh6
  case spr => exact saSpr
  case sprbat => exact saSprbat
  case sprg => rw [hs] at h; exact saSprg h
  case tbr => exact saTbr
  case xt6 => exact saXt6
  case xtq6 => exact saXtq6
  case xa6 => exact saXa6
  case xb6 => exact saXb6
  case xab6 => exact saXab6
  case xc6 => exact saXc6
  case dm => exact saDm
  case vlesi => exact saVlesi
  case vlensi => exact saVlensi
  case vleui => exact saVleui
  case vleil => exact saVleil
  case evuimm1Ex0 => exact saEvuimm1Ex0
  case evuimm2Ex0 => exact saEvuimm2Ex0
  case evuimm4Ex0 => exact saEvuimm4Ex0
  case evuimm8Ex0 => exact saEvuimm8Ex0
  case evuimmLt8 => exact saEvuimmLt8
  case evuimmLt16 => exact saEvuimmLt16
  case even => exact saEven
  case offLsp => exact saOffLsp
  case offSpe2 => exact saOffSpe2
  case ddd => exact saDdd
  case sxl => exact saSxl

end Opc
