import Verif.Opc.Legal2

/-! The error messages of the rows of the operand table. -/
namespace Opc

variable {o : Operand} {v : Int} {i d : W}

theorem range_small {hi : Nat} (h2 : o.hi = hi) (h3 : o.signed = false) (h4 : o.plus1 = false) (h : o.Range v) : 0 ≤ v ∧ v < 2 ^ hi := by
  obtain ⟨_, hr⟩ := h
  rw [h3] at hr
  simp only [Bool.false_eq_true, if_false, h4, false_and, or_false, h2] at hr
  exact hr

theorem range_thirty (h1 : o.hi = 5) (h3 : o.signed = false) (h : o.Range v) : 0 ≤ v ∧ v ≤ 32 := by
  obtain ⟨_, hr⟩ := h
  rw [h3] at hr
  simp only [Bool.false_eq_true, if_false, h1] at hr
  omega

theorem not_min (h0 : 0 ≤ v) (h1 : v ≤ 32) : BitVec.ofInt 64 v ≠ 0x8000000000000000#64 := by
  intro h
  rw [word_eq h0 (by omega)] at h
  have : (0x8000000000000000#64).toNat = 2 ^ 63 := by decide
  omega

/-- The insertion of a value in range is defined, and the error message appears exactly for the values that are not legal. -/
theorem legal_row (ho : o ∈ operands) (hv : o.Range v) : Judged (o.insert i (BitVec.ofInt 64 v) d) (o.Legal i d v) := by
  unfold Operand.insert Operand.Legal
  cases hs : o.ins
  case null => obtain ⟨w, h⟩ := insertNull_some (x := BitVec.ofInt 64 v) (i := i) (plain_rows o ho hs); exact ⟨w, false, h, by simp⟩
  case btab => obtain ⟨c1, c2, c3, c4, c5, c6, c7, -⟩ := shape_of ho hs (by decide) rfl; have hr := range_small c3 c4 c6 hv; exact ⟨_, _, rfl, by simp⟩
  case bab => obtain ⟨c1, c2, c3, c4, c5, c6, c7, -⟩ := shape_of ho hs (by decide) rfl; have hr := range_small c3 c4 c6 hv; exact ⟨_, _, rfl, by simp⟩
  case bdm => obtain ⟨c1, c2, c3, c4, c5, c6, c7, -⟩ := shape_of ho hs (by decide) rfl; have hr := range_signed c3 c4 c5 hv; have hd := hv.1; rw [c2] at hd; rw [insertBdm_eq]; exact judged_ok trivial
  case bdp => obtain ⟨c1, c2, c3, c4, c5, c6, c7, -⟩ := shape_of ho hs (by decide) rfl; have hr := range_signed c3 c4 c5 hv; have hd := hv.1; rw [c2] at hd; rw [insertBdp_eq]; exact judged_ok trivial
  case bo => obtain ⟨c1, c2, c3, c4, c5, c6, c7, -⟩ := shape_of ho hs (by decide) rfl; have hr := range_small c3 c4 c6 hv; exact leBo (by simpa using hr.1) (by simpa using hr.2)
  case boe => obtain ⟨c1, c2, c3, c4, c5, c6, c7, -⟩ := shape_of ho hs (by decide) rfl; have hr := range_small c3 c4 c6 hv; have hd := hv.1; rw [c2] at hd; exact leBoe (by simpa using hr.1) (by simpa using hr.2) (by simpa using hd)
  case dcmxs => obtain ⟨c1, c2, c3, c4, c5, c6, c7, -⟩ := shape_of ho hs (by decide) rfl; have hr := range_small c3 c4 c6 hv; exact ⟨_, _, rfl, by simp⟩
  case dxd => obtain ⟨c1, c2, c3, c4, c5, c6, c7, -⟩ := shape_of ho hs (by decide) rfl; have hr := range_signed c3 c4 c5 hv; exact ⟨_, _, rfl, by simp⟩
  case dxdn => obtain ⟨c1, c2, c3, c4, c5, c6, c7, -⟩ := shape_of ho hs (by decide) rfl; have hr := range_negative c3 c4 c5 hv; unfold insertDxdn; have hr' : -2 ^ 15 < v ∧ v ≤ 2 ^ 15 := hr; rw [minus_ofInt (by omega) (by omega)]; exact judged_ok trivial
  case fxm => obtain ⟨c1, c2, c3, c4, c5, c6, c7, -⟩ := shape_of ho hs (by decide) rfl; have hr := range_small c3 c4 c6 hv; exact leFxm (by simpa using hr.1) (by simpa using hr.2)
  case li20 => obtain ⟨c1, c2, c3, c4, c5, c6, c7, -⟩ := shape_of ho hs (by decide) rfl; have hr := range_signed c3 c4 c5 hv; exact ⟨_, _, rfl, by simp⟩
  case ls => obtain ⟨c1, c2, c3, c4, c5, c6, c7, -⟩ := shape_of ho hs (by decide) rfl; have hr := range_small c3 c4 c6 hv; exact leLs (by simpa using hr.1) (by simpa using hr.2)
  case mbe => obtain ⟨c1, c2, c3, c4, c5, c6, c7, -⟩ := shape_of ho hs (by decide) rfl; have hr := range_small c3 c4 c6 hv; exact leMbe hr.1
  case mb6 => obtain ⟨c1, c2, c3, c4, c5, c6, c7, -⟩ := shape_of ho hs (by decide) rfl; have hr := range_small c3 c4 c6 hv; exact ⟨_, _, rfl, by simp⟩
  case nbi => obtain ⟨c1, c2, c3, c4, c5, c6, c7, -⟩ := shape_of ho hs (by decide) rfl; have hr := range_thirty c3 c4 hv; exact leNbi (by simpa using hr.1) (by simpa using hr.2)
  case nsi => obtain ⟨c1, c2, c3, c4, c5, c6, c7, -⟩ := shape_of ho hs (by decide) rfl; have hr := range_negative c3 c4 c5 hv; unfold insertNsi; have hr' : -2 ^ 15 < v ∧ v ≤ 2 ^ 15 := hr; rw [minus_ofInt (by omega) (by omega)]; exact judged_ok trivial
  case raq => obtain ⟨c1, c2, c3, c4, c5, c6, c7, -⟩ := shape_of ho hs (by decide) rfl; have hr := range_small c3 c4 c6 hv; exact leRaq (by simpa using hr.1) (by simpa using hr.2)
  case ral => obtain ⟨c1, c2, c3, c4, c5, c6, c7, -⟩ := shape_of ho hs (by decide) rfl; have hr := range_small c3 c4 c6 hv; exact leRal (by simpa using hr.1) (by simpa using hr.2)
  case ram => obtain ⟨c1, c2, c3, c4, c5, c6, c7, -⟩ := shape_of ho hs (by decide) rfl; have hr := range_small c3 c4 c6 hv; exact leRam (by simpa using hr.1) (by simpa using hr.2)
  case ras => obtain ⟨c1, c2, c3, c4, c5, c6, c7, -⟩ := shape_of ho hs (by decide) rfl; have hr := range_small c3 c4 c6 hv; exact leRas (by simpa using hr.1) (by simpa using hr.2)
  case rsb => obtain ⟨c1, c2, c3, c4, c5, c6, c7, -⟩ := shape_of ho hs (by decide) rfl; have hr := range_small c3 c4 c6 hv; exact ⟨_, _, rfl, by simp⟩
  case rbx => obtain ⟨c1, c2, c3, c4, c5, c6, c7, -⟩ := shape_of ho hs (by decide) rfl; have hr := range_small c3 c4 c6 hv; exact leRbx (by simpa using hr.1) (by simpa using hr.2)
  case even => obtain ⟨c1, c2, c3, c4, c5, c6, c7, -⟩ := shape_of ho hs (by decide) rfl; have hr := range_small c3 c4 c6 hv; exact leEven (by simpa using hr.1) (by simpa using hr.2)
  case rx => obtain ⟨c1, c2, c3, c4, c5, c6, c7, -⟩ := shape_of ho hs (by decide) rfl; have hr := range_small c3 c4 c6 hv; exact leRx (by simpa using hr.1) (by simpa using hr.2)
  case arx => obtain ⟨c1, c2, c3, c4, c5, c6, c7, -⟩ := shape_of ho hs (by decide) rfl; have hr := range_small c3 c4 c6 hv; exact leArx (by simpa using hr.1) (by simpa using hr.2)
  case ry => obtain ⟨c1, c2, c3, c4, c5, c6, c7, -⟩ := shape_of ho hs (by decide) rfl; have hr := range_small c3 c4 c6 hv; exact leRy (by simpa using hr.1) (by simpa using hr.2)
  case ary => obtain ⟨c1, c2, c3, c4, c5, c6, c7, -⟩ := shape_of ho hs (by decide) rfl; have hr := range_small c3 c4 c6 hv; exact leAry (by simpa using hr.1) (by simpa using hr.2)
  case sci8 => obtain ⟨c1, c2, c3, c4, c5, c6, c7, -⟩ := shape_of ho hs (by decide) rfl; have hr := range_small c3 c4 c6 hv; exact leSci8
  case sci8n => obtain ⟨c1, c2, c3, c4, c5, c6, c7, -⟩ := shape_of ho hs (by decide) rfl; have hr := range_negative c3 c4 c5 hv; exact leSci8n (by simpa using hr.1) (by simpa using hr.2)
  case evuimmLt8 => obtain ⟨c1, c2, c3, c4, c5, c6, c7, -⟩ := shape_of ho hs (by decide) rfl; have hr := range_small c3 c4 c6 hv; exact leEvuimmLt8 (by simpa using hr.1) (by simpa using hr.2)
  case evuimmLt16 => obtain ⟨c1, c2, c3, c4, c5, c6, c7, -⟩ := shape_of ho hs (by decide) rfl; have hr := range_small c3 c4 c6 hv; exact leEvuimmLt16 (by simpa using hr.1) (by simpa using hr.2)
  case sh6 => obtain ⟨c1, c2, c3, c4, c5, c6, c7, -⟩ := shape_of ho hs (by decide) rfl; have hr := range_small c3 c4 c6 hv; exact ⟨_, _, rfl, by simp⟩
  case spr => obtain ⟨c1, c2, c3, c4, c5, c6, c7, -⟩ := shape_of ho hs (by decide) rfl; have hr := range_small c3 c4 c6 hv; exact ⟨_, _, rfl, by simp⟩
  case sprbat => obtain ⟨c1, c2, c3, c4, c5, c6, c7, -⟩ := shape_of ho hs (by decide) rfl; have hr := range_small c3 c4 c6 hv; exact leSprbat (by simpa using hr.1) (by simpa using hr.2)
  case sprg => obtain ⟨c1, c2, c3, c4, c5, c6, c7, -⟩ := shape_of ho hs (by decide) rfl; have hr := range_small c3 c4 c6 hv; exact leSprg (by simpa using hr.1) (by simpa using hr.2)
  case esync => obtain ⟨c1, c2, c3, c4, c5, c6, c7, -⟩ := shape_of ho hs (by decide) rfl; have hr := range_small c3 c4 c6 hv; exact leEsync (by simpa using hr.1) (by simpa using hr.2)
  case tbr => obtain ⟨c1, c2, c3, c4, c5, c6, c7, -⟩ := shape_of ho hs (by decide) rfl; have hr := range_small c3 c4 c6 hv; exact leTbr (by simpa using hr.1) (by simpa using hr.2)
  case oimm => obtain ⟨c1, c2, c3, c4, c5, c6, c7, -⟩ := shape_of ho hs (by decide) rfl; have hr := range_thirty c3 c4 hv; unfold insertOimm; have hne := not_min hr.1 hr.2; rw [if_neg hne]; exact judged_ok trivial
  case evuimm1Ex0 => obtain ⟨c1, c2, c3, c4, c5, c6, c7, -⟩ := shape_of ho hs (by decide) rfl; have hr := range_small c3 c4 c6 hv; exact leEvuimm1Ex0 (by simpa using hr.1) (by simpa using hr.2)
  case evuimm2Ex0 => obtain ⟨c1, c2, c3, c4, c5, c6, c7, -⟩ := shape_of ho hs (by decide) rfl; have hr := range_small c3 c4 c6 hv; have hd := hv.1; rw [c2] at hd; exact leEvuimm2Ex0 (by simpa using hr.1) (by simpa using hr.2) (by simpa using hd)
  case evuimm4Ex0 => obtain ⟨c1, c2, c3, c4, c5, c6, c7, -⟩ := shape_of ho hs (by decide) rfl; have hr := range_small c3 c4 c6 hv; have hd := hv.1; rw [c2] at hd; exact leEvuimm4Ex0 (by simpa using hr.1) (by simpa using hr.2) (by simpa using hd)
  case evuimm8Ex0 => obtain ⟨c1, c2, c3, c4, c5, c6, c7, -⟩ := shape_of ho hs (by decide) rfl; have hr := range_small c3 c4 c6 hv; have hd := hv.1; rw [c2] at hd; exact leEvuimm8Ex0 (by simpa using hr.1) (by simpa using hr.2) (by simpa using hd)
  case sxl => obtain ⟨c1, c2, c3, c4, c5, c6, c7, -⟩ := shape_of ho hs (by decide) rfl; have hr := range_small c3 c4 c6 hv; exact ⟨_, _, rfl, by simp⟩
  case vlesi => obtain ⟨c1, c2, c3, c4, c5, c6, c7, -⟩ := shape_of ho hs (by decide) rfl; have hr := range_signed c3 c4 c5 hv; exact ⟨_, _, rfl, by simp⟩
  case vlensi => obtain ⟨c1, c2, c3, c4, c5, c6, c7, -⟩ := shape_of ho hs (by decide) rfl; have hr := range_negative c3 c4 c5 hv; unfold insertVlensi; have hr' : -2 ^ 15 < v ∧ v ≤ 2 ^ 15 := hr; rw [minus_ofInt (by omega) (by omega)]; exact judged_ok trivial
  case vleui => obtain ⟨c1, c2, c3, c4, c5, c6, c7, -⟩ := shape_of ho hs (by decide) rfl; have hr := range_small c3 c4 c6 hv; exact ⟨_, _, rfl, by simp⟩
  case vleil => obtain ⟨c1, c2, c3, c4, c5, c6, c7, -⟩ := shape_of ho hs (by decide) rfl; have hr := range_small c3 c4 c6 hv; exact ⟨_, _, rfl, by simp⟩
  case xt6 => obtain ⟨c1, c2, c3, c4, c5, c6, c7, -⟩ := shape_of ho hs (by decide) rfl; have hr := range_small c3 c4 c6 hv; exact ⟨_, _, rfl, by simp⟩
  case xtq6 => obtain ⟨c1, c2, c3, c4, c5, c6, c7, -⟩ := shape_of ho hs (by decide) rfl; have hr := range_small c3 c4 c6 hv; exact ⟨_, _, rfl, by simp⟩
  case xa6 => obtain ⟨c1, c2, c3, c4, c5, c6, c7, -⟩ := shape_of ho hs (by decide) rfl; have hr := range_small c3 c4 c6 hv; exact ⟨_, _, rfl, by simp⟩
  case xb6 => obtain ⟨c1, c2, c3, c4, c5, c6, c7, -⟩ := shape_of ho hs (by decide) rfl; have hr := range_small c3 c4 c6 hv; exact ⟨_, _, rfl, by simp⟩
  case xab6 => obtain ⟨c1, c2, c3, c4, c5, c6, c7, -⟩ := shape_of ho hs (by decide) rfl; have hr := range_small c3 c4 c6 hv; exact ⟨_, _, rfl, by simp⟩
  case xc6 => obtain ⟨c1, c2, c3, c4, c5, c6, c7, -⟩ := shape_of ho hs (by decide) rfl; have hr := range_small c3 c4 c6 hv; exact ⟨_, _, rfl, by simp⟩
  case dm => obtain ⟨c1, c2, c3, c4, c5, c6, c7, -⟩ := shape_of ho hs (by decide) rfl; have hr := range_small c3 c4 c6 hv; exact leDm (by simpa using hr.1) (by simpa using hr.2)
  case offLsp => obtain ⟨c1, c2, c3, c4, c5, c6, c7, -⟩ := shape_of ho hs (by decide) rfl; have hr := range_small c3 c4 c6 hv; exact leOffLsp (by simpa using hr.1) (by simpa using hr.2)
  case offSpe2 => obtain ⟨c1, c2, c3, c4, c5, c6, c7, -⟩ := shape_of ho hs (by decide) rfl; have hr := range_small c3 c4 c6 hv; exact leOffSpe2 (by simpa using hr.1) (by simpa using hr.2)
  case ddd => obtain ⟨c1, c2, c3, c4, c5, c6, c7, -⟩ := shape_of ho hs (by decide) rfl; have hr := range_small c3 c4 c6 hv; exact leDdd (by simpa using hr.1) (by simpa using hr.2)

end Opc
