import Verif.Opc.Null
import Verif.Opc.Moves

/-! The rows of the operand table that have functions. -/
namespace Opc

/-- What the rows with an insertion function have in common: extraction function, lowest and highest bit, signed, negative, one more value, field, field and hints. -/
structure Shape where
  ext : Ext
  lo : Nat
  hi : Nat
  signed : Bool
  negative : Bool
  plus1 : Bool
  field : W
  touched : W
deriving DecidableEq

def shape : Ins → Option Shape
  | .null => none
  | .btab => some ⟨.btab, 0, 5, false, false, false, 0x3fff800#64, 0x3fff800#64⟩
  | .bab => some ⟨.bab, 0, 5, false, false, false, 0x1ff800#64, 0x1ff800#64⟩
  | .bdm => some ⟨.bdm, 2, 16, true, false, false, 0x20fffc#64, 0x160fffc#64⟩
  | .bdp => some ⟨.bdp, 2, 16, true, false, false, 0x20fffc#64, 0x160fffc#64⟩
  | .bo => some ⟨.bo, 0, 5, false, false, false, 0x3e00000#64, 0x3e00000#64⟩
  | .boe => some ⟨.boe, 1, 5, false, false, false, 0x3e00000#64, 0x3e00000#64⟩
  | .dcmxs => some ⟨.dcmxs, 0, 7, false, false, false, 0x1f0044#64, 0x1f0044#64⟩
  | .dxd => some ⟨.dxd, 0, 16, true, false, false, 0x1fffc1#64, 0x1fffc1#64⟩
  | .dxdn => some ⟨.dxdn, 0, 16, true, true, false, 0x1fffc1#64, 0x1fffc1#64⟩
  | .fxm => some ⟨.fxm, 0, 8, false, false, false, 0xff000#64, 0x1ff000#64⟩
  | .li20 => some ⟨.li20, 0, 20, true, false, false, 0x1f7fff#64, 0x1f7fff#64⟩
  | .ls => some ⟨.ls, 0, 2, false, false, false, 0x600000#64, 0x600000#64⟩
  | .mbe => some ⟨.mbe, 0, 64, false, false, false, 0x7fe#64, 0x7fe#64⟩
  | .mb6 => some ⟨.mb6, 0, 6, false, false, false, 0x7e0#64, 0x7e0#64⟩
  | .nbi => some ⟨.nb, 0, 5, false, false, true, 0xf800#64, 0xf800#64⟩
  | .nsi => some ⟨.nsi, 0, 16, true, true, false, 0xffff#64, 0xffff#64⟩
  | .raq => some ⟨.raq, 0, 5, false, false, false, 0x1f0000#64, 0x1f0000#64⟩
  | .ral => some ⟨.ral, 0, 5, false, false, false, 0x1f0000#64, 0x1f0000#64⟩
  | .ram => some ⟨.ram, 0, 5, false, false, false, 0x1f0000#64, 0x1f0000#64⟩
  | .ras => some ⟨.ras, 0, 5, false, false, false, 0x1f0000#64, 0x1f0000#64⟩
  | .rsb => some ⟨.rsb, 0, 5, false, false, false, 0x3e0f800#64, 0x3e0f800#64⟩
  | .rbx => some ⟨.rbx, 0, 5, false, false, false, 0xf800#64, 0xf800#64⟩
  | .even => some ⟨.even, 0, 5, false, false, false, 0x3e00000#64, 0x3e00000#64⟩
  | .rx => some ⟨.rx, 0, 5, false, false, false, 0xf#64, 0xf#64⟩
  | .arx => some ⟨.arx, 0, 5, false, false, false, 0xf#64, 0xf#64⟩
  | .ry => some ⟨.ry, 0, 5, false, false, false, 0xf0#64, 0xf0#64⟩
  | .ary => some ⟨.ary, 0, 5, false, false, false, 0xf0#64, 0xf0#64⟩
  | .sci8 => some ⟨.sci8, 0, 32, false, false, false, 0x7ff#64, 0x7ff#64⟩
  | .sci8n => some ⟨.sci8n, 0, 32, true, true, false, 0x7ff#64, 0x7ff#64⟩
  | .evuimmLt8 => some ⟨.evuimmLt8, 0, 5, false, false, false, 0xf800#64, 0xf800#64⟩
  | .evuimmLt16 => some ⟨.evuimmLt16, 0, 5, false, false, false, 0xf800#64, 0xf800#64⟩
  | .sh6 => some ⟨.sh6, 0, 6, false, false, false, 0xf802#64, 0xf802#64⟩
  | .spr => some ⟨.spr, 0, 10, false, false, false, 0x1ff800#64, 0x1ff800#64⟩
  | .sprbat => some ⟨.sprbat, 0, 3, false, false, false, 0x60800#64, 0x60800#64⟩
  | .sprg => some ⟨.sprg, 0, 5, false, false, false, 0x1f0000#64, 0x1f0000#64⟩
  | .esync => some ⟨.esync, 0, 4, false, false, false, 0xf0000#64, 0xf0000#64⟩
  | .tbr => some ⟨.tbr, 0, 10, false, false, false, 0x1ff800#64, 0x1ff800#64⟩
  | .oimm => some ⟨.oimm, 0, 5, false, false, true, 0x1f0#64, 0x1f0#64⟩
  | .evuimm1Ex0 => some ⟨.evuimm1Ex0, 0, 5, false, false, false, 0xf800#64, 0xf800#64⟩
  | .evuimm2Ex0 => some ⟨.evuimm2Ex0, 1, 6, false, false, false, 0xf800#64, 0xf800#64⟩
  | .evuimm4Ex0 => some ⟨.evuimm4Ex0, 2, 7, false, false, false, 0xf800#64, 0xf800#64⟩
  | .evuimm8Ex0 => some ⟨.evuimm8Ex0, 3, 8, false, false, false, 0xf800#64, 0xf800#64⟩
  | .sxl => some ⟨.sxl, 0, 1, false, false, false, 0x800#64, 0x800#64⟩
  | .vlesi => some ⟨.vlesi, 0, 16, true, false, false, 0x3e007ff#64, 0x3e007ff#64⟩
  | .vlensi => some ⟨.vlensi, 0, 16, true, true, false, 0x3e007ff#64, 0x3e007ff#64⟩
  | .vleui => some ⟨.vleui, 0, 16, false, false, false, 0x3e007ff#64, 0x3e007ff#64⟩
  | .vleil => some ⟨.vleil, 0, 16, false, false, false, 0x1f07ff#64, 0x1f07ff#64⟩
  | .xt6 => some ⟨.xt6, 0, 6, false, false, false, 0x3e00001#64, 0x3e00001#64⟩
  | .xtq6 => some ⟨.xtq6, 0, 6, false, false, false, 0x3e00008#64, 0x3e00008#64⟩
  | .xa6 => some ⟨.xa6, 0, 6, false, false, false, 0x1f0004#64, 0x1f0004#64⟩
  | .xb6 => some ⟨.xb6, 0, 6, false, false, false, 0xf802#64, 0xf802#64⟩
  | .xab6 => some ⟨.xab6, 0, 6, false, false, false, 0x1ff806#64, 0x1ff806#64⟩
  | .xc6 => some ⟨.xc6, 0, 6, false, false, false, 0x7c8#64, 0x7c8#64⟩
  | .dm => some ⟨.dm, 0, 2, false, false, false, 0x300#64, 0x300#64⟩
  | .offLsp => some ⟨.offLsp, 0, 2, false, false, false, 0x3#64, 0x3#64⟩
  | .offSpe2 => some ⟨.offSpe2, 0, 3, false, false, false, 0x7#64, 0x7#64⟩
  | .ddd => some ⟨.ddd, 0, 3, false, false, false, 0x1801#64, 0x1801#64⟩

def Operand.shape (o : Operand) : Shape := ⟨o.ext, o.lo, o.hi, o.signed, o.negative, o.plus1, bits o.field, bits (o.field ++ o.hints)⟩

theorem rows_shape : ∀ o ∈ operands, o.ins ≠ .null → Opc.shape o.ins = some o.shape := by decide +kernel

/-- Rows without insertion function: no extraction function and no extra value, or extract_nb. -/
theorem rows_null : ∀ o ∈ operands, o.ins = .null →
    (o.ext = .null ∧ o.plus1 = false) ∨ (o.name = "NB" ∧ o.ext = .nb ∧ o.lo = 0 ∧ o.hi = 5 ∧ o.signed = false ∧ o.plus1 = true ∧ o.shift = some 11 ∧
      o.bitm = 0x1f#64) := by decide +kernel

theorem null_touched {o : Operand} (h : o.ins = .null) : bits (o.field ++ o.hints) = bits o.field := by
  unfold Operand.hints; rw [h]; simp

variable {o : Operand} {v : Int}

theorem range_unsigned {lo hi : Nat} {m : W} (hm : m = BitVec.ofNat 64 (2 ^ hi - 2 ^ lo)) (h1 : o.lo = lo) (h2 : o.hi = hi) (h3 : o.signed = false) (h4 : o.plus1 = false)
    (h : o.Range v) : BitVec.ofInt 64 v &&& ~~~m = 0#64 := by
  obtain ⟨hd, hr⟩ := h
  rw [h3] at hr
  simp only [Bool.false_eq_true, if_false, h4, false_and, or_false, h2] at hr
  rw [hm]
  rw [h1] at hd
  exact unsigned_bits hr.1 hr.2 hd

theorem range_count (h1 : o.hi = 5) (h3 : o.signed = false) (h : o.Range v) : (BitVec.ofInt 64 v).toNat ≤ 32 ∧ (v = 0 ↔ BitVec.ofInt 64 v = 0#64) := by
  obtain ⟨_, hr⟩ := h
  rw [h3] at hr
  simp only [Bool.false_eq_true, if_false, h1] at hr
  have hv : 0 ≤ v ∧ v ≤ 32 := by omega
  have e : (BitVec.ofInt 64 v).toNat = v.toNat := by rw [toNat_ofInt64]; omega
  refine ⟨by omega, fun h => by rw [h]; rfl, fun h => ?_⟩
  have := congrArg BitVec.toNat h
  rw [e] at this
  simp at this
  omega

theorem range_signed {hi : Nat} (h2 : o.hi = hi) (h3 : o.signed = true) (h4 : o.negative = false) (h : o.Range v) :
    -2 ^ (hi - 1) ≤ v ∧ v < 2 ^ (hi - 1) := by
  obtain ⟨_, hr⟩ := h
  rw [h3, if_pos rfl, h4, h2] at hr
  simpa using hr

theorem range_negative {hi : Nat} (h2 : o.hi = hi) (h3 : o.signed = true) (h4 : o.negative = true) (h : o.Range v) :
    -2 ^ (hi - 1) < v ∧ v ≤ 2 ^ (hi - 1) := by
  obtain ⟨_, hr⟩ := h
  rw [h3, if_pos rfl, h4, if_pos rfl, h2] at hr
  exact hr

theorem shape_of (ho : o ∈ operands) {s : Ins} {k : Shape} (hs : o.ins = s) (h0 : s ≠ .null) (hk : Opc.shape s = some k) :
    o.ext = k.ext ∧ o.lo = k.lo ∧ o.hi = k.hi ∧ o.signed = k.signed ∧ o.negative = k.negative ∧ o.plus1 = k.plus1 ∧ bits o.field = k.field ∧
      bits (o.field ++ o.hints) = k.touched := by
  have := rows_shape o ho (by rw [hs]; exact h0)
  rw [hs, hk] at this
  have e : k = o.shape := Option.some.inj this
  subst e
  exact ⟨rfl, rfl, rfl, rfl, rfl, rfl, rfl, rfl⟩

/-- The frame of every row. -/
theorem frame_row (ho : o ∈ operands) {i x d w : W} {e : Bool} (h : o.insert i x d = some (w, e)) :
    w &&& ~~~bits (o.field ++ o.hints) = i &&& ~~~bits (o.field ++ o.hints) ∧ i &&& ~~~w = 0#64 := by
  unfold Operand.insert at h
  cases hs : o.ins
  case null => rw [hs] at h; rw [null_touched hs]; exact frNull (plain_rows o ho hs) h
  case btab => rw [hs] at h; rw [(shape_of ho hs (by decide) rfl).2.2.2.2.2.2.2]; exact frBtab h
  case bab => rw [hs] at h; rw [(shape_of ho hs (by decide) rfl).2.2.2.2.2.2.2]; exact frBab h
  case bdm => rw [hs] at h; rw [(shape_of ho hs (by decide) rfl).2.2.2.2.2.2.2]; exact frBdm h
  case bdp => rw [hs] at h; rw [(shape_of ho hs (by decide) rfl).2.2.2.2.2.2.2]; exact frBdp h
  case bo => rw [hs] at h; rw [(shape_of ho hs (by decide) rfl).2.2.2.2.2.2.2]; exact frBo h
  case boe => rw [hs] at h; rw [(shape_of ho hs (by decide) rfl).2.2.2.2.2.2.2]; exact frBoe h
  case dcmxs => rw [hs] at h; rw [(shape_of ho hs (by decide) rfl).2.2.2.2.2.2.2]; exact ⟨(frDcmxs h).1, (frDcmxs h).2.1⟩
  case dxd => rw [hs] at h; rw [(shape_of ho hs (by decide) rfl).2.2.2.2.2.2.2]; exact frDxd h
  case dxdn => rw [hs] at h; rw [(shape_of ho hs (by decide) rfl).2.2.2.2.2.2.2]; exact frDxdn h
  case fxm => rw [hs] at h; rw [(shape_of ho hs (by decide) rfl).2.2.2.2.2.2.2]; exact frFxm h
  case li20 => rw [hs] at h; rw [(shape_of ho hs (by decide) rfl).2.2.2.2.2.2.2]; exact frLi20 h
  case ls => rw [hs] at h; rw [(shape_of ho hs (by decide) rfl).2.2.2.2.2.2.2]; exact frLs h
  case mbe => rw [hs] at h; rw [(shape_of ho hs (by decide) rfl).2.2.2.2.2.2.2]; exact frMbe h
  case mb6 => rw [hs] at h; rw [(shape_of ho hs (by decide) rfl).2.2.2.2.2.2.2]; exact ⟨(frMb6 h).1, (frMb6 h).2.1⟩
  case nbi => rw [hs] at h; rw [(shape_of ho hs (by decide) rfl).2.2.2.2.2.2.2]; exact frNbi h
  case nsi => rw [hs] at h; rw [(shape_of ho hs (by decide) rfl).2.2.2.2.2.2.2]; exact frNsi h
  case raq => rw [hs] at h; rw [(shape_of ho hs (by decide) rfl).2.2.2.2.2.2.2]; exact frRaq h
  case ral => rw [hs] at h; rw [(shape_of ho hs (by decide) rfl).2.2.2.2.2.2.2]; exact frRal h
  case ram => rw [hs] at h; rw [(shape_of ho hs (by decide) rfl).2.2.2.2.2.2.2]; exact frRam h
  case ras => rw [hs] at h; rw [(shape_of ho hs (by decide) rfl).2.2.2.2.2.2.2]; exact frRas h
  case rsb => rw [hs] at h; rw [(shape_of ho hs (by decide) rfl).2.2.2.2.2.2.2]; exact frRsb h
  case rbx => rw [hs] at h; rw [(shape_of ho hs (by decide) rfl).2.2.2.2.2.2.2]; exact frRbx h
  case even => rw [hs] at h; rw [(shape_of ho hs (by decide) rfl).2.2.2.2.2.2.2]; exact frEven h
  case rx => rw [hs] at h; rw [(shape_of ho hs (by decide) rfl).2.2.2.2.2.2.2]; exact frRx h
  case arx => rw [hs] at h; rw [(shape_of ho hs (by decide) rfl).2.2.2.2.2.2.2]; exact frArx h
  case ry => rw [hs] at h; rw [(shape_of ho hs (by decide) rfl).2.2.2.2.2.2.2]; exact frRy h
  case ary => rw [hs] at h; rw [(shape_of ho hs (by decide) rfl).2.2.2.2.2.2.2]; exact frAry h
  case sci8 => rw [hs] at h; rw [(shape_of ho hs (by decide) rfl).2.2.2.2.2.2.2]; exact frSci8 h
  case sci8n => rw [hs] at h; rw [(shape_of ho hs (by decide) rfl).2.2.2.2.2.2.2]; exact frSci8n h
  case evuimmLt8 => rw [hs] at h; rw [(shape_of ho hs (by decide) rfl).2.2.2.2.2.2.2]; exact frEvuimmLt8 h
  case evuimmLt16 => rw [hs] at h; rw [(shape_of ho hs (by decide) rfl).2.2.2.2.2.2.2]; exact frEvuimmLt16 h
  case sh6 => rw [hs] at h; rw [(shape_of ho hs (by decide) rfl).2.2.2.2.2.2.2]; exact ⟨(frSh6 h).1, (frSh6 h).2.1⟩
  case spr => rw [hs] at h; rw [(shape_of ho hs (by decide) rfl).2.2.2.2.2.2.2]; exact ⟨(frSpr h).1, (frSpr h).2.1⟩
  case sprbat => rw [hs] at h; rw [(shape_of ho hs (by decide) rfl).2.2.2.2.2.2.2]; exact frSprbat h
  case sprg => rw [hs] at h; rw [(shape_of ho hs (by decide) rfl).2.2.2.2.2.2.2]; exact frSprg h
  case esync => rw [hs] at h; rw [(shape_of ho hs (by decide) rfl).2.2.2.2.2.2.2]; exact frEsync h
  case tbr => rw [hs] at h; rw [(shape_of ho hs (by decide) rfl).2.2.2.2.2.2.2]; exact frTbr h
  case oimm => rw [hs] at h; rw [(shape_of ho hs (by decide) rfl).2.2.2.2.2.2.2]; exact frOimm h
  case evuimm1Ex0 => rw [hs] at h; rw [(shape_of ho hs (by decide) rfl).2.2.2.2.2.2.2]; exact frEvuimm1Ex0 h
  case evuimm2Ex0 => rw [hs] at h; rw [(shape_of ho hs (by decide) rfl).2.2.2.2.2.2.2]; exact frEvuimm2Ex0 h
  case evuimm4Ex0 => rw [hs] at h; rw [(shape_of ho hs (by decide) rfl).2.2.2.2.2.2.2]; exact frEvuimm4Ex0 h
  case evuimm8Ex0 => rw [hs] at h; rw [(shape_of ho hs (by decide) rfl).2.2.2.2.2.2.2]; exact frEvuimm8Ex0 h
  case sxl => rw [hs] at h; rw [(shape_of ho hs (by decide) rfl).2.2.2.2.2.2.2]; exact frSxl h
  case vlesi => rw [hs] at h; rw [(shape_of ho hs (by decide) rfl).2.2.2.2.2.2.2]; exact frVlesi h
  case vlensi => rw [hs] at h; rw [(shape_of ho hs (by decide) rfl).2.2.2.2.2.2.2]; exact frVlensi h
  case vleui => rw [hs] at h; rw [(shape_of ho hs (by decide) rfl).2.2.2.2.2.2.2]; exact ⟨(frVleui h).1, (frVleui h).2.1⟩
  case vleil => rw [hs] at h; rw [(shape_of ho hs (by decide) rfl).2.2.2.2.2.2.2]; exact ⟨(frVleil h).1, (frVleil h).2.1⟩
  case xt6 => rw [hs] at h; rw [(shape_of ho hs (by decide) rfl).2.2.2.2.2.2.2]; exact ⟨(frXt6 h).1, (frXt6 h).2.1⟩
  case xtq6 => rw [hs] at h; rw [(shape_of ho hs (by decide) rfl).2.2.2.2.2.2.2]; exact ⟨(frXtq6 h).1, (frXtq6 h).2.1⟩
  case xa6 => rw [hs] at h; rw [(shape_of ho hs (by decide) rfl).2.2.2.2.2.2.2]; exact ⟨(frXa6 h).1, (frXa6 h).2.1⟩
  case xb6 => rw [hs] at h; rw [(shape_of ho hs (by decide) rfl).2.2.2.2.2.2.2]; exact ⟨(frXb6 h).1, (frXb6 h).2.1⟩
  case xab6 => rw [hs] at h; rw [(shape_of ho hs (by decide) rfl).2.2.2.2.2.2.2]; exact frXab6 h
  case xc6 => rw [hs] at h; rw [(shape_of ho hs (by decide) rfl).2.2.2.2.2.2.2]; exact ⟨(frXc6 h).1, (frXc6 h).2.1⟩
  case dm => rw [hs] at h; rw [(shape_of ho hs (by decide) rfl).2.2.2.2.2.2.2]; exact frDm h
  case offLsp => rw [hs] at h; rw [(shape_of ho hs (by decide) rfl).2.2.2.2.2.2.2]; exact frOffLsp h
  case offSpe2 => rw [hs] at h; rw [(shape_of ho hs (by decide) rfl).2.2.2.2.2.2.2]; exact frOffSpe2 h
  case ddd => rw [hs] at h; rw [(shape_of ho hs (by decide) rfl).2.2.2.2.2.2.2]; exact frDdd h

/-- The names of the operands that do not come back as they were. -/
def odd : List Ins := [.bdm, .bdp, .mbe, .nbi, .nsi, .sci8, .sci8n, .oimm, .vlensi]

theorem trip_row (ho : o ∈ operands) (h1 : o.ins ∉ odd) (h2 : o.name ≠ "NB") : o.RoundTrip := by
  intro insn dialect v hv hi w h inv hn
  by_cases hnull : o.ins = .null
  · rcases rows_null o ho hnull with ⟨he, hp⟩ | ⟨hnb, _⟩
    · unfold Operand.insert at h
      unfold Operand.extract
      rw [hnull] at h
      rw [he]
      exact rtNull (plain_rows o ho hnull) hp hv hi h
    · exact absurd hnb h2
  · have hsh := rows_shape o ho hnull
    unfold Operand.insert at h
    cases hs : o.ins
    case null => exact absurd hs hnull
    case btab =>
      obtain ⟨c1, c2, c3, c4, c5, c6, c7, -⟩ := shape_of ho hs (by decide) rfl
      rw [hs] at h; rw [c7] at hi; unfold Operand.extract; rw [c1]; exact rtBtab hi (range_unsigned (lo := 0) (hi := 5) (by decide) c2 c3 c4 c6 hv) h
    case bab =>
      obtain ⟨c1, c2, c3, c4, c5, c6, c7, -⟩ := shape_of ho hs (by decide) rfl
      rw [hs] at h; rw [c7] at hi; unfold Operand.extract; rw [c1]; exact rtBab hi (range_unsigned (lo := 0) (hi := 5) (by decide) c2 c3 c4 c6 hv) h
    case bdm => rw [hs] at h1; exact absurd (by decide) h1
    case bdp => rw [hs] at h1; exact absurd (by decide) h1
    case bo =>
      obtain ⟨c1, c2, c3, c4, c5, c6, c7, -⟩ := shape_of ho hs (by decide) rfl
      rw [hs] at h; rw [c7] at hi; unfold Operand.extract; rw [c1]; exact rtBo hi (range_unsigned (lo := 0) (hi := 5) (by decide) c2 c3 c4 c6 hv) h
    case boe =>
      obtain ⟨c1, c2, c3, c4, c5, c6, c7, -⟩ := shape_of ho hs (by decide) rfl
      rw [hs] at h; rw [c7] at hi; unfold Operand.extract; rw [c1]; exact rtBoe hi (range_unsigned (lo := 1) (hi := 5) (by decide) c2 c3 c4 c6 hv) h
    case dcmxs =>
      obtain ⟨c1, c2, c3, c4, c5, c6, c7, -⟩ := shape_of ho hs (by decide) rfl
      rw [hs] at h; rw [c7] at hi; unfold Operand.extract; rw [c1]; exact rtDcmxs hi (range_unsigned (lo := 0) (hi := 7) (by decide) c2 c3 c4 c6 hv) h
    case dxd =>
      obtain ⟨c1, c2, c3, c4, c5, c6, c7, -⟩ := shape_of ho hs (by decide) rfl
      rw [hs] at h; rw [c7] at hi; unfold Operand.extract; rw [c1]; have hr := range_signed c3 c4 c5 hv; exact rtDxd hr.1 hr.2 hi h
    case dxdn =>
      obtain ⟨c1, c2, c3, c4, c5, c6, c7, -⟩ := shape_of ho hs (by decide) rfl
      rw [hs] at h; rw [c7] at hi; unfold Operand.extract; rw [c1]; have hr := range_negative c3 c4 c5 hv; exact rtDxdn hr.1 hr.2 hi h
    case fxm =>
      obtain ⟨c1, c2, c3, c4, c5, c6, c7, -⟩ := shape_of ho hs (by decide) rfl
      rw [hs] at h; rw [c7] at hi; unfold Operand.extract; rw [c1]; exact rtFxm hn hi (range_unsigned (lo := 0) (hi := 8) (by decide) c2 c3 c4 c6 hv) h
    case li20 =>
      obtain ⟨c1, c2, c3, c4, c5, c6, c7, -⟩ := shape_of ho hs (by decide) rfl
      rw [hs] at h; rw [c7] at hi; unfold Operand.extract; rw [c1]; have hr := range_signed c3 c4 c5 hv; exact rtLi20 hr.1 hr.2 hi h
    case ls =>
      obtain ⟨c1, c2, c3, c4, c5, c6, c7, -⟩ := shape_of ho hs (by decide) rfl
      rw [hs] at h; rw [c7] at hi; unfold Operand.extract; rw [c1]; exact rtLs hn hi (range_unsigned (lo := 0) (hi := 2) (by decide) c2 c3 c4 c6 hv) h
    case mbe => rw [hs] at h1; exact absurd (by decide) h1
    case mb6 =>
      obtain ⟨c1, c2, c3, c4, c5, c6, c7, -⟩ := shape_of ho hs (by decide) rfl
      rw [hs] at h; rw [c7] at hi; unfold Operand.extract; rw [c1]; exact rtMb6 hi (range_unsigned (lo := 0) (hi := 6) (by decide) c2 c3 c4 c6 hv) h
    case nbi => rw [hs] at h1; exact absurd (by decide) h1
    case nsi => rw [hs] at h1; exact absurd (by decide) h1
    case raq =>
      obtain ⟨c1, c2, c3, c4, c5, c6, c7, -⟩ := shape_of ho hs (by decide) rfl
      rw [hs] at h; rw [c7] at hi; unfold Operand.extract; rw [c1]; exact rtRaq hn hi (range_unsigned (lo := 0) (hi := 5) (by decide) c2 c3 c4 c6 hv) h
    case ral =>
      obtain ⟨c1, c2, c3, c4, c5, c6, c7, -⟩ := shape_of ho hs (by decide) rfl
      rw [hs] at h; rw [c7] at hi; unfold Operand.extract; rw [c1]; exact rtRal hi (range_unsigned (lo := 0) (hi := 5) (by decide) c2 c3 c4 c6 hv) h
    case ram =>
      obtain ⟨c1, c2, c3, c4, c5, c6, c7, -⟩ := shape_of ho hs (by decide) rfl
      rw [hs] at h; rw [c7] at hi; unfold Operand.extract; rw [c1]; exact rtRam hi (range_unsigned (lo := 0) (hi := 5) (by decide) c2 c3 c4 c6 hv) h
    case ras =>
      obtain ⟨c1, c2, c3, c4, c5, c6, c7, -⟩ := shape_of ho hs (by decide) rfl
      rw [hs] at h; rw [c7] at hi; unfold Operand.extract; rw [c1]; exact rtRas hi (range_unsigned (lo := 0) (hi := 5) (by decide) c2 c3 c4 c6 hv) h
    case rsb =>
      obtain ⟨c1, c2, c3, c4, c5, c6, c7, -⟩ := shape_of ho hs (by decide) rfl
      rw [hs] at h; rw [c7] at hi; unfold Operand.extract; rw [c1]; exact rtRsb hi (range_unsigned (lo := 0) (hi := 5) (by decide) c2 c3 c4 c6 hv) h
    case rbx =>
      obtain ⟨c1, c2, c3, c4, c5, c6, c7, -⟩ := shape_of ho hs (by decide) rfl
      rw [hs] at h; rw [c7] at hi; unfold Operand.extract; rw [c1]; exact rtRbx hi (range_unsigned (lo := 0) (hi := 5) (by decide) c2 c3 c4 c6 hv) h
    case even =>
      obtain ⟨c1, c2, c3, c4, c5, c6, c7, -⟩ := shape_of ho hs (by decide) rfl
      rw [hs] at h; rw [c7] at hi; unfold Operand.extract; rw [c1]; exact rtEven hi (range_unsigned (lo := 0) (hi := 5) (by decide) c2 c3 c4 c6 hv) h
    case rx =>
      obtain ⟨c1, c2, c3, c4, c5, c6, c7, -⟩ := shape_of ho hs (by decide) rfl
      rw [hs] at h; rw [c7] at hi; unfold Operand.extract; rw [c1]; exact rtRx hi h
    case arx =>
      obtain ⟨c1, c2, c3, c4, c5, c6, c7, -⟩ := shape_of ho hs (by decide) rfl
      rw [hs] at h; rw [c7] at hi; unfold Operand.extract; rw [c1]; exact rtArx hi h
    case ry =>
      obtain ⟨c1, c2, c3, c4, c5, c6, c7, -⟩ := shape_of ho hs (by decide) rfl
      rw [hs] at h; rw [c7] at hi; unfold Operand.extract; rw [c1]; exact rtRy hi h
    case ary =>
      obtain ⟨c1, c2, c3, c4, c5, c6, c7, -⟩ := shape_of ho hs (by decide) rfl
      rw [hs] at h; rw [c7] at hi; unfold Operand.extract; rw [c1]; exact rtAry hi h
    case sci8 => rw [hs] at h1; exact absurd (by decide) h1
    case sci8n => rw [hs] at h1; exact absurd (by decide) h1
    case evuimmLt8 =>
      obtain ⟨c1, c2, c3, c4, c5, c6, c7, -⟩ := shape_of ho hs (by decide) rfl
      rw [hs] at h; rw [c7] at hi; unfold Operand.extract; rw [c1]; exact rtEvuimmLt8 hi h
    case evuimmLt16 =>
      obtain ⟨c1, c2, c3, c4, c5, c6, c7, -⟩ := shape_of ho hs (by decide) rfl
      rw [hs] at h; rw [c7] at hi; unfold Operand.extract; rw [c1]; exact rtEvuimmLt16 hi h
    case sh6 =>
      obtain ⟨c1, c2, c3, c4, c5, c6, c7, -⟩ := shape_of ho hs (by decide) rfl
      rw [hs] at h; rw [c7] at hi; unfold Operand.extract; rw [c1]; exact rtSh6 hi (range_unsigned (lo := 0) (hi := 6) (by decide) c2 c3 c4 c6 hv) h
    case spr =>
      obtain ⟨c1, c2, c3, c4, c5, c6, c7, -⟩ := shape_of ho hs (by decide) rfl
      rw [hs] at h; rw [c7] at hi; unfold Operand.extract; rw [c1]; exact rtSpr hi (range_unsigned (lo := 0) (hi := 10) (by decide) c2 c3 c4 c6 hv) h
    case sprbat =>
      obtain ⟨c1, c2, c3, c4, c5, c6, c7, -⟩ := shape_of ho hs (by decide) rfl
      rw [hs] at h; rw [c7] at hi; unfold Operand.extract; rw [c1]; exact rtSprbat hi h
    case sprg =>
      obtain ⟨c1, c2, c3, c4, c5, c6, c7, -⟩ := shape_of ho hs (by decide) rfl
      rw [hs] at h; rw [c7] at hi; unfold Operand.extract; rw [c1]; exact rtSprg hi h
    case esync =>
      obtain ⟨c1, c2, c3, c4, c5, c6, c7, -⟩ := shape_of ho hs (by decide) rfl
      rw [hs] at h; rw [c7] at hi; unfold Operand.extract; rw [c1]; exact rtEsync hn hi (range_unsigned (lo := 0) (hi := 4) (by decide) c2 c3 c4 c6 hv) h
    case tbr =>
      obtain ⟨c1, c2, c3, c4, c5, c6, c7, -⟩ := shape_of ho hs (by decide) rfl
      rw [hs] at h; rw [c7] at hi; unfold Operand.extract; rw [c1]; exact rtTbr hn hi (range_unsigned (lo := 0) (hi := 10) (by decide) c2 c3 c4 c6 hv) h
    case oimm => rw [hs] at h1; exact absurd (by decide) h1
    case evuimm1Ex0 =>
      obtain ⟨c1, c2, c3, c4, c5, c6, c7, -⟩ := shape_of ho hs (by decide) rfl
      rw [hs] at h; rw [c7] at hi; unfold Operand.extract; rw [c1]; exact rtEvuimm1Ex0 hi (range_unsigned (lo := 0) (hi := 5) (by decide) c2 c3 c4 c6 hv) h
    case evuimm2Ex0 =>
      obtain ⟨c1, c2, c3, c4, c5, c6, c7, -⟩ := shape_of ho hs (by decide) rfl
      rw [hs] at h; rw [c7] at hi; unfold Operand.extract; rw [c1]; exact rtEvuimm2Ex0 hi (range_unsigned (lo := 1) (hi := 6) (by decide) c2 c3 c4 c6 hv) h
    case evuimm4Ex0 =>
      obtain ⟨c1, c2, c3, c4, c5, c6, c7, -⟩ := shape_of ho hs (by decide) rfl
      rw [hs] at h; rw [c7] at hi; unfold Operand.extract; rw [c1]; exact rtEvuimm4Ex0 hi (range_unsigned (lo := 2) (hi := 7) (by decide) c2 c3 c4 c6 hv) h
    case evuimm8Ex0 =>
      obtain ⟨c1, c2, c3, c4, c5, c6, c7, -⟩ := shape_of ho hs (by decide) rfl
      rw [hs] at h; rw [c7] at hi; unfold Operand.extract; rw [c1]; exact rtEvuimm8Ex0 hi (range_unsigned (lo := 3) (hi := 8) (by decide) c2 c3 c4 c6 hv) h
    case sxl =>
      obtain ⟨c1, c2, c3, c4, c5, c6, c7, -⟩ := shape_of ho hs (by decide) rfl
      rw [hs] at h; rw [c7] at hi; unfold Operand.extract; rw [c1]; exact rtSxl hn hi (range_unsigned (lo := 0) (hi := 1) (by decide) c2 c3 c4 c6 hv) h
    case vlesi =>
      obtain ⟨c1, c2, c3, c4, c5, c6, c7, -⟩ := shape_of ho hs (by decide) rfl
      rw [hs] at h; rw [c7] at hi; unfold Operand.extract; rw [c1]; have hr := range_signed c3 c4 c5 hv; exact rtVlesi hr.1 hr.2 hi h
    case vlensi => rw [hs] at h1; exact absurd (by decide) h1
    case vleui =>
      obtain ⟨c1, c2, c3, c4, c5, c6, c7, -⟩ := shape_of ho hs (by decide) rfl
      rw [hs] at h; rw [c7] at hi; unfold Operand.extract; rw [c1]; exact rtVleui hi (range_unsigned (lo := 0) (hi := 16) (by decide) c2 c3 c4 c6 hv) h
    case vleil =>
      obtain ⟨c1, c2, c3, c4, c5, c6, c7, -⟩ := shape_of ho hs (by decide) rfl
      rw [hs] at h; rw [c7] at hi; unfold Operand.extract; rw [c1]; exact rtVleil hi (range_unsigned (lo := 0) (hi := 16) (by decide) c2 c3 c4 c6 hv) h
    case xt6 =>
      obtain ⟨c1, c2, c3, c4, c5, c6, c7, -⟩ := shape_of ho hs (by decide) rfl
      rw [hs] at h; rw [c7] at hi; unfold Operand.extract; rw [c1]; exact rtXt6 hi (range_unsigned (lo := 0) (hi := 6) (by decide) c2 c3 c4 c6 hv) h
    case xtq6 =>
      obtain ⟨c1, c2, c3, c4, c5, c6, c7, -⟩ := shape_of ho hs (by decide) rfl
      rw [hs] at h; rw [c7] at hi; unfold Operand.extract; rw [c1]; exact rtXtq6 hi (range_unsigned (lo := 0) (hi := 6) (by decide) c2 c3 c4 c6 hv) h
    case xa6 =>
      obtain ⟨c1, c2, c3, c4, c5, c6, c7, -⟩ := shape_of ho hs (by decide) rfl
      rw [hs] at h; rw [c7] at hi; unfold Operand.extract; rw [c1]; exact rtXa6 hi (range_unsigned (lo := 0) (hi := 6) (by decide) c2 c3 c4 c6 hv) h
    case xb6 =>
      obtain ⟨c1, c2, c3, c4, c5, c6, c7, -⟩ := shape_of ho hs (by decide) rfl
      rw [hs] at h; rw [c7] at hi; unfold Operand.extract; rw [c1]; exact rtXb6 hi (range_unsigned (lo := 0) (hi := 6) (by decide) c2 c3 c4 c6 hv) h
    case xab6 =>
      obtain ⟨c1, c2, c3, c4, c5, c6, c7, -⟩ := shape_of ho hs (by decide) rfl
      rw [hs] at h; rw [c7] at hi; unfold Operand.extract; rw [c1]; exact rtXab6 hi (range_unsigned (lo := 0) (hi := 6) (by decide) c2 c3 c4 c6 hv) h
    case xc6 =>
      obtain ⟨c1, c2, c3, c4, c5, c6, c7, -⟩ := shape_of ho hs (by decide) rfl
      rw [hs] at h; rw [c7] at hi; unfold Operand.extract; rw [c1]; exact rtXc6 hi (range_unsigned (lo := 0) (hi := 6) (by decide) c2 c3 c4 c6 hv) h
    case dm =>
      obtain ⟨c1, c2, c3, c4, c5, c6, c7, -⟩ := shape_of ho hs (by decide) rfl
      rw [hs] at h; rw [c7] at hi; unfold Operand.extract; rw [c1]; exact rtDm hi h
    case offLsp =>
      obtain ⟨c1, c2, c3, c4, c5, c6, c7, -⟩ := shape_of ho hs (by decide) rfl
      rw [hs] at h; rw [c7] at hi; unfold Operand.extract; rw [c1]; exact rtOffLsp hi (range_unsigned (lo := 0) (hi := 2) (by decide) c2 c3 c4 c6 hv) h
    case offSpe2 =>
      obtain ⟨c1, c2, c3, c4, c5, c6, c7, -⟩ := shape_of ho hs (by decide) rfl
      rw [hs] at h; rw [c7] at hi; unfold Operand.extract; rw [c1]; exact rtOffSpe2 hi (range_unsigned (lo := 0) (hi := 3) (by decide) c2 c3 c4 c6 hv) h
    case ddd =>
      obtain ⟨c1, c2, c3, c4, c5, c6, c7, -⟩ := shape_of ho hs (by decide) rfl
      rw [hs] at h; rw [c7] at hi; unfold Operand.extract; rw [c1]; exact rtDdd hi (range_unsigned (lo := 0) (hi := 3) (by decide) c2 c3 c4 c6 hv) h

/-- The insertion functions whose values need more than the bits of the operand. -/
def oneWay : List Ins := [.bdm, .bdp, .bo, .boe, .fxm, .mbe, .nbi, .sci8, .sci8n, .sprg]

theorem back_row (ho : o ∈ operands) (h1 : o.ins ∉ oneWay) (h2 : o.name ≠ "NB") : o.Back := by
  intro insn dialect h
  unfold Operand.without
  by_cases hnull : o.ins = .null
  · rcases rows_null o ho hnull with ⟨he, hp⟩ | ⟨hnb, _⟩
    · unfold Operand.insert Operand.extract
      rw [hnull, he]
      exact bkNull (plain_rows o ho hnull)
    · exact absurd hnb h2
  · unfold Operand.insert Operand.extract
    unfold Operand.extract at h
    cases hs : o.ins
    case null => exact absurd hs hnull
    case btab =>
      obtain ⟨c1, c2, c3, c4, c5, c6, c7, -⟩ := shape_of ho hs (by decide) rfl
      rw [c1] at h; rw [c1, c7]; exact bkBtab h
    case bab =>
      obtain ⟨c1, c2, c3, c4, c5, c6, c7, -⟩ := shape_of ho hs (by decide) rfl
      rw [c1] at h; rw [c1, c7]; exact bkBab h
    case bdm => rw [hs] at h1; exact absurd (by decide) h1
    case bdp => rw [hs] at h1; exact absurd (by decide) h1
    case bo => rw [hs] at h1; exact absurd (by decide) h1
    case boe => rw [hs] at h1; exact absurd (by decide) h1
    case dcmxs =>
      obtain ⟨c1, c2, c3, c4, c5, c6, c7, -⟩ := shape_of ho hs (by decide) rfl
      rw [c1] at h; rw [c1, c7]; exact bkDcmxs
    case dxd =>
      obtain ⟨c1, c2, c3, c4, c5, c6, c7, -⟩ := shape_of ho hs (by decide) rfl
      rw [c1] at h; rw [c1, c7]; exact bkDxd
    case dxdn =>
      obtain ⟨c1, c2, c3, c4, c5, c6, c7, -⟩ := shape_of ho hs (by decide) rfl
      rw [c1] at h; rw [c1, c7]; exact bkDxdn
    case fxm => rw [hs] at h1; exact absurd (by decide) h1
    case li20 =>
      obtain ⟨c1, c2, c3, c4, c5, c6, c7, -⟩ := shape_of ho hs (by decide) rfl
      rw [c1] at h; rw [c1, c7]; exact bkLi20
    case ls =>
      obtain ⟨c1, c2, c3, c4, c5, c6, c7, -⟩ := shape_of ho hs (by decide) rfl
      rw [c1] at h; rw [c1, c7]; exact bkLs h
    case mbe => rw [hs] at h1; exact absurd (by decide) h1
    case mb6 =>
      obtain ⟨c1, c2, c3, c4, c5, c6, c7, -⟩ := shape_of ho hs (by decide) rfl
      rw [c1] at h; rw [c1, c7]; exact bkMb6
    case nbi => rw [hs] at h1; exact absurd (by decide) h1
    case nsi =>
      obtain ⟨c1, c2, c3, c4, c5, c6, c7, -⟩ := shape_of ho hs (by decide) rfl
      rw [c1] at h; rw [c1, c7]; exact bkNsi
    case raq =>
      obtain ⟨c1, c2, c3, c4, c5, c6, c7, -⟩ := shape_of ho hs (by decide) rfl
      rw [c1] at h; rw [c1, c7]; exact bkRaq h
    case ral =>
      obtain ⟨c1, c2, c3, c4, c5, c6, c7, -⟩ := shape_of ho hs (by decide) rfl
      rw [c1] at h; rw [c1, c7]; exact bkRal h
    case ram =>
      obtain ⟨c1, c2, c3, c4, c5, c6, c7, -⟩ := shape_of ho hs (by decide) rfl
      rw [c1] at h; rw [c1, c7]; exact bkRam h
    case ras =>
      obtain ⟨c1, c2, c3, c4, c5, c6, c7, -⟩ := shape_of ho hs (by decide) rfl
      rw [c1] at h; rw [c1, c7]; exact bkRas h
    case rsb =>
      obtain ⟨c1, c2, c3, c4, c5, c6, c7, -⟩ := shape_of ho hs (by decide) rfl
      rw [c1] at h; rw [c1, c7]; exact bkRsb h
    case rbx =>
      obtain ⟨c1, c2, c3, c4, c5, c6, c7, -⟩ := shape_of ho hs (by decide) rfl
      rw [c1] at h; rw [c1, c7]; exact bkRbx h
    case even =>
      obtain ⟨c1, c2, c3, c4, c5, c6, c7, -⟩ := shape_of ho hs (by decide) rfl
      rw [c1] at h; rw [c1, c7]; exact bkEven h
    case rx =>
      obtain ⟨c1, c2, c3, c4, c5, c6, c7, -⟩ := shape_of ho hs (by decide) rfl
      rw [c1] at h; rw [c1, c7]; exact bkRx
    case arx =>
      obtain ⟨c1, c2, c3, c4, c5, c6, c7, -⟩ := shape_of ho hs (by decide) rfl
      rw [c1] at h; rw [c1, c7]; exact bkArx
    case ry =>
      obtain ⟨c1, c2, c3, c4, c5, c6, c7, -⟩ := shape_of ho hs (by decide) rfl
      rw [c1] at h; rw [c1, c7]; exact bkRy
    case ary =>
      obtain ⟨c1, c2, c3, c4, c5, c6, c7, -⟩ := shape_of ho hs (by decide) rfl
      rw [c1] at h; rw [c1, c7]; exact bkAry
    case sci8 => rw [hs] at h1; exact absurd (by decide) h1
    case sci8n => rw [hs] at h1; exact absurd (by decide) h1
    case evuimmLt8 =>
      obtain ⟨c1, c2, c3, c4, c5, c6, c7, -⟩ := shape_of ho hs (by decide) rfl
      rw [c1] at h; rw [c1, c7]; exact bkEvuimmLt8 h
    case evuimmLt16 =>
      obtain ⟨c1, c2, c3, c4, c5, c6, c7, -⟩ := shape_of ho hs (by decide) rfl
      rw [c1] at h; rw [c1, c7]; exact bkEvuimmLt16 h
    case sh6 =>
      obtain ⟨c1, c2, c3, c4, c5, c6, c7, -⟩ := shape_of ho hs (by decide) rfl
      rw [c1] at h; rw [c1, c7]; exact bkSh6
    case spr =>
      obtain ⟨c1, c2, c3, c4, c5, c6, c7, -⟩ := shape_of ho hs (by decide) rfl
      rw [c1] at h; rw [c1, c7]; exact bkSpr
    case sprbat =>
      obtain ⟨c1, c2, c3, c4, c5, c6, c7, -⟩ := shape_of ho hs (by decide) rfl
      rw [c1] at h; rw [c1, c7]; exact bkSprbat h
    case sprg => rw [hs] at h1; exact absurd (by decide) h1
    case esync =>
      obtain ⟨c1, c2, c3, c4, c5, c6, c7, -⟩ := shape_of ho hs (by decide) rfl
      rw [c1] at h; rw [c1, c7]; exact bkEsync h
    case tbr =>
      obtain ⟨c1, c2, c3, c4, c5, c6, c7, -⟩ := shape_of ho hs (by decide) rfl
      rw [c1] at h; rw [c1, c7]; exact bkTbr h
    case oimm =>
      obtain ⟨c1, c2, c3, c4, c5, c6, c7, -⟩ := shape_of ho hs (by decide) rfl
      rw [c1] at h; rw [c1, c7]; exact bkOimm
    case evuimm1Ex0 =>
      obtain ⟨c1, c2, c3, c4, c5, c6, c7, -⟩ := shape_of ho hs (by decide) rfl
      rw [c1] at h; rw [c1, c7]; exact bkEvuimm1Ex0 h
    case evuimm2Ex0 =>
      obtain ⟨c1, c2, c3, c4, c5, c6, c7, -⟩ := shape_of ho hs (by decide) rfl
      rw [c1] at h; rw [c1, c7]; exact bkEvuimm2Ex0 h
    case evuimm4Ex0 =>
      obtain ⟨c1, c2, c3, c4, c5, c6, c7, -⟩ := shape_of ho hs (by decide) rfl
      rw [c1] at h; rw [c1, c7]; exact bkEvuimm4Ex0 h
    case evuimm8Ex0 =>
      obtain ⟨c1, c2, c3, c4, c5, c6, c7, -⟩ := shape_of ho hs (by decide) rfl
      rw [c1] at h; rw [c1, c7]; exact bkEvuimm8Ex0 h
    case sxl =>
      obtain ⟨c1, c2, c3, c4, c5, c6, c7, -⟩ := shape_of ho hs (by decide) rfl
      rw [c1] at h; rw [c1, c7]; exact bkSxl
    case vlesi =>
      obtain ⟨c1, c2, c3, c4, c5, c6, c7, -⟩ := shape_of ho hs (by decide) rfl
      rw [c1] at h; rw [c1, c7]; exact bkVlesi
    case vlensi =>
      obtain ⟨c1, c2, c3, c4, c5, c6, c7, -⟩ := shape_of ho hs (by decide) rfl
      rw [c1] at h; rw [c1, c7]; exact bkVlensi
    case vleui =>
      obtain ⟨c1, c2, c3, c4, c5, c6, c7, -⟩ := shape_of ho hs (by decide) rfl
      rw [c1] at h; rw [c1, c7]; exact bkVleui
    case vleil =>
      obtain ⟨c1, c2, c3, c4, c5, c6, c7, -⟩ := shape_of ho hs (by decide) rfl
      rw [c1] at h; rw [c1, c7]; exact bkVleil
    case xt6 =>
      obtain ⟨c1, c2, c3, c4, c5, c6, c7, -⟩ := shape_of ho hs (by decide) rfl
      rw [c1] at h; rw [c1, c7]; exact bkXt6
    case xtq6 =>
      obtain ⟨c1, c2, c3, c4, c5, c6, c7, -⟩ := shape_of ho hs (by decide) rfl
      rw [c1] at h; rw [c1, c7]; exact bkXtq6
    case xa6 =>
      obtain ⟨c1, c2, c3, c4, c5, c6, c7, -⟩ := shape_of ho hs (by decide) rfl
      rw [c1] at h; rw [c1, c7]; exact bkXa6
    case xb6 =>
      obtain ⟨c1, c2, c3, c4, c5, c6, c7, -⟩ := shape_of ho hs (by decide) rfl
      rw [c1] at h; rw [c1, c7]; exact bkXb6
    case xab6 =>
      obtain ⟨c1, c2, c3, c4, c5, c6, c7, -⟩ := shape_of ho hs (by decide) rfl
      rw [c1] at h; rw [c1, c7]; exact bkXab6 h
    case xc6 =>
      obtain ⟨c1, c2, c3, c4, c5, c6, c7, -⟩ := shape_of ho hs (by decide) rfl
      rw [c1] at h; rw [c1, c7]; exact bkXc6
    case dm =>
      obtain ⟨c1, c2, c3, c4, c5, c6, c7, -⟩ := shape_of ho hs (by decide) rfl
      rw [c1] at h; rw [c1, c7]; exact bkDm h
    case offLsp =>
      obtain ⟨c1, c2, c3, c4, c5, c6, c7, -⟩ := shape_of ho hs (by decide) rfl
      rw [c1] at h; rw [c1, c7]; exact bkOffLsp h
    case offSpe2 =>
      obtain ⟨c1, c2, c3, c4, c5, c6, c7, -⟩ := shape_of ho hs (by decide) rfl
      rw [c1] at h; rw [c1, c7]; exact bkOffSpe2 h
    case ddd =>
      obtain ⟨c1, c2, c3, c4, c5, c6, c7, -⟩ := shape_of ho hs (by decide) rfl
      rw [c1] at h; rw [c1, c7]; exact bkDdd

end Opc
