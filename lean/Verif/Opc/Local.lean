import Verif.Opc.Hints

/-! Extraction looks at few bits of the instruction. -/
namespace Opc

variable {i d : W} {inv : Int}

/-- The bits an extraction function looks at. -/
def Ext.need : Ext → W
  | .null => 0#64
  | .arx => 0xf#64
  | .ary => 0xf0#64
  | .rx => 0xf#64
  | .ry => 0xf0#64
  | .bab => 0x1ff800#64
  | .btab => 0x3fff800#64
  | .bdm => 0x3e0fffc#64
  | .bdp => 0x3e0fffc#64
  | .bo => 0x3e00000#64
  | .boe => 0x3e00000#64
  | .dcmxs => 0x1f0044#64
  | .dxd => 0x1fffc1#64
  | .dxdn => 0x1fffc1#64
  | .fxm => 0x1ff7fe#64
  | .li20 => 0x1f7fff#64
  | .ls => 0x6007fe#64
  | .esync => 0x6f0000#64
  | .mbe => 0x7fe#64
  | .mb6 => 0x7e0#64
  | .nb => 0xf800#64
  | .nsi => 0xffff#64
  | .ral => 0x3ff0000#64
  | .ram => 0x3ff0000#64
  | .raq => 0x3ff0000#64
  | .ras => 0x1f0000#64
  | .rsb => 0x3e0f800#64
  | .rbx => 0x3e0f800#64
  | .sci8 => 0x7ff#64
  | .sci8n => 0x7ff#64
  | .oimm => 0x1f0#64
  | .sh6 => 0xf802#64
  | .spr => 0x1ff800#64
  | .sprbat => 0x60800#64
  | .sprg => 0x1f0100#64
  | .tbr => 0x1ff800#64
  | .xt6 => 0x3e00001#64
  | .xtq6 => 0x3e00008#64
  | .xa6 => 0x1f0004#64
  | .xb6 => 0xf802#64
  | .xab6 => 0x1ff806#64
  | .xc6 => 0x7c8#64
  | .dm => 0x300#64
  | .vlesi => 0x3e007ff#64
  | .vlensi => 0x3e007ff#64
  | .vleui => 0x3e007ff#64
  | .vleil => 0x1f07ff#64
  | .evuimm1Ex0 => 0xf800#64
  | .evuimm2Ex0 => 0xf800#64
  | .evuimm4Ex0 => 0xf800#64
  | .evuimm8Ex0 => 0xf800#64
  | .evuimmLt8 => 0xf800#64
  | .evuimmLt16 => 0xf800#64
  | .even => 0x3e00000#64
  | .offLsp => 0x3#64
  | .offSpe2 => 0x7#64
  | .ddd => 0x1801#64
  | .sxl => 0x800#64

/-- The bits the extraction of an operand looks at. -/
def Operand.need (o : Operand) : W := if o.ext = .null then bits o.field else o.ext.need

theorem loArx : extractArx (i &&& 0xf#64) d inv = extractArx i d inv := by
  have e0 : (i &&& 0xf#64) &&& 0xf#64 = i &&& 0xf#64 := lin_eq_all (i := i) (v := 7#64) (by decide +kernel)
  simp only [extractArx, e0]

theorem loAry : extractAry (i &&& 0xf0#64) d inv = extractAry i d inv := by
  have e0 : ((i &&& 0xf0#64) >>> 4) &&& 0xf#64 = (i >>> 4) &&& 0xf#64 := lin_eq_all (i := i) (v := 7#64) (by decide +kernel)
  simp only [extractAry, e0]

theorem loRx : extractRx (i &&& 0xf#64) d inv = extractRx i d inv := by
  have e0 : (i &&& 0xf#64) &&& 0xf#64 = i &&& 0xf#64 := lin_eq_all (i := i) (v := 7#64) (by decide +kernel)
  simp only [extractRx, e0]

theorem loRy : extractRy (i &&& 0xf0#64) d inv = extractRy i d inv := by
  have e0 : ((i &&& 0xf0#64) >>> 4) &&& 0xf#64 = (i >>> 4) &&& 0xf#64 := lin_eq_all (i := i) (v := 7#64) (by decide +kernel)
  simp only [extractRy, e0]

theorem loBab : extractBab (i &&& 0x1ff800#64) d inv = extractBab i d inv := by
  have e0 : ((i &&& 0x1ff800#64) >>> 16) &&& 0x1f#64 = (i >>> 16) &&& 0x1f#64 := lin_eq_all (i := i) (v := 7#64) (by decide +kernel)
  have e1 : ((i &&& 0x1ff800#64) >>> 11) &&& 0x1f#64 = (i >>> 11) &&& 0x1f#64 := lin_eq_all (i := i) (v := 7#64) (by decide +kernel)
  simp only [extractBab, e0, e1]

theorem loBtab : extractBtab (i &&& 0x3fff800#64) d inv = extractBtab i d inv := by
  have e0 : ((i &&& 0x3fff800#64) >>> 21) &&& 0x1f#64 = (i >>> 21) &&& 0x1f#64 := lin_eq_all (i := i) (v := 7#64) (by decide +kernel)
  have e1 : ((i &&& 0x3fff800#64) >>> 16) &&& 0x1f#64 = (i >>> 16) &&& 0x1f#64 := lin_eq_all (i := i) (v := 7#64) (by decide +kernel)
  have e2 : ((i &&& 0x3fff800#64) >>> 11) &&& 0x1f#64 = (i >>> 11) &&& 0x1f#64 := lin_eq_all (i := i) (v := 7#64) (by decide +kernel)
  simp only [extractBtab, extractBab, e0, e1, e2]
  all_goals congr

theorem loBdm : extractBdm (i &&& 0x3e0fffc#64) d inv = extractBdm i d inv := by
  have e0 : (i &&& 0x3e0fffc#64) &&& 0xfffc#64 = i &&& 0xfffc#64 := lin_eq_all (i := i) (v := 7#64) (by decide +kernel)
  have e1 : (i &&& 0x3e0fffc#64) &&& (1#64 <<< 21) = i &&& (1#64 <<< 21) := lin_eq_all (i := i) (v := 7#64) (by decide +kernel)
  have e2 : (i &&& 0x3e0fffc#64) &&& (1#64 <<< 15) = i &&& (1#64 <<< 15) := lin_eq_all (i := i) (v := 7#64) (by decide +kernel)
  have e3 : (i &&& 0x3e0fffc#64) &&& (0x17#64 <<< 21) = i &&& (0x17#64 <<< 21) := lin_eq_all (i := i) (v := 7#64) (by decide +kernel)
  have e4 : (i &&& 0x3e0fffc#64) &&& (0x1d#64 <<< 21) = i &&& (0x1d#64 <<< 21) := lin_eq_all (i := i) (v := 7#64) (by decide +kernel)
  simp only [extractBdm, e0, e1, e2, e3, e4]

theorem loBdp : extractBdp (i &&& 0x3e0fffc#64) d inv = extractBdp i d inv := by
  have e0 : (i &&& 0x3e0fffc#64) &&& 0xfffc#64 = i &&& 0xfffc#64 := lin_eq_all (i := i) (v := 7#64) (by decide +kernel)
  have e1 : (i &&& 0x3e0fffc#64) &&& (1#64 <<< 21) = i &&& (1#64 <<< 21) := lin_eq_all (i := i) (v := 7#64) (by decide +kernel)
  have e2 : (i &&& 0x3e0fffc#64) &&& (1#64 <<< 15) = i &&& (1#64 <<< 15) := lin_eq_all (i := i) (v := 7#64) (by decide +kernel)
  have e3 : (i &&& 0x3e0fffc#64) &&& (0x17#64 <<< 21) = i &&& (0x17#64 <<< 21) := lin_eq_all (i := i) (v := 7#64) (by decide +kernel)
  have e4 : (i &&& 0x3e0fffc#64) &&& (0x1d#64 <<< 21) = i &&& (0x1d#64 <<< 21) := lin_eq_all (i := i) (v := 7#64) (by decide +kernel)
  simp only [extractBdp, e0, e1, e2, e3, e4]

theorem loBo : extractBo (i &&& 0x3e00000#64) d inv = extractBo i d inv := by
  have e0 : ((i &&& 0x3e00000#64) >>> 21) &&& 0x1f#64 = (i >>> 21) &&& 0x1f#64 := lin_eq_all (i := i) (v := 7#64) (by decide +kernel)
  simp only [extractBo, e0]

theorem loBoe : extractBoe (i &&& 0x3e00000#64) d inv = extractBoe i d inv := by
  have e0 : ((i &&& 0x3e00000#64) >>> 21) &&& 0x1f#64 = (i >>> 21) &&& 0x1f#64 := lin_eq_all (i := i) (v := 7#64) (by decide +kernel)
  simp only [extractBoe, e0]

theorem loDcmxs : extractDcmxs (i &&& 0x1f0044#64) d inv = extractDcmxs i d inv := by
  have e0 : ((i &&& 0x1f0044#64) <<< 3) &&& 0x20#64 = (i <<< 3) &&& 0x20#64 := lin_eq_all (i := i) (v := 7#64) (by decide +kernel)
  have e1 : ((i &&& 0x1f0044#64) >>> 16) &&& 0x1f#64 = (i >>> 16) &&& 0x1f#64 := lin_eq_all (i := i) (v := 7#64) (by decide +kernel)
  have e2 : (i &&& 0x1f0044#64) &&& 0x40#64 = i &&& 0x40#64 := lin_eq_all (i := i) (v := 7#64) (by decide +kernel)
  simp only [extractDcmxs, e0, e1, e2]

theorem loDxd : extractDxd (i &&& 0x1fffc1#64) d inv = extractDxd i d inv := by
  have e0 : ((i &&& 0x1fffc1#64) >>> 15) &&& 0x3e#64 = (i >>> 15) &&& 0x3e#64 := lin_eq_all (i := i) (v := 7#64) (by decide +kernel)
  have e1 : (i &&& 0x1fffc1#64) &&& 0xffc1#64 = i &&& 0xffc1#64 := lin_eq_all (i := i) (v := 7#64) (by decide +kernel)
  simp only [extractDxd, e0, e1]

theorem loDxdn : extractDxdn (i &&& 0x1fffc1#64) d inv = extractDxdn i d inv := by
  have e0 : ((i &&& 0x1fffc1#64) >>> 15) &&& 0x3e#64 = (i >>> 15) &&& 0x3e#64 := lin_eq_all (i := i) (v := 7#64) (by decide +kernel)
  have e1 : (i &&& 0x1fffc1#64) &&& 0xffc1#64 = i &&& 0xffc1#64 := lin_eq_all (i := i) (v := 7#64) (by decide +kernel)
  simp only [extractDxdn, extractDxd, e0, e1]

theorem loFxm : extractFxm (i &&& 0x1ff7fe#64) d inv = extractFxm i d inv := by
  have e0 : ((i &&& 0x1ff7fe#64) >>> 12) &&& 0xff#64 = (i >>> 12) &&& 0xff#64 := lin_eq_all (i := i) (v := 7#64) (by decide +kernel)
  have e1 : (i &&& 0x1ff7fe#64) &&& (1#64 <<< 20) = i &&& (1#64 <<< 20) := lin_eq_all (i := i) (v := 7#64) (by decide +kernel)
  have e2 : (i &&& 0x1ff7fe#64) &&& (0x3ff#64 <<< 1) = i &&& (0x3ff#64 <<< 1) := lin_eq_all (i := i) (v := 7#64) (by decide +kernel)
  simp only [extractFxm, isMfcr, e0, e1, e2]
  all_goals congr

theorem loLi20 : extractLi20 (i &&& 0x1f7fff#64) d inv = extractLi20 i d inv := by
  have e0 : ((i &&& 0x1f7fff#64) <<< 5) &&& 0xf0000#64 = (i <<< 5) &&& 0xf0000#64 := lin_eq_all (i := i) (v := 7#64) (by decide +kernel)
  have e1 : ((i &&& 0x1f7fff#64) >>> 5) &&& 0xf800#64 = (i >>> 5) &&& 0xf800#64 := lin_eq_all (i := i) (v := 7#64) (by decide +kernel)
  have e2 : (i &&& 0x1f7fff#64) &&& 0x7ff#64 = i &&& 0x7ff#64 := lin_eq_all (i := i) (v := 7#64) (by decide +kernel)
  simp only [extractLi20, e0, e1, e2]

theorem loLs : extractLs (i &&& 0x6007fe#64) d inv = extractLs i d inv := by
  have e0 : ((i &&& 0x6007fe#64) >>> 21) &&& 3#64 = (i >>> 21) &&& 3#64 := lin_eq_all (i := i) (v := 7#64) (by decide +kernel)
  have e1 : ((i &&& 0x6007fe#64) >>> 1) &&& 0x3ff#64 = (i >>> 1) &&& 0x3ff#64 := lin_eq_all (i := i) (v := 7#64) (by decide +kernel)
  simp only [extractLs, e0, e1]

theorem loEsync : extractEsync (i &&& 0x6f0000#64) d inv = extractEsync i d inv := by
  have e0 : ((i &&& 0x6f0000#64) >>> 21) &&& 0x3#64 = (i >>> 21) &&& 0x3#64 := lin_eq_all (i := i) (v := 7#64) (by decide +kernel)
  have e1 : ((i &&& 0x6f0000#64) >>> 16) &&& 0xf#64 = (i >>> 16) &&& 0xf#64 := lin_eq_all (i := i) (v := 7#64) (by decide +kernel)
  simp only [extractEsync, e0, e1]

theorem loMbe : extractMbe (i &&& 0x7fe#64) d inv = extractMbe i d inv := by
  have e0 : ((i &&& 0x7fe#64) >>> 6) &&& 0x1f#64 = (i >>> 6) &&& 0x1f#64 := lin_eq_all (i := i) (v := 7#64) (by decide +kernel)
  have e1 : ((i &&& 0x7fe#64) >>> 1) &&& 0x1f#64 = (i >>> 1) &&& 0x1f#64 := lin_eq_all (i := i) (v := 7#64) (by decide +kernel)
  simp only [extractMbe, e0, e1]

theorem loMb6 : extractMb6 (i &&& 0x7e0#64) d inv = extractMb6 i d inv := by
  have e0 : ((i &&& 0x7e0#64) >>> 6) &&& 0x1f#64 = (i >>> 6) &&& 0x1f#64 := lin_eq_all (i := i) (v := 7#64) (by decide +kernel)
  have e1 : (i &&& 0x7e0#64) &&& 0x20#64 = i &&& 0x20#64 := lin_eq_all (i := i) (v := 7#64) (by decide +kernel)
  simp only [extractMb6, e0, e1]

theorem loNb : extractNb (i &&& 0xf800#64) d inv = extractNb i d inv := by
  have e0 : ((i &&& 0xf800#64) >>> 11) &&& 0x1f#64 = (i >>> 11) &&& 0x1f#64 := lin_eq_all (i := i) (v := 7#64) (by decide +kernel)
  simp only [extractNb, e0]

theorem loNsi : extractNsi (i &&& 0xffff#64) d inv = extractNsi i d inv := by
  have e0 : (i &&& 0xffff#64) &&& 0xffff#64 = i &&& 0xffff#64 := lin_eq_all (i := i) (v := 7#64) (by decide +kernel)
  simp only [extractNsi, e0]

theorem loRal : extractRal (i &&& 0x3ff0000#64) d inv = extractRal i d inv := by
  have e0 : ((i &&& 0x3ff0000#64) >>> 21) &&& 0x1f#64 = (i >>> 21) &&& 0x1f#64 := lin_eq_all (i := i) (v := 7#64) (by decide +kernel)
  have e1 : ((i &&& 0x3ff0000#64) >>> 16) &&& 0x1f#64 = (i >>> 16) &&& 0x1f#64 := lin_eq_all (i := i) (v := 7#64) (by decide +kernel)
  simp only [extractRal, e0, e1]

theorem loRam : extractRam (i &&& 0x3ff0000#64) d inv = extractRam i d inv := by
  have e0 : ((i &&& 0x3ff0000#64) >>> 21) &&& 0x1f#64 = (i >>> 21) &&& 0x1f#64 := lin_eq_all (i := i) (v := 7#64) (by decide +kernel)
  have e1 : ((i &&& 0x3ff0000#64) >>> 16) &&& 0x1f#64 = (i >>> 16) &&& 0x1f#64 := lin_eq_all (i := i) (v := 7#64) (by decide +kernel)
  simp only [extractRam, e0, e1]

theorem loRaq : extractRaq (i &&& 0x3ff0000#64) d inv = extractRaq i d inv := by
  have e0 : ((i &&& 0x3ff0000#64) >>> 21) &&& 0x1f#64 = (i >>> 21) &&& 0x1f#64 := lin_eq_all (i := i) (v := 7#64) (by decide +kernel)
  have e1 : ((i &&& 0x3ff0000#64) >>> 16) &&& 0x1f#64 = (i >>> 16) &&& 0x1f#64 := lin_eq_all (i := i) (v := 7#64) (by decide +kernel)
  simp only [extractRaq, e0, e1]

theorem loRas : extractRas (i &&& 0x1f0000#64) d inv = extractRas i d inv := by
  have e0 : ((i &&& 0x1f0000#64) >>> 16) &&& 0x1f#64 = (i >>> 16) &&& 0x1f#64 := lin_eq_all (i := i) (v := 7#64) (by decide +kernel)
  simp only [extractRas, e0]

theorem loRsb : extractRsb (i &&& 0x3e0f800#64) d inv = extractRsb i d inv := by
  have e0 : ((i &&& 0x3e0f800#64) >>> 21) &&& 0x1f#64 = (i >>> 21) &&& 0x1f#64 := lin_eq_all (i := i) (v := 7#64) (by decide +kernel)
  have e1 : ((i &&& 0x3e0f800#64) >>> 11) &&& 0x1f#64 = (i >>> 11) &&& 0x1f#64 := lin_eq_all (i := i) (v := 7#64) (by decide +kernel)
  simp only [extractRsb, e0, e1]

theorem loRbx : extractRbx (i &&& 0x3e0f800#64) d inv = extractRbx i d inv := by
  have e0 : ((i &&& 0x3e0f800#64) >>> 21) &&& 0x1f#64 = (i >>> 21) &&& 0x1f#64 := lin_eq_all (i := i) (v := 7#64) (by decide +kernel)
  have e1 : ((i &&& 0x3e0f800#64) >>> 11) &&& 0x1f#64 = (i >>> 11) &&& 0x1f#64 := lin_eq_all (i := i) (v := 7#64) (by decide +kernel)
  simp only [extractRbx, e0, e1]

theorem loSci8 : extractSci8 (i &&& 0x7ff#64) d inv = extractSci8 i d inv := by
  have e0 : (i &&& 0x7ff#64) &&& 0x400#64 = i &&& 0x400#64 := lin_eq_all (i := i) (v := 7#64) (by decide +kernel)
  have e1 : (i &&& 0x7ff#64) &&& 0x300#64 = i &&& 0x300#64 := lin_eq_all (i := i) (v := 7#64) (by decide +kernel)
  have e2 : (i &&& 0x7ff#64) &&& 0xff#64 = i &&& 0xff#64 := lin_eq_all (i := i) (v := 7#64) (by decide +kernel)
  simp only [extractSci8, e0, e1, e2]

theorem loSci8n : extractSci8n (i &&& 0x7ff#64) d inv = extractSci8n i d inv := by
  have e0 : (i &&& 0x7ff#64) &&& 0x400#64 = i &&& 0x400#64 := lin_eq_all (i := i) (v := 7#64) (by decide +kernel)
  have e1 : (i &&& 0x7ff#64) &&& 0x300#64 = i &&& 0x300#64 := lin_eq_all (i := i) (v := 7#64) (by decide +kernel)
  have e2 : (i &&& 0x7ff#64) &&& 0xff#64 = i &&& 0xff#64 := lin_eq_all (i := i) (v := 7#64) (by decide +kernel)
  simp only [extractSci8n, extractSci8, e0, e1, e2]

theorem loOimm : extractOimm (i &&& 0x1f0#64) d inv = extractOimm i d inv := by
  have e0 : ((i &&& 0x1f0#64) >>> 4) &&& 0x1f#64 = (i >>> 4) &&& 0x1f#64 := lin_eq_all (i := i) (v := 7#64) (by decide +kernel)
  simp only [extractOimm, e0]

theorem loSh6 : extractSh6 (i &&& 0xf802#64) d inv = extractSh6 i d inv := by
  have e0 : ((i &&& 0xf802#64) >>> 11) &&& 0x1f#64 = (i >>> 11) &&& 0x1f#64 := lin_eq_all (i := i) (v := 7#64) (by decide +kernel)
  have e1 : ((i &&& 0xf802#64) <<< 4) &&& 0x20#64 = (i <<< 4) &&& 0x20#64 := lin_eq_all (i := i) (v := 7#64) (by decide +kernel)
  simp only [extractSh6, e0, e1]

theorem loSpr : extractSpr (i &&& 0x1ff800#64) d inv = extractSpr i d inv := by
  have e0 : ((i &&& 0x1ff800#64) >>> 16) &&& 0x1f#64 = (i >>> 16) &&& 0x1f#64 := lin_eq_all (i := i) (v := 7#64) (by decide +kernel)
  have e1 : ((i &&& 0x1ff800#64) >>> 6) &&& 0x3e0#64 = (i >>> 6) &&& 0x3e0#64 := lin_eq_all (i := i) (v := 7#64) (by decide +kernel)
  simp only [extractSpr, e0, e1]

theorem loSprbat : extractSprbat (i &&& 0x60800#64) d inv = extractSprbat i d inv := by
  have e0 : ((i &&& 0x60800#64) >>> 17) &&& 0x3#64 = (i >>> 17) &&& 0x3#64 := lin_eq_all (i := i) (v := 7#64) (by decide +kernel)
  have e1 : ((i &&& 0x60800#64) >>> 9) &&& 0x4#64 = (i >>> 9) &&& 0x4#64 := lin_eq_all (i := i) (v := 7#64) (by decide +kernel)
  simp only [extractSprbat, e0, e1]

theorem loSprg : extractSprg (i &&& 0x1f0100#64) d inv = extractSprg i d inv := by
  have e0 : ((i &&& 0x1f0100#64) >>> 16) &&& 0x1f#64 = (i >>> 16) &&& 0x1f#64 := lin_eq_all (i := i) (v := 7#64) (by decide +kernel)
  have e1 : (i &&& 0x1f0100#64) &&& 0x100#64 = i &&& 0x100#64 := lin_eq_all (i := i) (v := 7#64) (by decide +kernel)
  simp only [extractSprg, e0, e1]

theorem loTbr : extractTbr (i &&& 0x1ff800#64) d inv = extractTbr i d inv := by
  have e0 : ((i &&& 0x1ff800#64) >>> 16) &&& 0x1f#64 = (i >>> 16) &&& 0x1f#64 := lin_eq_all (i := i) (v := 7#64) (by decide +kernel)
  have e1 : ((i &&& 0x1ff800#64) >>> 6) &&& 0x3e0#64 = (i >>> 6) &&& 0x3e0#64 := lin_eq_all (i := i) (v := 7#64) (by decide +kernel)
  simp only [extractTbr, e0, e1]

theorem loXt6 : extractXt6 (i &&& 0x3e00001#64) d inv = extractXt6 i d inv := by
  have e0 : ((i &&& 0x3e00001#64) <<< 5) &&& 0x20#64 = (i <<< 5) &&& 0x20#64 := lin_eq_all (i := i) (v := 7#64) (by decide +kernel)
  have e1 : ((i &&& 0x3e00001#64) >>> 21) &&& 0x1f#64 = (i >>> 21) &&& 0x1f#64 := lin_eq_all (i := i) (v := 7#64) (by decide +kernel)
  simp only [extractXt6, e0, e1]

theorem loXtq6 : extractXtq6 (i &&& 0x3e00008#64) d inv = extractXtq6 i d inv := by
  have e0 : ((i &&& 0x3e00008#64) <<< 2) &&& 0x20#64 = (i <<< 2) &&& 0x20#64 := lin_eq_all (i := i) (v := 7#64) (by decide +kernel)
  have e1 : ((i &&& 0x3e00008#64) >>> 21) &&& 0x1f#64 = (i >>> 21) &&& 0x1f#64 := lin_eq_all (i := i) (v := 7#64) (by decide +kernel)
  simp only [extractXtq6, e0, e1]

theorem loXa6 : extractXa6 (i &&& 0x1f0004#64) d inv = extractXa6 i d inv := by
  have e0 : ((i &&& 0x1f0004#64) <<< 3) &&& 0x20#64 = (i <<< 3) &&& 0x20#64 := lin_eq_all (i := i) (v := 7#64) (by decide +kernel)
  have e1 : ((i &&& 0x1f0004#64) >>> 16) &&& 0x1f#64 = (i >>> 16) &&& 0x1f#64 := lin_eq_all (i := i) (v := 7#64) (by decide +kernel)
  simp only [extractXa6, e0, e1]

theorem loXb6 : extractXb6 (i &&& 0xf802#64) d inv = extractXb6 i d inv := by
  have e0 : ((i &&& 0xf802#64) <<< 4) &&& 0x20#64 = (i <<< 4) &&& 0x20#64 := lin_eq_all (i := i) (v := 7#64) (by decide +kernel)
  have e1 : ((i &&& 0xf802#64) >>> 11) &&& 0x1f#64 = (i >>> 11) &&& 0x1f#64 := lin_eq_all (i := i) (v := 7#64) (by decide +kernel)
  simp only [extractXb6, e0, e1]

theorem loXab6 : extractXab6 (i &&& 0x1ff806#64) d inv = extractXab6 i d inv := by
  have e0 : ((i &&& 0x1ff806#64) <<< 3) &&& 0x20#64 = (i <<< 3) &&& 0x20#64 := lin_eq_all (i := i) (v := 7#64) (by decide +kernel)
  have e1 : ((i &&& 0x1ff806#64) >>> 16) &&& 0x1f#64 = (i >>> 16) &&& 0x1f#64 := lin_eq_all (i := i) (v := 7#64) (by decide +kernel)
  have e2 : ((i &&& 0x1ff806#64) <<< 4) &&& 0x20#64 = (i <<< 4) &&& 0x20#64 := lin_eq_all (i := i) (v := 7#64) (by decide +kernel)
  have e3 : ((i &&& 0x1ff806#64) >>> 11) &&& 0x1f#64 = (i >>> 11) &&& 0x1f#64 := lin_eq_all (i := i) (v := 7#64) (by decide +kernel)
  simp only [extractXab6, extractXa6, extractXb6, e0, e1, e2, e3]
  all_goals congr

theorem loXc6 : extractXc6 (i &&& 0x7c8#64) d inv = extractXc6 i d inv := by
  have e0 : ((i &&& 0x7c8#64) <<< 2) &&& 0x20#64 = (i <<< 2) &&& 0x20#64 := lin_eq_all (i := i) (v := 7#64) (by decide +kernel)
  have e1 : ((i &&& 0x7c8#64) >>> 6) &&& 0x1f#64 = (i >>> 6) &&& 0x1f#64 := lin_eq_all (i := i) (v := 7#64) (by decide +kernel)
  simp only [extractXc6, e0, e1]

theorem loDm : extractDm (i &&& 0x300#64) d inv = extractDm i d inv := by
  have e0 : ((i &&& 0x300#64) >>> 8) &&& 3#64 = (i >>> 8) &&& 3#64 := lin_eq_all (i := i) (v := 7#64) (by decide +kernel)
  simp only [extractDm, e0]

theorem loVlesi : extractVlesi (i &&& 0x3e007ff#64) d inv = extractVlesi i d inv := by
  have e0 : ((i &&& 0x3e007ff#64) >>> 10) &&& 0xf800#64 = (i >>> 10) &&& 0xf800#64 := lin_eq_all (i := i) (v := 7#64) (by decide +kernel)
  have e1 : (i &&& 0x3e007ff#64) &&& 0x7ff#64 = i &&& 0x7ff#64 := lin_eq_all (i := i) (v := 7#64) (by decide +kernel)
  simp only [extractVlesi, e0, e1]

theorem loVlensi : extractVlensi (i &&& 0x3e007ff#64) d inv = extractVlensi i d inv := by
  have e0 : ((i &&& 0x3e007ff#64) >>> 10) &&& 0xf800#64 = (i >>> 10) &&& 0xf800#64 := lin_eq_all (i := i) (v := 7#64) (by decide +kernel)
  have e1 : (i &&& 0x3e007ff#64) &&& 0x7ff#64 = i &&& 0x7ff#64 := lin_eq_all (i := i) (v := 7#64) (by decide +kernel)
  simp only [extractVlensi, e0, e1]

theorem loVleui : extractVleui (i &&& 0x3e007ff#64) d inv = extractVleui i d inv := by
  have e0 : ((i &&& 0x3e007ff#64) >>> 10) &&& 0xf800#64 = (i >>> 10) &&& 0xf800#64 := lin_eq_all (i := i) (v := 7#64) (by decide +kernel)
  have e1 : (i &&& 0x3e007ff#64) &&& 0x7ff#64 = i &&& 0x7ff#64 := lin_eq_all (i := i) (v := 7#64) (by decide +kernel)
  simp only [extractVleui, e0, e1]

theorem loVleil : extractVleil (i &&& 0x1f07ff#64) d inv = extractVleil i d inv := by
  have e0 : ((i &&& 0x1f07ff#64) >>> 5) &&& 0xf800#64 = (i >>> 5) &&& 0xf800#64 := lin_eq_all (i := i) (v := 7#64) (by decide +kernel)
  have e1 : (i &&& 0x1f07ff#64) &&& 0x7ff#64 = i &&& 0x7ff#64 := lin_eq_all (i := i) (v := 7#64) (by decide +kernel)
  simp only [extractVleil, e0, e1]

theorem loEvuimm1Ex0 : extractEvuimm1Ex0 (i &&& 0xf800#64) d inv = extractEvuimm1Ex0 i d inv := by
  have e0 : ((i &&& 0xf800#64) >>> 11) &&& 0x1f#64 = (i >>> 11) &&& 0x1f#64 := lin_eq_all (i := i) (v := 7#64) (by decide +kernel)
  simp only [extractEvuimm1Ex0, e0]

theorem loEvuimm2Ex0 : extractEvuimm2Ex0 (i &&& 0xf800#64) d inv = extractEvuimm2Ex0 i d inv := by
  have e0 : ((i &&& 0xf800#64) >>> 10) &&& 0x3e#64 = (i >>> 10) &&& 0x3e#64 := lin_eq_all (i := i) (v := 7#64) (by decide +kernel)
  simp only [extractEvuimm2Ex0, e0]

theorem loEvuimm4Ex0 : extractEvuimm4Ex0 (i &&& 0xf800#64) d inv = extractEvuimm4Ex0 i d inv := by
  have e0 : ((i &&& 0xf800#64) >>> 9) &&& 0x7c#64 = (i >>> 9) &&& 0x7c#64 := lin_eq_all (i := i) (v := 7#64) (by decide +kernel)
  simp only [extractEvuimm4Ex0, e0]

theorem loEvuimm8Ex0 : extractEvuimm8Ex0 (i &&& 0xf800#64) d inv = extractEvuimm8Ex0 i d inv := by
  have e0 : ((i &&& 0xf800#64) >>> 8) &&& 0xf8#64 = (i >>> 8) &&& 0xf8#64 := lin_eq_all (i := i) (v := 7#64) (by decide +kernel)
  simp only [extractEvuimm8Ex0, e0]

theorem loEvuimmLt8 : extractEvuimmLt8 (i &&& 0xf800#64) d inv = extractEvuimmLt8 i d inv := by
  have e0 : ((i &&& 0xf800#64) >>> 11) &&& 0x1f#64 = (i >>> 11) &&& 0x1f#64 := lin_eq_all (i := i) (v := 7#64) (by decide +kernel)
  simp only [extractEvuimmLt8, e0]

theorem loEvuimmLt16 : extractEvuimmLt16 (i &&& 0xf800#64) d inv = extractEvuimmLt16 i d inv := by
  have e0 : ((i &&& 0xf800#64) >>> 11) &&& 0x1f#64 = (i >>> 11) &&& 0x1f#64 := lin_eq_all (i := i) (v := 7#64) (by decide +kernel)
  simp only [extractEvuimmLt16, e0]

theorem loEven : extractEven (i &&& 0x3e00000#64) d inv = extractEven i d inv := by
  have e0 : ((i &&& 0x3e00000#64) >>> 21) &&& 0x1f#64 = (i >>> 21) &&& 0x1f#64 := lin_eq_all (i := i) (v := 7#64) (by decide +kernel)
  simp only [extractEven, e0]

theorem loOffLsp : extractOffLsp (i &&& 0x3#64) d inv = extractOffLsp i d inv := by
  have e0 : (i &&& 0x3#64) &&& 0x3#64 = i &&& 0x3#64 := lin_eq_all (i := i) (v := 7#64) (by decide +kernel)
  simp only [extractOffLsp, e0]

theorem loOffSpe2 : extractOffSpe2 (i &&& 0x7#64) d inv = extractOffSpe2 i d inv := by
  have e0 : (i &&& 0x7#64) &&& 0x7#64 = i &&& 0x7#64 := lin_eq_all (i := i) (v := 7#64) (by decide +kernel)
  simp only [extractOffSpe2, e0]

theorem loDdd : extractDdd (i &&& 0x1801#64) d inv = extractDdd i d inv := by
  have e0 : ((i &&& 0x1801#64) >>> 11) &&& 0x3#64 = (i >>> 11) &&& 0x3#64 := lin_eq_all (i := i) (v := 7#64) (by decide +kernel)
  have e1 : ((i &&& 0x1801#64) <<< 2) &&& 0x4#64 = (i <<< 2) &&& 0x4#64 := lin_eq_all (i := i) (v := 7#64) (by decide +kernel)
  simp only [extractDdd, e0, e1]

theorem loSxl : extractSxl (i &&& 0x800#64) d inv = extractSxl i d inv := by
  have e0 : ((i &&& 0x800#64) >>> 11) &&& 0x1#64 = (i >>> 11) &&& 0x1#64 := lin_eq_all (i := i) (v := 7#64) (by decide +kernel)
  simp only [extractSxl, e0]

end Opc
