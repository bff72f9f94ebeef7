/-!
# What the Power ISA says about the storage operands of an instruction

A table of the load, store and cache-block instructions of Power ISA 3.0 (Books I and II, plus the
caching-inhibited forms of Book III): encoding, effective-address rule, number of bytes. Nothing here
refers to the tracer.
-/

namespace IsaMem

/-- Bits `frm .. frm+len-1` of an instruction word, in the numbering of the ISA (bit 0 is the most
significant bit of the word). -/
def bits (w : BitVec 32) (frm len : Nat) : Nat := w.toNat / 2 ^ (32 - frm - len) % 2 ^ len

/-- The signed value of a two's complement field of `len` bits. -/
def signed (len v : Nat) : Int := if v < 2 ^ (len - 1) then v else (v : Int) - 2 ^ len

/-- `(RA|0)`: the contents of the register numbered by the RA field, or zero if that field is 0. -/
def raOr0 (w : BitVec 32) (g : Nat → BitVec 64) : Nat :=
  if bits w 11 5 = 0 then 0 else (g (bits w 11 5)).toNat

/-- How the effective address is formed. -/
inductive Ea where
  /-- `(RA|0) + (RB)`, rounded down to a multiple of `align` -/
  | indexed (align : Nat)
  /-- `(RA|0)` -/
  | base
  /-- `(RA|0) + EXTS(field) * scale`, the field being the `len` bits from bit 16 on -/
  | disp (len scale : Nat)
  deriving DecidableEq, Repr

/-- How many bytes are accessed. -/
inductive Size where
  | bytes (n : Nat)
  /-- the value of the top byte of RB, at most 16 -/
  | vectorLength
  /-- the registers from RT (or RS) to 31, a word each -/
  | multiple
  deriving DecidableEq, Repr

/-- Effective address, modulo 2⁶⁴. -/
def Ea.value (w : BitVec 32) (g : Nat → BitVec 64) : Ea → Nat
  | .indexed align => (raOr0 w g + (g (bits w 16 5)).toNat) % 2 ^ 64 / align * align
  | .base => raOr0 w g
  | .disp len scale => ((raOr0 w g + signed len (bits w 16 len) * scale) % (2 ^ 64 : Int)).toNat

/-- Number of bytes. -/
def Size.value (w : BitVec 32) (g : Nat → BitVec 64) : Size → Nat
  | .bytes n => n
  | .vectorLength => min ((g (bits w 16 5)).toNat / 2 ^ 56) 16
  | .multiple => 4 * (32 - bits w 6 5)

/-- One instruction: primary opcode, extended opcode (value `xo` in the `xl` bits from bit `xf` on;
`xl = 0` if there is none). -/
structure Insn where
  name : String
  op : Nat
  xf : Nat
  xl : Nat
  xo : Nat
  ea : Ea
  size : Size
  deriving DecidableEq, Repr

/-- The word is an encoding of the instruction. -/
def Insn.Encodes (i : Insn) (w : BitVec 32) : Prop := bits w 0 6 = i.op ∧ bits w i.xf i.xl = i.xo

/-- X-form load or store of `n` bytes. -/
def xf (name : String) (xo n : Nat) : Insn := ⟨name, 31, 21, 10, xo, .indexed 1, .bytes n⟩
/-- X-form load or store of `n` bytes whose address is rounded down to a multiple of `n`. -/
def xa (name : String) (xo n : Nat) : Insn := ⟨name, 31, 21, 10, xo, .indexed n, .bytes n⟩
/-- Vector load or store with length. -/
def xv (name : String) (xo : Nat) : Insn := ⟨name, 31, 21, 10, xo, .base, .vectorLength⟩
/-- D-form load or store of `n` bytes. -/
def df (name : String) (op n : Nat) : Insn := ⟨name, op, 31, 0, 0, .disp 16 1, .bytes n⟩
/-- DS-form load or store of `n` bytes. -/
def dsf (name : String) (op xo n : Nat) : Insn := ⟨name, op, 30, 2, xo, .disp 14 4, .bytes n⟩

/-- Loads, stores and cache-block instructions whose address the tracer is expected to report. -/
def handled : List Insn := [
  xf "lbzx" 87 1, xf "lbzux" 119 1, xf "stbx" 215 1, xf "stbux" 247 1,
  xf "lhzx" 279 2, xf "lhzux" 311 2, xf "lhax" 343 2, xf "lhaux" 375 2, xf "sthx" 407 2, xf "sthux" 439 2,
  xf "lwzx" 23 4, xf "lwzux" 55 4, xf "lwax" 341 4, xf "lwaux" 373 4, xf "stwx" 151 4, xf "stwux" 183 4,
  xf "ldx" 21 8, xf "ldux" 53 8, xf "stdx" 149 8, xf "stdux" 181 8, xf "ldmx" 309 8,
  xf "lhbrx" 790 2, xf "sthbrx" 918 2, xf "lwbrx" 534 4, xf "stwbrx" 662 4, xf "ldbrx" 532 8, xf "stdbrx" 660 8,
  xf "lbarx" 52 1, xf "lharx" 116 2, xf "lwarx" 20 4, xf "ldarx" 84 8, xf "lqarx" 276 16,
  xf "stbcx." 694 1, xf "sthcx." 726 2, xf "stwcx." 150 4, xf "stdcx." 214 8, xf "stqcx." 182 16,
  xf "lbzcix" 853 1, xf "lhzcix" 821 2, xf "lwzcix" 789 4, xf "ldcix" 885 8,
  xf "stbcix" 981 1, xf "sthcix" 949 2, xf "stwcix" 917 4, xf "stdcix" 1013 8,
  xf "lfsx" 535 4, xf "lfsux" 567 4, xf "stfsx" 663 4, xf "stfsux" 695 4,
  xf "lfdx" 599 8, xf "lfdux" 631 8, xf "stfdx" 727 8, xf "stfdux" 759 8,
  xf "lfiwax" 855 4, xf "lfiwzx" 887 4, xf "stfiwx" 983 4, xf "lfdpx" 791 16, xf "stfdpx" 919 16,
  xa "lvebx" 7 1, xa "lvehx" 39 2, xa "lvewx" 71 4, xa "lvx" 103 16, xa "lvxl" 359 16,
  xa "stvebx" 135 1, xa "stvehx" 167 2, xa "stvewx" 199 4, xa "stvx" 231 16, xa "stvxl" 487 16,
  xf "lxsdx" 588 8, xf "lxsspx" 524 4, xf "lxsiwax" 76 4, xf "lxsiwzx" 12 4, xf "lxsibzx" 781 1, xf "lxsihzx" 813 2,
  xf "stxsdx" 716 8, xf "stxsspx" 652 4, xf "stxsiwx" 140 4, xf "stxsibx" 909 1, xf "stxsihx" 941 2,
  xf "lxvx" 268 16, xf "lxvd2x" 844 16, xf "lxvw4x" 780 16, xf "lxvh8x" 812 16, xf "lxvb16x" 876 16,
  xf "stxvx" 396 16, xf "stxvd2x" 972 16, xf "stxvw4x" 908 16, xf "stxvh8x" 940 16, xf "stxvb16x" 1004 16,
  xf "lxvdsx" 332 8, xf "lxvwsx" 364 4,
  xv "lxvl" 269, xv "lxvll" 301, xv "stxvl" 397, xv "stxvll" 429,
  xa "icbt" 22 128, xa "dcbst" 54 128, xa "dcbf" 86 128, xa "dcbtst" 246 128, xa "dcbt" 278 128,
  xa "icbi" 982 128, xa "dcbz" 1014 128,
  xf "copy" 774 128, xf "paste." 902 128,
  df "lwz" 32 4, df "lwzu" 33 4, df "lbz" 34 1, df "lbzu" 35 1, df "stw" 36 4, df "stwu" 37 4,
  df "stb" 38 1, df "stbu" 39 1, df "lhz" 40 2, df "lhzu" 41 2, df "lha" 42 2, df "lhau" 43 2,
  df "sth" 44 2, df "sthu" 45 2, df "lfs" 48 4, df "lfsu" 49 4, df "lfd" 50 8, df "lfdu" 51 8,
  df "stfs" 52 4, df "stfsu" 53 4, df "stfd" 54 8, df "stfdu" 55 8,
  ⟨"lmw", 46, 31, 0, 0, .disp 16 1, .multiple⟩, ⟨"stmw", 47, 31, 0, 0, .disp 16 1, .multiple⟩,
  ⟨"lq", 56, 31, 0, 0, .disp 12 16, .bytes 16⟩,
  dsf "lfdp" 57 0 16, dsf "lxsd" 57 2 8, dsf "lxssp" 57 3 4,
  dsf "ld" 58 0 8, dsf "ldu" 58 1 8, dsf "lwa" 58 2 4,
  dsf "stfdp" 61 0 16, dsf "stxsd" 61 2 8, dsf "stxssp" 61 3 4,
  ⟨"lxv", 61, 29, 3, 1, .disp 12 16, .bytes 16⟩, ⟨"stxv", 61, 29, 3, 5, .disp 12 16, .bytes 16⟩,
  dsf "std" 62 0 8, dsf "stdu" 62 1 8, dsf "stq" 62 2 16 ]

/-- Move-assist and atomic-memory-operation instructions, which access storage too (the effective address
of the immediate and atomic forms is `(RA|0)`; their lengths are not needed here). -/
def unsupported : List Insn := [
  xf "lswx" 533 1, xf "stswx" 661 1, ⟨"lswi", 31, 21, 10, 597, .base, .bytes 1⟩, ⟨"stswi", 31, 21, 10, 725, .base, .bytes 1⟩,
  ⟨"lwat", 31, 21, 10, 582, .base, .bytes 4⟩, ⟨"stwat", 31, 21, 10, 710, .base, .bytes 4⟩,
  ⟨"ldat", 31, 21, 10, 614, .base, .bytes 8⟩, ⟨"stdat", 31, 21, 10, 742, .base, .bytes 8⟩ ]

/-- The word accesses storage: it encodes an instruction of one of the two tables. -/
def Accesses (w : BitVec 32) : Prop := (∃ i ∈ handled, i.Encodes w) ∨ ∃ i ∈ unsupported, i.Encodes w

end IsaMem
