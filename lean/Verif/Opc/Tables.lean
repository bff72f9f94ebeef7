/-!
The tables `powerpc_opcodes_qt`, `vle_opcodes_qt` and `spe2_opcodes_qt` of qtlib/ppc-opc.c, generated from their text with all macros expanded.
-/
namespace Opc

/-- struct powerpc_opcode_qt, ppc.h:35-66; the codes of the operands without the zeros at the end. -/
structure Opcode where
  name : String
  opcode : Nat
  mask : Nat
  flags : Nat
  deprecated : Nat
  operands : List Nat
deriving DecidableEq, Repr

/-- ppc-opc.c:3533-3634. -/
def main0 : List Opcode :=
  [⟨"attn", 0x00000200, 0xfc0007ff, 0x20000800, 0x840000000, []⟩,
   ⟨"tdlgti", 0x08200000, 0xffe00000, 0x88, 0x800000000, [74, 105]⟩,
   ⟨"tdllti", 0x08400000, 0xffe00000, 0x88, 0x800000000, [74, 105]⟩,
   ⟨"tdeqi", 0x08800000, 0xffe00000, 0x88, 0x800000000, [74, 105]⟩,
   ⟨"tdlgei", 0x08a00000, 0xffe00000, 0x88, 0x800000000, [74, 105]⟩,
   ⟨"tdlnli", 0x08a00000, 0xffe00000, 0x88, 0x800000000, [74, 105]⟩,
   ⟨"tdllei", 0x08c00000, 0xffe00000, 0x88, 0x800000000, [74, 105]⟩,
   ⟨"tdlngi", 0x08c00000, 0xffe00000, 0x88, 0x800000000, [74, 105]⟩,
   ⟨"tdgti", 0x09000000, 0xffe00000, 0x88, 0x800000000, [74, 105]⟩,
   ⟨"tdgei", 0x09800000, 0xffe00000, 0x88, 0x800000000, [74, 105]⟩,
   ⟨"tdnli", 0x09800000, 0xffe00000, 0x88, 0x800000000, [74, 105]⟩,
   ⟨"tdlti", 0x0a000000, 0xffe00000, 0x88, 0x800000000, [74, 105]⟩,
   ⟨"tdlei", 0x0a800000, 0xffe00000, 0x88, 0x800000000, [74, 105]⟩,
   ⟨"tdngi", 0x0a800000, 0xffe00000, 0x88, 0x800000000, [74, 105]⟩,
   ⟨"tdnei", 0x0b000000, 0xffe00000, 0x88, 0x800000000, [74, 105]⟩,
   ⟨"tdui", 0x0be00000, 0xffe00000, 0x88, 0x800000000, [74, 105]⟩,
   ⟨"tdi", 0x08000000, 0xfc000000, 0x88, 0x800000000, [117, 74, 105]⟩,
   ⟨"twlgti", 0x0c200000, 0xffe00000, 0x21, 0x800000000, [74, 105]⟩,
   ⟨"tlgti", 0x0c200000, 0xffe00000, 0x32, 0x800000000, [74, 105]⟩,
   ⟨"twllti", 0x0c400000, 0xffe00000, 0x21, 0x800000000, [74, 105]⟩,
   ⟨"tllti", 0x0c400000, 0xffe00000, 0x32, 0x800000000, [74, 105]⟩,
   ⟨"tweqi", 0x0c800000, 0xffe00000, 0x21, 0x800000000, [74, 105]⟩,
   ⟨"teqi", 0x0c800000, 0xffe00000, 0x32, 0x800000000, [74, 105]⟩,
   ⟨"twlgei", 0x0ca00000, 0xffe00000, 0x21, 0x800000000, [74, 105]⟩,
   ⟨"tlgei", 0x0ca00000, 0xffe00000, 0x32, 0x800000000, [74, 105]⟩,
   ⟨"twlnli", 0x0ca00000, 0xffe00000, 0x21, 0x800000000, [74, 105]⟩,
   ⟨"tlnli", 0x0ca00000, 0xffe00000, 0x32, 0x800000000, [74, 105]⟩,
   ⟨"twllei", 0x0cc00000, 0xffe00000, 0x21, 0x800000000, [74, 105]⟩,
   ⟨"tllei", 0x0cc00000, 0xffe00000, 0x32, 0x800000000, [74, 105]⟩,
   ⟨"twlngi", 0x0cc00000, 0xffe00000, 0x21, 0x800000000, [74, 105]⟩,
   ⟨"tlngi", 0x0cc00000, 0xffe00000, 0x32, 0x800000000, [74, 105]⟩,
   ⟨"twgti", 0x0d000000, 0xffe00000, 0x21, 0x800000000, [74, 105]⟩,
   ⟨"tgti", 0x0d000000, 0xffe00000, 0x32, 0x800000000, [74, 105]⟩,
   ⟨"twgei", 0x0d800000, 0xffe00000, 0x21, 0x800000000, [74, 105]⟩,
   ⟨"tgei", 0x0d800000, 0xffe00000, 0x32, 0x800000000, [74, 105]⟩,
   ⟨"twnli", 0x0d800000, 0xffe00000, 0x21, 0x800000000, [74, 105]⟩,
   ⟨"tnli", 0x0d800000, 0xffe00000, 0x32, 0x800000000, [74, 105]⟩,
   ⟨"twlti", 0x0e000000, 0xffe00000, 0x21, 0x800000000, [74, 105]⟩,
   ⟨"tlti", 0x0e000000, 0xffe00000, 0x32, 0x800000000, [74, 105]⟩,
   ⟨"twlei", 0x0e800000, 0xffe00000, 0x21, 0x800000000, [74, 105]⟩,
   ⟨"tlei", 0x0e800000, 0xffe00000, 0x32, 0x800000000, [74, 105]⟩,
   ⟨"twngi", 0x0e800000, 0xffe00000, 0x21, 0x800000000, [74, 105]⟩,
   ⟨"tngi", 0x0e800000, 0xffe00000, 0x32, 0x800000000, [74, 105]⟩,
   ⟨"twnei", 0x0f000000, 0xffe00000, 0x21, 0x800000000, [74, 105]⟩,
   ⟨"tnei", 0x0f000000, 0xffe00000, 0x32, 0x800000000, [74, 105]⟩,
   ⟨"twui", 0x0fe00000, 0xffe00000, 0x21, 0x800000000, [74, 105]⟩,
   ⟨"tui", 0x0fe00000, 0xffe00000, 0x32, 0x800000000, [74, 105]⟩,
   ⟨"twi", 0x0c000000, 0xfc000000, 0x21, 0x800000000, [117, 74, 105]⟩,
   ⟨"ti", 0x0c000000, 0xfc000000, 0x32, 0x800000000, [117, 74, 105]⟩,
   ⟨"ps_cmpu0", 0x10000000, 0xfc6007ff, 0x1000000, 0x0, [13, 47, 49]⟩,
   ⟨"vaddubm", 0x10000000, 0xfc0007ff, 0x100, 0x0, [126, 123, 124]⟩,
   ⟨"vmul10cuq", 0x10000001, 0xfc00ffff, 0x10000000000, 0x0, [126, 123]⟩,
   ⟨"vmaxub", 0x10000002, 0xfc0007ff, 0x100, 0x0, [126, 123, 124]⟩,
   ⟨"vrlb", 0x10000004, 0xfc0007ff, 0x100, 0x0, [126, 123, 124]⟩,
   ⟨"vcmpequb", 0x10000006, 0xfc0007ff, 0x100, 0x0, [126, 123, 124]⟩,
   ⟨"vcmpneb", 0x10000007, 0xfc0007ff, 0x10000000000, 0x0, [126, 123, 124]⟩,
   ⟨"vmuloub", 0x10000008, 0xfc0007ff, 0x100, 0x0, [126, 123, 124]⟩,
   ⟨"vaddfp", 0x1000000a, 0xfc0007ff, 0x100, 0x0, [126, 123, 124]⟩,
   ⟨"psq_lx", 0x1000000c, 0xfc00007e, 0x1000000, 0x0, [52, 74, 81, 143, 145]⟩,
   ⟨"vmrghb", 0x1000000c, 0xfc0007ff, 0x100, 0x0, [126, 123, 124]⟩,
   ⟨"psq_stx", 0x1000000e, 0xfc00007e, 0x1000000, 0x0, [52, 74, 81, 143, 145]⟩,
   ⟨"vpkuhum", 0x1000000e, 0xfc0007ff, 0x100, 0x0, [126, 123, 124]⟩,
   ⟨"mulhhwu", 0x10000010, 0xfc0007ff, 0xc4080000, 0x0, [86, 74, 81]⟩,
   ⟨"mulhhwu.", 0x10000011, 0xfc0007ff, 0xc4080000, 0x0, [86, 74, 81]⟩,
   ⟨"ps_sum0", 0x10000014, 0xfc00003f, 0x1000000, 0x0, [52, 47, 51, 49]⟩,
   ⟨"ps_sum0.", 0x10000015, 0xfc00003f, 0x1000000, 0x0, [52, 47, 51, 49]⟩,
   ⟨"ps_sum1", 0x10000016, 0xfc00003f, 0x1000000, 0x0, [52, 47, 51, 49]⟩,
   ⟨"ps_sum1.", 0x10000017, 0xfc00003f, 0x1000000, 0x0, [52, 47, 51, 49]⟩,
   ⟨"ps_muls0", 0x10000018, 0xfc00f83f, 0x1000000, 0x0, [52, 47, 51]⟩,
   ⟨"machhwu", 0x10000018, 0xfc0007ff, 0xc4080000, 0x0, [86, 74, 81]⟩,
   ⟨"ps_muls0.", 0x10000019, 0xfc00f83f, 0x1000000, 0x0, [52, 47, 51]⟩,
   ⟨"machhwu.", 0x10000019, 0xfc0007ff, 0xc4080000, 0x0, [86, 74, 81]⟩,
   ⟨"ps_muls1", 0x1000001a, 0xfc00f83f, 0x1000000, 0x0, [52, 47, 51]⟩,
   ⟨"ps_muls1.", 0x1000001b, 0xfc00f83f, 0x1000000, 0x0, [52, 47, 51]⟩,
   ⟨"ps_madds0", 0x1000001c, 0xfc00003f, 0x1000000, 0x0, [52, 47, 51, 49]⟩,
   ⟨"ps_madds0.", 0x1000001d, 0xfc00003f, 0x1000000, 0x0, [52, 47, 51, 49]⟩,
   ⟨"ps_madds1", 0x1000001e, 0xfc00003f, 0x1000000, 0x0, [52, 47, 51, 49]⟩,
   ⟨"ps_madds1.", 0x1000001f, 0xfc00003f, 0x1000000, 0x0, [52, 47, 51, 49]⟩,
   ⟨"vmhaddshs", 0x10000020, 0xfc00003f, 0x100, 0x0, [126, 123, 124, 125]⟩,
   ⟨"vmhraddshs", 0x10000021, 0xfc00003f, 0x100, 0x0, [126, 123, 124, 125]⟩,
   ⟨"vmladduhm", 0x10000022, 0xfc00003f, 0x100, 0x0, [126, 123, 124, 125]⟩,
   ⟨"vmsumudm", 0x10000023, 0xfc00003f, 0x10000000000, 0x0, [126, 123, 124, 125]⟩,
   ⟨"ps_div", 0x10000024, 0xfc0007ff, 0x1000000, 0x0, [52, 47, 49]⟩,
   ⟨"vmsumubm", 0x10000024, 0xfc00003f, 0x100, 0x0, [126, 123, 124, 125]⟩,
   ⟨"ps_div.", 0x10000025, 0xfc0007ff, 0x1000000, 0x0, [52, 47, 49]⟩,
   ⟨"vmsummbm", 0x10000025, 0xfc00003f, 0x100, 0x0, [126, 123, 124, 125]⟩,
   ⟨"vmsumuhm", 0x10000026, 0xfc00003f, 0x100, 0x0, [126, 123, 124, 125]⟩,
   ⟨"vmsumuhs", 0x10000027, 0xfc00003f, 0x100, 0x0, [126, 123, 124, 125]⟩,
   ⟨"ps_sub", 0x10000028, 0xfc0007ff, 0x1000000, 0x0, [52, 47, 49]⟩,
   ⟨"vmsumshm", 0x10000028, 0xfc00003f, 0x100, 0x0, [126, 123, 124, 125]⟩,
   ⟨"ps_sub.", 0x10000029, 0xfc0007ff, 0x1000000, 0x0, [52, 47, 49]⟩,
   ⟨"vmsumshs", 0x10000029, 0xfc00003f, 0x100, 0x0, [126, 123, 124, 125]⟩,
   ⟨"ps_add", 0x1000002a, 0xfc0007ff, 0x1000000, 0x0, [52, 47, 49]⟩,
   ⟨"vsel", 0x1000002a, 0xfc00003f, 0x100, 0x0, [126, 123, 124, 125]⟩,
   ⟨"ps_add.", 0x1000002b, 0xfc0007ff, 0x1000000, 0x0, [52, 47, 49]⟩,
   ⟨"vperm", 0x1000002b, 0xfc00003f, 0x100, 0x0, [126, 123, 124, 125]⟩,
   ⟨"vsldoi", 0x1000002c, 0xfc00043f, 0x100, 0x0, [126, 123, 124, 133]⟩,
   ⟨"vpermxor", 0x1000002d, 0xfc00003f, 0x1200000000, 0x0, [126, 123, 124, 125]⟩,
   ⟨"ps_sel", 0x1000002e, 0xfc00003f, 0x1000000, 0x0, [52, 47, 51, 49]⟩,
   ⟨"vmaddfp", 0x1000002e, 0xfc00003f, 0x100, 0x0, [126, 123, 125, 124]⟩]

/-- ppc-opc.c:3635-3734. -/
def main1 : List Opcode :=
  [⟨"ps_sel.", 0x1000002f, 0xfc00003f, 0x1000000, 0x0, [52, 47, 51, 49]⟩,
   ⟨"vnmsubfp", 0x1000002f, 0xfc00003f, 0x100, 0x0, [126, 123, 125, 124]⟩,
   ⟨"ps_res", 0x10000030, 0xfc1f07ff, 0x1000000, 0x0, [52, 49]⟩,
   ⟨"maddhd", 0x10000030, 0xfc00003f, 0x10000000000, 0x0, [86, 74, 81, 85]⟩,
   ⟨"ps_res.", 0x10000031, 0xfc1f07ff, 0x1000000, 0x0, [52, 49]⟩,
   ⟨"maddhdu", 0x10000031, 0xfc00003f, 0x10000000000, 0x0, [86, 74, 81, 85]⟩,
   ⟨"ps_mul", 0x10000032, 0xfc00f83f, 0x1000000, 0x0, [52, 47, 51]⟩,
   ⟨"ps_mul.", 0x10000033, 0xfc00f83f, 0x1000000, 0x0, [52, 47, 51]⟩,
   ⟨"maddld", 0x10000033, 0xfc00003f, 0x10000000000, 0x0, [86, 74, 81, 85]⟩,
   ⟨"ps_rsqrte", 0x10000034, 0xfc1f07ff, 0x1000000, 0x0, [52, 49]⟩,
   ⟨"ps_rsqrte.", 0x10000035, 0xfc1f07ff, 0x1000000, 0x0, [52, 49]⟩,
   ⟨"ps_msub", 0x10000038, 0xfc00003f, 0x1000000, 0x0, [52, 47, 51, 49]⟩,
   ⟨"ps_msub.", 0x10000039, 0xfc00003f, 0x1000000, 0x0, [52, 47, 51, 49]⟩,
   ⟨"ps_madd", 0x1000003a, 0xfc00003f, 0x1000000, 0x0, [52, 47, 51, 49]⟩,
   ⟨"ps_madd.", 0x1000003b, 0xfc00003f, 0x1000000, 0x0, [52, 47, 51, 49]⟩,
   ⟨"vpermr", 0x1000003b, 0xfc00003f, 0x10000000000, 0x0, [126, 123, 124, 125]⟩,
   ⟨"ps_nmsub", 0x1000003c, 0xfc00003f, 0x1000000, 0x0, [52, 47, 51, 49]⟩,
   ⟨"vaddeuqm", 0x1000003c, 0xfc00003f, 0x1200000000, 0x0, [126, 123, 124, 125]⟩,
   ⟨"ps_nmsub.", 0x1000003d, 0xfc00003f, 0x1000000, 0x0, [52, 47, 51, 49]⟩,
   ⟨"vaddecuq", 0x1000003d, 0xfc00003f, 0x1200000000, 0x0, [126, 123, 124, 125]⟩,
   ⟨"ps_nmadd", 0x1000003e, 0xfc00003f, 0x1000000, 0x0, [52, 47, 51, 49]⟩,
   ⟨"vsubeuqm", 0x1000003e, 0xfc00003f, 0x1200000000, 0x0, [126, 123, 124, 125]⟩,
   ⟨"ps_nmadd.", 0x1000003f, 0xfc00003f, 0x1000000, 0x0, [52, 47, 51, 49]⟩,
   ⟨"vsubecuq", 0x1000003f, 0xfc00003f, 0x1200000000, 0x0, [126, 123, 124, 125]⟩,
   ⟨"ps_cmpo0", 0x10000040, 0xfc6007ff, 0x1000000, 0x0, [13, 47, 49]⟩,
   ⟨"vadduhm", 0x10000040, 0xfc0007ff, 0x100, 0x0, [126, 123, 124]⟩,
   ⟨"vmul10ecuq", 0x10000041, 0xfc0007ff, 0x10000000000, 0x0, [126, 123, 124]⟩,
   ⟨"vmaxuh", 0x10000042, 0xfc0007ff, 0x100, 0x0, [126, 123, 124]⟩,
   ⟨"vrlh", 0x10000044, 0xfc0007ff, 0x100, 0x0, [126, 123, 124]⟩,
   ⟨"vcmpequh", 0x10000046, 0xfc0007ff, 0x100, 0x0, [126, 123, 124]⟩,
   ⟨"vcmpneh", 0x10000047, 0xfc0007ff, 0x10000000000, 0x0, [126, 123, 124]⟩,
   ⟨"vmulouh", 0x10000048, 0xfc0007ff, 0x100, 0x0, [126, 123, 124]⟩,
   ⟨"vsubfp", 0x1000004a, 0xfc0007ff, 0x100, 0x0, [126, 123, 124]⟩,
   ⟨"psq_lux", 0x1000004c, 0xfc00007e, 0x1000000, 0x0, [52, 74, 81, 143, 145]⟩,
   ⟨"vmrghh", 0x1000004c, 0xfc0007ff, 0x100, 0x0, [126, 123, 124]⟩,
   ⟨"psq_stux", 0x1000004e, 0xfc00007e, 0x1000000, 0x0, [52, 74, 81, 143, 145]⟩,
   ⟨"vpkuwum", 0x1000004e, 0xfc0007ff, 0x100, 0x0, [126, 123, 124]⟩,
   ⟨"ps_neg", 0x10000050, 0xfc1f07ff, 0x1000000, 0x0, [52, 49]⟩,
   ⟨"mulhhw", 0x10000050, 0xfc0007ff, 0xc4080000, 0x0, [86, 74, 81]⟩,
   ⟨"ps_neg.", 0x10000051, 0xfc1f07ff, 0x1000000, 0x0, [52, 49]⟩,
   ⟨"mulhhw.", 0x10000051, 0xfc0007ff, 0xc4080000, 0x0, [86, 74, 81]⟩,
   ⟨"machhw", 0x10000058, 0xfc0007ff, 0xc4080000, 0x0, [86, 74, 81]⟩,
   ⟨"machhw.", 0x10000059, 0xfc0007ff, 0xc4080000, 0x0, [86, 74, 81]⟩,
   ⟨"nmachhw", 0x1000005c, 0xfc0007ff, 0xc4080000, 0x0, [86, 74, 81]⟩,
   ⟨"nmachhw.", 0x1000005d, 0xfc0007ff, 0xc4080000, 0x0, [86, 74, 81]⟩,
   ⟨"ps_cmpu1", 0x10000080, 0xfc6007ff, 0x1000000, 0x0, [13, 47, 49]⟩,
   ⟨"vadduwm", 0x10000080, 0xfc0007ff, 0x100, 0x0, [126, 123, 124]⟩,
   ⟨"vmaxuw", 0x10000082, 0xfc0007ff, 0x100, 0x0, [126, 123, 124]⟩,
   ⟨"vrlw", 0x10000084, 0xfc0007ff, 0x100, 0x0, [126, 123, 124]⟩,
   ⟨"vrlwmi", 0x10000085, 0xfc0007ff, 0x10000000000, 0x0, [126, 123, 124]⟩,
   ⟨"vcmpequw", 0x10000086, 0xfc0007ff, 0x100, 0x0, [126, 123, 124]⟩,
   ⟨"vcmpnew", 0x10000087, 0xfc0007ff, 0x10000000000, 0x0, [126, 123, 124]⟩,
   ⟨"vmulouw", 0x10000088, 0xfc0007ff, 0x1200000000, 0x0, [126, 123, 124]⟩,
   ⟨"vmuluwm", 0x10000089, 0xfc0007ff, 0x1200000000, 0x0, [126, 123, 124]⟩,
   ⟨"vmrghw", 0x1000008c, 0xfc0007ff, 0x100, 0x0, [126, 123, 124]⟩,
   ⟨"vpkuhus", 0x1000008e, 0xfc0007ff, 0x100, 0x0, [126, 123, 124]⟩,
   ⟨"ps_mr", 0x10000090, 0xfc1f07ff, 0x1000000, 0x0, [52, 49]⟩,
   ⟨"ps_mr.", 0x10000091, 0xfc1f07ff, 0x1000000, 0x0, [52, 49]⟩,
   ⟨"machhwsu", 0x10000098, 0xfc0007ff, 0xc4080000, 0x0, [86, 74, 81]⟩,
   ⟨"machhwsu.", 0x10000099, 0xfc0007ff, 0xc4080000, 0x0, [86, 74, 81]⟩,
   ⟨"ps_cmpo1", 0x100000c0, 0xfc6007ff, 0x1000000, 0x0, [13, 47, 49]⟩,
   ⟨"vaddudm", 0x100000c0, 0xfc0007ff, 0x1200000000, 0x0, [126, 123, 124]⟩,
   ⟨"vmaxud", 0x100000c2, 0xfc0007ff, 0x1200000000, 0x0, [126, 123, 124]⟩,
   ⟨"vrld", 0x100000c4, 0xfc0007ff, 0x1200000000, 0x0, [126, 123, 124]⟩,
   ⟨"vrldmi", 0x100000c5, 0xfc0007ff, 0x10000000000, 0x0, [126, 123, 124]⟩,
   ⟨"vcmpeqfp", 0x100000c6, 0xfc0007ff, 0x100, 0x0, [126, 123, 124]⟩,
   ⟨"vcmpequd", 0x100000c7, 0xfc0007ff, 0x1200000000, 0x0, [126, 123, 124]⟩,
   ⟨"vpkuwus", 0x100000ce, 0xfc0007ff, 0x100, 0x0, [126, 123, 124]⟩,
   ⟨"machhws", 0x100000d8, 0xfc0007ff, 0xc4080000, 0x0, [86, 74, 81]⟩,
   ⟨"machhws.", 0x100000d9, 0xfc0007ff, 0xc4080000, 0x0, [86, 74, 81]⟩,
   ⟨"nmachhws", 0x100000dc, 0xfc0007ff, 0xc4080000, 0x0, [86, 74, 81]⟩,
   ⟨"nmachhws.", 0x100000dd, 0xfc0007ff, 0xc4080000, 0x0, [86, 74, 81]⟩,
   ⟨"vadduqm", 0x10000100, 0xfc0007ff, 0x1200000000, 0x0, [126, 123, 124]⟩,
   ⟨"vmaxsb", 0x10000102, 0xfc0007ff, 0x100, 0x0, [126, 123, 124]⟩,
   ⟨"vslb", 0x10000104, 0xfc0007ff, 0x100, 0x0, [126, 123, 124]⟩,
   ⟨"vcmpnezb", 0x10000107, 0xfc0007ff, 0x10000000000, 0x0, [126, 123, 124]⟩,
   ⟨"vmulosb", 0x10000108, 0xfc0007ff, 0x100, 0x0, [126, 123, 124]⟩,
   ⟨"vrefp", 0x1000010a, 0xfc1f07ff, 0x100, 0x0, [126, 124]⟩,
   ⟨"vmrglb", 0x1000010c, 0xfc0007ff, 0x100, 0x0, [126, 123, 124]⟩,
   ⟨"vpkshus", 0x1000010e, 0xfc0007ff, 0x100, 0x0, [126, 123, 124]⟩,
   ⟨"ps_nabs", 0x10000110, 0xfc1f07ff, 0x1000000, 0x0, [52, 49]⟩,
   ⟨"mulchwu", 0x10000110, 0xfc0007ff, 0xc4080000, 0x0, [86, 74, 81]⟩,
   ⟨"ps_nabs.", 0x10000111, 0xfc1f07ff, 0x1000000, 0x0, [52, 49]⟩,
   ⟨"mulchwu.", 0x10000111, 0xfc0007ff, 0xc4080000, 0x0, [86, 74, 81]⟩,
   ⟨"macchwu", 0x10000118, 0xfc0007ff, 0xc4080000, 0x0, [86, 74, 81]⟩,
   ⟨"macchwu.", 0x10000119, 0xfc0007ff, 0xc4080000, 0x0, [86, 74, 81]⟩,
   ⟨"vaddcuq", 0x10000140, 0xfc0007ff, 0x1200000000, 0x0, [126, 123, 124]⟩,
   ⟨"vmaxsh", 0x10000142, 0xfc0007ff, 0x100, 0x0, [126, 123, 124]⟩,
   ⟨"vslh", 0x10000144, 0xfc0007ff, 0x100, 0x0, [126, 123, 124]⟩,
   ⟨"vcmpnezh", 0x10000147, 0xfc0007ff, 0x10000000000, 0x0, [126, 123, 124]⟩,
   ⟨"vmulosh", 0x10000148, 0xfc0007ff, 0x100, 0x0, [126, 123, 124]⟩,
   ⟨"vrsqrtefp", 0x1000014a, 0xfc1f07ff, 0x100, 0x0, [126, 124]⟩,
   ⟨"vmrglh", 0x1000014c, 0xfc0007ff, 0x100, 0x0, [126, 123, 124]⟩,
   ⟨"vpkswus", 0x1000014e, 0xfc0007ff, 0x100, 0x0, [126, 123, 124]⟩,
   ⟨"mulchw", 0x10000150, 0xfc0007ff, 0xc4080000, 0x0, [86, 74, 81]⟩,
   ⟨"mulchw.", 0x10000151, 0xfc0007ff, 0xc4080000, 0x0, [86, 74, 81]⟩,
   ⟨"macchw", 0x10000158, 0xfc0007ff, 0xc4080000, 0x0, [86, 74, 81]⟩,
   ⟨"macchw.", 0x10000159, 0xfc0007ff, 0xc4080000, 0x0, [86, 74, 81]⟩,
   ⟨"nmacchw", 0x1000015c, 0xfc0007ff, 0xc4080000, 0x0, [86, 74, 81]⟩,
   ⟨"nmacchw.", 0x1000015d, 0xfc0007ff, 0xc4080000, 0x0, [86, 74, 81]⟩]

/-- ppc-opc.c:3735-3834. -/
def main2 : List Opcode :=
  [⟨"vaddcuw", 0x10000180, 0xfc0007ff, 0x100, 0x0, [126, 123, 124]⟩,
   ⟨"vmaxsw", 0x10000182, 0xfc0007ff, 0x100, 0x0, [126, 123, 124]⟩,
   ⟨"vslw", 0x10000184, 0xfc0007ff, 0x100, 0x0, [126, 123, 124]⟩,
   ⟨"vrlwnm", 0x10000185, 0xfc0007ff, 0x10000000000, 0x0, [126, 123, 124]⟩,
   ⟨"vcmpnezw", 0x10000187, 0xfc0007ff, 0x10000000000, 0x0, [126, 123, 124]⟩,
   ⟨"vmulosw", 0x10000188, 0xfc0007ff, 0x1200000000, 0x0, [126, 123, 124]⟩,
   ⟨"vexptefp", 0x1000018a, 0xfc1f07ff, 0x100, 0x0, [126, 124]⟩,
   ⟨"vmrglw", 0x1000018c, 0xfc0007ff, 0x100, 0x0, [126, 123, 124]⟩,
   ⟨"vpkshss", 0x1000018e, 0xfc0007ff, 0x100, 0x0, [126, 123, 124]⟩,
   ⟨"macchwsu", 0x10000198, 0xfc0007ff, 0xc4080000, 0x0, [86, 74, 81]⟩,
   ⟨"macchwsu.", 0x10000199, 0xfc0007ff, 0xc4080000, 0x0, [86, 74, 81]⟩,
   ⟨"vmaxsd", 0x100001c2, 0xfc0007ff, 0x1200000000, 0x0, [126, 123, 124]⟩,
   ⟨"vsl", 0x100001c4, 0xfc0007ff, 0x100, 0x0, [126, 123, 124]⟩,
   ⟨"vrldnm", 0x100001c5, 0xfc0007ff, 0x10000000000, 0x0, [126, 123, 124]⟩,
   ⟨"vcmpgefp", 0x100001c6, 0xfc0007ff, 0x100, 0x0, [126, 123, 124]⟩,
   ⟨"vlogefp", 0x100001ca, 0xfc1f07ff, 0x100, 0x0, [126, 124]⟩,
   ⟨"vpkswss", 0x100001ce, 0xfc0007ff, 0x100, 0x0, [126, 123, 124]⟩,
   ⟨"macchws", 0x100001d8, 0xfc0007ff, 0xc4080000, 0x0, [86, 74, 81]⟩,
   ⟨"macchws.", 0x100001d9, 0xfc0007ff, 0xc4080000, 0x0, [86, 74, 81]⟩,
   ⟨"nmacchws", 0x100001dc, 0xfc0007ff, 0xc4080000, 0x0, [86, 74, 81]⟩,
   ⟨"nmacchws.", 0x100001dd, 0xfc0007ff, 0xc4080000, 0x0, [86, 74, 81]⟩,
   ⟨"evaddw", 0x10000200, 0xfc0007ff, 0x1000, 0x0, [86, 74, 81]⟩,
   ⟨"vaddubs", 0x10000200, 0xfc0007ff, 0x100, 0x0, [126, 123, 124]⟩,
   ⟨"vmul10uq", 0x10000201, 0xfc00ffff, 0x10000000000, 0x0, [126, 123]⟩,
   ⟨"evaddiw", 0x10000202, 0xfc0007ff, 0x1000, 0x0, [86, 81, 128]⟩,
   ⟨"vminub", 0x10000202, 0xfc0007ff, 0x100, 0x0, [126, 123, 124]⟩,
   ⟨"evsubfw", 0x10000204, 0xfc0007ff, 0x1000, 0x0, [86, 74, 81]⟩,
   ⟨"evsubw", 0x10000204, 0xfc0007ff, 0x1000, 0x0, [86, 81, 74]⟩,
   ⟨"vsrb", 0x10000204, 0xfc0007ff, 0x100, 0x0, [126, 123, 124]⟩,
   ⟨"evsubifw", 0x10000206, 0xfc0007ff, 0x1000, 0x0, [86, 128, 81]⟩,
   ⟨"evsubiw", 0x10000206, 0xfc0007ff, 0x1000, 0x0, [86, 81, 128]⟩,
   ⟨"vcmpgtub", 0x10000206, 0xfc0007ff, 0x100, 0x0, [126, 123, 124]⟩,
   ⟨"evabs", 0x10000208, 0xfc0007ff, 0x1000, 0x0, [86, 74]⟩,
   ⟨"vmuleub", 0x10000208, 0xfc0007ff, 0x100, 0x0, [126, 123, 124]⟩,
   ⟨"evneg", 0x10000209, 0xfc0007ff, 0x1000, 0x0, [86, 74]⟩,
   ⟨"evextsb", 0x1000020a, 0xfc0007ff, 0x1000, 0x0, [86, 74]⟩,
   ⟨"vrfin", 0x1000020a, 0xfc1f07ff, 0x100, 0x0, [126, 124]⟩,
   ⟨"evextsh", 0x1000020b, 0xfc0007ff, 0x1000, 0x0, [86, 74]⟩,
   ⟨"evrndw", 0x1000020c, 0xfc0007ff, 0x1000, 0x0, [86, 74]⟩,
   ⟨"vspltb", 0x1000020c, 0xfc1007ff, 0x100, 0x0, [126, 124, 112]⟩,
   ⟨"vextractub", 0x1000020d, 0xfc1007ff, 0x10000000000, 0x0, [126, 124, 112]⟩,
   ⟨"evcntlzw", 0x1000020d, 0xfc0007ff, 0x1000, 0x0, [86, 74]⟩,
   ⟨"evcntlsw", 0x1000020e, 0xfc0007ff, 0x1000, 0x0, [86, 74]⟩,
   ⟨"vupkhsb", 0x1000020e, 0xfc1f07ff, 0x100, 0x0, [126, 124]⟩,
   ⟨"brinc", 0x1000020f, 0xfc0007ff, 0x1000, 0x0, [86, 74, 81]⟩,
   ⟨"ps_abs", 0x10000210, 0xfc1f07ff, 0x1000000, 0x0, [52, 49]⟩,
   ⟨"ps_abs.", 0x10000211, 0xfc1f07ff, 0x1000000, 0x0, [52, 49]⟩,
   ⟨"evand", 0x10000211, 0xfc0007ff, 0x1000, 0x0, [86, 74, 81]⟩,
   ⟨"evandc", 0x10000212, 0xfc0007ff, 0x1000, 0x0, [86, 74, 81]⟩,
   ⟨"evxor", 0x10000216, 0xfc0007ff, 0x1000, 0x0, [86, 74, 81]⟩,
   ⟨"evmr", 0x10000217, 0xfc0007ff, 0x1000, 0x0, [86, 6]⟩,
   ⟨"evor", 0x10000217, 0xfc0007ff, 0x1000, 0x0, [86, 74, 81]⟩,
   ⟨"evnot", 0x10000218, 0xfc0007ff, 0x1000, 0x0, [86, 6]⟩,
   ⟨"evnor", 0x10000218, 0xfc0007ff, 0x1000, 0x0, [86, 74, 81]⟩,
   ⟨"get", 0x10000218, 0xfc1f07ff, 0x4000000, 0x0, [86, 159]⟩,
   ⟨"eveqv", 0x10000219, 0xfc0007ff, 0x1000, 0x0, [86, 74, 81]⟩,
   ⟨"evorc", 0x1000021b, 0xfc0007ff, 0x1000, 0x0, [86, 74, 81]⟩,
   ⟨"evnand", 0x1000021e, 0xfc0007ff, 0x1000, 0x0, [86, 74, 81]⟩,
   ⟨"evsrwu", 0x10000220, 0xfc0007ff, 0x1000, 0x0, [86, 74, 81]⟩,
   ⟨"evsrws", 0x10000221, 0xfc0007ff, 0x1000, 0x0, [86, 74, 81]⟩,
   ⟨"evsrwiu", 0x10000222, 0xfc0007ff, 0x1000, 0x0, [86, 74, 99]⟩,
   ⟨"evsrwis", 0x10000223, 0xfc0007ff, 0x1000, 0x0, [86, 74, 99]⟩,
   ⟨"evslw", 0x10000224, 0xfc0007ff, 0x1000, 0x0, [86, 74, 81]⟩,
   ⟨"evslwi", 0x10000226, 0xfc0007ff, 0x1000, 0x0, [86, 74, 99]⟩,
   ⟨"evrlw", 0x10000228, 0xfc0007ff, 0x1000, 0x0, [86, 74, 81]⟩,
   ⟨"evsplati", 0x10000229, 0xfc0007ff, 0x1000, 0x0, [86, 127]⟩,
   ⟨"evrlwi", 0x1000022a, 0xfc0007ff, 0x1000, 0x0, [86, 74, 99]⟩,
   ⟨"evsplatfi", 0x1000022b, 0xfc0007ff, 0x1000, 0x0, [86, 127]⟩,
   ⟨"evmergehi", 0x1000022c, 0xfc0007ff, 0x1000, 0x0, [86, 74, 81]⟩,
   ⟨"evmergelo", 0x1000022d, 0xfc0007ff, 0x1000, 0x0, [86, 74, 81]⟩,
   ⟨"evmergehilo", 0x1000022e, 0xfc0007ff, 0x1000, 0x0, [86, 74, 81]⟩,
   ⟨"evmergelohi", 0x1000022f, 0xfc0007ff, 0x1000, 0x0, [86, 74, 81]⟩,
   ⟨"evcmpgtu", 0x10000230, 0xfc0007ff, 0x1000, 0x0, [13, 74, 81]⟩,
   ⟨"evcmpgts", 0x10000231, 0xfc0007ff, 0x1000, 0x0, [13, 74, 81]⟩,
   ⟨"evcmpltu", 0x10000232, 0xfc0007ff, 0x1000, 0x0, [13, 74, 81]⟩,
   ⟨"evcmplts", 0x10000233, 0xfc0007ff, 0x1000, 0x0, [13, 74, 81]⟩,
   ⟨"evcmpeq", 0x10000234, 0xfc0007ff, 0x1000, 0x0, [13, 74, 81]⟩,
   ⟨"cget", 0x10000238, 0xfc1f07ff, 0x4000000, 0x0, [86, 159]⟩,
   ⟨"vadduhs", 0x10000240, 0xfc0007ff, 0x100, 0x0, [126, 123, 124]⟩,
   ⟨"vmul10euq", 0x10000241, 0xfc0007ff, 0x10000000000, 0x0, [126, 123, 124]⟩,
   ⟨"vminuh", 0x10000242, 0xfc0007ff, 0x100, 0x0, [126, 123, 124]⟩,
   ⟨"vsrh", 0x10000244, 0xfc0007ff, 0x100, 0x0, [126, 123, 124]⟩,
   ⟨"vcmpgtuh", 0x10000246, 0xfc0007ff, 0x100, 0x0, [126, 123, 124]⟩,
   ⟨"vmuleuh", 0x10000248, 0xfc0007ff, 0x100, 0x0, [126, 123, 124]⟩,
   ⟨"vrfiz", 0x1000024a, 0xfc1f07ff, 0x100, 0x0, [126, 124]⟩,
   ⟨"vsplth", 0x1000024c, 0xfc1807ff, 0x100, 0x0, [126, 124, 129]⟩,
   ⟨"vextractuh", 0x1000024d, 0xfc1007ff, 0x10000000000, 0x0, [126, 124, 112]⟩,
   ⟨"vupkhsh", 0x1000024e, 0xfc1f07ff, 0x100, 0x0, [126, 124]⟩,
   ⟨"nget", 0x10000258, 0xfc1f07ff, 0x4000000, 0x0, [86, 159]⟩,
   ⟨"evsel", 0x10000278, 0xfc0007f8, 0x1000, 0x0, [86, 74, 81, 31]⟩,
   ⟨"ncget", 0x10000278, 0xfc1f07ff, 0x4000000, 0x0, [86, 159]⟩,
   ⟨"evfsadd", 0x10000280, 0xfc0007ff, 0x1000, 0x0, [86, 74, 81]⟩,
   ⟨"vadduws", 0x10000280, 0xfc0007ff, 0x100, 0x0, [126, 123, 124]⟩,
   ⟨"evfssub", 0x10000281, 0xfc0007ff, 0x1000, 0x0, [86, 74, 81]⟩,
   ⟨"evfsmadd", 0x10000282, 0xfc0007ff, 0x1000, 0x0, [86, 74, 81]⟩,
   ⟨"vminuw", 0x10000282, 0xfc0007ff, 0x100, 0x0, [126, 123, 124]⟩,
   ⟨"evfsmsub", 0x10000283, 0xfc0007ff, 0x1000, 0x0, [86, 74, 81]⟩,
   ⟨"evfsabs", 0x10000284, 0xfc0007ff, 0x1000, 0x0, [86, 74]⟩,
   ⟨"vsrw", 0x10000284, 0xfc0007ff, 0x100, 0x0, [126, 123, 124]⟩,
   ⟨"evfsnabs", 0x10000285, 0xfc0007ff, 0x1000, 0x0, [86, 74]⟩]

/-- ppc-opc.c:3835-3934. -/
def main3 : List Opcode :=
  [⟨"evfsneg", 0x10000286, 0xfc0007ff, 0x1000, 0x0, [86, 74]⟩,
   ⟨"vcmpgtuw", 0x10000286, 0xfc0007ff, 0x100, 0x0, [126, 123, 124]⟩,
   ⟨"evfssqrt", 0x10000287, 0xfc00ffff, 0x200000000000, 0x0, [86, 74]⟩,
   ⟨"vmuleuw", 0x10000288, 0xfc0007ff, 0x1200000000, 0x0, [126, 123, 124]⟩,
   ⟨"evfsmul", 0x10000288, 0xfc0007ff, 0x1000, 0x0, [86, 74, 81]⟩,
   ⟨"evfsdiv", 0x10000289, 0xfc0007ff, 0x1000, 0x0, [86, 74, 81]⟩,
   ⟨"evfsnmadd", 0x1000028a, 0xfc0007ff, 0x1000, 0x0, [86, 74, 81]⟩,
   ⟨"vrfip", 0x1000028a, 0xfc1f07ff, 0x100, 0x0, [126, 124]⟩,
   ⟨"evfsnmsub", 0x1000028b, 0xfc0007ff, 0x1000, 0x0, [86, 74, 81]⟩,
   ⟨"evfscmpgt", 0x1000028c, 0xfc0007ff, 0x1000, 0x0, [13, 74, 81]⟩,
   ⟨"vspltw", 0x1000028c, 0xfc1c07ff, 0x100, 0x0, [126, 124, 176]⟩,
   ⟨"vextractuw", 0x1000028d, 0xfc1007ff, 0x10000000000, 0x0, [126, 124, 112]⟩,
   ⟨"evfscmplt", 0x1000028d, 0xfc0007ff, 0x1000, 0x0, [13, 74, 81]⟩,
   ⟨"evfscmpeq", 0x1000028e, 0xfc0007ff, 0x1000, 0x0, [13, 74, 81]⟩,
   ⟨"vupklsb", 0x1000028e, 0xfc1f07ff, 0x100, 0x0, [126, 124]⟩,
   ⟨"evfscfui", 0x10000290, 0xfc0007ff, 0x1000, 0x0, [86, 81]⟩,
   ⟨"evfscfh", 0x10040291, 0xfc1f07ff, 0x200000000000, 0x0, [86, 81]⟩,
   ⟨"evfscfsi", 0x10000291, 0xfc0007ff, 0x1000, 0x0, [86, 81]⟩,
   ⟨"evfscfuf", 0x10000292, 0xfc0007ff, 0x1000, 0x0, [86, 81]⟩,
   ⟨"evfscfsf", 0x10000293, 0xfc0007ff, 0x1000, 0x0, [86, 81]⟩,
   ⟨"evfsctui", 0x10000294, 0xfc0007ff, 0x1000, 0x0, [86, 81]⟩,
   ⟨"evfscth", 0x10040295, 0xfc1f07ff, 0x200000000000, 0x0, [86, 81]⟩,
   ⟨"evfsctsi", 0x10000295, 0xfc0007ff, 0x1000, 0x0, [86, 81]⟩,
   ⟨"evfsctuf", 0x10000296, 0xfc0007ff, 0x1000, 0x0, [86, 81]⟩,
   ⟨"evfsctsf", 0x10000297, 0xfc0007ff, 0x1000, 0x0, [86, 81]⟩,
   ⟨"evfsctuiz", 0x10000298, 0xfc0007ff, 0x1000, 0x0, [86, 81]⟩,
   ⟨"put", 0x10000298, 0xffe007ff, 0x4000000, 0x0, [74, 159]⟩,
   ⟨"evfsctsiz", 0x1000029a, 0xfc0007ff, 0x1000, 0x0, [86, 81]⟩,
   ⟨"evfststgt", 0x1000029c, 0xfc0007ff, 0x1000, 0x0, [13, 74, 81]⟩,
   ⟨"evfststlt", 0x1000029d, 0xfc0007ff, 0x1000, 0x0, [13, 74, 81]⟩,
   ⟨"evfststeq", 0x1000029e, 0xfc0007ff, 0x1000, 0x0, [13, 74, 81]⟩,
   ⟨"evfsmax", 0x100002a0, 0xfc0007ff, 0x200000000000, 0x0, [86, 74, 81]⟩,
   ⟨"evfsmin", 0x100002a1, 0xfc0007ff, 0x200000000000, 0x0, [86, 74, 81]⟩,
   ⟨"evfsaddsub", 0x100002a2, 0xfc0007ff, 0x200000000000, 0x0, [86, 74, 81]⟩,
   ⟨"evfssubadd", 0x100002a3, 0xfc0007ff, 0x200000000000, 0x0, [86, 74, 81]⟩,
   ⟨"evfssum", 0x100002a4, 0xfc0007ff, 0x200000000000, 0x0, [86, 74, 81]⟩,
   ⟨"evfsdiff", 0x100002a5, 0xfc0007ff, 0x200000000000, 0x0, [86, 74, 81]⟩,
   ⟨"evfssumdiff", 0x100002a6, 0xfc0007ff, 0x200000000000, 0x0, [86, 74, 81]⟩,
   ⟨"evfsdiffsum", 0x100002a7, 0xfc0007ff, 0x200000000000, 0x0, [86, 74, 81]⟩,
   ⟨"evfsaddx", 0x100002a8, 0xfc0007ff, 0x200000000000, 0x0, [86, 74, 81]⟩,
   ⟨"evfssubx", 0x100002a9, 0xfc0007ff, 0x200000000000, 0x0, [86, 74, 81]⟩,
   ⟨"evfsaddsubx", 0x100002aa, 0xfc0007ff, 0x200000000000, 0x0, [86, 74, 81]⟩,
   ⟨"evfssubaddx", 0x100002ab, 0xfc0007ff, 0x200000000000, 0x0, [86, 74, 81]⟩,
   ⟨"evfsmulx", 0x100002ac, 0xfc0007ff, 0x200000000000, 0x0, [86, 74, 81]⟩,
   ⟨"evfsmule", 0x100002ae, 0xfc0007ff, 0x200000000000, 0x0, [86, 74, 81]⟩,
   ⟨"evfsmulo", 0x100002af, 0xfc0007ff, 0x200000000000, 0x0, [86, 74, 81]⟩,
   ⟨"efsmax", 0x100002b0, 0xfc0007ff, 0x200000000000, 0x0, [86, 74, 81]⟩,
   ⟨"efsmin", 0x100002b1, 0xfc0007ff, 0x200000000000, 0x0, [86, 74, 81]⟩,
   ⟨"efdmax", 0x100002b8, 0xfc0007ff, 0x200000000000, 0x0, [86, 74, 81]⟩,
   ⟨"cput", 0x100002b8, 0xffe007ff, 0x4000000, 0x0, [74, 159]⟩,
   ⟨"efdmin", 0x100002b9, 0xfc0007ff, 0x200000000000, 0x0, [86, 74, 81]⟩,
   ⟨"efsadd", 0x100002c0, 0xfc0007ff, 0x4000, 0x0, [86, 74, 81]⟩,
   ⟨"efssub", 0x100002c1, 0xfc0007ff, 0x4000, 0x0, [86, 74, 81]⟩,
   ⟨"efsmadd", 0x100002c2, 0xfc0007ff, 0x200000000000, 0x0, [86, 74, 81]⟩,
   ⟨"vminud", 0x100002c2, 0xfc0007ff, 0x1200000000, 0x0, [126, 123, 124]⟩,
   ⟨"efsmsub", 0x100002c3, 0xfc0007ff, 0x200000000000, 0x0, [86, 74, 81]⟩,
   ⟨"efsabs", 0x100002c4, 0xfc0007ff, 0x4000, 0x0, [86, 74]⟩,
   ⟨"vsr", 0x100002c4, 0xfc0007ff, 0x100, 0x0, [126, 123, 124]⟩,
   ⟨"efsnabs", 0x100002c5, 0xfc0007ff, 0x4000, 0x0, [86, 74]⟩,
   ⟨"efsneg", 0x100002c6, 0xfc0007ff, 0x4000, 0x0, [86, 74]⟩,
   ⟨"vcmpgtfp", 0x100002c6, 0xfc0007ff, 0x100, 0x0, [126, 123, 124]⟩,
   ⟨"efssqrt", 0x100002c7, 0xfc00ffff, 0x200000000000, 0x0, [86, 74]⟩,
   ⟨"vcmpgtud", 0x100002c7, 0xfc0007ff, 0x1200000000, 0x0, [126, 123, 124]⟩,
   ⟨"efsmul", 0x100002c8, 0xfc0007ff, 0x4000, 0x0, [86, 74, 81]⟩,
   ⟨"efsdiv", 0x100002c9, 0xfc0007ff, 0x4000, 0x0, [86, 74, 81]⟩,
   ⟨"efsnmadd", 0x100002ca, 0xfc0007ff, 0x200000000000, 0x0, [86, 74, 81]⟩,
   ⟨"vrfim", 0x100002ca, 0xfc1f07ff, 0x100, 0x0, [126, 124]⟩,
   ⟨"efsnmsub", 0x100002cb, 0xfc0007ff, 0x200000000000, 0x0, [86, 74, 81]⟩,
   ⟨"efscmpgt", 0x100002cc, 0xfc0007ff, 0x4000, 0x0, [13, 74, 81]⟩,
   ⟨"vextractd", 0x100002cd, 0xfc1007ff, 0x10000000000, 0x0, [126, 124, 112]⟩,
   ⟨"efscmplt", 0x100002cd, 0xfc0007ff, 0x4000, 0x0, [13, 74, 81]⟩,
   ⟨"efscmpeq", 0x100002ce, 0xfc0007ff, 0x4000, 0x0, [13, 74, 81]⟩,
   ⟨"vupklsh", 0x100002ce, 0xfc1f07ff, 0x100, 0x0, [126, 124]⟩,
   ⟨"efscfd", 0x100002cf, 0xfc0007ff, 0x4000, 0x0, [86, 81]⟩,
   ⟨"efscfui", 0x100002d0, 0xfc0007ff, 0x4000, 0x0, [86, 81]⟩,
   ⟨"efscfh", 0x100402d1, 0xfc1f07ff, 0x200000000000, 0x0, [86, 81]⟩,
   ⟨"efscfsi", 0x100002d1, 0xfc0007ff, 0x4000, 0x0, [86, 81]⟩,
   ⟨"efscfuf", 0x100002d2, 0xfc0007ff, 0x4000, 0x0, [86, 81]⟩,
   ⟨"efscfsf", 0x100002d3, 0xfc0007ff, 0x4000, 0x0, [86, 81]⟩,
   ⟨"efsctui", 0x100002d4, 0xfc0007ff, 0x4000, 0x0, [86, 81]⟩,
   ⟨"efscth", 0x100402d5, 0xfc1f07ff, 0x200000000000, 0x0, [86, 81]⟩,
   ⟨"efsctsi", 0x100002d5, 0xfc0007ff, 0x4000, 0x0, [86, 81]⟩,
   ⟨"efsctuf", 0x100002d6, 0xfc0007ff, 0x4000, 0x0, [86, 81]⟩,
   ⟨"efsctsf", 0x100002d7, 0xfc0007ff, 0x4000, 0x0, [86, 81]⟩,
   ⟨"efsctuiz", 0x100002d8, 0xfc0007ff, 0x4000, 0x0, [86, 81]⟩,
   ⟨"nput", 0x100002d8, 0xffe007ff, 0x4000000, 0x0, [74, 159]⟩,
   ⟨"efsctsiz", 0x100002da, 0xfc0007ff, 0x4000, 0x0, [86, 81]⟩,
   ⟨"efststgt", 0x100002dc, 0xfc0007ff, 0x4000, 0x0, [13, 74, 81]⟩,
   ⟨"efststlt", 0x100002dd, 0xfc0007ff, 0x4000, 0x0, [13, 74, 81]⟩,
   ⟨"efststeq", 0x100002de, 0xfc0007ff, 0x4000, 0x0, [13, 74, 81]⟩,
   ⟨"efdadd", 0x100002e0, 0xfc0007ff, 0x4000, 0x0, [86, 74, 81]⟩,
   ⟨"efdsub", 0x100002e1, 0xfc0007ff, 0x4000, 0x0, [86, 74, 81]⟩,
   ⟨"efdmadd", 0x100002e2, 0xfc0007ff, 0x200000000000, 0x102000000, [86, 74, 81]⟩,
   ⟨"efdcfuid", 0x100002e2, 0xfc0007ff, 0x102000000, 0x0, [86, 81]⟩,
   ⟨"efdmsub", 0x100002e3, 0xfc0007ff, 0x200000000000, 0x102000000, [86, 74, 81]⟩,
   ⟨"efdcfsid", 0x100002e3, 0xfc0007ff, 0x102000000, 0x0, [86, 81]⟩,
   ⟨"efdabs", 0x100002e4, 0xfc0007ff, 0x4000, 0x0, [86, 74]⟩,
   ⟨"efdnabs", 0x100002e5, 0xfc0007ff, 0x4000, 0x0, [86, 74]⟩,
   ⟨"efdneg", 0x100002e6, 0xfc0007ff, 0x4000, 0x0, [86, 74]⟩,
   ⟨"efdsqrt", 0x100002e7, 0xfc00ffff, 0x200000000000, 0x0, [86, 74]⟩]

/-- ppc-opc.c:3935-4034. -/
def main4 : List Opcode :=
  [⟨"efdmul", 0x100002e8, 0xfc0007ff, 0x4000, 0x0, [86, 74, 81]⟩,
   ⟨"efddiv", 0x100002e9, 0xfc0007ff, 0x4000, 0x0, [86, 74, 81]⟩,
   ⟨"efdnmadd", 0x100002ea, 0xfc0007ff, 0x200000000000, 0x102000000, [86, 74, 81]⟩,
   ⟨"efdctuidz", 0x100002ea, 0xfc0007ff, 0x102000000, 0x0, [86, 81]⟩,
   ⟨"efdnmsub", 0x100002eb, 0xfc0007ff, 0x200000000000, 0x102000000, [86, 74, 81]⟩,
   ⟨"efdctsidz", 0x100002eb, 0xfc0007ff, 0x102000000, 0x0, [86, 81]⟩,
   ⟨"efdcmpgt", 0x100002ec, 0xfc0007ff, 0x4000, 0x0, [13, 74, 81]⟩,
   ⟨"efdcmplt", 0x100002ed, 0xfc0007ff, 0x4000, 0x0, [13, 74, 81]⟩,
   ⟨"efdcmpeq", 0x100002ee, 0xfc0007ff, 0x4000, 0x0, [13, 74, 81]⟩,
   ⟨"efdcfs", 0x100002ef, 0xfc0007ff, 0x4000, 0x0, [86, 81]⟩,
   ⟨"efdcfui", 0x100002f0, 0xfc1f07ff, 0x4000, 0x0, [86, 81]⟩,
   ⟨"efdcfuid", 0x100102f0, 0xfc1f07ff, 0x4000, 0x102000000, [86, 81]⟩,
   ⟨"efdcfsi", 0x100002f1, 0xfc1f07ff, 0x4000, 0x0, [86, 81]⟩,
   ⟨"efdcfsid", 0x100102f1, 0xfc1f07ff, 0x4000, 0x102000000, [86, 81]⟩,
   ⟨"efdcfh", 0x100402f1, 0xfc1f07ff, 0x200000000000, 0x0, [86, 81]⟩,
   ⟨"efdcfuf", 0x100002f2, 0xfc0007ff, 0x4000, 0x0, [86, 81]⟩,
   ⟨"efdcfsf", 0x100002f3, 0xfc0007ff, 0x4000, 0x0, [86, 81]⟩,
   ⟨"efdctui", 0x100002f4, 0xfc0007ff, 0x4000, 0x0, [86, 81]⟩,
   ⟨"efdcth", 0x100402f5, 0xfc1f07ff, 0x200000000000, 0x0, [86, 81]⟩,
   ⟨"efdctsi", 0x100002f5, 0xfc0007ff, 0x4000, 0x0, [86, 81]⟩,
   ⟨"efdctuf", 0x100002f6, 0xfc0007ff, 0x4000, 0x0, [86, 81]⟩,
   ⟨"efdctsf", 0x100002f7, 0xfc0007ff, 0x4000, 0x0, [86, 81]⟩,
   ⟨"efdctuiz", 0x100002f8, 0xfc1f07ff, 0x4000, 0x0, [86, 81]⟩,
   ⟨"efdctuidz", 0x100102f8, 0xfc1f07ff, 0x4000, 0x102000000, [86, 81]⟩,
   ⟨"ncput", 0x100002f8, 0xffe007ff, 0x4000000, 0x0, [74, 159]⟩,
   ⟨"efdctsiz", 0x100002fa, 0xfc1f07ff, 0x4000, 0x0, [86, 81]⟩,
   ⟨"efdctsidz", 0x100102fa, 0xfc1f07ff, 0x4000, 0x102000000, [86, 81]⟩,
   ⟨"efdtstgt", 0x100002fc, 0xfc0007ff, 0x4000, 0x0, [13, 74, 81]⟩,
   ⟨"efdtstlt", 0x100002fd, 0xfc0007ff, 0x4000, 0x0, [13, 74, 81]⟩,
   ⟨"efdtsteq", 0x100002fe, 0xfc0007ff, 0x4000, 0x0, [13, 74, 81]⟩,
   ⟨"evlddx", 0x10000300, 0xfc0007ff, 0x1000, 0x0, [86, 74, 81]⟩,
   ⟨"vaddsbs", 0x10000300, 0xfc0007ff, 0x100, 0x0, [126, 123, 124]⟩,
   ⟨"evldd", 0x10000301, 0xfc0007ff, 0x1000, 0x0, [86, 140, 74]⟩,
   ⟨"evldwx", 0x10000302, 0xfc0007ff, 0x1000, 0x0, [86, 74, 81]⟩,
   ⟨"vminsb", 0x10000302, 0xfc0007ff, 0x100, 0x0, [126, 123, 124]⟩,
   ⟨"evldw", 0x10000303, 0xfc0007ff, 0x1000, 0x0, [86, 140, 74]⟩,
   ⟨"evldhx", 0x10000304, 0xfc0007ff, 0x1000, 0x0, [86, 74, 81]⟩,
   ⟨"vsrab", 0x10000304, 0xfc0007ff, 0x100, 0x0, [126, 123, 124]⟩,
   ⟨"evldh", 0x10000305, 0xfc0007ff, 0x1000, 0x0, [86, 140, 74]⟩,
   ⟨"vcmpgtsb", 0x10000306, 0xfc0007ff, 0x100, 0x0, [126, 123, 124]⟩,
   ⟨"evlhhesplatx", 0x10000308, 0xfc0007ff, 0x1000, 0x0, [86, 74, 81]⟩,
   ⟨"vmulesb", 0x10000308, 0xfc0007ff, 0x100, 0x0, [126, 123, 124]⟩,
   ⟨"evlhhesplat", 0x10000309, 0xfc0007ff, 0x1000, 0x0, [86, 136, 74]⟩,
   ⟨"vcfux", 0x1000030a, 0xfc0007ff, 0x100, 0x0, [126, 124, 128]⟩,
   ⟨"vcuxwfp", 0x1000030a, 0xfc0007ff, 0x100, 0x0, [126, 124, 128]⟩,
   ⟨"evlhhousplatx", 0x1000030c, 0xfc0007ff, 0x1000, 0x0, [86, 74, 81]⟩,
   ⟨"vspltisb", 0x1000030c, 0xfc00ffff, 0x100, 0x0, [126, 127]⟩,
   ⟨"vinsertb", 0x1000030d, 0xfc1007ff, 0x10000000000, 0x0, [126, 124, 112]⟩,
   ⟨"evlhhousplat", 0x1000030d, 0xfc0007ff, 0x1000, 0x0, [86, 136, 74]⟩,
   ⟨"evlhhossplatx", 0x1000030e, 0xfc0007ff, 0x1000, 0x0, [86, 74, 81]⟩,
   ⟨"vpkpx", 0x1000030e, 0xfc0007ff, 0x100, 0x0, [126, 123, 124]⟩,
   ⟨"evlhhossplat", 0x1000030f, 0xfc0007ff, 0x1000, 0x0, [86, 136, 74]⟩,
   ⟨"mullhwu", 0x10000310, 0xfc0007ff, 0xc4080000, 0x0, [86, 74, 81]⟩,
   ⟨"evlwhex", 0x10000310, 0xfc0007ff, 0x1000, 0x0, [86, 74, 81]⟩,
   ⟨"mullhwu.", 0x10000311, 0xfc0007ff, 0xc4080000, 0x0, [86, 74, 81]⟩,
   ⟨"evlwhe", 0x10000311, 0xfc0007ff, 0x1000, 0x0, [86, 138, 74]⟩,
   ⟨"evlwhoux", 0x10000314, 0xfc0007ff, 0x1000, 0x0, [86, 74, 81]⟩,
   ⟨"evlwhou", 0x10000315, 0xfc0007ff, 0x1000, 0x0, [86, 138, 74]⟩,
   ⟨"evlwhosx", 0x10000316, 0xfc0007ff, 0x1000, 0x0, [86, 74, 81]⟩,
   ⟨"evlwhos", 0x10000317, 0xfc0007ff, 0x1000, 0x0, [86, 138, 74]⟩,
   ⟨"maclhwu", 0x10000318, 0xfc0007ff, 0xc4080000, 0x0, [86, 74, 81]⟩,
   ⟨"evlwwsplatx", 0x10000318, 0xfc0007ff, 0x1000, 0x0, [86, 74, 81]⟩,
   ⟨"maclhwu.", 0x10000319, 0xfc0007ff, 0xc4080000, 0x0, [86, 74, 81]⟩,
   ⟨"evlwwsplat", 0x10000319, 0xfc0007ff, 0x1000, 0x0, [86, 138, 74]⟩,
   ⟨"evlwhsplatx", 0x1000031c, 0xfc0007ff, 0x1000, 0x0, [86, 74, 81]⟩,
   ⟨"evlwhsplat", 0x1000031d, 0xfc0007ff, 0x1000, 0x0, [86, 138, 74]⟩,
   ⟨"evstddx", 0x10000320, 0xfc0007ff, 0x1000, 0x0, [86, 74, 81]⟩,
   ⟨"evstdd", 0x10000321, 0xfc0007ff, 0x1000, 0x0, [86, 140, 74]⟩,
   ⟨"evstdwx", 0x10000322, 0xfc0007ff, 0x1000, 0x0, [86, 74, 81]⟩,
   ⟨"evstdw", 0x10000323, 0xfc0007ff, 0x1000, 0x0, [86, 140, 74]⟩,
   ⟨"evstdhx", 0x10000324, 0xfc0007ff, 0x1000, 0x0, [86, 74, 81]⟩,
   ⟨"evstdh", 0x10000325, 0xfc0007ff, 0x1000, 0x0, [86, 140, 74]⟩,
   ⟨"evstwhex", 0x10000330, 0xfc0007ff, 0x1000, 0x0, [86, 74, 81]⟩,
   ⟨"evstwhe", 0x10000331, 0xfc0007ff, 0x1000, 0x0, [86, 138, 74]⟩,
   ⟨"evstwhox", 0x10000334, 0xfc0007ff, 0x1000, 0x0, [86, 74, 81]⟩,
   ⟨"evstwho", 0x10000335, 0xfc0007ff, 0x1000, 0x0, [86, 138, 74]⟩,
   ⟨"evstwwex", 0x10000338, 0xfc0007ff, 0x1000, 0x0, [86, 74, 81]⟩,
   ⟨"evstwwe", 0x10000339, 0xfc0007ff, 0x1000, 0x0, [86, 138, 74]⟩,
   ⟨"evstwwox", 0x1000033c, 0xfc0007ff, 0x1000, 0x0, [86, 74, 81]⟩,
   ⟨"evstwwo", 0x1000033d, 0xfc0007ff, 0x1000, 0x0, [86, 138, 74]⟩,
   ⟨"vaddshs", 0x10000340, 0xfc0007ff, 0x100, 0x0, [126, 123, 124]⟩,
   ⟨"bcdcpsgn.", 0x10000341, 0xfc0007ff, 0x10000000000, 0x0, [126, 123, 124]⟩,
   ⟨"vminsh", 0x10000342, 0xfc0007ff, 0x100, 0x0, [126, 123, 124]⟩,
   ⟨"vsrah", 0x10000344, 0xfc0007ff, 0x100, 0x0, [126, 123, 124]⟩,
   ⟨"vcmpgtsh", 0x10000346, 0xfc0007ff, 0x100, 0x0, [126, 123, 124]⟩,
   ⟨"vmulesh", 0x10000348, 0xfc0007ff, 0x100, 0x0, [126, 123, 124]⟩,
   ⟨"vcfsx", 0x1000034a, 0xfc0007ff, 0x100, 0x0, [126, 124, 128]⟩,
   ⟨"vcsxwfp", 0x1000034a, 0xfc0007ff, 0x100, 0x0, [126, 124, 128]⟩,
   ⟨"vspltish", 0x1000034c, 0xfc00ffff, 0x100, 0x0, [126, 127]⟩,
   ⟨"vinserth", 0x1000034d, 0xfc1007ff, 0x10000000000, 0x0, [126, 124, 112]⟩,
   ⟨"vupkhpx", 0x1000034e, 0xfc1f07ff, 0x100, 0x0, [126, 124]⟩,
   ⟨"mullhw", 0x10000350, 0xfc0007ff, 0xc4080000, 0x0, [86, 74, 81]⟩,
   ⟨"mullhw.", 0x10000351, 0xfc0007ff, 0xc4080000, 0x0, [86, 74, 81]⟩,
   ⟨"maclhw", 0x10000358, 0xfc0007ff, 0xc4080000, 0x0, [86, 74, 81]⟩,
   ⟨"maclhw.", 0x10000359, 0xfc0007ff, 0xc4080000, 0x0, [86, 74, 81]⟩,
   ⟨"nmaclhw", 0x1000035c, 0xfc0007ff, 0xc4080000, 0x0, [86, 74, 81]⟩,
   ⟨"nmaclhw.", 0x1000035d, 0xfc0007ff, 0xc4080000, 0x0, [86, 74, 81]⟩,
   ⟨"vaddsws", 0x10000380, 0xfc0007ff, 0x100, 0x0, [126, 123, 124]⟩,
   ⟨"vminsw", 0x10000382, 0xfc0007ff, 0x100, 0x0, [126, 123, 124]⟩,
   ⟨"vsraw", 0x10000384, 0xfc0007ff, 0x100, 0x0, [126, 123, 124]⟩]

/-- ppc-opc.c:4035-4134. -/
def main5 : List Opcode :=
  [⟨"vcmpgtsw", 0x10000386, 0xfc0007ff, 0x100, 0x0, [126, 123, 124]⟩,
   ⟨"vmulesw", 0x10000388, 0xfc0007ff, 0x1200000000, 0x0, [126, 123, 124]⟩,
   ⟨"vctuxs", 0x1000038a, 0xfc0007ff, 0x100, 0x0, [126, 124, 128]⟩,
   ⟨"vcfpuxws", 0x1000038a, 0xfc0007ff, 0x100, 0x0, [126, 124, 128]⟩,
   ⟨"vspltisw", 0x1000038c, 0xfc00ffff, 0x100, 0x0, [126, 127]⟩,
   ⟨"vinsertw", 0x1000038d, 0xfc1007ff, 0x10000000000, 0x0, [126, 124, 112]⟩,
   ⟨"maclhwsu", 0x10000398, 0xfc0007ff, 0xc4080000, 0x0, [86, 74, 81]⟩,
   ⟨"maclhwsu.", 0x10000399, 0xfc0007ff, 0xc4080000, 0x0, [86, 74, 81]⟩,
   ⟨"vminsd", 0x100003c2, 0xfc0007ff, 0x1200000000, 0x0, [126, 123, 124]⟩,
   ⟨"vsrad", 0x100003c4, 0xfc0007ff, 0x1200000000, 0x0, [126, 123, 124]⟩,
   ⟨"vcmpbfp", 0x100003c6, 0xfc0007ff, 0x100, 0x0, [126, 123, 124]⟩,
   ⟨"vcmpgtsd", 0x100003c7, 0xfc0007ff, 0x1200000000, 0x0, [126, 123, 124]⟩,
   ⟨"vctsxs", 0x100003ca, 0xfc0007ff, 0x100, 0x0, [126, 124, 128]⟩,
   ⟨"vcfpsxws", 0x100003ca, 0xfc0007ff, 0x100, 0x0, [126, 124, 128]⟩,
   ⟨"vinsertd", 0x100003cd, 0xfc1007ff, 0x10000000000, 0x0, [126, 124, 112]⟩,
   ⟨"vupklpx", 0x100003ce, 0xfc1f07ff, 0x100, 0x0, [126, 124]⟩,
   ⟨"maclhws", 0x100003d8, 0xfc0007ff, 0xc4080000, 0x0, [86, 74, 81]⟩,
   ⟨"maclhws.", 0x100003d9, 0xfc0007ff, 0xc4080000, 0x0, [86, 74, 81]⟩,
   ⟨"nmaclhws", 0x100003dc, 0xfc0007ff, 0xc4080000, 0x0, [86, 74, 81]⟩,
   ⟨"nmaclhws.", 0x100003dd, 0xfc0007ff, 0xc4080000, 0x0, [86, 74, 81]⟩,
   ⟨"vsububm", 0x10000400, 0xfc0007ff, 0x100, 0x0, [126, 123, 124]⟩,
   ⟨"bcdadd.", 0x10000401, 0xfc0005ff, 0x1200000000, 0x0, [126, 123, 124, 132]⟩,
   ⟨"vavgub", 0x10000402, 0xfc0007ff, 0x100, 0x0, [126, 123, 124]⟩,
   ⟨"vabsdub", 0x10000403, 0xfc0007ff, 0x1200000000, 0x0, [126, 123, 124]⟩,
   ⟨"evmhessf", 0x10000403, 0xfc0007ff, 0x1000, 0x0, [86, 74, 81]⟩,
   ⟨"vand", 0x10000404, 0xfc0007ff, 0x100, 0x0, [126, 123, 124]⟩,
   ⟨"vcmpequb.", 0x10000406, 0xfc0007ff, 0x100, 0x0, [126, 123, 124]⟩,
   ⟨"vcmpneb.", 0x10000407, 0xfc0007ff, 0x10000000000, 0x0, [126, 123, 124]⟩,
   ⟨"udi0fcm.", 0x10000406, 0xfc0007ff, 0x4080000, 0x0, [160, 161, 162]⟩,
   ⟨"udi0fcm", 0x10000407, 0xfc0007ff, 0x4080000, 0x0, [160, 161, 162]⟩,
   ⟨"evmhossf", 0x10000407, 0xfc0007ff, 0x1000, 0x0, [86, 74, 81]⟩,
   ⟨"vpmsumb", 0x10000408, 0xfc0007ff, 0x1200000000, 0x0, [126, 123, 124]⟩,
   ⟨"evmheumi", 0x10000408, 0xfc0007ff, 0x1000, 0x0, [86, 74, 81]⟩,
   ⟨"evmhesmi", 0x10000409, 0xfc0007ff, 0x1000, 0x0, [86, 74, 81]⟩,
   ⟨"vmaxfp", 0x1000040a, 0xfc0007ff, 0x100, 0x0, [126, 123, 124]⟩,
   ⟨"evmhesmf", 0x1000040b, 0xfc0007ff, 0x1000, 0x0, [86, 74, 81]⟩,
   ⟨"evmhoumi", 0x1000040c, 0xfc0007ff, 0x1000, 0x0, [86, 74, 81]⟩,
   ⟨"vslo", 0x1000040c, 0xfc0007ff, 0x100, 0x0, [126, 123, 124]⟩,
   ⟨"evmhosmi", 0x1000040d, 0xfc0007ff, 0x1000, 0x0, [86, 74, 81]⟩,
   ⟨"evmhosmf", 0x1000040f, 0xfc0007ff, 0x1000, 0x0, [86, 74, 81]⟩,
   ⟨"machhwuo", 0x10000418, 0xfc0007ff, 0xc4080000, 0x0, [86, 74, 81]⟩,
   ⟨"machhwuo.", 0x10000419, 0xfc0007ff, 0xc4080000, 0x0, [86, 74, 81]⟩,
   ⟨"ps_merge00", 0x10000420, 0xfc0007ff, 0x1000000, 0x0, [52, 47, 49]⟩,
   ⟨"ps_merge00.", 0x10000421, 0xfc0007ff, 0x1000000, 0x0, [52, 47, 49]⟩,
   ⟨"evmhessfa", 0x10000423, 0xfc0007ff, 0x1000, 0x0, [86, 74, 81]⟩,
   ⟨"evmhossfa", 0x10000427, 0xfc0007ff, 0x1000, 0x0, [86, 74, 81]⟩,
   ⟨"evmheumia", 0x10000428, 0xfc0007ff, 0x1000, 0x0, [86, 74, 81]⟩,
   ⟨"evmhesmia", 0x10000429, 0xfc0007ff, 0x1000, 0x0, [86, 74, 81]⟩,
   ⟨"evmhesmfa", 0x1000042b, 0xfc0007ff, 0x1000, 0x0, [86, 74, 81]⟩,
   ⟨"evmhoumia", 0x1000042c, 0xfc0007ff, 0x1000, 0x0, [86, 74, 81]⟩,
   ⟨"evmhosmia", 0x1000042d, 0xfc0007ff, 0x1000, 0x0, [86, 74, 81]⟩,
   ⟨"evmhosmfa", 0x1000042f, 0xfc0007ff, 0x1000, 0x0, [86, 74, 81]⟩,
   ⟨"vsubuhm", 0x10000440, 0xfc0007ff, 0x100, 0x0, [126, 123, 124]⟩,
   ⟨"bcdsub.", 0x10000441, 0xfc0005ff, 0x1200000000, 0x0, [126, 123, 124, 132]⟩,
   ⟨"vavguh", 0x10000442, 0xfc0007ff, 0x100, 0x0, [126, 123, 124]⟩,
   ⟨"evmwlssf", 0x10000443, 0xfc0007ff, 0x1000, 0x0, [86, 74, 81]⟩,
   ⟨"vabsduh", 0x10000443, 0xfc0007ff, 0x1200000000, 0x0, [126, 123, 124]⟩,
   ⟨"vandc", 0x10000444, 0xfc0007ff, 0x100, 0x0, [126, 123, 124]⟩,
   ⟨"vcmpequh.", 0x10000446, 0xfc0007ff, 0x100, 0x0, [126, 123, 124]⟩,
   ⟨"udi1fcm.", 0x10000446, 0xfc0007ff, 0x4080000, 0x0, [160, 161, 162]⟩,
   ⟨"udi1fcm", 0x10000447, 0xfc0007ff, 0x4080000, 0x0, [160, 161, 162]⟩,
   ⟨"vcmpneh.", 0x10000447, 0xfc0007ff, 0x10000000000, 0x0, [126, 123, 124]⟩,
   ⟨"evmwhssf", 0x10000447, 0xfc0007ff, 0x1000, 0x0, [86, 74, 81]⟩,
   ⟨"vpmsumh", 0x10000448, 0xfc0007ff, 0x1200000000, 0x0, [126, 123, 124]⟩,
   ⟨"evmwlumi", 0x10000448, 0xfc0007ff, 0x1000, 0x0, [86, 74, 81]⟩,
   ⟨"vminfp", 0x1000044a, 0xfc0007ff, 0x100, 0x0, [126, 123, 124]⟩,
   ⟨"evmwlsmf", 0x1000044b, 0xfc0007ff, 0x1000, 0x0, [86, 74, 81]⟩,
   ⟨"evmwhumi", 0x1000044c, 0xfc0007ff, 0x1000, 0x0, [86, 74, 81]⟩,
   ⟨"vsro", 0x1000044c, 0xfc0007ff, 0x100, 0x0, [126, 123, 124]⟩,
   ⟨"evmwhsmi", 0x1000044d, 0xfc0007ff, 0x1000, 0x0, [86, 74, 81]⟩,
   ⟨"vpkudum", 0x1000044e, 0xfc0007ff, 0x1200000000, 0x0, [126, 123, 124]⟩,
   ⟨"evmwhsmf", 0x1000044f, 0xfc0007ff, 0x1000, 0x0, [86, 74, 81]⟩,
   ⟨"evmwssf", 0x10000453, 0xfc0007ff, 0x1000, 0x0, [86, 74, 81]⟩,
   ⟨"machhwo", 0x10000458, 0xfc0007ff, 0xc4080000, 0x0, [86, 74, 81]⟩,
   ⟨"evmwumi", 0x10000458, 0xfc0007ff, 0x1000, 0x0, [86, 74, 81]⟩,
   ⟨"machhwo.", 0x10000459, 0xfc0007ff, 0xc4080000, 0x0, [86, 74, 81]⟩,
   ⟨"evmwsmi", 0x10000459, 0xfc0007ff, 0x1000, 0x0, [86, 74, 81]⟩,
   ⟨"evmwsmf", 0x1000045b, 0xfc0007ff, 0x1000, 0x0, [86, 74, 81]⟩,
   ⟨"nmachhwo", 0x1000045c, 0xfc0007ff, 0xc4080000, 0x0, [86, 74, 81]⟩,
   ⟨"nmachhwo.", 0x1000045d, 0xfc0007ff, 0xc4080000, 0x0, [86, 74, 81]⟩,
   ⟨"ps_merge01", 0x10000460, 0xfc0007ff, 0x1000000, 0x0, [52, 47, 49]⟩,
   ⟨"ps_merge01.", 0x10000461, 0xfc0007ff, 0x1000000, 0x0, [52, 47, 49]⟩,
   ⟨"evmwlssfa", 0x10000463, 0xfc0007ff, 0x1000, 0x0, [86, 74, 81]⟩,
   ⟨"evmwhssfa", 0x10000467, 0xfc0007ff, 0x1000, 0x0, [86, 74, 81]⟩,
   ⟨"evmwlumia", 0x10000468, 0xfc0007ff, 0x1000, 0x0, [86, 74, 81]⟩,
   ⟨"evmwlsmfa", 0x1000046b, 0xfc0007ff, 0x1000, 0x0, [86, 74, 81]⟩,
   ⟨"evmwhumia", 0x1000046c, 0xfc0007ff, 0x1000, 0x0, [86, 74, 81]⟩,
   ⟨"evmwhsmia", 0x1000046d, 0xfc0007ff, 0x1000, 0x0, [86, 74, 81]⟩,
   ⟨"evmwhsmfa", 0x1000046f, 0xfc0007ff, 0x1000, 0x0, [86, 74, 81]⟩,
   ⟨"evmwssfa", 0x10000473, 0xfc0007ff, 0x1000, 0x0, [86, 74, 81]⟩,
   ⟨"evmwumia", 0x10000478, 0xfc0007ff, 0x1000, 0x0, [86, 74, 81]⟩,
   ⟨"evmwsmia", 0x10000479, 0xfc0007ff, 0x1000, 0x0, [86, 74, 81]⟩,
   ⟨"evmwsmfa", 0x1000047b, 0xfc0007ff, 0x1000, 0x0, [86, 74, 81]⟩,
   ⟨"vsubuwm", 0x10000480, 0xfc0007ff, 0x100, 0x0, [126, 123, 124]⟩,
   ⟨"bcdus.", 0x10000481, 0xfc0007ff, 0x10000000000, 0x0, [126, 123, 124]⟩,
   ⟨"vavguw", 0x10000482, 0xfc0007ff, 0x100, 0x0, [126, 123, 124]⟩,
   ⟨"vabsduw", 0x10000483, 0xfc0007ff, 0x1200000000, 0x0, [126, 123, 124]⟩,
   ⟨"vmr", 0x10000484, 0xfc0007ff, 0x100, 0x0, [126, 5]⟩,
   ⟨"vor", 0x10000484, 0xfc0007ff, 0x100, 0x0, [126, 123, 124]⟩,
   ⟨"vcmpnew.", 0x10000487, 0xfc0007ff, 0x10000000000, 0x0, [126, 123, 124]⟩]

/-- ppc-opc.c:4135-4234. -/
def main6 : List Opcode :=
  [⟨"vpmsumw", 0x10000488, 0xfc0007ff, 0x1200000000, 0x0, [126, 123, 124]⟩,
   ⟨"vcmpequw.", 0x10000486, 0xfc0007ff, 0x100, 0x0, [126, 123, 124]⟩,
   ⟨"udi2fcm.", 0x10000486, 0xfc0007ff, 0x4080000, 0x0, [160, 161, 162]⟩,
   ⟨"udi2fcm", 0x10000487, 0xfc0007ff, 0x4080000, 0x0, [160, 161, 162]⟩,
   ⟨"machhwsuo", 0x10000498, 0xfc0007ff, 0xc4080000, 0x0, [86, 74, 81]⟩,
   ⟨"machhwsuo.", 0x10000499, 0xfc0007ff, 0xc4080000, 0x0, [86, 74, 81]⟩,
   ⟨"ps_merge10", 0x100004a0, 0xfc0007ff, 0x1000000, 0x0, [52, 47, 49]⟩,
   ⟨"ps_merge10.", 0x100004a1, 0xfc0007ff, 0x1000000, 0x0, [52, 47, 49]⟩,
   ⟨"vsubudm", 0x100004c0, 0xfc0007ff, 0x1200000000, 0x0, [126, 123, 124]⟩,
   ⟨"evaddusiaaw", 0x100004c0, 0xfc0007ff, 0x1000, 0x0, [86, 74]⟩,
   ⟨"bcds.", 0x100004c1, 0xfc0005ff, 0x10000000000, 0x0, [126, 123, 124, 132]⟩,
   ⟨"evaddssiaaw", 0x100004c1, 0xfc0007ff, 0x1000, 0x0, [86, 74]⟩,
   ⟨"evsubfusiaaw", 0x100004c2, 0xfc0007ff, 0x1000, 0x0, [86, 74]⟩,
   ⟨"evsubfssiaaw", 0x100004c3, 0xfc0007ff, 0x1000, 0x0, [86, 74]⟩,
   ⟨"evmra", 0x100004c4, 0xfc0007ff, 0x1000, 0x0, [86, 74]⟩,
   ⟨"vxor", 0x100004c4, 0xfc0007ff, 0x100, 0x0, [126, 123, 124]⟩,
   ⟨"evdivws", 0x100004c6, 0xfc0007ff, 0x1000, 0x0, [86, 74, 81]⟩,
   ⟨"vcmpeqfp.", 0x100004c6, 0xfc0007ff, 0x100, 0x0, [126, 123, 124]⟩,
   ⟨"udi3fcm.", 0x100004c6, 0xfc0007ff, 0x4080000, 0x0, [160, 161, 162]⟩,
   ⟨"vcmpequd.", 0x100004c7, 0xfc0007ff, 0x1200000000, 0x0, [126, 123, 124]⟩,
   ⟨"udi3fcm", 0x100004c7, 0xfc0007ff, 0x4080000, 0x0, [160, 161, 162]⟩,
   ⟨"evdivwu", 0x100004c7, 0xfc0007ff, 0x1000, 0x0, [86, 74, 81]⟩,
   ⟨"vpmsumd", 0x100004c8, 0xfc0007ff, 0x1200000000, 0x0, [126, 123, 124]⟩,
   ⟨"evaddumiaaw", 0x100004c8, 0xfc0007ff, 0x1000, 0x0, [86, 74]⟩,
   ⟨"evaddsmiaaw", 0x100004c9, 0xfc0007ff, 0x1000, 0x0, [86, 74]⟩,
   ⟨"evsubfumiaaw", 0x100004ca, 0xfc0007ff, 0x1000, 0x0, [86, 74]⟩,
   ⟨"evsubfsmiaaw", 0x100004cb, 0xfc0007ff, 0x1000, 0x0, [86, 74]⟩,
   ⟨"vpkudus", 0x100004ce, 0xfc0007ff, 0x1200000000, 0x0, [126, 123, 124]⟩,
   ⟨"machhwso", 0x100004d8, 0xfc0007ff, 0xc4080000, 0x0, [86, 74, 81]⟩,
   ⟨"machhwso.", 0x100004d9, 0xfc0007ff, 0xc4080000, 0x0, [86, 74, 81]⟩,
   ⟨"nmachhwso", 0x100004dc, 0xfc0007ff, 0xc4080000, 0x0, [86, 74, 81]⟩,
   ⟨"nmachhwso.", 0x100004dd, 0xfc0007ff, 0xc4080000, 0x0, [86, 74, 81]⟩,
   ⟨"ps_merge11", 0x100004e0, 0xfc0007ff, 0x1000000, 0x0, [52, 47, 49]⟩,
   ⟨"ps_merge11.", 0x100004e1, 0xfc0007ff, 0x1000000, 0x0, [52, 47, 49]⟩,
   ⟨"vsubuqm", 0x10000500, 0xfc0007ff, 0x1200000000, 0x0, [126, 123, 124]⟩,
   ⟨"evmheusiaaw", 0x10000500, 0xfc0007ff, 0x1000, 0x0, [86, 74, 81]⟩,
   ⟨"bcdtrunc.", 0x10000501, 0xfc0005ff, 0x10000000000, 0x0, [126, 123, 124, 132]⟩,
   ⟨"evmhessiaaw", 0x10000501, 0xfc0007ff, 0x1000, 0x0, [86, 74, 81]⟩,
   ⟨"vavgsb", 0x10000502, 0xfc0007ff, 0x100, 0x0, [126, 123, 124]⟩,
   ⟨"evmhessfaaw", 0x10000503, 0xfc0007ff, 0x1000, 0x0, [86, 74, 81]⟩,
   ⟨"evmhousiaaw", 0x10000504, 0xfc0007ff, 0x1000, 0x0, [86, 74, 81]⟩,
   ⟨"vnot", 0x10000504, 0xfc0007ff, 0x100, 0x0, [126, 5]⟩,
   ⟨"vnor", 0x10000504, 0xfc0007ff, 0x100, 0x0, [126, 123, 124]⟩,
   ⟨"evmhossiaaw", 0x10000505, 0xfc0007ff, 0x1000, 0x0, [86, 74, 81]⟩,
   ⟨"udi4fcm.", 0x10000506, 0xfc0007ff, 0x4080000, 0x0, [160, 161, 162]⟩,
   ⟨"udi4fcm", 0x10000507, 0xfc0007ff, 0x4080000, 0x0, [160, 161, 162]⟩,
   ⟨"vcmpnezb.", 0x10000507, 0xfc0007ff, 0x10000000000, 0x0, [126, 123, 124]⟩,
   ⟨"evmhossfaaw", 0x10000507, 0xfc0007ff, 0x1000, 0x0, [86, 74, 81]⟩,
   ⟨"evmheumiaaw", 0x10000508, 0xfc0007ff, 0x1000, 0x0, [86, 74, 81]⟩,
   ⟨"vcipher", 0x10000508, 0xfc0007ff, 0x1200000000, 0x0, [126, 123, 124]⟩,
   ⟨"vcipherlast", 0x10000509, 0xfc0007ff, 0x1200000000, 0x0, [126, 123, 124]⟩,
   ⟨"evmhesmiaaw", 0x10000509, 0xfc0007ff, 0x1000, 0x0, [86, 74, 81]⟩,
   ⟨"evmhesmfaaw", 0x1000050b, 0xfc0007ff, 0x1000, 0x0, [86, 74, 81]⟩,
   ⟨"vgbbd", 0x1000050c, 0xfc1f07ff, 0x1200000000, 0x0, [126, 124]⟩,
   ⟨"evmhoumiaaw", 0x1000050c, 0xfc0007ff, 0x1000, 0x0, [86, 74, 81]⟩,
   ⟨"evmhosmiaaw", 0x1000050d, 0xfc0007ff, 0x1000, 0x0, [86, 74, 81]⟩,
   ⟨"evmhosmfaaw", 0x1000050f, 0xfc0007ff, 0x1000, 0x0, [86, 74, 81]⟩,
   ⟨"macchwuo", 0x10000518, 0xfc0007ff, 0xc4080000, 0x0, [86, 74, 81]⟩,
   ⟨"macchwuo.", 0x10000519, 0xfc0007ff, 0xc4080000, 0x0, [86, 74, 81]⟩,
   ⟨"evmhegumiaa", 0x10000528, 0xfc0007ff, 0x1000, 0x0, [86, 74, 81]⟩,
   ⟨"evmhegsmiaa", 0x10000529, 0xfc0007ff, 0x1000, 0x0, [86, 74, 81]⟩,
   ⟨"evmhegsmfaa", 0x1000052b, 0xfc0007ff, 0x1000, 0x0, [86, 74, 81]⟩,
   ⟨"evmhogumiaa", 0x1000052c, 0xfc0007ff, 0x1000, 0x0, [86, 74, 81]⟩,
   ⟨"evmhogsmiaa", 0x1000052d, 0xfc0007ff, 0x1000, 0x0, [86, 74, 81]⟩,
   ⟨"evmhogsmfaa", 0x1000052f, 0xfc0007ff, 0x1000, 0x0, [86, 74, 81]⟩,
   ⟨"vsubcuq", 0x10000540, 0xfc0007ff, 0x1200000000, 0x0, [126, 123, 124]⟩,
   ⟨"evmwlusiaaw", 0x10000540, 0xfc0007ff, 0x1000, 0x0, [86, 74, 81]⟩,
   ⟨"bcdutrunc.", 0x10000541, 0xfc0007ff, 0x10000000000, 0x0, [126, 123, 124]⟩,
   ⟨"evmwlssiaaw", 0x10000541, 0xfc0007ff, 0x1000, 0x0, [86, 74, 81]⟩,
   ⟨"vavgsh", 0x10000542, 0xfc0007ff, 0x100, 0x0, [126, 123, 124]⟩,
   ⟨"evmwlssfaaw", 0x10000543, 0xfc0007ff, 0x1000, 0x0, [86, 74, 81]⟩,
   ⟨"evmwhusiaa", 0x10000544, 0xfc0007ff, 0x1000, 0x0, [86, 74, 81]⟩,
   ⟨"vorc", 0x10000544, 0xfc0007ff, 0x1200000000, 0x0, [126, 123, 124]⟩,
   ⟨"evmwhssmaa", 0x10000545, 0xfc0007ff, 0x1000, 0x0, [86, 74, 81]⟩,
   ⟨"udi5fcm.", 0x10000546, 0xfc0007ff, 0x4080000, 0x0, [160, 161, 162]⟩,
   ⟨"udi5fcm", 0x10000547, 0xfc0007ff, 0x4080000, 0x0, [160, 161, 162]⟩,
   ⟨"vcmpnezh.", 0x10000547, 0xfc0007ff, 0x10000000000, 0x0, [126, 123, 124]⟩,
   ⟨"evmwhssfaa", 0x10000547, 0xfc0007ff, 0x1000, 0x0, [86, 74, 81]⟩,
   ⟨"vncipher", 0x10000548, 0xfc0007ff, 0x1200000000, 0x0, [126, 123, 124]⟩,
   ⟨"evmwlumiaaw", 0x10000548, 0xfc0007ff, 0x1000, 0x0, [86, 74, 81]⟩,
   ⟨"vncipherlast", 0x10000549, 0xfc0007ff, 0x1200000000, 0x0, [126, 123, 124]⟩,
   ⟨"evmwlsmiaaw", 0x10000549, 0xfc0007ff, 0x1000, 0x0, [86, 74, 81]⟩,
   ⟨"evmwlsmfaaw", 0x1000054b, 0xfc0007ff, 0x1000, 0x0, [86, 74, 81]⟩,
   ⟨"evmwhumiaa", 0x1000054c, 0xfc0007ff, 0x1000, 0x0, [86, 74, 81]⟩,
   ⟨"vbpermq", 0x1000054c, 0xfc0007ff, 0x1200000000, 0x0, [126, 123, 124]⟩,
   ⟨"evmwhsmiaa", 0x1000054d, 0xfc0007ff, 0x1000, 0x0, [86, 74, 81]⟩,
   ⟨"vpksdus", 0x1000054e, 0xfc0007ff, 0x1200000000, 0x0, [126, 123, 124]⟩,
   ⟨"evmwhsmfaa", 0x1000054f, 0xfc0007ff, 0x1000, 0x0, [86, 74, 81]⟩,
   ⟨"evmwssfaa", 0x10000553, 0xfc0007ff, 0x1000, 0x0, [86, 74, 81]⟩,
   ⟨"macchwo", 0x10000558, 0xfc0007ff, 0xc4080000, 0x0, [86, 74, 81]⟩,
   ⟨"evmwumiaa", 0x10000558, 0xfc0007ff, 0x1000, 0x0, [86, 74, 81]⟩,
   ⟨"macchwo.", 0x10000559, 0xfc0007ff, 0xc4080000, 0x0, [86, 74, 81]⟩,
   ⟨"evmwsmiaa", 0x10000559, 0xfc0007ff, 0x1000, 0x0, [86, 74, 81]⟩,
   ⟨"evmwsmfaa", 0x1000055b, 0xfc0007ff, 0x1000, 0x0, [86, 74, 81]⟩,
   ⟨"nmacchwo", 0x1000055c, 0xfc0007ff, 0xc4080000, 0x0, [86, 74, 81]⟩,
   ⟨"nmacchwo.", 0x1000055d, 0xfc0007ff, 0xc4080000, 0x0, [86, 74, 81]⟩,
   ⟨"evmwhgumiaa", 0x10000564, 0xfc0007ff, 0x1000, 0x0, [86, 74, 81]⟩,
   ⟨"evmwhgsmiaa", 0x10000565, 0xfc0007ff, 0x1000, 0x0, [86, 74, 81]⟩,
   ⟨"evmwhgssfaa", 0x10000567, 0xfc0007ff, 0x1000, 0x0, [86, 74, 81]⟩,
   ⟨"evmwhgsmfaa", 0x1000056f, 0xfc0007ff, 0x1000, 0x0, [86, 74, 81]⟩]

/-- ppc-opc.c:4235-4334. -/
def main7 : List Opcode :=
  [⟨"evmheusianw", 0x10000580, 0xfc0007ff, 0x1000, 0x0, [86, 74, 81]⟩,
   ⟨"vsubcuw", 0x10000580, 0xfc0007ff, 0x100, 0x0, [126, 123, 124]⟩,
   ⟨"evmhessianw", 0x10000581, 0xfc0007ff, 0x1000, 0x0, [86, 74, 81]⟩,
   ⟨"bcdctsq.", 0x10000581, 0xfc1f07ff, 0x10000000000, 0x0, [126, 124]⟩,
   ⟨"bcdcfsq.", 0x10020581, 0xfc1f05ff, 0x10000000000, 0x0, [126, 124, 132]⟩,
   ⟨"bcdctz.", 0x10040581, 0xfc1f05ff, 0x10000000000, 0x0, [126, 124, 132]⟩,
   ⟨"bcdctn.", 0x10050581, 0xfc1f07ff, 0x10000000000, 0x0, [126, 124]⟩,
   ⟨"bcdcfz.", 0x10060581, 0xfc1f05ff, 0x10000000000, 0x0, [126, 124, 132]⟩,
   ⟨"bcdcfn.", 0x10070581, 0xfc1f05ff, 0x10000000000, 0x0, [126, 124, 132]⟩,
   ⟨"bcdsetsgn.", 0x101f0581, 0xfc1f05ff, 0x10000000000, 0x0, [126, 124, 132]⟩,
   ⟨"vavgsw", 0x10000582, 0xfc0007ff, 0x100, 0x0, [126, 123, 124]⟩,
   ⟨"evmhessfanw", 0x10000583, 0xfc0007ff, 0x1000, 0x0, [86, 74, 81]⟩,
   ⟨"vnand", 0x10000584, 0xfc0007ff, 0x1200000000, 0x0, [126, 123, 124]⟩,
   ⟨"evmhousianw", 0x10000584, 0xfc0007ff, 0x1000, 0x0, [86, 74, 81]⟩,
   ⟨"evmhossianw", 0x10000585, 0xfc0007ff, 0x1000, 0x0, [86, 74, 81]⟩,
   ⟨"udi6fcm.", 0x10000586, 0xfc0007ff, 0x4080000, 0x0, [160, 161, 162]⟩,
   ⟨"udi6fcm", 0x10000587, 0xfc0007ff, 0x4080000, 0x0, [160, 161, 162]⟩,
   ⟨"vcmpnezw.", 0x10000587, 0xfc0007ff, 0x10000000000, 0x0, [126, 123, 124]⟩,
   ⟨"evmhossfanw", 0x10000587, 0xfc0007ff, 0x1000, 0x0, [86, 74, 81]⟩,
   ⟨"evmheumianw", 0x10000588, 0xfc0007ff, 0x1000, 0x0, [86, 74, 81]⟩,
   ⟨"evmhesmianw", 0x10000589, 0xfc0007ff, 0x1000, 0x0, [86, 74, 81]⟩,
   ⟨"evmhesmfanw", 0x1000058b, 0xfc0007ff, 0x1000, 0x0, [86, 74, 81]⟩,
   ⟨"evmhoumianw", 0x1000058c, 0xfc0007ff, 0x1000, 0x0, [86, 74, 81]⟩,
   ⟨"evmhosmianw", 0x1000058d, 0xfc0007ff, 0x1000, 0x0, [86, 74, 81]⟩,
   ⟨"evmhosmfanw", 0x1000058f, 0xfc0007ff, 0x1000, 0x0, [86, 74, 81]⟩,
   ⟨"macchwsuo", 0x10000598, 0xfc0007ff, 0xc4080000, 0x0, [86, 74, 81]⟩,
   ⟨"macchwsuo.", 0x10000599, 0xfc0007ff, 0xc4080000, 0x0, [86, 74, 81]⟩,
   ⟨"evmhegumian", 0x100005a8, 0xfc0007ff, 0x1000, 0x0, [86, 74, 81]⟩,
   ⟨"evmhegsmian", 0x100005a9, 0xfc0007ff, 0x1000, 0x0, [86, 74, 81]⟩,
   ⟨"evmhegsmfan", 0x100005ab, 0xfc0007ff, 0x1000, 0x0, [86, 74, 81]⟩,
   ⟨"evmhogumian", 0x100005ac, 0xfc0007ff, 0x1000, 0x0, [86, 74, 81]⟩,
   ⟨"evmhogsmian", 0x100005ad, 0xfc0007ff, 0x1000, 0x0, [86, 74, 81]⟩,
   ⟨"evmhogsmfan", 0x100005af, 0xfc0007ff, 0x1000, 0x0, [86, 74, 81]⟩,
   ⟨"evmwlusianw", 0x100005c0, 0xfc0007ff, 0x1000, 0x0, [86, 74, 81]⟩,
   ⟨"bcdsr.", 0x100005c1, 0xfc0005ff, 0x10000000000, 0x0, [126, 123, 124, 132]⟩,
   ⟨"evmwlssianw", 0x100005c1, 0xfc0007ff, 0x1000, 0x0, [86, 74, 81]⟩,
   ⟨"evmwlssfanw", 0x100005c3, 0xfc0007ff, 0x1000, 0x0, [86, 74, 81]⟩,
   ⟨"evmwhusian", 0x100005c4, 0xfc0007ff, 0x1000, 0x0, [86, 74, 81]⟩,
   ⟨"vsld", 0x100005c4, 0xfc0007ff, 0x1200000000, 0x0, [126, 123, 124]⟩,
   ⟨"evmwhssian", 0x100005c5, 0xfc0007ff, 0x1000, 0x0, [86, 74, 81]⟩,
   ⟨"vcmpgefp.", 0x100005c6, 0xfc0007ff, 0x100, 0x0, [126, 123, 124]⟩,
   ⟨"udi7fcm.", 0x100005c6, 0xfc0007ff, 0x4080000, 0x0, [160, 161, 162]⟩,
   ⟨"udi7fcm", 0x100005c7, 0xfc0007ff, 0x4080000, 0x0, [160, 161, 162]⟩,
   ⟨"evmwhssfan", 0x100005c7, 0xfc0007ff, 0x1000, 0x0, [86, 74, 81]⟩,
   ⟨"vsbox", 0x100005c8, 0xfc00ffff, 0x1200000000, 0x0, [126, 123]⟩,
   ⟨"evmwlumianw", 0x100005c8, 0xfc0007ff, 0x1000, 0x0, [86, 74, 81]⟩,
   ⟨"evmwlsmianw", 0x100005c9, 0xfc0007ff, 0x1000, 0x0, [86, 74, 81]⟩,
   ⟨"evmwlsmfanw", 0x100005cb, 0xfc0007ff, 0x1000, 0x0, [86, 74, 81]⟩,
   ⟨"evmwhumian", 0x100005cc, 0xfc0007ff, 0x1000, 0x0, [86, 74, 81]⟩,
   ⟨"vbpermd", 0x100005cc, 0xfc0007ff, 0x10000000000, 0x0, [126, 123, 124]⟩,
   ⟨"evmwhsmian", 0x100005cd, 0xfc0007ff, 0x1000, 0x0, [86, 74, 81]⟩,
   ⟨"vpksdss", 0x100005ce, 0xfc0007ff, 0x1200000000, 0x0, [126, 123, 124]⟩,
   ⟨"evmwhsmfan", 0x100005cf, 0xfc0007ff, 0x1000, 0x0, [86, 74, 81]⟩,
   ⟨"evmwssfan", 0x100005d3, 0xfc0007ff, 0x1000, 0x0, [86, 74, 81]⟩,
   ⟨"macchwso", 0x100005d8, 0xfc0007ff, 0xc4080000, 0x0, [86, 74, 81]⟩,
   ⟨"evmwumian", 0x100005d8, 0xfc0007ff, 0x1000, 0x0, [86, 74, 81]⟩,
   ⟨"macchwso.", 0x100005d9, 0xfc0007ff, 0xc4080000, 0x0, [86, 74, 81]⟩,
   ⟨"evmwsmian", 0x100005d9, 0xfc0007ff, 0x1000, 0x0, [86, 74, 81]⟩,
   ⟨"evmwsmfan", 0x100005db, 0xfc0007ff, 0x1000, 0x0, [86, 74, 81]⟩,
   ⟨"evmwhgumian", 0x100005e4, 0xfc0007ff, 0x1000, 0x0, [86, 74, 81]⟩,
   ⟨"evmwhgsmian", 0x100005e5, 0xfc0007ff, 0x1000, 0x0, [86, 74, 81]⟩,
   ⟨"evmwhgssfan", 0x100005e7, 0xfc0007ff, 0x1000, 0x0, [86, 74, 81]⟩,
   ⟨"evmwhgsmfan", 0x100005ef, 0xfc0007ff, 0x1000, 0x0, [86, 74, 81]⟩,
   ⟨"nmacchwso", 0x100005dc, 0xfc0007ff, 0xc4080000, 0x0, [86, 74, 81]⟩,
   ⟨"nmacchwso.", 0x100005dd, 0xfc0007ff, 0xc4080000, 0x0, [86, 74, 81]⟩,
   ⟨"vsububs", 0x10000600, 0xfc0007ff, 0x100, 0x0, [126, 123, 124]⟩,
   ⟨"vclzlsbb", 0x10000602, 0xfc1f07ff, 0x10000000000, 0x0, [86, 124]⟩,
   ⟨"vctzlsbb", 0x10010602, 0xfc1f07ff, 0x10000000000, 0x0, [86, 124]⟩,
   ⟨"vnegw", 0x10060602, 0xfc1f07ff, 0x10000000000, 0x0, [126, 124]⟩,
   ⟨"vnegd", 0x10070602, 0xfc1f07ff, 0x10000000000, 0x0, [126, 124]⟩,
   ⟨"vprtybw", 0x10080602, 0xfc1f07ff, 0x10000000000, 0x0, [126, 124]⟩,
   ⟨"vprtybd", 0x10090602, 0xfc1f07ff, 0x10000000000, 0x0, [126, 124]⟩,
   ⟨"vprtybq", 0x100a0602, 0xfc1f07ff, 0x10000000000, 0x0, [126, 124]⟩,
   ⟨"vextsb2w", 0x10100602, 0xfc1f07ff, 0x10000000000, 0x0, [126, 124]⟩,
   ⟨"vextsh2w", 0x10110602, 0xfc1f07ff, 0x10000000000, 0x0, [126, 124]⟩,
   ⟨"vextsb2d", 0x10180602, 0xfc1f07ff, 0x10000000000, 0x0, [126, 124]⟩,
   ⟨"vextsh2d", 0x10190602, 0xfc1f07ff, 0x10000000000, 0x0, [126, 124]⟩,
   ⟨"vextsw2d", 0x101a0602, 0xfc1f07ff, 0x10000000000, 0x0, [126, 124]⟩,
   ⟨"vctzb", 0x101c0602, 0xfc1f07ff, 0x10000000000, 0x0, [126, 124]⟩,
   ⟨"vctzh", 0x101d0602, 0xfc1f07ff, 0x10000000000, 0x0, [126, 124]⟩,
   ⟨"vctzw", 0x101e0602, 0xfc1f07ff, 0x10000000000, 0x0, [126, 124]⟩,
   ⟨"vctzd", 0x101f0602, 0xfc1f07ff, 0x10000000000, 0x0, [126, 124]⟩,
   ⟨"mfvscr", 0x10000604, 0xfc1fffff, 0x100, 0x0, [126]⟩,
   ⟨"vcmpgtub.", 0x10000606, 0xfc0007ff, 0x100, 0x0, [126, 123, 124]⟩,
   ⟨"udi8fcm.", 0x10000606, 0xfc0007ff, 0x80000, 0x0, [160, 161, 162]⟩,
   ⟨"udi8fcm", 0x10000607, 0xfc0007ff, 0x80000, 0x0, [160, 161, 162]⟩,
   ⟨"vsum4ubs", 0x10000608, 0xfc0007ff, 0x100, 0x0, [126, 123, 124]⟩,
   ⟨"vextublx", 0x1000060d, 0xfc0007ff, 0x10000000000, 0x0, [86, 74, 124]⟩,
   ⟨"vsubuhs", 0x10000640, 0xfc0007ff, 0x100, 0x0, [126, 123, 124]⟩,
   ⟨"mtvscr", 0x10000644, 0xffff07ff, 0x100, 0x0, [124]⟩,
   ⟨"vcmpgtuh.", 0x10000646, 0xfc0007ff, 0x100, 0x0, [126, 123, 124]⟩,
   ⟨"vsum4shs", 0x10000648, 0xfc0007ff, 0x100, 0x0, [126, 123, 124]⟩,
   ⟨"udi9fcm.", 0x10000648, 0xfc0007ff, 0x80000, 0x0, [160, 161, 162]⟩,
   ⟨"udi9fcm", 0x10000649, 0xfc0007ff, 0x80000, 0x0, [160, 161, 162]⟩,
   ⟨"vextuhlx", 0x1000064d, 0xfc0007ff, 0x10000000000, 0x0, [86, 74, 124]⟩,
   ⟨"vupkhsw", 0x1000064e, 0xfc1f07ff, 0x1200000000, 0x0, [126, 124]⟩,
   ⟨"vsubuws", 0x10000680, 0xfc0007ff, 0x100, 0x0, [126, 123, 124]⟩,
   ⟨"vshasigmaw", 0x10000682, 0xfc0007ff, 0x1200000000, 0x0, [126, 123, 43, 131]⟩,
   ⟨"veqv", 0x10000684, 0xfc0007ff, 0x1200000000, 0x0, [126, 123, 124]⟩,
   ⟨"vcmpgtuw.", 0x10000686, 0xfc0007ff, 0x100, 0x0, [126, 123, 124]⟩]

/-- ppc-opc.c:4335-4444. -/
def main8 : List Opcode :=
  [⟨"udi10fcm.", 0x10000686, 0xfc0007ff, 0x80000, 0x0, [160, 161, 162]⟩,
   ⟨"udi10fcm", 0x10000687, 0xfc0007ff, 0x80000, 0x0, [160, 161, 162]⟩,
   ⟨"vsum2sws", 0x10000688, 0xfc0007ff, 0x100, 0x0, [126, 123, 124]⟩,
   ⟨"vmrgow", 0x1000068c, 0xfc0007ff, 0x1200000000, 0x0, [126, 123, 124]⟩,
   ⟨"vextuwlx", 0x1000068d, 0xfc0007ff, 0x10000000000, 0x0, [86, 74, 124]⟩,
   ⟨"vshasigmad", 0x100006c2, 0xfc0007ff, 0x1200000000, 0x0, [126, 123, 43, 131]⟩,
   ⟨"vsrd", 0x100006c4, 0xfc0007ff, 0x1200000000, 0x0, [126, 123, 124]⟩,
   ⟨"vcmpgtfp.", 0x100006c6, 0xfc0007ff, 0x100, 0x0, [126, 123, 124]⟩,
   ⟨"udi11fcm.", 0x100006c6, 0xfc0007ff, 0x80000, 0x0, [160, 161, 162]⟩,
   ⟨"vcmpgtud.", 0x100006c7, 0xfc0007ff, 0x1200000000, 0x0, [126, 123, 124]⟩,
   ⟨"udi11fcm", 0x100006c7, 0xfc0007ff, 0x80000, 0x0, [160, 161, 162]⟩,
   ⟨"vupklsw", 0x100006ce, 0xfc1f07ff, 0x1200000000, 0x0, [126, 124]⟩,
   ⟨"vsubsbs", 0x10000700, 0xfc0007ff, 0x100, 0x0, [126, 123, 124]⟩,
   ⟨"vclzb", 0x10000702, 0xfc1f07ff, 0x1200000000, 0x0, [126, 124]⟩,
   ⟨"vpopcntb", 0x10000703, 0xfc1f07ff, 0x1200000000, 0x0, [126, 124]⟩,
   ⟨"vsrv", 0x10000704, 0xfc0007ff, 0x10000000000, 0x0, [126, 123, 124]⟩,
   ⟨"vcmpgtsb.", 0x10000706, 0xfc0007ff, 0x100, 0x0, [126, 123, 124]⟩,
   ⟨"udi12fcm.", 0x10000706, 0xfc0007ff, 0x80000, 0x0, [160, 161, 162]⟩,
   ⟨"udi12fcm", 0x10000707, 0xfc0007ff, 0x80000, 0x0, [160, 161, 162]⟩,
   ⟨"vsum4sbs", 0x10000708, 0xfc0007ff, 0x100, 0x0, [126, 123, 124]⟩,
   ⟨"vextubrx", 0x1000070d, 0xfc0007ff, 0x10000000000, 0x0, [86, 74, 124]⟩,
   ⟨"maclhwuo", 0x10000718, 0xfc0007ff, 0xc4080000, 0x0, [86, 74, 81]⟩,
   ⟨"maclhwuo.", 0x10000719, 0xfc0007ff, 0xc4080000, 0x0, [86, 74, 81]⟩,
   ⟨"vsubshs", 0x10000740, 0xfc0007ff, 0x100, 0x0, [126, 123, 124]⟩,
   ⟨"vclzh", 0x10000742, 0xfc1f07ff, 0x1200000000, 0x0, [126, 124]⟩,
   ⟨"vpopcnth", 0x10000743, 0xfc1f07ff, 0x1200000000, 0x0, [126, 124]⟩,
   ⟨"vslv", 0x10000744, 0xfc0007ff, 0x10000000000, 0x0, [126, 123, 124]⟩,
   ⟨"vcmpgtsh.", 0x10000746, 0xfc0007ff, 0x100, 0x0, [126, 123, 124]⟩,
   ⟨"vextuhrx", 0x1000074d, 0xfc0007ff, 0x10000000000, 0x0, [86, 74, 124]⟩,
   ⟨"udi13fcm.", 0x10000746, 0xfc0007ff, 0x80000, 0x0, [160, 161, 162]⟩,
   ⟨"udi13fcm", 0x10000747, 0xfc0007ff, 0x80000, 0x0, [160, 161, 162]⟩,
   ⟨"maclhwo", 0x10000758, 0xfc0007ff, 0xc4080000, 0x0, [86, 74, 81]⟩,
   ⟨"maclhwo.", 0x10000759, 0xfc0007ff, 0xc4080000, 0x0, [86, 74, 81]⟩,
   ⟨"nmaclhwo", 0x1000075c, 0xfc0007ff, 0xc4080000, 0x0, [86, 74, 81]⟩,
   ⟨"nmaclhwo.", 0x1000075d, 0xfc0007ff, 0xc4080000, 0x0, [86, 74, 81]⟩,
   ⟨"vsubsws", 0x10000780, 0xfc0007ff, 0x100, 0x0, [126, 123, 124]⟩,
   ⟨"vclzw", 0x10000782, 0xfc1f07ff, 0x1200000000, 0x0, [126, 124]⟩,
   ⟨"vpopcntw", 0x10000783, 0xfc1f07ff, 0x1200000000, 0x0, [126, 124]⟩,
   ⟨"vcmpgtsw.", 0x10000786, 0xfc0007ff, 0x100, 0x0, [126, 123, 124]⟩,
   ⟨"udi14fcm.", 0x10000786, 0xfc0007ff, 0x80000, 0x0, [160, 161, 162]⟩,
   ⟨"udi14fcm", 0x10000787, 0xfc0007ff, 0x80000, 0x0, [160, 161, 162]⟩,
   ⟨"vsumsws", 0x10000788, 0xfc0007ff, 0x100, 0x0, [126, 123, 124]⟩,
   ⟨"vmrgew", 0x1000078c, 0xfc0007ff, 0x1200000000, 0x0, [126, 123, 124]⟩,
   ⟨"vextuwrx", 0x1000078d, 0xfc0007ff, 0x10000000000, 0x0, [86, 74, 124]⟩,
   ⟨"maclhwsuo", 0x10000798, 0xfc0007ff, 0xc4080000, 0x0, [86, 74, 81]⟩,
   ⟨"maclhwsuo.", 0x10000799, 0xfc0007ff, 0xc4080000, 0x0, [86, 74, 81]⟩,
   ⟨"vclzd", 0x100007c2, 0xfc1f07ff, 0x1200000000, 0x0, [126, 124]⟩,
   ⟨"vpopcntd", 0x100007c3, 0xfc1f07ff, 0x1200000000, 0x0, [126, 124]⟩,
   ⟨"vcmpbfp.", 0x100007c6, 0xfc0007ff, 0x100, 0x0, [126, 123, 124]⟩,
   ⟨"udi15fcm.", 0x100007c6, 0xfc0007ff, 0x80000, 0x0, [160, 161, 162]⟩,
   ⟨"vcmpgtsd.", 0x100007c7, 0xfc0007ff, 0x1200000000, 0x0, [126, 123, 124]⟩,
   ⟨"udi15fcm", 0x100007c7, 0xfc0007ff, 0x80000, 0x0, [160, 161, 162]⟩,
   ⟨"maclhwso", 0x100007d8, 0xfc0007ff, 0xc4080000, 0x0, [86, 74, 81]⟩,
   ⟨"maclhwso.", 0x100007d9, 0xfc0007ff, 0xc4080000, 0x0, [86, 74, 81]⟩,
   ⟨"nmaclhwso", 0x100007dc, 0xfc0007ff, 0xc4080000, 0x0, [86, 74, 81]⟩,
   ⟨"nmaclhwso.", 0x100007dd, 0xfc0007ff, 0xc4080000, 0x0, [86, 74, 81]⟩,
   ⟨"dcbz_l", 0x100007ec, 0xffe007ff, 0x1000000, 0x0, [74, 81]⟩,
   ⟨"mulli", 0x1c000000, 0xfc000000, 0x21, 0x800000000, [86, 74, 105]⟩,
   ⟨"muli", 0x1c000000, 0xfc000000, 0x32, 0x800000000, [86, 74, 105]⟩,
   ⟨"subfic", 0x20000000, 0xfc000000, 0x21, 0x800000000, [86, 74, 105]⟩,
   ⟨"sfi", 0x20000000, 0xfc000000, 0x32, 0x800000000, [86, 74, 105]⟩,
   ⟨"dozi", 0x24000000, 0xfc000000, 0x12, 0x800000000, [86, 74, 105]⟩,
   ⟨"cmplwi", 0x28000000, 0xfc200000, 0x21, 0x800000000, [15, 74, 119]⟩,
   ⟨"cmpldi", 0x28200000, 0xfc200000, 0x88, 0x800000000, [15, 74, 119]⟩,
   ⟨"cmpli", 0x28000000, 0xfc000000, 0x1, 0x800000000, [13, 59, 74, 119]⟩,
   ⟨"cmpli", 0x28000000, 0xfc000000, 0x32, 0x800000001, [13, 74, 119]⟩,
   ⟨"cmpwi", 0x2c000000, 0xfc200000, 0x21, 0x800000000, [15, 74, 105]⟩,
   ⟨"cmpdi", 0x2c200000, 0xfc200000, 0x88, 0x800000000, [15, 74, 105]⟩,
   ⟨"cmpi", 0x2c000000, 0xfc000000, 0x1, 0x800000000, [13, 59, 74, 105]⟩,
   ⟨"cmpi", 0x2c000000, 0xfc000000, 0x32, 0x800000001, [13, 74, 105]⟩,
   ⟨"addic", 0x30000000, 0xfc000000, 0x21, 0x800000000, [86, 74, 105]⟩,
   ⟨"ai", 0x30000000, 0xfc000000, 0x32, 0x800000000, [86, 74, 105]⟩,
   ⟨"subic", 0x30000000, 0xfc000000, 0x21, 0x800000000, [86, 74, 72]⟩,
   ⟨"addic.", 0x34000000, 0xfc000000, 0x21, 0x800000000, [86, 74, 105]⟩,
   ⟨"ai.", 0x34000000, 0xfc000000, 0x32, 0x800000000, [86, 74, 105]⟩,
   ⟨"subic.", 0x34000000, 0xfc000000, 0x21, 0x800000000, [86, 74, 72]⟩,
   ⟨"li", 0x38000000, 0xfc1f0000, 0x21, 0x800000000, [86, 105]⟩,
   ⟨"lil", 0x38000000, 0xfc1f0000, 0x32, 0x800000000, [86, 105]⟩,
   ⟨"addi", 0x38000000, 0xfc000000, 0x21, 0x800000000, [86, 75, 105]⟩,
   ⟨"cal", 0x38000000, 0xfc000000, 0x32, 0x800000000, [86, 34, 75]⟩,
   ⟨"subi", 0x38000000, 0xfc000000, 0x21, 0x800000000, [86, 75, 72]⟩,
   ⟨"la", 0x38000000, 0xfc000000, 0x21, 0x800000000, [86, 34, 75]⟩,
   ⟨"lis", 0x3c000000, 0xfc1f0000, 0x21, 0x800000000, [86, 106]⟩,
   ⟨"liu", 0x3c000000, 0xfc1f0000, 0x32, 0x800000000, [86, 106]⟩,
   ⟨"addis", 0x3c000000, 0xfc000000, 0x21, 0x800000000, [86, 75, 106]⟩,
   ⟨"cau", 0x3c000000, 0xfc000000, 0x32, 0x800000000, [86, 75, 106]⟩,
   ⟨"subis", 0x3c000000, 0xfc000000, 0x21, 0x800000000, [86, 75, 73]⟩,
   ⟨"bdnz-", 0x42000000, 0xfedf0003, 0x21, 0x800000000, [9]⟩,
   ⟨"bdnz+", 0x42000000, 0xfedf0003, 0x21, 0x800000000, [11]⟩,
   ⟨"bdnz", 0x42000000, 0xfedf0003, 0x21, 0x800000000, [7]⟩,
   ⟨"bdn", 0x42000000, 0xfedf0003, 0x32, 0x800000000, [7]⟩,
   ⟨"bdnzl-", 0x42000001, 0xfedf0003, 0x21, 0x800000000, [9]⟩,
   ⟨"bdnzl+", 0x42000001, 0xfedf0003, 0x21, 0x800000000, [11]⟩,
   ⟨"bdnzl", 0x42000001, 0xfedf0003, 0x21, 0x800000000, [7]⟩,
   ⟨"bdnl", 0x42000001, 0xfedf0003, 0x32, 0x800000000, [7]⟩,
   ⟨"bdnza-", 0x42000002, 0xfedf0003, 0x21, 0x800000000, [10]⟩,
   ⟨"bdnza+", 0x42000002, 0xfedf0003, 0x21, 0x800000000, [12]⟩,
   ⟨"bdnza", 0x42000002, 0xfedf0003, 0x21, 0x800000000, [8]⟩,
   ⟨"bdna", 0x42000002, 0xfedf0003, 0x32, 0x800000000, [8]⟩,
   ⟨"bdnzla-", 0x42000003, 0xfedf0003, 0x21, 0x800000000, [10]⟩]

/-- ppc-opc.c:4445-4546. -/
def main9 : List Opcode :=
  [⟨"bdnzla+", 0x42000003, 0xfedf0003, 0x21, 0x800000000, [12]⟩,
   ⟨"bdnzla", 0x42000003, 0xfedf0003, 0x21, 0x800000000, [8]⟩,
   ⟨"bdnla", 0x42000003, 0xfedf0003, 0x32, 0x800000000, [8]⟩,
   ⟨"bdz-", 0x42400000, 0xfedf0003, 0x21, 0x800000000, [9]⟩,
   ⟨"bdz+", 0x42400000, 0xfedf0003, 0x21, 0x800000000, [11]⟩,
   ⟨"bdz", 0x42400000, 0xfedf0003, 0x23, 0x800000000, [7]⟩,
   ⟨"bdzl-", 0x42400001, 0xfedf0003, 0x21, 0x800000000, [9]⟩,
   ⟨"bdzl+", 0x42400001, 0xfedf0003, 0x21, 0x800000000, [11]⟩,
   ⟨"bdzl", 0x42400001, 0xfedf0003, 0x23, 0x800000000, [7]⟩,
   ⟨"bdza-", 0x42400002, 0xfedf0003, 0x21, 0x800000000, [10]⟩,
   ⟨"bdza+", 0x42400002, 0xfedf0003, 0x21, 0x800000000, [12]⟩,
   ⟨"bdza", 0x42400002, 0xfedf0003, 0x23, 0x800000000, [8]⟩,
   ⟨"bdzla-", 0x42400003, 0xfedf0003, 0x21, 0x800000000, [10]⟩,
   ⟨"bdzla+", 0x42400003, 0xfedf0003, 0x21, 0x800000000, [12]⟩,
   ⟨"bdzla", 0x42400003, 0xfedf0003, 0x23, 0x800000000, [8]⟩,
   ⟨"bge-", 0x40800000, 0xff830003, 0x21, 0x800000000, [28, 9]⟩,
   ⟨"bge+", 0x40800000, 0xff830003, 0x21, 0x800000000, [28, 11]⟩,
   ⟨"bge", 0x40800000, 0xff830003, 0x23, 0x800000000, [28, 7]⟩,
   ⟨"bnl-", 0x40800000, 0xff830003, 0x21, 0x800000000, [28, 9]⟩,
   ⟨"bnl+", 0x40800000, 0xff830003, 0x21, 0x800000000, [28, 11]⟩,
   ⟨"bnl", 0x40800000, 0xff830003, 0x23, 0x800000000, [28, 7]⟩,
   ⟨"bgel-", 0x40800001, 0xff830003, 0x21, 0x800000000, [28, 9]⟩,
   ⟨"bgel+", 0x40800001, 0xff830003, 0x21, 0x800000000, [28, 11]⟩,
   ⟨"bgel", 0x40800001, 0xff830003, 0x23, 0x800000000, [28, 7]⟩,
   ⟨"bnll-", 0x40800001, 0xff830003, 0x21, 0x800000000, [28, 9]⟩,
   ⟨"bnll+", 0x40800001, 0xff830003, 0x21, 0x800000000, [28, 11]⟩,
   ⟨"bnll", 0x40800001, 0xff830003, 0x23, 0x800000000, [28, 7]⟩,
   ⟨"bgea-", 0x40800002, 0xff830003, 0x21, 0x800000000, [28, 10]⟩,
   ⟨"bgea+", 0x40800002, 0xff830003, 0x21, 0x800000000, [28, 12]⟩,
   ⟨"bgea", 0x40800002, 0xff830003, 0x23, 0x800000000, [28, 8]⟩,
   ⟨"bnla-", 0x40800002, 0xff830003, 0x21, 0x800000000, [28, 10]⟩,
   ⟨"bnla+", 0x40800002, 0xff830003, 0x21, 0x800000000, [28, 12]⟩,
   ⟨"bnla", 0x40800002, 0xff830003, 0x23, 0x800000000, [28, 8]⟩,
   ⟨"bgela-", 0x40800003, 0xff830003, 0x21, 0x800000000, [28, 10]⟩,
   ⟨"bgela+", 0x40800003, 0xff830003, 0x21, 0x800000000, [28, 12]⟩,
   ⟨"bgela", 0x40800003, 0xff830003, 0x23, 0x800000000, [28, 8]⟩,
   ⟨"bnlla-", 0x40800003, 0xff830003, 0x21, 0x800000000, [28, 10]⟩,
   ⟨"bnlla+", 0x40800003, 0xff830003, 0x21, 0x800000000, [28, 12]⟩,
   ⟨"bnlla", 0x40800003, 0xff830003, 0x23, 0x800000000, [28, 8]⟩,
   ⟨"ble-", 0x40810000, 0xff830003, 0x21, 0x800000000, [28, 9]⟩,
   ⟨"ble+", 0x40810000, 0xff830003, 0x21, 0x800000000, [28, 11]⟩,
   ⟨"ble", 0x40810000, 0xff830003, 0x23, 0x800000000, [28, 7]⟩,
   ⟨"bng-", 0x40810000, 0xff830003, 0x21, 0x800000000, [28, 9]⟩,
   ⟨"bng+", 0x40810000, 0xff830003, 0x21, 0x800000000, [28, 11]⟩,
   ⟨"bng", 0x40810000, 0xff830003, 0x23, 0x800000000, [28, 7]⟩,
   ⟨"blel-", 0x40810001, 0xff830003, 0x21, 0x800000000, [28, 9]⟩,
   ⟨"blel+", 0x40810001, 0xff830003, 0x21, 0x800000000, [28, 11]⟩,
   ⟨"blel", 0x40810001, 0xff830003, 0x23, 0x800000000, [28, 7]⟩,
   ⟨"bngl-", 0x40810001, 0xff830003, 0x21, 0x800000000, [28, 9]⟩,
   ⟨"bngl+", 0x40810001, 0xff830003, 0x21, 0x800000000, [28, 11]⟩,
   ⟨"bngl", 0x40810001, 0xff830003, 0x23, 0x800000000, [28, 7]⟩,
   ⟨"blea-", 0x40810002, 0xff830003, 0x21, 0x800000000, [28, 10]⟩,
   ⟨"blea+", 0x40810002, 0xff830003, 0x21, 0x800000000, [28, 12]⟩,
   ⟨"blea", 0x40810002, 0xff830003, 0x23, 0x800000000, [28, 8]⟩,
   ⟨"bnga-", 0x40810002, 0xff830003, 0x21, 0x800000000, [28, 10]⟩,
   ⟨"bnga+", 0x40810002, 0xff830003, 0x21, 0x800000000, [28, 12]⟩,
   ⟨"bnga", 0x40810002, 0xff830003, 0x23, 0x800000000, [28, 8]⟩,
   ⟨"blela-", 0x40810003, 0xff830003, 0x21, 0x800000000, [28, 10]⟩,
   ⟨"blela+", 0x40810003, 0xff830003, 0x21, 0x800000000, [28, 12]⟩,
   ⟨"blela", 0x40810003, 0xff830003, 0x23, 0x800000000, [28, 8]⟩,
   ⟨"bngla-", 0x40810003, 0xff830003, 0x21, 0x800000000, [28, 10]⟩,
   ⟨"bngla+", 0x40810003, 0xff830003, 0x21, 0x800000000, [28, 12]⟩,
   ⟨"bngla", 0x40810003, 0xff830003, 0x23, 0x800000000, [28, 8]⟩,
   ⟨"bne-", 0x40820000, 0xff830003, 0x21, 0x800000000, [28, 9]⟩,
   ⟨"bne+", 0x40820000, 0xff830003, 0x21, 0x800000000, [28, 11]⟩,
   ⟨"bne", 0x40820000, 0xff830003, 0x23, 0x800000000, [28, 7]⟩,
   ⟨"bnel-", 0x40820001, 0xff830003, 0x21, 0x800000000, [28, 9]⟩,
   ⟨"bnel+", 0x40820001, 0xff830003, 0x21, 0x800000000, [28, 11]⟩,
   ⟨"bnel", 0x40820001, 0xff830003, 0x23, 0x800000000, [28, 7]⟩,
   ⟨"bnea-", 0x40820002, 0xff830003, 0x21, 0x800000000, [28, 10]⟩,
   ⟨"bnea+", 0x40820002, 0xff830003, 0x21, 0x800000000, [28, 12]⟩,
   ⟨"bnea", 0x40820002, 0xff830003, 0x23, 0x800000000, [28, 8]⟩,
   ⟨"bnela-", 0x40820003, 0xff830003, 0x21, 0x800000000, [28, 10]⟩,
   ⟨"bnela+", 0x40820003, 0xff830003, 0x21, 0x800000000, [28, 12]⟩,
   ⟨"bnela", 0x40820003, 0xff830003, 0x23, 0x800000000, [28, 8]⟩,
   ⟨"bns-", 0x40830000, 0xff830003, 0x21, 0x800000000, [28, 9]⟩,
   ⟨"bns+", 0x40830000, 0xff830003, 0x21, 0x800000000, [28, 11]⟩,
   ⟨"bns", 0x40830000, 0xff830003, 0x23, 0x800000000, [28, 7]⟩,
   ⟨"bnu-", 0x40830000, 0xff830003, 0x21, 0x800000000, [28, 9]⟩,
   ⟨"bnu+", 0x40830000, 0xff830003, 0x21, 0x800000000, [28, 11]⟩,
   ⟨"bnu", 0x40830000, 0xff830003, 0x21, 0x800000000, [28, 7]⟩,
   ⟨"bnsl-", 0x40830001, 0xff830003, 0x21, 0x800000000, [28, 9]⟩,
   ⟨"bnsl+", 0x40830001, 0xff830003, 0x21, 0x800000000, [28, 11]⟩,
   ⟨"bnsl", 0x40830001, 0xff830003, 0x23, 0x800000000, [28, 7]⟩,
   ⟨"bnul-", 0x40830001, 0xff830003, 0x21, 0x800000000, [28, 9]⟩,
   ⟨"bnul+", 0x40830001, 0xff830003, 0x21, 0x800000000, [28, 11]⟩,
   ⟨"bnul", 0x40830001, 0xff830003, 0x21, 0x800000000, [28, 7]⟩,
   ⟨"bnsa-", 0x40830002, 0xff830003, 0x21, 0x800000000, [28, 10]⟩,
   ⟨"bnsa+", 0x40830002, 0xff830003, 0x21, 0x800000000, [28, 12]⟩,
   ⟨"bnsa", 0x40830002, 0xff830003, 0x23, 0x800000000, [28, 8]⟩,
   ⟨"bnua-", 0x40830002, 0xff830003, 0x21, 0x800000000, [28, 10]⟩,
   ⟨"bnua+", 0x40830002, 0xff830003, 0x21, 0x800000000, [28, 12]⟩,
   ⟨"bnua", 0x40830002, 0xff830003, 0x21, 0x800000000, [28, 8]⟩,
   ⟨"bnsla-", 0x40830003, 0xff830003, 0x21, 0x800000000, [28, 10]⟩,
   ⟨"bnsla+", 0x40830003, 0xff830003, 0x21, 0x800000000, [28, 12]⟩,
   ⟨"bnsla", 0x40830003, 0xff830003, 0x23, 0x800000000, [28, 8]⟩,
   ⟨"bnula-", 0x40830003, 0xff830003, 0x21, 0x800000000, [28, 10]⟩,
   ⟨"bnula+", 0x40830003, 0xff830003, 0x21, 0x800000000, [28, 12]⟩,
   ⟨"bnula", 0x40830003, 0xff830003, 0x21, 0x800000000, [28, 8]⟩,
   ⟨"blt-", 0x41800000, 0xff830003, 0x21, 0x800000000, [28, 9]⟩]

/-- ppc-opc.c:4547-4649. -/
def main10 : List Opcode :=
  [⟨"blt+", 0x41800000, 0xff830003, 0x21, 0x800000000, [28, 11]⟩,
   ⟨"blt", 0x41800000, 0xff830003, 0x23, 0x800000000, [28, 7]⟩,
   ⟨"bltl-", 0x41800001, 0xff830003, 0x21, 0x800000000, [28, 9]⟩,
   ⟨"bltl+", 0x41800001, 0xff830003, 0x21, 0x800000000, [28, 11]⟩,
   ⟨"bltl", 0x41800001, 0xff830003, 0x23, 0x800000000, [28, 7]⟩,
   ⟨"blta-", 0x41800002, 0xff830003, 0x21, 0x800000000, [28, 10]⟩,
   ⟨"blta+", 0x41800002, 0xff830003, 0x21, 0x800000000, [28, 12]⟩,
   ⟨"blta", 0x41800002, 0xff830003, 0x23, 0x800000000, [28, 8]⟩,
   ⟨"bltla-", 0x41800003, 0xff830003, 0x21, 0x800000000, [28, 10]⟩,
   ⟨"bltla+", 0x41800003, 0xff830003, 0x21, 0x800000000, [28, 12]⟩,
   ⟨"bltla", 0x41800003, 0xff830003, 0x23, 0x800000000, [28, 8]⟩,
   ⟨"bgt-", 0x41810000, 0xff830003, 0x21, 0x800000000, [28, 9]⟩,
   ⟨"bgt+", 0x41810000, 0xff830003, 0x21, 0x800000000, [28, 11]⟩,
   ⟨"bgt", 0x41810000, 0xff830003, 0x23, 0x800000000, [28, 7]⟩,
   ⟨"bgtl-", 0x41810001, 0xff830003, 0x21, 0x800000000, [28, 9]⟩,
   ⟨"bgtl+", 0x41810001, 0xff830003, 0x21, 0x800000000, [28, 11]⟩,
   ⟨"bgtl", 0x41810001, 0xff830003, 0x23, 0x800000000, [28, 7]⟩,
   ⟨"bgta-", 0x41810002, 0xff830003, 0x21, 0x800000000, [28, 10]⟩,
   ⟨"bgta+", 0x41810002, 0xff830003, 0x21, 0x800000000, [28, 12]⟩,
   ⟨"bgta", 0x41810002, 0xff830003, 0x23, 0x800000000, [28, 8]⟩,
   ⟨"bgtla-", 0x41810003, 0xff830003, 0x21, 0x800000000, [28, 10]⟩,
   ⟨"bgtla+", 0x41810003, 0xff830003, 0x21, 0x800000000, [28, 12]⟩,
   ⟨"bgtla", 0x41810003, 0xff830003, 0x23, 0x800000000, [28, 8]⟩,
   ⟨"beq-", 0x41820000, 0xff830003, 0x21, 0x800000000, [28, 9]⟩,
   ⟨"beq+", 0x41820000, 0xff830003, 0x21, 0x800000000, [28, 11]⟩,
   ⟨"beq", 0x41820000, 0xff830003, 0x23, 0x800000000, [28, 7]⟩,
   ⟨"beql-", 0x41820001, 0xff830003, 0x21, 0x800000000, [28, 9]⟩,
   ⟨"beql+", 0x41820001, 0xff830003, 0x21, 0x800000000, [28, 11]⟩,
   ⟨"beql", 0x41820001, 0xff830003, 0x23, 0x800000000, [28, 7]⟩,
   ⟨"beqa-", 0x41820002, 0xff830003, 0x21, 0x800000000, [28, 10]⟩,
   ⟨"beqa+", 0x41820002, 0xff830003, 0x21, 0x800000000, [28, 12]⟩,
   ⟨"beqa", 0x41820002, 0xff830003, 0x23, 0x800000000, [28, 8]⟩,
   ⟨"beqla-", 0x41820003, 0xff830003, 0x21, 0x800000000, [28, 10]⟩,
   ⟨"beqla+", 0x41820003, 0xff830003, 0x21, 0x800000000, [28, 12]⟩,
   ⟨"beqla", 0x41820003, 0xff830003, 0x23, 0x800000000, [28, 8]⟩,
   ⟨"bso-", 0x41830000, 0xff830003, 0x21, 0x800000000, [28, 9]⟩,
   ⟨"bso+", 0x41830000, 0xff830003, 0x21, 0x800000000, [28, 11]⟩,
   ⟨"bso", 0x41830000, 0xff830003, 0x23, 0x800000000, [28, 7]⟩,
   ⟨"bun-", 0x41830000, 0xff830003, 0x21, 0x800000000, [28, 9]⟩,
   ⟨"bun+", 0x41830000, 0xff830003, 0x21, 0x800000000, [28, 11]⟩,
   ⟨"bun", 0x41830000, 0xff830003, 0x21, 0x800000000, [28, 7]⟩,
   ⟨"bsol-", 0x41830001, 0xff830003, 0x21, 0x800000000, [28, 9]⟩,
   ⟨"bsol+", 0x41830001, 0xff830003, 0x21, 0x800000000, [28, 11]⟩,
   ⟨"bsol", 0x41830001, 0xff830003, 0x23, 0x800000000, [28, 7]⟩,
   ⟨"bunl-", 0x41830001, 0xff830003, 0x21, 0x800000000, [28, 9]⟩,
   ⟨"bunl+", 0x41830001, 0xff830003, 0x21, 0x800000000, [28, 11]⟩,
   ⟨"bunl", 0x41830001, 0xff830003, 0x21, 0x800000000, [28, 7]⟩,
   ⟨"bsoa-", 0x41830002, 0xff830003, 0x21, 0x800000000, [28, 10]⟩,
   ⟨"bsoa+", 0x41830002, 0xff830003, 0x21, 0x800000000, [28, 12]⟩,
   ⟨"bsoa", 0x41830002, 0xff830003, 0x23, 0x800000000, [28, 8]⟩,
   ⟨"buna-", 0x41830002, 0xff830003, 0x21, 0x800000000, [28, 10]⟩,
   ⟨"buna+", 0x41830002, 0xff830003, 0x21, 0x800000000, [28, 12]⟩,
   ⟨"buna", 0x41830002, 0xff830003, 0x21, 0x800000000, [28, 8]⟩,
   ⟨"bsola-", 0x41830003, 0xff830003, 0x21, 0x800000000, [28, 10]⟩,
   ⟨"bsola+", 0x41830003, 0xff830003, 0x21, 0x800000000, [28, 12]⟩,
   ⟨"bsola", 0x41830003, 0xff830003, 0x23, 0x800000000, [28, 8]⟩,
   ⟨"bunla-", 0x41830003, 0xff830003, 0x21, 0x800000000, [28, 10]⟩,
   ⟨"bunla+", 0x41830003, 0xff830003, 0x21, 0x800000000, [28, 12]⟩,
   ⟨"bunla", 0x41830003, 0xff830003, 0x21, 0x800000000, [28, 8]⟩,
   ⟨"bdnzf-", 0x40000000, 0xffc00003, 0x21, 0x882000800, [1, 9]⟩,
   ⟨"bdnzf+", 0x40000000, 0xffc00003, 0x21, 0x882000800, [1, 11]⟩,
   ⟨"bdnzf", 0x40000000, 0xffc00003, 0x21, 0x800000000, [1, 7]⟩,
   ⟨"bdnzfl-", 0x40000001, 0xffc00003, 0x21, 0x882000800, [1, 9]⟩,
   ⟨"bdnzfl+", 0x40000001, 0xffc00003, 0x21, 0x882000800, [1, 11]⟩,
   ⟨"bdnzfl", 0x40000001, 0xffc00003, 0x21, 0x800000000, [1, 7]⟩,
   ⟨"bdnzfa-", 0x40000002, 0xffc00003, 0x21, 0x882000800, [1, 10]⟩,
   ⟨"bdnzfa+", 0x40000002, 0xffc00003, 0x21, 0x882000800, [1, 12]⟩,
   ⟨"bdnzfa", 0x40000002, 0xffc00003, 0x21, 0x800000000, [1, 8]⟩,
   ⟨"bdnzfla-", 0x40000003, 0xffc00003, 0x21, 0x882000800, [1, 10]⟩,
   ⟨"bdnzfla+", 0x40000003, 0xffc00003, 0x21, 0x882000800, [1, 12]⟩,
   ⟨"bdnzfla", 0x40000003, 0xffc00003, 0x21, 0x800000000, [1, 8]⟩,
   ⟨"bdzf-", 0x40400000, 0xffc00003, 0x21, 0x882000800, [1, 9]⟩,
   ⟨"bdzf+", 0x40400000, 0xffc00003, 0x21, 0x882000800, [1, 11]⟩,
   ⟨"bdzf", 0x40400000, 0xffc00003, 0x21, 0x800000000, [1, 7]⟩,
   ⟨"bdzfl-", 0x40400001, 0xffc00003, 0x21, 0x882000800, [1, 9]⟩,
   ⟨"bdzfl+", 0x40400001, 0xffc00003, 0x21, 0x882000800, [1, 11]⟩,
   ⟨"bdzfl", 0x40400001, 0xffc00003, 0x21, 0x800000000, [1, 7]⟩,
   ⟨"bdzfa-", 0x40400002, 0xffc00003, 0x21, 0x882000800, [1, 10]⟩,
   ⟨"bdzfa+", 0x40400002, 0xffc00003, 0x21, 0x882000800, [1, 12]⟩,
   ⟨"bdzfa", 0x40400002, 0xffc00003, 0x21, 0x800000000, [1, 8]⟩,
   ⟨"bdzfla-", 0x40400003, 0xffc00003, 0x21, 0x882000800, [1, 10]⟩,
   ⟨"bdzfla+", 0x40400003, 0xffc00003, 0x21, 0x882000800, [1, 12]⟩,
   ⟨"bdzfla", 0x40400003, 0xffc00003, 0x21, 0x800000000, [1, 8]⟩,
   ⟨"bf-", 0x40800000, 0xff800003, 0x21, 0x800000000, [1, 9]⟩,
   ⟨"bf+", 0x40800000, 0xff800003, 0x21, 0x800000000, [1, 11]⟩,
   ⟨"bf", 0x40800000, 0xff800003, 0x21, 0x800000000, [1, 7]⟩,
   ⟨"bbf", 0x40800000, 0xff800003, 0x32, 0x800000000, [1, 7]⟩,
   ⟨"bfl-", 0x40800001, 0xff800003, 0x21, 0x800000000, [1, 9]⟩,
   ⟨"bfl+", 0x40800001, 0xff800003, 0x21, 0x800000000, [1, 11]⟩,
   ⟨"bfl", 0x40800001, 0xff800003, 0x21, 0x800000000, [1, 7]⟩,
   ⟨"bbfl", 0x40800001, 0xff800003, 0x32, 0x800000000, [1, 7]⟩,
   ⟨"bfa-", 0x40800002, 0xff800003, 0x21, 0x800000000, [1, 10]⟩,
   ⟨"bfa+", 0x40800002, 0xff800003, 0x21, 0x800000000, [1, 12]⟩,
   ⟨"bfa", 0x40800002, 0xff800003, 0x21, 0x800000000, [1, 8]⟩,
   ⟨"bbfa", 0x40800002, 0xff800003, 0x32, 0x800000000, [1, 8]⟩,
   ⟨"bfla-", 0x40800003, 0xff800003, 0x21, 0x800000000, [1, 10]⟩,
   ⟨"bfla+", 0x40800003, 0xff800003, 0x21, 0x800000000, [1, 12]⟩,
   ⟨"bfla", 0x40800003, 0xff800003, 0x21, 0x800000000, [1, 8]⟩,
   ⟨"bbfla", 0x40800003, 0xff800003, 0x32, 0x800000000, [1, 8]⟩,
   ⟨"bdnzt-", 0x41000000, 0xffc00003, 0x21, 0x882000800, [1, 9]⟩]

/-- ppc-opc.c:4650-4757. -/
def main11 : List Opcode :=
  [⟨"bdnzt+", 0x41000000, 0xffc00003, 0x21, 0x882000800, [1, 11]⟩,
   ⟨"bdnzt", 0x41000000, 0xffc00003, 0x21, 0x800000000, [1, 7]⟩,
   ⟨"bdnztl-", 0x41000001, 0xffc00003, 0x21, 0x882000800, [1, 9]⟩,
   ⟨"bdnztl+", 0x41000001, 0xffc00003, 0x21, 0x882000800, [1, 11]⟩,
   ⟨"bdnztl", 0x41000001, 0xffc00003, 0x21, 0x800000000, [1, 7]⟩,
   ⟨"bdnzta-", 0x41000002, 0xffc00003, 0x21, 0x882000800, [1, 10]⟩,
   ⟨"bdnzta+", 0x41000002, 0xffc00003, 0x21, 0x882000800, [1, 12]⟩,
   ⟨"bdnzta", 0x41000002, 0xffc00003, 0x21, 0x800000000, [1, 8]⟩,
   ⟨"bdnztla-", 0x41000003, 0xffc00003, 0x21, 0x882000800, [1, 10]⟩,
   ⟨"bdnztla+", 0x41000003, 0xffc00003, 0x21, 0x882000800, [1, 12]⟩,
   ⟨"bdnztla", 0x41000003, 0xffc00003, 0x21, 0x800000000, [1, 8]⟩,
   ⟨"bdzt-", 0x41400000, 0xffc00003, 0x21, 0x882000800, [1, 9]⟩,
   ⟨"bdzt+", 0x41400000, 0xffc00003, 0x21, 0x882000800, [1, 11]⟩,
   ⟨"bdzt", 0x41400000, 0xffc00003, 0x21, 0x800000000, [1, 7]⟩,
   ⟨"bdztl-", 0x41400001, 0xffc00003, 0x21, 0x882000800, [1, 9]⟩,
   ⟨"bdztl+", 0x41400001, 0xffc00003, 0x21, 0x882000800, [1, 11]⟩,
   ⟨"bdztl", 0x41400001, 0xffc00003, 0x21, 0x800000000, [1, 7]⟩,
   ⟨"bdzta-", 0x41400002, 0xffc00003, 0x21, 0x882000800, [1, 10]⟩,
   ⟨"bdzta+", 0x41400002, 0xffc00003, 0x21, 0x882000800, [1, 12]⟩,
   ⟨"bdzta", 0x41400002, 0xffc00003, 0x21, 0x800000000, [1, 8]⟩,
   ⟨"bdztla-", 0x41400003, 0xffc00003, 0x21, 0x882000800, [1, 10]⟩,
   ⟨"bdztla+", 0x41400003, 0xffc00003, 0x21, 0x882000800, [1, 12]⟩,
   ⟨"bdztla", 0x41400003, 0xffc00003, 0x21, 0x800000000, [1, 8]⟩,
   ⟨"bt-", 0x41800000, 0xff800003, 0x21, 0x800000000, [1, 9]⟩,
   ⟨"bt+", 0x41800000, 0xff800003, 0x21, 0x800000000, [1, 11]⟩,
   ⟨"bt", 0x41800000, 0xff800003, 0x21, 0x800000000, [1, 7]⟩,
   ⟨"bbt", 0x41800000, 0xff800003, 0x32, 0x800000000, [1, 7]⟩,
   ⟨"btl-", 0x41800001, 0xff800003, 0x21, 0x800000000, [1, 9]⟩,
   ⟨"btl+", 0x41800001, 0xff800003, 0x21, 0x800000000, [1, 11]⟩,
   ⟨"btl", 0x41800001, 0xff800003, 0x21, 0x800000000, [1, 7]⟩,
   ⟨"bbtl", 0x41800001, 0xff800003, 0x32, 0x800000000, [1, 7]⟩,
   ⟨"bta-", 0x41800002, 0xff800003, 0x21, 0x800000000, [1, 10]⟩,
   ⟨"bta+", 0x41800002, 0xff800003, 0x21, 0x800000000, [1, 12]⟩,
   ⟨"bta", 0x41800002, 0xff800003, 0x21, 0x800000000, [1, 8]⟩,
   ⟨"bbta", 0x41800002, 0xff800003, 0x32, 0x800000000, [1, 8]⟩,
   ⟨"btla-", 0x41800003, 0xff800003, 0x21, 0x800000000, [1, 10]⟩,
   ⟨"btla+", 0x41800003, 0xff800003, 0x21, 0x800000000, [1, 12]⟩,
   ⟨"btla", 0x41800003, 0xff800003, 0x21, 0x800000000, [1, 8]⟩,
   ⟨"bbtla", 0x41800003, 0xff800003, 0x32, 0x800000000, [1, 8]⟩,
   ⟨"bc-", 0x40000000, 0xfc000003, 0x21, 0x800000000, [18, 1, 9]⟩,
   ⟨"bc+", 0x40000000, 0xfc000003, 0x21, 0x800000000, [18, 1, 11]⟩,
   ⟨"bc", 0x40000000, 0xfc000003, 0x23, 0x800000000, [17, 1, 7]⟩,
   ⟨"bcl-", 0x40000001, 0xfc000003, 0x21, 0x800000000, [18, 1, 9]⟩,
   ⟨"bcl+", 0x40000001, 0xfc000003, 0x21, 0x800000000, [18, 1, 11]⟩,
   ⟨"bcl", 0x40000001, 0xfc000003, 0x23, 0x800000000, [17, 1, 7]⟩,
   ⟨"bca-", 0x40000002, 0xfc000003, 0x21, 0x800000000, [18, 1, 10]⟩,
   ⟨"bca+", 0x40000002, 0xfc000003, 0x21, 0x800000000, [18, 1, 12]⟩,
   ⟨"bca", 0x40000002, 0xfc000003, 0x23, 0x800000000, [17, 1, 8]⟩,
   ⟨"bcla-", 0x40000003, 0xfc000003, 0x21, 0x800000000, [18, 1, 10]⟩,
   ⟨"bcla+", 0x40000003, 0xfc000003, 0x21, 0x800000000, [18, 1, 12]⟩,
   ⟨"bcla", 0x40000003, 0xfc000003, 0x23, 0x800000000, [17, 1, 8]⟩,
   ⟨"svc", 0x44000000, 0xffff0003, 0x2, 0x800000000, [61, 44, 45]⟩,
   ⟨"scv", 0x44000001, 0xffff0003, 0x10000000000, 0x800000000, [61]⟩,
   ⟨"svcl", 0x44000001, 0xffff0003, 0x2, 0x800000000, [61, 44, 45]⟩,
   ⟨"sc", 0x44000002, 0xffff0003, 0x1, 0x800000000, [62]⟩,
   ⟨"svca", 0x44000002, 0xffff0003, 0x32, 0x800000000, [115]⟩,
   ⟨"svcla", 0x44000003, 0xffff0003, 0x2, 0x800000000, [115]⟩,
   ⟨"b", 0x48000000, 0xfc000003, 0x23, 0x800000000, [63]⟩,
   ⟨"bl", 0x48000001, 0xfc000003, 0x23, 0x800000000, [63]⟩,
   ⟨"ba", 0x48000002, 0xfc000003, 0x23, 0x800000000, [64]⟩,
   ⟨"bla", 0x48000003, 0xfc000003, 0x23, 0x800000000, [64]⟩,
   ⟨"mcrf", 0x4c000000, 0xfc63ffff, 0x23, 0x800000000, [13, 16]⟩,
   ⟨"lnia", 0x4c000004, 0xfc1fffff, 0x10000000000, 0x800000000, [86]⟩,
   ⟨"addpcis", 0x4c000004, 0xfc00003e, 0x10000000000, 0x800000000, [86, 41]⟩,
   ⟨"subpcis", 0x4c000004, 0xfc00003e, 0x10000000000, 0x800000000, [86, 42]⟩,
   ⟨"bdnzlr", 0x4e000020, 0xffffffff, 0x21, 0x800000000, []⟩,
   ⟨"bdnzlr-", 0x4e000020, 0xffffffff, 0x21, 0x882000800, []⟩,
   ⟨"bdnzlrl", 0x4e000021, 0xffffffff, 0x21, 0x800000000, []⟩,
   ⟨"bdnzlrl-", 0x4e000021, 0xffffffff, 0x21, 0x882000800, []⟩,
   ⟨"bdnzlr+", 0x4e200020, 0xffffffff, 0x21, 0x882000800, []⟩,
   ⟨"bdnzlrl+", 0x4e200021, 0xffffffff, 0x21, 0x882000800, []⟩,
   ⟨"bdzlr", 0x4e400020, 0xffffffff, 0x21, 0x800000000, []⟩,
   ⟨"bdzlr-", 0x4e400020, 0xffffffff, 0x21, 0x882000800, []⟩,
   ⟨"bdzlrl", 0x4e400021, 0xffffffff, 0x21, 0x800000000, []⟩,
   ⟨"bdzlrl-", 0x4e400021, 0xffffffff, 0x21, 0x882000800, []⟩,
   ⟨"bdzlr+", 0x4e600020, 0xffffffff, 0x21, 0x882000800, []⟩,
   ⟨"bdzlrl+", 0x4e600021, 0xffffffff, 0x21, 0x882000800, []⟩,
   ⟨"blr", 0x4e800020, 0xffffffff, 0x21, 0x800000000, []⟩,
   ⟨"br", 0x4e800020, 0xffffffff, 0x32, 0x800000000, []⟩,
   ⟨"blrl", 0x4e800021, 0xffffffff, 0x21, 0x800000000, []⟩,
   ⟨"brl", 0x4e800021, 0xffffffff, 0x32, 0x800000000, []⟩,
   ⟨"bdnzlr-", 0x4f000020, 0xffffffff, 0x82000800, 0x800000000, []⟩,
   ⟨"bdnzlrl-", 0x4f000021, 0xffffffff, 0x82000800, 0x800000000, []⟩,
   ⟨"bdnzlr+", 0x4f200020, 0xffffffff, 0x82000800, 0x800000000, []⟩,
   ⟨"bdnzlrl+", 0x4f200021, 0xffffffff, 0x82000800, 0x800000000, []⟩,
   ⟨"bdzlr-", 0x4f400020, 0xffffffff, 0x82000800, 0x800000000, []⟩,
   ⟨"bdzlrl-", 0x4f400021, 0xffffffff, 0x82000800, 0x800000000, []⟩,
   ⟨"bdzlr+", 0x4f600020, 0xffffffff, 0x82000800, 0x800000000, []⟩,
   ⟨"bdzlrl+", 0x4f600021, 0xffffffff, 0x82000800, 0x800000000, []⟩,
   ⟨"bgelr", 0x4c800020, 0xffe3ffff, 0x21, 0x800000000, [28]⟩,
   ⟨"bgelr-", 0x4c800020, 0xffe3ffff, 0x21, 0x882000800, [28]⟩,
   ⟨"bger", 0x4c800020, 0xffe3ffff, 0x32, 0x800000000, [28]⟩,
   ⟨"bnllr", 0x4c800020, 0xffe3ffff, 0x21, 0x800000000, [28]⟩,
   ⟨"bnllr-", 0x4c800020, 0xffe3ffff, 0x21, 0x882000800, [28]⟩,
   ⟨"bnlr", 0x4c800020, 0xffe3ffff, 0x32, 0x800000000, [28]⟩,
   ⟨"bgelrl", 0x4c800021, 0xffe3ffff, 0x21, 0x800000000, [28]⟩,
   ⟨"bgelrl-", 0x4c800021, 0xffe3ffff, 0x21, 0x882000800, [28]⟩,
   ⟨"bgerl", 0x4c800021, 0xffe3ffff, 0x32, 0x800000000, [28]⟩,
   ⟨"bnllrl", 0x4c800021, 0xffe3ffff, 0x21, 0x800000000, [28]⟩,
   ⟨"bnllrl-", 0x4c800021, 0xffe3ffff, 0x21, 0x882000800, [28]⟩]

/-- ppc-opc.c:4758-4857. -/
def main12 : List Opcode :=
  [⟨"bnlrl", 0x4c800021, 0xffe3ffff, 0x32, 0x800000000, [28]⟩,
   ⟨"blelr", 0x4c810020, 0xffe3ffff, 0x21, 0x800000000, [28]⟩,
   ⟨"blelr-", 0x4c810020, 0xffe3ffff, 0x21, 0x882000800, [28]⟩,
   ⟨"bler", 0x4c810020, 0xffe3ffff, 0x32, 0x800000000, [28]⟩,
   ⟨"bnglr", 0x4c810020, 0xffe3ffff, 0x21, 0x800000000, [28]⟩,
   ⟨"bnglr-", 0x4c810020, 0xffe3ffff, 0x21, 0x882000800, [28]⟩,
   ⟨"bngr", 0x4c810020, 0xffe3ffff, 0x32, 0x800000000, [28]⟩,
   ⟨"blelrl", 0x4c810021, 0xffe3ffff, 0x21, 0x800000000, [28]⟩,
   ⟨"blelrl-", 0x4c810021, 0xffe3ffff, 0x21, 0x882000800, [28]⟩,
   ⟨"blerl", 0x4c810021, 0xffe3ffff, 0x32, 0x800000000, [28]⟩,
   ⟨"bnglrl", 0x4c810021, 0xffe3ffff, 0x21, 0x800000000, [28]⟩,
   ⟨"bnglrl-", 0x4c810021, 0xffe3ffff, 0x21, 0x882000800, [28]⟩,
   ⟨"bngrl", 0x4c810021, 0xffe3ffff, 0x32, 0x800000000, [28]⟩,
   ⟨"bnelr", 0x4c820020, 0xffe3ffff, 0x21, 0x800000000, [28]⟩,
   ⟨"bnelr-", 0x4c820020, 0xffe3ffff, 0x21, 0x882000800, [28]⟩,
   ⟨"bner", 0x4c820020, 0xffe3ffff, 0x32, 0x800000000, [28]⟩,
   ⟨"bnelrl", 0x4c820021, 0xffe3ffff, 0x21, 0x800000000, [28]⟩,
   ⟨"bnelrl-", 0x4c820021, 0xffe3ffff, 0x21, 0x882000800, [28]⟩,
   ⟨"bnerl", 0x4c820021, 0xffe3ffff, 0x32, 0x800000000, [28]⟩,
   ⟨"bnslr", 0x4c830020, 0xffe3ffff, 0x21, 0x800000000, [28]⟩,
   ⟨"bnslr-", 0x4c830020, 0xffe3ffff, 0x21, 0x882000800, [28]⟩,
   ⟨"bnsr", 0x4c830020, 0xffe3ffff, 0x32, 0x800000000, [28]⟩,
   ⟨"bnulr", 0x4c830020, 0xffe3ffff, 0x21, 0x800000000, [28]⟩,
   ⟨"bnulr-", 0x4c830020, 0xffe3ffff, 0x21, 0x882000800, [28]⟩,
   ⟨"bnslrl", 0x4c830021, 0xffe3ffff, 0x21, 0x800000000, [28]⟩,
   ⟨"bnslrl-", 0x4c830021, 0xffe3ffff, 0x21, 0x882000800, [28]⟩,
   ⟨"bnsrl", 0x4c830021, 0xffe3ffff, 0x32, 0x800000000, [28]⟩,
   ⟨"bnulrl", 0x4c830021, 0xffe3ffff, 0x21, 0x800000000, [28]⟩,
   ⟨"bnulrl-", 0x4c830021, 0xffe3ffff, 0x21, 0x882000800, [28]⟩,
   ⟨"bgelr+", 0x4ca00020, 0xffe3ffff, 0x21, 0x882000800, [28]⟩,
   ⟨"bnllr+", 0x4ca00020, 0xffe3ffff, 0x21, 0x882000800, [28]⟩,
   ⟨"bgelrl+", 0x4ca00021, 0xffe3ffff, 0x21, 0x882000800, [28]⟩,
   ⟨"bnllrl+", 0x4ca00021, 0xffe3ffff, 0x21, 0x882000800, [28]⟩,
   ⟨"blelr+", 0x4ca10020, 0xffe3ffff, 0x21, 0x882000800, [28]⟩,
   ⟨"bnglr+", 0x4ca10020, 0xffe3ffff, 0x21, 0x882000800, [28]⟩,
   ⟨"blelrl+", 0x4ca10021, 0xffe3ffff, 0x21, 0x882000800, [28]⟩,
   ⟨"bnglrl+", 0x4ca10021, 0xffe3ffff, 0x21, 0x882000800, [28]⟩,
   ⟨"bnelr+", 0x4ca20020, 0xffe3ffff, 0x21, 0x882000800, [28]⟩,
   ⟨"bnelrl+", 0x4ca20021, 0xffe3ffff, 0x21, 0x882000800, [28]⟩,
   ⟨"bnslr+", 0x4ca30020, 0xffe3ffff, 0x21, 0x882000800, [28]⟩,
   ⟨"bnulr+", 0x4ca30020, 0xffe3ffff, 0x21, 0x882000800, [28]⟩,
   ⟨"bnslrl+", 0x4ca30021, 0xffe3ffff, 0x21, 0x882000800, [28]⟩,
   ⟨"bnulrl+", 0x4ca30021, 0xffe3ffff, 0x21, 0x882000800, [28]⟩,
   ⟨"bgelr-", 0x4cc00020, 0xffe3ffff, 0x82000800, 0x800000000, [28]⟩,
   ⟨"bnllr-", 0x4cc00020, 0xffe3ffff, 0x82000800, 0x800000000, [28]⟩,
   ⟨"bgelrl-", 0x4cc00021, 0xffe3ffff, 0x82000800, 0x800000000, [28]⟩,
   ⟨"bnllrl-", 0x4cc00021, 0xffe3ffff, 0x82000800, 0x800000000, [28]⟩,
   ⟨"blelr-", 0x4cc10020, 0xffe3ffff, 0x82000800, 0x800000000, [28]⟩,
   ⟨"bnglr-", 0x4cc10020, 0xffe3ffff, 0x82000800, 0x800000000, [28]⟩,
   ⟨"blelrl-", 0x4cc10021, 0xffe3ffff, 0x82000800, 0x800000000, [28]⟩,
   ⟨"bnglrl-", 0x4cc10021, 0xffe3ffff, 0x82000800, 0x800000000, [28]⟩,
   ⟨"bnelr-", 0x4cc20020, 0xffe3ffff, 0x82000800, 0x800000000, [28]⟩,
   ⟨"bnelrl-", 0x4cc20021, 0xffe3ffff, 0x82000800, 0x800000000, [28]⟩,
   ⟨"bnslr-", 0x4cc30020, 0xffe3ffff, 0x82000800, 0x800000000, [28]⟩,
   ⟨"bnulr-", 0x4cc30020, 0xffe3ffff, 0x82000800, 0x800000000, [28]⟩,
   ⟨"bnslrl-", 0x4cc30021, 0xffe3ffff, 0x82000800, 0x800000000, [28]⟩,
   ⟨"bnulrl-", 0x4cc30021, 0xffe3ffff, 0x82000800, 0x800000000, [28]⟩,
   ⟨"bgelr+", 0x4ce00020, 0xffe3ffff, 0x82000800, 0x800000000, [28]⟩,
   ⟨"bnllr+", 0x4ce00020, 0xffe3ffff, 0x82000800, 0x800000000, [28]⟩,
   ⟨"bgelrl+", 0x4ce00021, 0xffe3ffff, 0x82000800, 0x800000000, [28]⟩,
   ⟨"bnllrl+", 0x4ce00021, 0xffe3ffff, 0x82000800, 0x800000000, [28]⟩,
   ⟨"blelr+", 0x4ce10020, 0xffe3ffff, 0x82000800, 0x800000000, [28]⟩,
   ⟨"bnglr+", 0x4ce10020, 0xffe3ffff, 0x82000800, 0x800000000, [28]⟩,
   ⟨"blelrl+", 0x4ce10021, 0xffe3ffff, 0x82000800, 0x800000000, [28]⟩,
   ⟨"bnglrl+", 0x4ce10021, 0xffe3ffff, 0x82000800, 0x800000000, [28]⟩,
   ⟨"bnelr+", 0x4ce20020, 0xffe3ffff, 0x82000800, 0x800000000, [28]⟩,
   ⟨"bnelrl+", 0x4ce20021, 0xffe3ffff, 0x82000800, 0x800000000, [28]⟩,
   ⟨"bnslr+", 0x4ce30020, 0xffe3ffff, 0x82000800, 0x800000000, [28]⟩,
   ⟨"bnulr+", 0x4ce30020, 0xffe3ffff, 0x82000800, 0x800000000, [28]⟩,
   ⟨"bnslrl+", 0x4ce30021, 0xffe3ffff, 0x82000800, 0x800000000, [28]⟩,
   ⟨"bnulrl+", 0x4ce30021, 0xffe3ffff, 0x82000800, 0x800000000, [28]⟩,
   ⟨"bltlr", 0x4d800020, 0xffe3ffff, 0x21, 0x800000000, [28]⟩,
   ⟨"bltlr-", 0x4d800020, 0xffe3ffff, 0x21, 0x882000800, [28]⟩,
   ⟨"bltr", 0x4d800020, 0xffe3ffff, 0x32, 0x800000000, [28]⟩,
   ⟨"bltlrl", 0x4d800021, 0xffe3ffff, 0x21, 0x800000000, [28]⟩,
   ⟨"bltlrl-", 0x4d800021, 0xffe3ffff, 0x21, 0x882000800, [28]⟩,
   ⟨"bltrl", 0x4d800021, 0xffe3ffff, 0x32, 0x800000000, [28]⟩,
   ⟨"bgtlr", 0x4d810020, 0xffe3ffff, 0x21, 0x800000000, [28]⟩,
   ⟨"bgtlr-", 0x4d810020, 0xffe3ffff, 0x21, 0x882000800, [28]⟩,
   ⟨"bgtr", 0x4d810020, 0xffe3ffff, 0x32, 0x800000000, [28]⟩,
   ⟨"bgtlrl", 0x4d810021, 0xffe3ffff, 0x21, 0x800000000, [28]⟩,
   ⟨"bgtlrl-", 0x4d810021, 0xffe3ffff, 0x21, 0x882000800, [28]⟩,
   ⟨"bgtrl", 0x4d810021, 0xffe3ffff, 0x32, 0x800000000, [28]⟩,
   ⟨"beqlr", 0x4d820020, 0xffe3ffff, 0x21, 0x800000000, [28]⟩,
   ⟨"beqlr-", 0x4d820020, 0xffe3ffff, 0x21, 0x882000800, [28]⟩,
   ⟨"beqr", 0x4d820020, 0xffe3ffff, 0x32, 0x800000000, [28]⟩,
   ⟨"beqlrl", 0x4d820021, 0xffe3ffff, 0x21, 0x800000000, [28]⟩,
   ⟨"beqlrl-", 0x4d820021, 0xffe3ffff, 0x21, 0x882000800, [28]⟩,
   ⟨"beqrl", 0x4d820021, 0xffe3ffff, 0x32, 0x800000000, [28]⟩,
   ⟨"bsolr", 0x4d830020, 0xffe3ffff, 0x21, 0x800000000, [28]⟩,
   ⟨"bsolr-", 0x4d830020, 0xffe3ffff, 0x21, 0x882000800, [28]⟩,
   ⟨"bsor", 0x4d830020, 0xffe3ffff, 0x32, 0x800000000, [28]⟩,
   ⟨"bunlr", 0x4d830020, 0xffe3ffff, 0x21, 0x800000000, [28]⟩,
   ⟨"bunlr-", 0x4d830020, 0xffe3ffff, 0x21, 0x882000800, [28]⟩,
   ⟨"bsolrl", 0x4d830021, 0xffe3ffff, 0x21, 0x800000000, [28]⟩,
   ⟨"bsolrl-", 0x4d830021, 0xffe3ffff, 0x21, 0x882000800, [28]⟩,
   ⟨"bsorl", 0x4d830021, 0xffe3ffff, 0x32, 0x800000000, [28]⟩,
   ⟨"bunlrl", 0x4d830021, 0xffe3ffff, 0x21, 0x800000000, [28]⟩,
   ⟨"bunlrl-", 0x4d830021, 0xffe3ffff, 0x21, 0x882000800, [28]⟩,
   ⟨"bltlr+", 0x4da00020, 0xffe3ffff, 0x21, 0x882000800, [28]⟩]

/-- ppc-opc.c:4858-4968. -/
def main13 : List Opcode :=
  [⟨"bltlrl+", 0x4da00021, 0xffe3ffff, 0x21, 0x882000800, [28]⟩,
   ⟨"bgtlr+", 0x4da10020, 0xffe3ffff, 0x21, 0x882000800, [28]⟩,
   ⟨"bgtlrl+", 0x4da10021, 0xffe3ffff, 0x21, 0x882000800, [28]⟩,
   ⟨"beqlr+", 0x4da20020, 0xffe3ffff, 0x21, 0x882000800, [28]⟩,
   ⟨"beqlrl+", 0x4da20021, 0xffe3ffff, 0x21, 0x882000800, [28]⟩,
   ⟨"bsolr+", 0x4da30020, 0xffe3ffff, 0x21, 0x882000800, [28]⟩,
   ⟨"bunlr+", 0x4da30020, 0xffe3ffff, 0x21, 0x882000800, [28]⟩,
   ⟨"bsolrl+", 0x4da30021, 0xffe3ffff, 0x21, 0x882000800, [28]⟩,
   ⟨"bunlrl+", 0x4da30021, 0xffe3ffff, 0x21, 0x882000800, [28]⟩,
   ⟨"bltlr-", 0x4dc00020, 0xffe3ffff, 0x82000800, 0x800000000, [28]⟩,
   ⟨"bltlrl-", 0x4dc00021, 0xffe3ffff, 0x82000800, 0x800000000, [28]⟩,
   ⟨"bgtlr-", 0x4dc10020, 0xffe3ffff, 0x82000800, 0x800000000, [28]⟩,
   ⟨"bgtlrl-", 0x4dc10021, 0xffe3ffff, 0x82000800, 0x800000000, [28]⟩,
   ⟨"beqlr-", 0x4dc20020, 0xffe3ffff, 0x82000800, 0x800000000, [28]⟩,
   ⟨"beqlrl-", 0x4dc20021, 0xffe3ffff, 0x82000800, 0x800000000, [28]⟩,
   ⟨"bsolr-", 0x4dc30020, 0xffe3ffff, 0x82000800, 0x800000000, [28]⟩,
   ⟨"bunlr-", 0x4dc30020, 0xffe3ffff, 0x82000800, 0x800000000, [28]⟩,
   ⟨"bsolrl-", 0x4dc30021, 0xffe3ffff, 0x82000800, 0x800000000, [28]⟩,
   ⟨"bunlrl-", 0x4dc30021, 0xffe3ffff, 0x82000800, 0x800000000, [28]⟩,
   ⟨"bltlr+", 0x4de00020, 0xffe3ffff, 0x82000800, 0x800000000, [28]⟩,
   ⟨"bltlrl+", 0x4de00021, 0xffe3ffff, 0x82000800, 0x800000000, [28]⟩,
   ⟨"bgtlr+", 0x4de10020, 0xffe3ffff, 0x82000800, 0x800000000, [28]⟩,
   ⟨"bgtlrl+", 0x4de10021, 0xffe3ffff, 0x82000800, 0x800000000, [28]⟩,
   ⟨"beqlr+", 0x4de20020, 0xffe3ffff, 0x82000800, 0x800000000, [28]⟩,
   ⟨"beqlrl+", 0x4de20021, 0xffe3ffff, 0x82000800, 0x800000000, [28]⟩,
   ⟨"bsolr+", 0x4de30020, 0xffe3ffff, 0x82000800, 0x800000000, [28]⟩,
   ⟨"bunlr+", 0x4de30020, 0xffe3ffff, 0x82000800, 0x800000000, [28]⟩,
   ⟨"bsolrl+", 0x4de30021, 0xffe3ffff, 0x82000800, 0x800000000, [28]⟩,
   ⟨"bunlrl+", 0x4de30021, 0xffe3ffff, 0x82000800, 0x800000000, [28]⟩,
   ⟨"bdnzflr", 0x4c000020, 0xffe0ffff, 0x21, 0x800000000, [1]⟩,
   ⟨"bdnzflr-", 0x4c000020, 0xffe0ffff, 0x21, 0x882000800, [1]⟩,
   ⟨"bdnzflrl", 0x4c000021, 0xffe0ffff, 0x21, 0x800000000, [1]⟩,
   ⟨"bdnzflrl-", 0x4c000021, 0xffe0ffff, 0x21, 0x882000800, [1]⟩,
   ⟨"bdnzflr+", 0x4c200020, 0xffe0ffff, 0x21, 0x882000800, [1]⟩,
   ⟨"bdnzflrl+", 0x4c200021, 0xffe0ffff, 0x21, 0x882000800, [1]⟩,
   ⟨"bdzflr", 0x4c400020, 0xffe0ffff, 0x21, 0x800000000, [1]⟩,
   ⟨"bdzflr-", 0x4c400020, 0xffe0ffff, 0x21, 0x882000800, [1]⟩,
   ⟨"bdzflrl", 0x4c400021, 0xffe0ffff, 0x21, 0x800000000, [1]⟩,
   ⟨"bdzflrl-", 0x4c400021, 0xffe0ffff, 0x21, 0x882000800, [1]⟩,
   ⟨"bdzflr+", 0x4c600020, 0xffe0ffff, 0x21, 0x882000800, [1]⟩,
   ⟨"bdzflrl+", 0x4c600021, 0xffe0ffff, 0x21, 0x882000800, [1]⟩,
   ⟨"bflr", 0x4c800020, 0xffe0ffff, 0x21, 0x800000000, [1]⟩,
   ⟨"bflr-", 0x4c800020, 0xffe0ffff, 0x21, 0x882000800, [1]⟩,
   ⟨"bbfr", 0x4c800020, 0xffe0ffff, 0x32, 0x800000000, [1]⟩,
   ⟨"bflrl", 0x4c800021, 0xffe0ffff, 0x21, 0x800000000, [1]⟩,
   ⟨"bflrl-", 0x4c800021, 0xffe0ffff, 0x21, 0x882000800, [1]⟩,
   ⟨"bbfrl", 0x4c800021, 0xffe0ffff, 0x32, 0x800000000, [1]⟩,
   ⟨"bflr+", 0x4ca00020, 0xffe0ffff, 0x21, 0x882000800, [1]⟩,
   ⟨"bflrl+", 0x4ca00021, 0xffe0ffff, 0x21, 0x882000800, [1]⟩,
   ⟨"bflr-", 0x4cc00020, 0xffe0ffff, 0x82000800, 0x800000000, [1]⟩,
   ⟨"bflrl-", 0x4cc00021, 0xffe0ffff, 0x82000800, 0x800000000, [1]⟩,
   ⟨"bflr+", 0x4ce00020, 0xffe0ffff, 0x82000800, 0x800000000, [1]⟩,
   ⟨"bflrl+", 0x4ce00021, 0xffe0ffff, 0x82000800, 0x800000000, [1]⟩,
   ⟨"bdnztlr", 0x4d000020, 0xffe0ffff, 0x21, 0x800000000, [1]⟩,
   ⟨"bdnztlr-", 0x4d000020, 0xffe0ffff, 0x21, 0x882000800, [1]⟩,
   ⟨"bdnztlrl", 0x4d000021, 0xffe0ffff, 0x21, 0x800000000, [1]⟩,
   ⟨"bdnztlrl-", 0x4d000021, 0xffe0ffff, 0x21, 0x882000800, [1]⟩,
   ⟨"bdnztlr+", 0x4d200020, 0xffe0ffff, 0x21, 0x882000800, [1]⟩,
   ⟨"bdnztlrl+", 0x4d200021, 0xffe0ffff, 0x21, 0x882000800, [1]⟩,
   ⟨"bdztlr", 0x4d400020, 0xffe0ffff, 0x21, 0x800000000, [1]⟩,
   ⟨"bdztlr-", 0x4d400020, 0xffe0ffff, 0x21, 0x882000800, [1]⟩,
   ⟨"bdztlrl", 0x4d400021, 0xffe0ffff, 0x21, 0x800000000, [1]⟩,
   ⟨"bdztlrl-", 0x4d400021, 0xffe0ffff, 0x21, 0x882000800, [1]⟩,
   ⟨"bdztlr+", 0x4d600020, 0xffe0ffff, 0x21, 0x882000800, [1]⟩,
   ⟨"bdztlrl+", 0x4d600021, 0xffe0ffff, 0x21, 0x882000800, [1]⟩,
   ⟨"btlr", 0x4d800020, 0xffe0ffff, 0x21, 0x800000000, [1]⟩,
   ⟨"btlr-", 0x4d800020, 0xffe0ffff, 0x21, 0x882000800, [1]⟩,
   ⟨"bbtr", 0x4d800020, 0xffe0ffff, 0x32, 0x800000000, [1]⟩,
   ⟨"btlrl", 0x4d800021, 0xffe0ffff, 0x21, 0x800000000, [1]⟩,
   ⟨"btlrl-", 0x4d800021, 0xffe0ffff, 0x21, 0x882000800, [1]⟩,
   ⟨"bbtrl", 0x4d800021, 0xffe0ffff, 0x32, 0x800000000, [1]⟩,
   ⟨"btlr+", 0x4da00020, 0xffe0ffff, 0x21, 0x882000800, [1]⟩,
   ⟨"btlrl+", 0x4da00021, 0xffe0ffff, 0x21, 0x882000800, [1]⟩,
   ⟨"btlr-", 0x4dc00020, 0xffe0ffff, 0x82000800, 0x800000000, [1]⟩,
   ⟨"btlrl-", 0x4dc00021, 0xffe0ffff, 0x82000800, 0x800000000, [1]⟩,
   ⟨"btlr+", 0x4de00020, 0xffe0ffff, 0x82000800, 0x800000000, [1]⟩,
   ⟨"btlrl+", 0x4de00021, 0xffe0ffff, 0x82000800, 0x800000000, [1]⟩,
   ⟨"bclr-", 0x4c000020, 0xfc20ffff, 0x21, 0x800000000, [18, 1]⟩,
   ⟨"bclrl-", 0x4c000021, 0xfc20ffff, 0x21, 0x800000000, [18, 1]⟩,
   ⟨"bclr+", 0x4c200020, 0xfc20ffff, 0x21, 0x800000000, [18, 1]⟩,
   ⟨"bclrl+", 0x4c200021, 0xfc20ffff, 0x21, 0x800000000, [18, 1]⟩,
   ⟨"bclr", 0x4c000020, 0xfc00e7ff, 0x21, 0x800000000, [17, 1, 20]⟩,
   ⟨"bcr", 0x4c000020, 0xfc00ffff, 0x32, 0x800000000, [17, 1]⟩,
   ⟨"bclrl", 0x4c000021, 0xfc00e7ff, 0x21, 0x800000000, [17, 1, 20]⟩,
   ⟨"bcrl", 0x4c000021, 0xfc00ffff, 0x32, 0x800000000, [17, 1]⟩,
   ⟨"rfid", 0x4c000024, 0xffffffff, 0x88, 0x800000000, []⟩,
   ⟨"crnot", 0x4c000042, 0xfc0007ff, 0x21, 0x800000000, [21, 4]⟩,
   ⟨"crnor", 0x4c000042, 0xfc0007ff, 0x23, 0x800000000, [21, 1, 3]⟩,
   ⟨"rfmci", 0x4c00004c, 0xffffffff, 0x60040000, 0x800000000, []⟩,
   ⟨"rfdi", 0x4c00004e, 0xffffffff, 0x2000000, 0x800000000, []⟩,
   ⟨"rfi", 0x4c000064, 0xffffffff, 0x23, 0x800000000, []⟩,
   ⟨"rfci", 0x4c000066, 0xffffffff, 0x60200600, 0x800000000, []⟩,
   ⟨"rfscv", 0x4c0000a4, 0xffffffff, 0x10000000000, 0x800000000, []⟩,
   ⟨"rfsvc", 0x4c0000a4, 0xffffffff, 0x2, 0x800000000, []⟩,
   ⟨"rfgi", 0x4c0000cc, 0xffffffff, 0x22000000, 0x800000000, []⟩,
   ⟨"crandc", 0x4c000102, 0xfc0007ff, 0x23, 0x800000000, [21, 1, 3]⟩,
   ⟨"rfebb", 0x4c000124, 0xfffff7ff, 0x1000000000, 0x800000000, [154]⟩,
   ⟨"isync", 0x4c00012c, 0xffffffff, 0x21, 0x800000000, []⟩,
   ⟨"ics", 0x4c00012c, 0xffffffff, 0x32, 0x800000000, []⟩,
   ⟨"crclr", 0x4c000182, 0xfc0007ff, 0x21, 0x800000000, [2]⟩]

/-- ppc-opc.c:4969-5081. -/
def main14 : List Opcode :=
  [⟨"crxor", 0x4c000182, 0xfc0007ff, 0x23, 0x800000000, [21, 1, 3]⟩,
   ⟨"dnh", 0x4c00018c, 0xfc0007ff, 0x2000000, 0x800000000, [117, 40]⟩,
   ⟨"crnand", 0x4c0001c2, 0xfc0007ff, 0x23, 0x800000000, [21, 1, 3]⟩,
   ⟨"crand", 0x4c000202, 0xfc0007ff, 0x23, 0x800000000, [21, 1, 3]⟩,
   ⟨"hrfid", 0x4c000224, 0xffffffff, 0x900000, 0x840000000, []⟩,
   ⟨"crset", 0x4c000242, 0xfc0007ff, 0x21, 0x800000000, [2]⟩,
   ⟨"creqv", 0x4c000242, 0xfc0007ff, 0x23, 0x800000000, [21, 1, 3]⟩,
   ⟨"urfid", 0x4c000264, 0xffffffff, 0x10000000000, 0x800000000, []⟩,
   ⟨"stop", 0x4c0002e4, 0xffffffff, 0x10000000000, 0x800000000, []⟩,
   ⟨"doze", 0x4c000324, 0xffffffff, 0x400000, 0x10800000000, []⟩,
   ⟨"crorc", 0x4c000342, 0xfc0007ff, 0x23, 0x800000000, [21, 1, 3]⟩,
   ⟨"nap", 0x4c000364, 0xffffffff, 0x400000, 0x10800000000, []⟩,
   ⟨"crmove", 0x4c000382, 0xfc0007ff, 0x21, 0x800000000, [21, 4]⟩,
   ⟨"cror", 0x4c000382, 0xfc0007ff, 0x23, 0x800000000, [21, 1, 3]⟩,
   ⟨"sleep", 0x4c0003a4, 0xffffffff, 0x400000, 0x10800000000, []⟩,
   ⟨"rvwinkle", 0x4c0003e4, 0xffffffff, 0x400000, 0x10800000000, []⟩,
   ⟨"bctr", 0x4e800420, 0xffffffff, 0x23, 0x800000000, []⟩,
   ⟨"bctrl", 0x4e800421, 0xffffffff, 0x23, 0x800000000, []⟩,
   ⟨"bgectr", 0x4c800420, 0xffe3ffff, 0x21, 0x800000000, [28]⟩,
   ⟨"bgectr-", 0x4c800420, 0xffe3ffff, 0x21, 0x882000800, [28]⟩,
   ⟨"bnlctr", 0x4c800420, 0xffe3ffff, 0x21, 0x800000000, [28]⟩,
   ⟨"bnlctr-", 0x4c800420, 0xffe3ffff, 0x21, 0x882000800, [28]⟩,
   ⟨"bgectrl", 0x4c800421, 0xffe3ffff, 0x21, 0x800000000, [28]⟩,
   ⟨"bgectrl-", 0x4c800421, 0xffe3ffff, 0x21, 0x882000800, [28]⟩,
   ⟨"bnlctrl", 0x4c800421, 0xffe3ffff, 0x21, 0x800000000, [28]⟩,
   ⟨"bnlctrl-", 0x4c800421, 0xffe3ffff, 0x21, 0x882000800, [28]⟩,
   ⟨"blectr", 0x4c810420, 0xffe3ffff, 0x21, 0x800000000, [28]⟩,
   ⟨"blectr-", 0x4c810420, 0xffe3ffff, 0x21, 0x882000800, [28]⟩,
   ⟨"bngctr", 0x4c810420, 0xffe3ffff, 0x21, 0x800000000, [28]⟩,
   ⟨"bngctr-", 0x4c810420, 0xffe3ffff, 0x21, 0x882000800, [28]⟩,
   ⟨"blectrl", 0x4c810421, 0xffe3ffff, 0x21, 0x800000000, [28]⟩,
   ⟨"blectrl-", 0x4c810421, 0xffe3ffff, 0x21, 0x882000800, [28]⟩,
   ⟨"bngctrl", 0x4c810421, 0xffe3ffff, 0x21, 0x800000000, [28]⟩,
   ⟨"bngctrl-", 0x4c810421, 0xffe3ffff, 0x21, 0x882000800, [28]⟩,
   ⟨"bnectr", 0x4c820420, 0xffe3ffff, 0x21, 0x800000000, [28]⟩,
   ⟨"bnectr-", 0x4c820420, 0xffe3ffff, 0x21, 0x882000800, [28]⟩,
   ⟨"bnectrl", 0x4c820421, 0xffe3ffff, 0x21, 0x800000000, [28]⟩,
   ⟨"bnectrl-", 0x4c820421, 0xffe3ffff, 0x21, 0x882000800, [28]⟩,
   ⟨"bnsctr", 0x4c830420, 0xffe3ffff, 0x21, 0x800000000, [28]⟩,
   ⟨"bnsctr-", 0x4c830420, 0xffe3ffff, 0x21, 0x882000800, [28]⟩,
   ⟨"bnuctr", 0x4c830420, 0xffe3ffff, 0x21, 0x800000000, [28]⟩,
   ⟨"bnuctr-", 0x4c830420, 0xffe3ffff, 0x21, 0x882000800, [28]⟩,
   ⟨"bnsctrl", 0x4c830421, 0xffe3ffff, 0x21, 0x800000000, [28]⟩,
   ⟨"bnsctrl-", 0x4c830421, 0xffe3ffff, 0x21, 0x882000800, [28]⟩,
   ⟨"bnuctrl", 0x4c830421, 0xffe3ffff, 0x21, 0x800000000, [28]⟩,
   ⟨"bnuctrl-", 0x4c830421, 0xffe3ffff, 0x21, 0x882000800, [28]⟩,
   ⟨"bgectr+", 0x4ca00420, 0xffe3ffff, 0x21, 0x882000800, [28]⟩,
   ⟨"bnlctr+", 0x4ca00420, 0xffe3ffff, 0x21, 0x882000800, [28]⟩,
   ⟨"bgectrl+", 0x4ca00421, 0xffe3ffff, 0x21, 0x882000800, [28]⟩,
   ⟨"bnlctrl+", 0x4ca00421, 0xffe3ffff, 0x21, 0x882000800, [28]⟩,
   ⟨"blectr+", 0x4ca10420, 0xffe3ffff, 0x21, 0x882000800, [28]⟩,
   ⟨"bngctr+", 0x4ca10420, 0xffe3ffff, 0x21, 0x882000800, [28]⟩,
   ⟨"blectrl+", 0x4ca10421, 0xffe3ffff, 0x21, 0x882000800, [28]⟩,
   ⟨"bngctrl+", 0x4ca10421, 0xffe3ffff, 0x21, 0x882000800, [28]⟩,
   ⟨"bnectr+", 0x4ca20420, 0xffe3ffff, 0x21, 0x882000800, [28]⟩,
   ⟨"bnectrl+", 0x4ca20421, 0xffe3ffff, 0x21, 0x882000800, [28]⟩,
   ⟨"bnsctr+", 0x4ca30420, 0xffe3ffff, 0x21, 0x882000800, [28]⟩,
   ⟨"bnuctr+", 0x4ca30420, 0xffe3ffff, 0x21, 0x882000800, [28]⟩,
   ⟨"bnsctrl+", 0x4ca30421, 0xffe3ffff, 0x21, 0x882000800, [28]⟩,
   ⟨"bnuctrl+", 0x4ca30421, 0xffe3ffff, 0x21, 0x882000800, [28]⟩,
   ⟨"bgectr-", 0x4cc00420, 0xffe3ffff, 0x82000800, 0x800000000, [28]⟩,
   ⟨"bnlctr-", 0x4cc00420, 0xffe3ffff, 0x82000800, 0x800000000, [28]⟩,
   ⟨"bgectrl-", 0x4cc00421, 0xffe3ffff, 0x82000800, 0x800000000, [28]⟩,
   ⟨"bnlctrl-", 0x4cc00421, 0xffe3ffff, 0x82000800, 0x800000000, [28]⟩,
   ⟨"blectr-", 0x4cc10420, 0xffe3ffff, 0x82000800, 0x800000000, [28]⟩,
   ⟨"bngctr-", 0x4cc10420, 0xffe3ffff, 0x82000800, 0x800000000, [28]⟩,
   ⟨"blectrl-", 0x4cc10421, 0xffe3ffff, 0x82000800, 0x800000000, [28]⟩,
   ⟨"bngctrl-", 0x4cc10421, 0xffe3ffff, 0x82000800, 0x800000000, [28]⟩,
   ⟨"bnectr-", 0x4cc20420, 0xffe3ffff, 0x82000800, 0x800000000, [28]⟩,
   ⟨"bnectrl-", 0x4cc20421, 0xffe3ffff, 0x82000800, 0x800000000, [28]⟩,
   ⟨"bnsctr-", 0x4cc30420, 0xffe3ffff, 0x82000800, 0x800000000, [28]⟩,
   ⟨"bnuctr-", 0x4cc30420, 0xffe3ffff, 0x82000800, 0x800000000, [28]⟩,
   ⟨"bnsctrl-", 0x4cc30421, 0xffe3ffff, 0x82000800, 0x800000000, [28]⟩,
   ⟨"bnuctrl-", 0x4cc30421, 0xffe3ffff, 0x82000800, 0x800000000, [28]⟩,
   ⟨"bgectr+", 0x4ce00420, 0xffe3ffff, 0x82000800, 0x800000000, [28]⟩,
   ⟨"bnlctr+", 0x4ce00420, 0xffe3ffff, 0x82000800, 0x800000000, [28]⟩,
   ⟨"bgectrl+", 0x4ce00421, 0xffe3ffff, 0x82000800, 0x800000000, [28]⟩,
   ⟨"bnlctrl+", 0x4ce00421, 0xffe3ffff, 0x82000800, 0x800000000, [28]⟩,
   ⟨"blectr+", 0x4ce10420, 0xffe3ffff, 0x82000800, 0x800000000, [28]⟩,
   ⟨"bngctr+", 0x4ce10420, 0xffe3ffff, 0x82000800, 0x800000000, [28]⟩,
   ⟨"blectrl+", 0x4ce10421, 0xffe3ffff, 0x82000800, 0x800000000, [28]⟩,
   ⟨"bngctrl+", 0x4ce10421, 0xffe3ffff, 0x82000800, 0x800000000, [28]⟩,
   ⟨"bnectr+", 0x4ce20420, 0xffe3ffff, 0x82000800, 0x800000000, [28]⟩,
   ⟨"bnectrl+", 0x4ce20421, 0xffe3ffff, 0x82000800, 0x800000000, [28]⟩,
   ⟨"bnsctr+", 0x4ce30420, 0xffe3ffff, 0x82000800, 0x800000000, [28]⟩,
   ⟨"bnuctr+", 0x4ce30420, 0xffe3ffff, 0x82000800, 0x800000000, [28]⟩,
   ⟨"bnsctrl+", 0x4ce30421, 0xffe3ffff, 0x82000800, 0x800000000, [28]⟩,
   ⟨"bnuctrl+", 0x4ce30421, 0xffe3ffff, 0x82000800, 0x800000000, [28]⟩,
   ⟨"bltctr", 0x4d800420, 0xffe3ffff, 0x21, 0x800000000, [28]⟩,
   ⟨"bltctr-", 0x4d800420, 0xffe3ffff, 0x21, 0x882000800, [28]⟩,
   ⟨"bltctrl", 0x4d800421, 0xffe3ffff, 0x21, 0x800000000, [28]⟩,
   ⟨"bltctrl-", 0x4d800421, 0xffe3ffff, 0x21, 0x882000800, [28]⟩,
   ⟨"bgtctr", 0x4d810420, 0xffe3ffff, 0x21, 0x800000000, [28]⟩,
   ⟨"bgtctr-", 0x4d810420, 0xffe3ffff, 0x21, 0x882000800, [28]⟩,
   ⟨"bgtctrl", 0x4d810421, 0xffe3ffff, 0x21, 0x800000000, [28]⟩,
   ⟨"bgtctrl-", 0x4d810421, 0xffe3ffff, 0x21, 0x882000800, [28]⟩,
   ⟨"beqctr", 0x4d820420, 0xffe3ffff, 0x21, 0x800000000, [28]⟩,
   ⟨"beqctr-", 0x4d820420, 0xffe3ffff, 0x21, 0x882000800, [28]⟩,
   ⟨"beqctrl", 0x4d820421, 0xffe3ffff, 0x21, 0x800000000, [28]⟩,
   ⟨"beqctrl-", 0x4d820421, 0xffe3ffff, 0x21, 0x882000800, [28]⟩]

/-- ppc-opc.c:5082-5192. -/
def main15 : List Opcode :=
  [⟨"bsoctr", 0x4d830420, 0xffe3ffff, 0x21, 0x800000000, [28]⟩,
   ⟨"bsoctr-", 0x4d830420, 0xffe3ffff, 0x21, 0x882000800, [28]⟩,
   ⟨"bunctr", 0x4d830420, 0xffe3ffff, 0x21, 0x800000000, [28]⟩,
   ⟨"bunctr-", 0x4d830420, 0xffe3ffff, 0x21, 0x882000800, [28]⟩,
   ⟨"bsoctrl", 0x4d830421, 0xffe3ffff, 0x21, 0x800000000, [28]⟩,
   ⟨"bsoctrl-", 0x4d830421, 0xffe3ffff, 0x21, 0x882000800, [28]⟩,
   ⟨"bunctrl", 0x4d830421, 0xffe3ffff, 0x21, 0x800000000, [28]⟩,
   ⟨"bunctrl-", 0x4d830421, 0xffe3ffff, 0x21, 0x882000800, [28]⟩,
   ⟨"bltctr+", 0x4da00420, 0xffe3ffff, 0x21, 0x882000800, [28]⟩,
   ⟨"bltctrl+", 0x4da00421, 0xffe3ffff, 0x21, 0x882000800, [28]⟩,
   ⟨"bgtctr+", 0x4da10420, 0xffe3ffff, 0x21, 0x882000800, [28]⟩,
   ⟨"bgtctrl+", 0x4da10421, 0xffe3ffff, 0x21, 0x882000800, [28]⟩,
   ⟨"beqctr+", 0x4da20420, 0xffe3ffff, 0x21, 0x882000800, [28]⟩,
   ⟨"beqctrl+", 0x4da20421, 0xffe3ffff, 0x21, 0x882000800, [28]⟩,
   ⟨"bsoctr+", 0x4da30420, 0xffe3ffff, 0x21, 0x882000800, [28]⟩,
   ⟨"bunctr+", 0x4da30420, 0xffe3ffff, 0x21, 0x882000800, [28]⟩,
   ⟨"bsoctrl+", 0x4da30421, 0xffe3ffff, 0x21, 0x882000800, [28]⟩,
   ⟨"bunctrl+", 0x4da30421, 0xffe3ffff, 0x21, 0x882000800, [28]⟩,
   ⟨"bltctr-", 0x4dc00420, 0xffe3ffff, 0x82000800, 0x800000000, [28]⟩,
   ⟨"bltctrl-", 0x4dc00421, 0xffe3ffff, 0x82000800, 0x800000000, [28]⟩,
   ⟨"bgtctr-", 0x4dc10420, 0xffe3ffff, 0x82000800, 0x800000000, [28]⟩,
   ⟨"bgtctrl-", 0x4dc10421, 0xffe3ffff, 0x82000800, 0x800000000, [28]⟩,
   ⟨"beqctr-", 0x4dc20420, 0xffe3ffff, 0x82000800, 0x800000000, [28]⟩,
   ⟨"beqctrl-", 0x4dc20421, 0xffe3ffff, 0x82000800, 0x800000000, [28]⟩,
   ⟨"bsoctr-", 0x4dc30420, 0xffe3ffff, 0x82000800, 0x800000000, [28]⟩,
   ⟨"bunctr-", 0x4dc30420, 0xffe3ffff, 0x82000800, 0x800000000, [28]⟩,
   ⟨"bsoctrl-", 0x4dc30421, 0xffe3ffff, 0x82000800, 0x800000000, [28]⟩,
   ⟨"bunctrl-", 0x4dc30421, 0xffe3ffff, 0x82000800, 0x800000000, [28]⟩,
   ⟨"bltctr+", 0x4de00420, 0xffe3ffff, 0x82000800, 0x800000000, [28]⟩,
   ⟨"bltctrl+", 0x4de00421, 0xffe3ffff, 0x82000800, 0x800000000, [28]⟩,
   ⟨"bgtctr+", 0x4de10420, 0xffe3ffff, 0x82000800, 0x800000000, [28]⟩,
   ⟨"bgtctrl+", 0x4de10421, 0xffe3ffff, 0x82000800, 0x800000000, [28]⟩,
   ⟨"beqctr+", 0x4de20420, 0xffe3ffff, 0x82000800, 0x800000000, [28]⟩,
   ⟨"beqctrl+", 0x4de20421, 0xffe3ffff, 0x82000800, 0x800000000, [28]⟩,
   ⟨"bsoctr+", 0x4de30420, 0xffe3ffff, 0x82000800, 0x800000000, [28]⟩,
   ⟨"bunctr+", 0x4de30420, 0xffe3ffff, 0x82000800, 0x800000000, [28]⟩,
   ⟨"bsoctrl+", 0x4de30421, 0xffe3ffff, 0x82000800, 0x800000000, [28]⟩,
   ⟨"bunctrl+", 0x4de30421, 0xffe3ffff, 0x82000800, 0x800000000, [28]⟩,
   ⟨"bfctr", 0x4c800420, 0xffe0ffff, 0x21, 0x800000000, [1]⟩,
   ⟨"bfctr-", 0x4c800420, 0xffe0ffff, 0x21, 0x882000800, [1]⟩,
   ⟨"bfctrl", 0x4c800421, 0xffe0ffff, 0x21, 0x800000000, [1]⟩,
   ⟨"bfctrl-", 0x4c800421, 0xffe0ffff, 0x21, 0x882000800, [1]⟩,
   ⟨"bfctr+", 0x4ca00420, 0xffe0ffff, 0x21, 0x882000800, [1]⟩,
   ⟨"bfctrl+", 0x4ca00421, 0xffe0ffff, 0x21, 0x882000800, [1]⟩,
   ⟨"bfctr-", 0x4cc00420, 0xffe0ffff, 0x82000800, 0x800000000, [1]⟩,
   ⟨"bfctrl-", 0x4cc00421, 0xffe0ffff, 0x82000800, 0x800000000, [1]⟩,
   ⟨"bfctr+", 0x4ce00420, 0xffe0ffff, 0x82000800, 0x800000000, [1]⟩,
   ⟨"bfctrl+", 0x4ce00421, 0xffe0ffff, 0x82000800, 0x800000000, [1]⟩,
   ⟨"btctr", 0x4d800420, 0xffe0ffff, 0x21, 0x800000000, [1]⟩,
   ⟨"btctr-", 0x4d800420, 0xffe0ffff, 0x21, 0x882000800, [1]⟩,
   ⟨"btctrl", 0x4d800421, 0xffe0ffff, 0x21, 0x800000000, [1]⟩,
   ⟨"btctrl-", 0x4d800421, 0xffe0ffff, 0x21, 0x882000800, [1]⟩,
   ⟨"btctr+", 0x4da00420, 0xffe0ffff, 0x21, 0x882000800, [1]⟩,
   ⟨"btctrl+", 0x4da00421, 0xffe0ffff, 0x21, 0x882000800, [1]⟩,
   ⟨"btctr-", 0x4dc00420, 0xffe0ffff, 0x82000800, 0x800000000, [1]⟩,
   ⟨"btctrl-", 0x4dc00421, 0xffe0ffff, 0x82000800, 0x800000000, [1]⟩,
   ⟨"btctr+", 0x4de00420, 0xffe0ffff, 0x82000800, 0x800000000, [1]⟩,
   ⟨"btctrl+", 0x4de00421, 0xffe0ffff, 0x82000800, 0x800000000, [1]⟩,
   ⟨"bcctr-", 0x4c000420, 0xfc20ffff, 0x21, 0x800000000, [18, 1]⟩,
   ⟨"bcctrl-", 0x4c000421, 0xfc20ffff, 0x21, 0x800000000, [18, 1]⟩,
   ⟨"bcctr+", 0x4c200420, 0xfc20ffff, 0x21, 0x800000000, [18, 1]⟩,
   ⟨"bcctrl+", 0x4c200421, 0xfc20ffff, 0x21, 0x800000000, [18, 1]⟩,
   ⟨"bcctr", 0x4c000420, 0xfc00e7ff, 0x21, 0x800000000, [17, 1, 20]⟩,
   ⟨"bcc", 0x4c000420, 0xfc00ffff, 0x32, 0x800000000, [17, 1]⟩,
   ⟨"bcctrl", 0x4c000421, 0xfc00e7ff, 0x21, 0x800000000, [17, 1, 20]⟩,
   ⟨"bccl", 0x4c000421, 0xfc00ffff, 0x32, 0x800000000, [17, 1]⟩,
   ⟨"bctar-", 0x4c000460, 0xfc20ffff, 0x1000000000, 0x800000000, [18, 1]⟩,
   ⟨"bctarl-", 0x4c000461, 0xfc20ffff, 0x1000000000, 0x800000000, [18, 1]⟩,
   ⟨"bctar+", 0x4c200460, 0xfc20ffff, 0x1000000000, 0x800000000, [18, 1]⟩,
   ⟨"bctarl+", 0x4c200461, 0xfc20ffff, 0x1000000000, 0x800000000, [18, 1]⟩,
   ⟨"bctar", 0x4c000460, 0xfc00e7ff, 0x1000000000, 0x800000000, [17, 1, 20]⟩,
   ⟨"bctarl", 0x4c000461, 0xfc00e7ff, 0x1000000000, 0x800000000, [17, 1, 20]⟩,
   ⟨"rlwimi", 0x50000000, 0xfc000001, 0x21, 0x800000000, [74, 86, 99, 67, 66]⟩,
   ⟨"rlimi", 0x50000000, 0xfc000001, 0x32, 0x800000000, [74, 86, 99, 67, 66]⟩,
   ⟨"rlwimi.", 0x50000001, 0xfc000001, 0x21, 0x800000000, [74, 86, 99, 67, 66]⟩,
   ⟨"rlimi.", 0x50000001, 0xfc000001, 0x32, 0x800000000, [74, 86, 99, 67, 66]⟩,
   ⟨"rotlwi", 0x5400003e, 0xfc0007ff, 0x21, 0x800000000, [74, 86, 99]⟩,
   ⟨"clrlwi", 0x5400003e, 0xfc00f83f, 0x21, 0x800000000, [74, 86, 29]⟩,
   ⟨"rlwinm", 0x54000000, 0xfc000001, 0x21, 0x800000000, [74, 86, 99, 67, 66]⟩,
   ⟨"rlinm", 0x54000000, 0xfc000001, 0x32, 0x800000000, [74, 86, 99, 67, 66]⟩,
   ⟨"rotlwi.", 0x5400003f, 0xfc0007ff, 0x21, 0x800000000, [74, 86, 99]⟩,
   ⟨"clrlwi.", 0x5400003f, 0xfc00f83f, 0x21, 0x800000000, [74, 86, 29]⟩,
   ⟨"rlwinm.", 0x54000001, 0xfc000001, 0x21, 0x800000000, [74, 86, 99, 67, 66]⟩,
   ⟨"rlinm.", 0x54000001, 0xfc000001, 0x32, 0x800000000, [74, 86, 99, 67, 66]⟩,
   ⟨"rlmi", 0x58000000, 0xfc000001, 0x12, 0x800000000, [74, 86, 81, 67, 66]⟩,
   ⟨"rlmi.", 0x58000001, 0xfc000001, 0x12, 0x800000000, [74, 86, 81, 67, 66]⟩,
   ⟨"rotlw", 0x5c00003e, 0xfc0007ff, 0x21, 0x800000000, [74, 86, 81]⟩,
   ⟨"rlwnm", 0x5c000000, 0xfc000001, 0x21, 0x800000000, [74, 86, 81, 67, 66]⟩,
   ⟨"rlnm", 0x5c000000, 0xfc000001, 0x32, 0x800000000, [74, 86, 81, 67, 66]⟩,
   ⟨"rotlw.", 0x5c00003f, 0xfc0007ff, 0x21, 0x800000000, [74, 86, 81]⟩,
   ⟨"rlwnm.", 0x5c000001, 0xfc000001, 0x21, 0x800000000, [74, 86, 81, 67, 66]⟩,
   ⟨"rlnm.", 0x5c000001, 0xfc000001, 0x32, 0x800000000, [74, 86, 81, 67, 66]⟩,
   ⟨"nop", 0x60000000, 0xffffffff, 0x21, 0x800000000, []⟩,
   ⟨"ori", 0x60000000, 0xfc000000, 0x21, 0x800000000, [74, 86, 118]⟩,
   ⟨"oril", 0x60000000, 0xfc000000, 0x32, 0x800000000, [74, 86, 118]⟩,
   ⟨"oris", 0x64000000, 0xfc000000, 0x21, 0x800000000, [74, 86, 118]⟩,
   ⟨"oriu", 0x64000000, 0xfc000000, 0x32, 0x800000000, [74, 86, 118]⟩,
   ⟨"xnop", 0x68000000, 0xffffffff, 0x21, 0x800000000, []⟩,
   ⟨"xori", 0x68000000, 0xfc000000, 0x21, 0x800000000, [74, 86, 118]⟩,
   ⟨"xoril", 0x68000000, 0xfc000000, 0x32, 0x800000000, [74, 86, 118]⟩]

/-- ppc-opc.c:5194-5319. -/
def main16 : List Opcode :=
  [⟨"xoris", 0x6c000000, 0xfc000000, 0x21, 0x800000000, [74, 86, 118]⟩,
   ⟨"xoriu", 0x6c000000, 0xfc000000, 0x32, 0x800000000, [74, 86, 118]⟩,
   ⟨"andi.", 0x70000000, 0xfc000000, 0x21, 0x800000000, [74, 86, 118]⟩,
   ⟨"andil.", 0x70000000, 0xfc000000, 0x32, 0x800000000, [74, 86, 118]⟩,
   ⟨"andis.", 0x74000000, 0xfc000000, 0x21, 0x800000000, [74, 86, 118]⟩,
   ⟨"andiu.", 0x74000000, 0xfc000000, 0x32, 0x800000000, [74, 86, 118]⟩,
   ⟨"rotldi", 0x78000000, 0xfc0007fd, 0x88, 0x800000000, [74, 86, 103]⟩,
   ⟨"clrldi", 0x78000000, 0xfc00f81f, 0x88, 0x800000000, [74, 86, 69]⟩,
   ⟨"rldicl", 0x78000000, 0xfc00001d, 0x88, 0x800000000, [74, 86, 103, 69]⟩,
   ⟨"rotldi.", 0x78000001, 0xfc0007fd, 0x88, 0x800000000, [74, 86, 103]⟩,
   ⟨"clrldi.", 0x78000001, 0xfc00f81f, 0x88, 0x800000000, [74, 86, 69]⟩,
   ⟨"rldicl.", 0x78000001, 0xfc00001d, 0x88, 0x800000000, [74, 86, 103, 69]⟩,
   ⟨"rldicr", 0x78000004, 0xfc00001d, 0x88, 0x800000000, [74, 86, 103, 69]⟩,
   ⟨"rldicr.", 0x78000005, 0xfc00001d, 0x88, 0x800000000, [74, 86, 103, 69]⟩,
   ⟨"rldic", 0x78000008, 0xfc00001d, 0x88, 0x800000000, [74, 86, 103, 69]⟩,
   ⟨"rldic.", 0x78000009, 0xfc00001d, 0x88, 0x800000000, [74, 86, 103, 69]⟩,
   ⟨"rldimi", 0x7800000c, 0xfc00001d, 0x88, 0x800000000, [74, 86, 103, 69]⟩,
   ⟨"rldimi.", 0x7800000d, 0xfc00001d, 0x88, 0x800000000, [74, 86, 103, 69]⟩,
   ⟨"rotld", 0x78000010, 0xfc0007ff, 0x88, 0x800000000, [74, 86, 81]⟩,
   ⟨"rldcl", 0x78000010, 0xfc00001f, 0x88, 0x800000000, [74, 86, 81, 69]⟩,
   ⟨"rotld.", 0x78000011, 0xfc0007ff, 0x88, 0x800000000, [74, 86, 81]⟩,
   ⟨"rldcl.", 0x78000011, 0xfc00001f, 0x88, 0x800000000, [74, 86, 81, 69]⟩,
   ⟨"rldcr", 0x78000012, 0xfc00001f, 0x88, 0x800000000, [74, 86, 81, 69]⟩,
   ⟨"rldcr.", 0x78000013, 0xfc00001f, 0x88, 0x800000000, [74, 86, 81, 69]⟩,
   ⟨"cmpw", 0x7c000000, 0xfc6007ff, 0x21, 0x0, [15, 74, 81]⟩,
   ⟨"cmpd", 0x7c200000, 0xfc6007ff, 0x88, 0x0, [15, 74, 81]⟩,
   ⟨"cmp", 0x7c000000, 0xfc4007ff, 0x1, 0x0, [13, 59, 74, 81]⟩,
   ⟨"cmp", 0x7c000000, 0xfc6007ff, 0x32, 0x1, [13, 74, 81]⟩,
   ⟨"twlgt", 0x7c200008, 0xffe007ff, 0x21, 0x0, [74, 81]⟩,
   ⟨"tlgt", 0x7c200008, 0xffe007ff, 0x32, 0x0, [74, 81]⟩,
   ⟨"twllt", 0x7c400008, 0xffe007ff, 0x21, 0x0, [74, 81]⟩,
   ⟨"tllt", 0x7c400008, 0xffe007ff, 0x32, 0x0, [74, 81]⟩,
   ⟨"tweq", 0x7c800008, 0xffe007ff, 0x21, 0x0, [74, 81]⟩,
   ⟨"teq", 0x7c800008, 0xffe007ff, 0x32, 0x0, [74, 81]⟩,
   ⟨"twlge", 0x7ca00008, 0xffe007ff, 0x21, 0x0, [74, 81]⟩,
   ⟨"tlge", 0x7ca00008, 0xffe007ff, 0x32, 0x0, [74, 81]⟩,
   ⟨"twlnl", 0x7ca00008, 0xffe007ff, 0x21, 0x0, [74, 81]⟩,
   ⟨"tlnl", 0x7ca00008, 0xffe007ff, 0x32, 0x0, [74, 81]⟩,
   ⟨"twlle", 0x7cc00008, 0xffe007ff, 0x21, 0x0, [74, 81]⟩,
   ⟨"tlle", 0x7cc00008, 0xffe007ff, 0x32, 0x0, [74, 81]⟩,
   ⟨"twlng", 0x7cc00008, 0xffe007ff, 0x21, 0x0, [74, 81]⟩,
   ⟨"tlng", 0x7cc00008, 0xffe007ff, 0x32, 0x0, [74, 81]⟩,
   ⟨"twgt", 0x7d000008, 0xffe007ff, 0x21, 0x0, [74, 81]⟩,
   ⟨"tgt", 0x7d000008, 0xffe007ff, 0x32, 0x0, [74, 81]⟩,
   ⟨"twge", 0x7d800008, 0xffe007ff, 0x21, 0x0, [74, 81]⟩,
   ⟨"tge", 0x7d800008, 0xffe007ff, 0x32, 0x0, [74, 81]⟩,
   ⟨"twnl", 0x7d800008, 0xffe007ff, 0x21, 0x0, [74, 81]⟩,
   ⟨"tnl", 0x7d800008, 0xffe007ff, 0x32, 0x0, [74, 81]⟩,
   ⟨"twlt", 0x7e000008, 0xffe007ff, 0x21, 0x0, [74, 81]⟩,
   ⟨"tlt", 0x7e000008, 0xffe007ff, 0x32, 0x0, [74, 81]⟩,
   ⟨"twle", 0x7e800008, 0xffe007ff, 0x21, 0x0, [74, 81]⟩,
   ⟨"tle", 0x7e800008, 0xffe007ff, 0x32, 0x0, [74, 81]⟩,
   ⟨"twng", 0x7e800008, 0xffe007ff, 0x21, 0x0, [74, 81]⟩,
   ⟨"tng", 0x7e800008, 0xffe007ff, 0x32, 0x0, [74, 81]⟩,
   ⟨"twne", 0x7f000008, 0xffe007ff, 0x21, 0x0, [74, 81]⟩,
   ⟨"tne", 0x7f000008, 0xffe007ff, 0x32, 0x0, [74, 81]⟩,
   ⟨"trap", 0x7fe00008, 0xffffffff, 0x21, 0x0, []⟩,
   ⟨"twu", 0x7fe00008, 0xffe007ff, 0x21, 0x0, [74, 81]⟩,
   ⟨"tu", 0x7fe00008, 0xffe007ff, 0x32, 0x0, [74, 81]⟩,
   ⟨"tw", 0x7c000008, 0xfc0007ff, 0x21, 0x0, [117, 74, 81]⟩,
   ⟨"t", 0x7c000008, 0xfc0007ff, 0x32, 0x0, [117, 74, 81]⟩,
   ⟨"lvsl", 0x7c00000c, 0xfc0007ff, 0x100, 0x0, [126, 75, 81]⟩,
   ⟨"lvebx", 0x7c00000e, 0xfc0007ff, 0x100, 0x0, [126, 75, 81]⟩,
   ⟨"lbfcmx", 0x7c00000e, 0xfc0007ff, 0x4000000, 0x0, [158, 74, 81]⟩,
   ⟨"subfc", 0x7c000010, 0xfc0007ff, 0x21, 0x0, [86, 74, 81]⟩,
   ⟨"sf", 0x7c000010, 0xfc0007ff, 0x32, 0x0, [86, 74, 81]⟩,
   ⟨"subc", 0x7c000010, 0xfc0007ff, 0x21, 0x0, [86, 81, 74]⟩,
   ⟨"subfc.", 0x7c000011, 0xfc0007ff, 0x21, 0x0, [86, 74, 81]⟩,
   ⟨"sf.", 0x7c000011, 0xfc0007ff, 0x32, 0x0, [86, 74, 81]⟩,
   ⟨"subc.", 0x7c000011, 0xfc0007ff, 0x21, 0x0, [86, 81, 74]⟩,
   ⟨"mulhdu", 0x7c000012, 0xfc0007ff, 0x88, 0x0, [86, 74, 81]⟩,
   ⟨"mulhdu.", 0x7c000013, 0xfc0007ff, 0x88, 0x0, [86, 74, 81]⟩,
   ⟨"addc", 0x7c000014, 0xfc0007ff, 0x21, 0x0, [86, 74, 81]⟩,
   ⟨"a", 0x7c000014, 0xfc0007ff, 0x32, 0x0, [86, 74, 81]⟩,
   ⟨"addc.", 0x7c000015, 0xfc0007ff, 0x21, 0x0, [86, 74, 81]⟩,
   ⟨"a.", 0x7c000015, 0xfc0007ff, 0x32, 0x0, [86, 74, 81]⟩,
   ⟨"mulhwu", 0x7c000016, 0xfc0007ff, 0x1, 0x0, [86, 74, 81]⟩,
   ⟨"mulhwu.", 0x7c000017, 0xfc0007ff, 0x1, 0x0, [86, 74, 81]⟩,
   ⟨"lxsiwzx", 0x7c000018, 0xfc0007fe, 0x1000000000, 0x0, [168, 75, 81]⟩,
   ⟨"isellt", 0x7c00001e, 0xfc0007ff, 0x2000, 0x0, [86, 75, 81]⟩,
   ⟨"tlbilxlpid", 0x7c000024, 0xffe007ff, 0x22000000, 0x0, []⟩,
   ⟨"tlbilxpid", 0x7c200024, 0xffe007ff, 0x22000000, 0x0, []⟩,
   ⟨"tlbilxva", 0x7c600024, 0xffe007ff, 0x22000000, 0x0, [75, 81]⟩,
   ⟨"tlbilx", 0x7c000024, 0xfc0007ff, 0x22000000, 0x0, [113, 75, 81]⟩,
   ⟨"mfcr", 0x7c000026, 0xfc100fff, 0x23, 0x0, [86, 55]⟩,
   ⟨"mfocrf", 0x7c100026, 0xfc100fff, 0x23, 0x0, [86, 54]⟩,
   ⟨"lwarx", 0x7c000028, 0xfc0007fe, 0x1, 0x0, [86, 75, 81, 156]⟩,
   ⟨"ldx", 0x7c00002a, 0xfc0007ff, 0x88, 0x0, [86, 75, 81]⟩,
   ⟨"icbt", 0x7c00002c, 0xfc0007ff, 0x60200400, 0x0, [33, 75, 81]⟩,
   ⟨"lwzx", 0x7c00002e, 0xfc0007ff, 0x21, 0x0, [86, 75, 81]⟩,
   ⟨"lx", 0x7c00002e, 0xfc0007ff, 0x32, 0x0, [86, 74, 81]⟩,
   ⟨"slw", 0x7c000030, 0xfc0007ff, 0x21, 0x0, [74, 86, 81]⟩,
   ⟨"sl", 0x7c000030, 0xfc0007ff, 0x32, 0x0, [74, 86, 81]⟩,
   ⟨"slw.", 0x7c000031, 0xfc0007ff, 0x21, 0x0, [74, 86, 81]⟩,
   ⟨"sl.", 0x7c000031, 0xfc0007ff, 0x32, 0x0, [74, 86, 81]⟩,
   ⟨"cntlzw", 0x7c000034, 0xfc00ffff, 0x21, 0x0, [74, 86]⟩,
   ⟨"cntlz", 0x7c000034, 0xfc00ffff, 0x32, 0x0, [74, 86]⟩,
   ⟨"cntlzw.", 0x7c000035, 0xfc00ffff, 0x21, 0x0, [74, 86]⟩,
   ⟨"cntlz.", 0x7c000035, 0xfc00ffff, 0x32, 0x0, [74, 86]⟩,
   ⟨"sld", 0x7c000036, 0xfc0007ff, 0x88, 0x0, [74, 86, 81]⟩]

/-- ppc-opc.c:5320-5470. -/
def main17 : List Opcode :=
  [⟨"sld.", 0x7c000037, 0xfc0007ff, 0x88, 0x0, [74, 86, 81]⟩,
   ⟨"and", 0x7c000038, 0xfc0007ff, 0x23, 0x0, [74, 86, 81]⟩,
   ⟨"and.", 0x7c000039, 0xfc0007ff, 0x23, 0x0, [74, 86, 81]⟩,
   ⟨"maskg", 0x7c00003a, 0xfc0007ff, 0x12, 0x20000000, [74, 86, 81]⟩,
   ⟨"maskg.", 0x7c00003b, 0xfc0007ff, 0x12, 0x20000000, [74, 86, 81]⟩,
   ⟨"ldepx", 0x7c00003a, 0xfc0007ff, 0x22000000, 0x0, [86, 75, 81]⟩,
   ⟨"waitasec", 0x7c00003c, 0xffffffff, 0x1000000000, 0x10000000000, []⟩,
   ⟨"wait", 0x7c00003c, 0xff9fffff, 0x10000000000, 0x0, [65]⟩,
   ⟨"lwepx", 0x7c00003e, 0xfc0007ff, 0x22000000, 0x0, [86, 75, 81]⟩,
   ⟨"cmplw", 0x7c000040, 0xfc6007ff, 0x21, 0x0, [15, 74, 81]⟩,
   ⟨"cmpld", 0x7c200040, 0xfc6007ff, 0x88, 0x0, [15, 74, 81]⟩,
   ⟨"cmpl", 0x7c000040, 0xfc4007ff, 0x1, 0x0, [13, 59, 74, 81]⟩,
   ⟨"cmpl", 0x7c000040, 0xfc6007ff, 0x32, 0x1, [13, 74, 81]⟩,
   ⟨"lvsr", 0x7c00004c, 0xfc0007ff, 0x100, 0x0, [126, 75, 81]⟩,
   ⟨"lvehx", 0x7c00004e, 0xfc0007ff, 0x100, 0x0, [126, 75, 81]⟩,
   ⟨"lhfcmx", 0x7c00004e, 0xfc0007ff, 0x4000000, 0x0, [158, 74, 81]⟩,
   ⟨"mviwsplt", 0x7c00005c, 0xfc0007ff, 0x200000000, 0x0, [126, 74, 81]⟩,
   ⟨"iselgt", 0x7c00005e, 0xfc0007ff, 0x2000, 0x0, [86, 75, 81]⟩,
   ⟨"lvewx", 0x7c00008e, 0xfc0007ff, 0x100, 0x0, [126, 75, 81]⟩,
   ⟨"addg6s", 0x7c000094, 0xfc0007ff, 0x400000, 0x0, [86, 74, 81]⟩,
   ⟨"lxsiwax", 0x7c000098, 0xfc0007fe, 0x1000000000, 0x0, [168, 75, 81]⟩,
   ⟨"iseleq", 0x7c00009e, 0xfc0007ff, 0x2000, 0x0, [86, 75, 81]⟩,
   ⟨"isel", 0x7c00001e, 0xfc00003e, 0x80002000, 0x0, [86, 75, 81, 29]⟩,
   ⟨"subf", 0x7c000050, 0xfc0007ff, 0x1, 0x0, [86, 74, 81]⟩,
   ⟨"sub", 0x7c000050, 0xfc0007ff, 0x1, 0x0, [86, 81, 74]⟩,
   ⟨"subf.", 0x7c000051, 0xfc0007ff, 0x1, 0x0, [86, 74, 81]⟩,
   ⟨"sub.", 0x7c000051, 0xfc0007ff, 0x1, 0x0, [86, 81, 74]⟩,
   ⟨"mfvsrd", 0x7c000066, 0xfc00fffe, 0x1000000000, 0x0, [74, 168]⟩,
   ⟨"mffprd", 0x7c000066, 0xfc00ffff, 0x1000000000, 0x0, [74, 52]⟩,
   ⟨"mfvrd", 0x7c000067, 0xfc00ffff, 0x1000000000, 0x0, [74, 126]⟩,
   ⟨"eratilx", 0x7c000066, 0xfc0007ff, 0x20000000, 0x0, [177, 74, 81]⟩,
   ⟨"lbarx", 0x7c000068, 0xfc0007fe, 0x1200000000, 0x0, [86, 75, 81, 156]⟩,
   ⟨"ldux", 0x7c00006a, 0xfc0007ff, 0x88, 0x0, [86, 77, 81]⟩,
   ⟨"dcbst", 0x7c00006c, 0xffe007ff, 0x1, 0x0, [75, 81]⟩,
   ⟨"lwzux", 0x7c00006e, 0xfc0007ff, 0x21, 0x0, [86, 77, 81]⟩,
   ⟨"lux", 0x7c00006e, 0xfc0007ff, 0x32, 0x0, [86, 74, 81]⟩,
   ⟨"cntlzd", 0x7c000074, 0xfc00ffff, 0x88, 0x0, [74, 86]⟩,
   ⟨"cntlzd.", 0x7c000075, 0xfc00ffff, 0x88, 0x0, [74, 86]⟩,
   ⟨"andc", 0x7c000078, 0xfc0007ff, 0x23, 0x0, [74, 86, 81]⟩,
   ⟨"andc.", 0x7c000079, 0xfc0007ff, 0x23, 0x0, [74, 86, 81]⟩,
   ⟨"waitrsv", 0x7c20007c, 0xffffffff, 0x22000000, 0x0, []⟩,
   ⟨"waitimpl", 0x7c40007c, 0xffffffff, 0x22000000, 0x0, []⟩,
   ⟨"wait", 0x7c00007c, 0xff9fffff, 0x22000000, 0x0, [65]⟩,
   ⟨"dcbstep", 0x7c00007e, 0xffe007ff, 0x22000000, 0x0, [75, 81]⟩,
   ⟨"tdlgt", 0x7c200088, 0xffe007ff, 0x88, 0x0, [74, 81]⟩,
   ⟨"tdllt", 0x7c400088, 0xffe007ff, 0x88, 0x0, [74, 81]⟩,
   ⟨"tdeq", 0x7c800088, 0xffe007ff, 0x88, 0x0, [74, 81]⟩,
   ⟨"tdlge", 0x7ca00088, 0xffe007ff, 0x88, 0x0, [74, 81]⟩,
   ⟨"tdlnl", 0x7ca00088, 0xffe007ff, 0x88, 0x0, [74, 81]⟩,
   ⟨"tdlle", 0x7cc00088, 0xffe007ff, 0x88, 0x0, [74, 81]⟩,
   ⟨"tdlng", 0x7cc00088, 0xffe007ff, 0x88, 0x0, [74, 81]⟩,
   ⟨"tdgt", 0x7d000088, 0xffe007ff, 0x88, 0x0, [74, 81]⟩,
   ⟨"tdge", 0x7d800088, 0xffe007ff, 0x88, 0x0, [74, 81]⟩,
   ⟨"tdnl", 0x7d800088, 0xffe007ff, 0x88, 0x0, [74, 81]⟩,
   ⟨"tdlt", 0x7e000088, 0xffe007ff, 0x88, 0x0, [74, 81]⟩,
   ⟨"tdle", 0x7e800088, 0xffe007ff, 0x88, 0x0, [74, 81]⟩,
   ⟨"tdng", 0x7e800088, 0xffe007ff, 0x88, 0x0, [74, 81]⟩,
   ⟨"tdne", 0x7f000088, 0xffe007ff, 0x88, 0x0, [74, 81]⟩,
   ⟨"tdu", 0x7fe00088, 0xffe007ff, 0x88, 0x0, [74, 81]⟩,
   ⟨"td", 0x7c000088, 0xfc0007ff, 0x88, 0x0, [117, 74, 81]⟩,
   ⟨"lwfcmx", 0x7c00008e, 0xfc0007ff, 0x4000000, 0x0, [158, 74, 81]⟩,
   ⟨"mulhd", 0x7c000092, 0xfc0007ff, 0x88, 0x0, [86, 74, 81]⟩,
   ⟨"mulhd.", 0x7c000093, 0xfc0007ff, 0x88, 0x0, [86, 74, 81]⟩,
   ⟨"mulhw", 0x7c000096, 0xfc0007ff, 0x1, 0x0, [86, 74, 81]⟩,
   ⟨"mulhw.", 0x7c000097, 0xfc0007ff, 0x1, 0x0, [86, 74, 81]⟩,
   ⟨"dlmzb", 0x7c00009c, 0xfc0007ff, 0xc0080200, 0x0, [74, 86, 81]⟩,
   ⟨"dlmzb.", 0x7c00009d, 0xfc0007ff, 0xc0080200, 0x0, [74, 86, 81]⟩,
   ⟨"mtsrd", 0x7c0000a4, 0xfc10ffff, 0x88, 0x0, [112, 86]⟩,
   ⟨"mfmsr", 0x7c0000a6, 0xfc1fffff, 0x23, 0x0, [86]⟩,
   ⟨"ldarx", 0x7c0000a8, 0xfc0007fe, 0x88, 0x0, [86, 75, 81, 156]⟩,
   ⟨"dcbfl", 0x7c2000ac, 0xffe007ff, 0x100000, 0x40000000, [75, 81]⟩,
   ⟨"dcbf", 0x7c0000ac, 0xff8007ff, 0x1, 0x0, [75, 81, 60]⟩,
   ⟨"lbzx", 0x7c0000ae, 0xfc0007ff, 0x23, 0x0, [86, 75, 81]⟩,
   ⟨"lbepx", 0x7c0000be, 0xfc0007ff, 0x22000000, 0x0, [86, 75, 81]⟩,
   ⟨"dni", 0x7c0000c3, 0xfc00ffff, 0x200000000, 0x0, [117, 128]⟩,
   ⟨"lvx", 0x7c0000ce, 0xfc0007ff, 0x100, 0x0, [126, 75, 81]⟩,
   ⟨"lqfcmx", 0x7c0000ce, 0xfc0007ff, 0x4000000, 0x0, [158, 74, 81]⟩,
   ⟨"neg", 0x7c0000d0, 0xfc00ffff, 0x23, 0x0, [86, 74]⟩,
   ⟨"neg.", 0x7c0000d1, 0xfc00ffff, 0x23, 0x0, [86, 74]⟩,
   ⟨"mul", 0x7c0000d6, 0xfc0007ff, 0x12, 0x0, [86, 74, 81]⟩,
   ⟨"mul.", 0x7c0000d7, 0xfc0007ff, 0x12, 0x0, [86, 74, 81]⟩,
   ⟨"mvidsplt", 0x7c0000dc, 0xfc0007ff, 0x200000000, 0x0, [126, 74, 81]⟩,
   ⟨"mtsrdin", 0x7c0000e4, 0xfc1f07ff, 0x88, 0x0, [86, 81]⟩,
   ⟨"mffprwz", 0x7c0000e6, 0xfc00ffff, 0x1000000000, 0x0, [74, 52]⟩,
   ⟨"mfvrwz", 0x7c0000e7, 0xfc00ffff, 0x1000000000, 0x0, [74, 126]⟩,
   ⟨"mfvsrwz", 0x7c0000e6, 0xfc00fffe, 0x1000000000, 0x0, [74, 168]⟩,
   ⟨"lharx", 0x7c0000e8, 0xfc0007fe, 0x1200000000, 0x0, [86, 75, 81, 156]⟩,
   ⟨"clf", 0x7c0000ec, 0xffe007ff, 0x2, 0x0, [74, 81]⟩,
   ⟨"lbzux", 0x7c0000ee, 0xfc0007ff, 0x23, 0x0, [86, 77, 81]⟩,
   ⟨"popcntb", 0x7c0000f4, 0xfc00ffff, 0x100000, 0x0, [74, 86]⟩,
   ⟨"not", 0x7c0000f8, 0xfc0007ff, 0x23, 0x0, [74, 82]⟩,
   ⟨"nor", 0x7c0000f8, 0xfc0007ff, 0x23, 0x0, [74, 86, 81]⟩,
   ⟨"not.", 0x7c0000f9, 0xfc0007ff, 0x23, 0x0, [74, 82]⟩,
   ⟨"nor.", 0x7c0000f9, 0xfc0007ff, 0x23, 0x0, [74, 86, 81]⟩,
   ⟨"dcbfep", 0x7c0000fe, 0xffe007ff, 0x22000000, 0x0, [75, 81]⟩,
   ⟨"setb", 0x7c000100, 0xfc03ffff, 0x10000000000, 0x0, [86, 16]⟩,
   ⟨"wrtee", 0x7c000106, 0xfc1fffff, 0x60000600, 0x0, [86]⟩,
   ⟨"dcbtstls", 0x7c00010c, 0xfc0007ff, 0xc0020000, 0x0, [33, 75, 81]⟩,
   ⟨"stvebx", 0x7c00010e, 0xfc0007ff, 0x100, 0x0, [126, 75, 81]⟩,
   ⟨"stbfcmx", 0x7c00010e, 0xfc0007ff, 0x4000000, 0x0, [158, 74, 81]⟩]

/-- ppc-opc.c:5472-5621. -/
def main18 : List Opcode :=
  [⟨"subfe", 0x7c000110, 0xfc0007ff, 0x21, 0x0, [86, 74, 81]⟩,
   ⟨"sfe", 0x7c000110, 0xfc0007ff, 0x32, 0x0, [86, 74, 81]⟩,
   ⟨"subfe.", 0x7c000111, 0xfc0007ff, 0x21, 0x0, [86, 74, 81]⟩,
   ⟨"sfe.", 0x7c000111, 0xfc0007ff, 0x32, 0x0, [86, 74, 81]⟩,
   ⟨"adde", 0x7c000114, 0xfc0007ff, 0x21, 0x0, [86, 74, 81]⟩,
   ⟨"ae", 0x7c000114, 0xfc0007ff, 0x32, 0x0, [86, 74, 81]⟩,
   ⟨"adde.", 0x7c000115, 0xfc0007ff, 0x21, 0x0, [86, 74, 81]⟩,
   ⟨"ae.", 0x7c000115, 0xfc0007ff, 0x32, 0x0, [86, 74, 81]⟩,
   ⟨"stxsiwx", 0x7c000118, 0xfc0007fe, 0x1000000000, 0x0, [168, 75, 81]⟩,
   ⟨"msgsndp", 0x7c00011c, 0xffff07ff, 0x1000000000, 0x0, [81]⟩,
   ⟨"dcbtstlse", 0x7c00011c, 0xfc0007ff, 0x20000, 0x2000000, [33, 75, 81]⟩,
   ⟨"mtcr", 0x7c0ff120, 0xfc1fffff, 0x23, 0x0, [86]⟩,
   ⟨"mtcrf", 0x7c000120, 0xfc100fff, 0x23, 0x0, [54, 86]⟩,
   ⟨"mtocrf", 0x7c100120, 0xfc100fff, 0x23, 0x0, [54, 86]⟩,
   ⟨"mtmsr", 0x7c000124, 0xfc1effff, 0x23, 0x0, [86, 147]⟩,
   ⟨"mtsle", 0x7c000126, 0xffdfffff, 0x1000000000, 0x0, [57]⟩,
   ⟨"eratsx", 0x7c000126, 0xfc0007ff, 0x20000000, 0x0, [86, 75, 81]⟩,
   ⟨"eratsx.", 0x7c000127, 0xfc0007ff, 0x20000000, 0x0, [86, 75, 81]⟩,
   ⟨"stdx", 0x7c00012a, 0xfc0007ff, 0x88, 0x0, [86, 75, 81]⟩,
   ⟨"stwcx.", 0x7c00012d, 0xfc0007ff, 0x1, 0x0, [86, 75, 81]⟩,
   ⟨"stwx", 0x7c00012e, 0xfc0007ff, 0x21, 0x0, [86, 75, 81]⟩,
   ⟨"stx", 0x7c00012e, 0xfc0007ff, 0x32, 0x0, [86, 74, 81]⟩,
   ⟨"slq", 0x7c000130, 0xfc0007ff, 0x12, 0x0, [74, 86, 81]⟩,
   ⟨"slq.", 0x7c000131, 0xfc0007ff, 0x12, 0x0, [74, 86, 81]⟩,
   ⟨"sle", 0x7c000132, 0xfc0007ff, 0x12, 0x0, [74, 86, 81]⟩,
   ⟨"sle.", 0x7c000133, 0xfc0007ff, 0x12, 0x0, [74, 86, 81]⟩,
   ⟨"prtyw", 0x7c000134, 0xfc00ffff, 0x60400000, 0x0, [74, 86]⟩,
   ⟨"stdepx", 0x7c00013a, 0xfc0007ff, 0x22000000, 0x0, [86, 75, 81]⟩,
   ⟨"stwepx", 0x7c00013e, 0xfc0007ff, 0x22000000, 0x0, [86, 75, 81]⟩,
   ⟨"wrteei", 0x7c000146, 0xffff7fff, 0x60000600, 0x0, [43]⟩,
   ⟨"dcbtls", 0x7c00014c, 0xfc0007ff, 0xc0020000, 0x0, [33, 75, 81]⟩,
   ⟨"stvehx", 0x7c00014e, 0xfc0007ff, 0x100, 0x0, [126, 75, 81]⟩,
   ⟨"sthfcmx", 0x7c00014e, 0xfc0007ff, 0x4000000, 0x0, [158, 74, 81]⟩,
   ⟨"addex", 0x7c000154, 0xfc0001ff, 0x10000000000, 0x0, [86, 74, 81, 148]⟩,
   ⟨"msgclrp", 0x7c00015c, 0xffff07ff, 0x1000000000, 0x0, [81]⟩,
   ⟨"dcbtlse", 0x7c00015c, 0xfc0007ff, 0x20000, 0x2000000, [33, 75, 81]⟩,
   ⟨"mtmsrd", 0x7c000164, 0xfc1effff, 0x88, 0x0, [86, 147]⟩,
   ⟨"mtvsrd", 0x7c000166, 0xfc00fffe, 0x1000000000, 0x0, [168, 74]⟩,
   ⟨"mtfprd", 0x7c000166, 0xfc00ffff, 0x1000000000, 0x0, [52, 74]⟩,
   ⟨"mtvrd", 0x7c000167, 0xfc00ffff, 0x1000000000, 0x0, [126, 74]⟩,
   ⟨"eratre", 0x7c000166, 0xfc0007ff, 0x20000000, 0x0, [86, 74, 142]⟩,
   ⟨"stdux", 0x7c00016a, 0xfc0007ff, 0x88, 0x0, [86, 79, 81]⟩,
   ⟨"stqcx.", 0x7c00016d, 0xfc2007ff, 0x1000000000, 0x0, [88, 75, 81]⟩,
   ⟨"wchkall", 0x7c00016c, 0xfc0007ff, 0x20000000, 0x0, [15]⟩,
   ⟨"stwux", 0x7c00016e, 0xfc0007ff, 0x21, 0x0, [86, 79, 81]⟩,
   ⟨"stux", 0x7c00016e, 0xfc0007ff, 0x32, 0x0, [86, 75, 81]⟩,
   ⟨"sliq", 0x7c000170, 0xfc0007ff, 0x12, 0x0, [74, 86, 99]⟩,
   ⟨"sliq.", 0x7c000171, 0xfc0007ff, 0x12, 0x0, [74, 86, 99]⟩,
   ⟨"prtyd", 0x7c000174, 0xfc00ffff, 0x20400000, 0x0, [74, 86]⟩,
   ⟨"cmprb", 0x7c000180, 0xfc4007ff, 0x10000000000, 0x0, [13, 57, 74, 81]⟩,
   ⟨"icblq.", 0x7c00018d, 0xfc0007ff, 0x200000000, 0x0, [33, 75, 81]⟩,
   ⟨"stvewx", 0x7c00018e, 0xfc0007ff, 0x100, 0x0, [126, 75, 81]⟩,
   ⟨"stwfcmx", 0x7c00018e, 0xfc0007ff, 0x4000000, 0x0, [158, 74, 81]⟩,
   ⟨"subfze", 0x7c000190, 0xfc00ffff, 0x21, 0x0, [86, 74]⟩,
   ⟨"sfze", 0x7c000190, 0xfc00ffff, 0x32, 0x0, [86, 74]⟩,
   ⟨"subfze.", 0x7c000191, 0xfc00ffff, 0x21, 0x0, [86, 74]⟩,
   ⟨"sfze.", 0x7c000191, 0xfc00ffff, 0x32, 0x0, [86, 74]⟩,
   ⟨"addze", 0x7c000194, 0xfc00ffff, 0x21, 0x0, [86, 74]⟩,
   ⟨"aze", 0x7c000194, 0xfc00ffff, 0x32, 0x0, [86, 74]⟩,
   ⟨"addze.", 0x7c000195, 0xfc00ffff, 0x21, 0x0, [86, 74]⟩,
   ⟨"aze.", 0x7c000195, 0xfc00ffff, 0x32, 0x0, [86, 74]⟩,
   ⟨"msgsnd", 0x7c00019c, 0xffff07ff, 0x1022000000, 0x0, [81]⟩,
   ⟨"mtsr", 0x7c0001a4, 0xfc10ffff, 0x23, 0x82004808, [112, 86]⟩,
   ⟨"mtfprwa", 0x7c0001a6, 0xfc00ffff, 0x1000000000, 0x0, [52, 74]⟩,
   ⟨"mtvrwa", 0x7c0001a7, 0xfc00ffff, 0x1000000000, 0x0, [126, 74]⟩,
   ⟨"mtvsrwa", 0x7c0001a6, 0xfc00fffe, 0x1000000000, 0x0, [168, 74]⟩,
   ⟨"eratwe", 0x7c0001a6, 0xfc0007ff, 0x20000000, 0x0, [86, 74, 142]⟩,
   ⟨"ldawx.", 0x7c0001a9, 0xfc0007ff, 0x20000000, 0x0, [86, 75, 81]⟩,
   ⟨"stdcx.", 0x7c0001ad, 0xfc0007ff, 0x88, 0x0, [86, 75, 81]⟩,
   ⟨"stbx", 0x7c0001ae, 0xfc0007ff, 0x23, 0x0, [86, 75, 81]⟩,
   ⟨"sllq", 0x7c0001b0, 0xfc0007ff, 0x12, 0x0, [74, 86, 81]⟩,
   ⟨"sllq.", 0x7c0001b1, 0xfc0007ff, 0x12, 0x0, [74, 86, 81]⟩,
   ⟨"sleq", 0x7c0001b2, 0xfc0007ff, 0x12, 0x0, [74, 86, 81]⟩,
   ⟨"sleq.", 0x7c0001b3, 0xfc0007ff, 0x12, 0x0, [74, 86, 81]⟩,
   ⟨"stbepx", 0x7c0001be, 0xfc0007ff, 0x22000000, 0x0, [86, 75, 81]⟩,
   ⟨"cmpeqb", 0x7c0001c0, 0xfc6007ff, 0x10000000000, 0x0, [13, 74, 81]⟩,
   ⟨"icblc", 0x7c0001cc, 0xfc0007ff, 0xc0020000, 0x0, [33, 75, 81]⟩,
   ⟨"stvx", 0x7c0001ce, 0xfc0007ff, 0x100, 0x0, [126, 75, 81]⟩,
   ⟨"stqfcmx", 0x7c0001ce, 0xfc0007ff, 0x4000000, 0x0, [158, 74, 81]⟩,
   ⟨"subfme", 0x7c0001d0, 0xfc00ffff, 0x21, 0x0, [86, 74]⟩,
   ⟨"sfme", 0x7c0001d0, 0xfc00ffff, 0x32, 0x0, [86, 74]⟩,
   ⟨"subfme.", 0x7c0001d1, 0xfc00ffff, 0x21, 0x0, [86, 74]⟩,
   ⟨"sfme.", 0x7c0001d1, 0xfc00ffff, 0x32, 0x0, [86, 74]⟩,
   ⟨"mulld", 0x7c0001d2, 0xfc0007ff, 0x88, 0x0, [86, 74, 81]⟩,
   ⟨"mulld.", 0x7c0001d3, 0xfc0007ff, 0x88, 0x0, [86, 74, 81]⟩,
   ⟨"addme", 0x7c0001d4, 0xfc00ffff, 0x21, 0x0, [86, 74]⟩,
   ⟨"ame", 0x7c0001d4, 0xfc00ffff, 0x32, 0x0, [86, 74]⟩,
   ⟨"addme.", 0x7c0001d5, 0xfc00ffff, 0x21, 0x0, [86, 74]⟩,
   ⟨"ame.", 0x7c0001d5, 0xfc00ffff, 0x32, 0x0, [86, 74]⟩,
   ⟨"mullw", 0x7c0001d6, 0xfc0007ff, 0x21, 0x0, [86, 74, 81]⟩,
   ⟨"muls", 0x7c0001d6, 0xfc0007ff, 0x32, 0x0, [86, 74, 81]⟩,
   ⟨"mullw.", 0x7c0001d7, 0xfc0007ff, 0x21, 0x0, [86, 74, 81]⟩,
   ⟨"muls.", 0x7c0001d7, 0xfc0007ff, 0x32, 0x0, [86, 74, 81]⟩,
   ⟨"icblce", 0x7c0001dc, 0xfc0007ff, 0x20000, 0x22000000, [33, 74, 81]⟩,
   ⟨"msgclr", 0x7c0001dc, 0xffff07ff, 0x1022000000, 0x0, [81]⟩,
   ⟨"mtsrin", 0x7c0001e4, 0xfc1f07ff, 0x1, 0x82004808, [86, 81]⟩,
   ⟨"mtsri", 0x7c0001e4, 0xfc1f07ff, 0x2, 0x82004808, [86, 81]⟩,
   ⟨"mtfprwz", 0x7c0001e6, 0xfc00ffff, 0x1000000000, 0x0, [52, 74]⟩,
   ⟨"mtvrwz", 0x7c0001e7, 0xfc00ffff, 0x1000000000, 0x0, [126, 74]⟩,
   ⟨"mtvsrwz", 0x7c0001e6, 0xfc00fffe, 0x1000000000, 0x0, [168, 74]⟩]

/-- ppc-opc.c:5623-5763. -/
def main19 : List Opcode :=
  [⟨"dcbtstt", 0x7e0001ec, 0xffe007ff, 0x10000000, 0x0, [75, 81]⟩,
   ⟨"dcbtst", 0x7c0001ec, 0xfc0007ff, 0x800, 0x162000000, [75, 81, 33]⟩,
   ⟨"dcbtst", 0x7c0001ec, 0xfc0007ff, 0x162000000, 0x0, [33, 75, 81]⟩,
   ⟨"dcbtst", 0x7c0001ec, 0xfc0007ff, 0x1, 0x162000800, [75, 81]⟩,
   ⟨"stbux", 0x7c0001ee, 0xfc0007ff, 0x23, 0x0, [86, 79, 81]⟩,
   ⟨"slliq", 0x7c0001f0, 0xfc0007ff, 0x12, 0x0, [74, 86, 99]⟩,
   ⟨"slliq.", 0x7c0001f1, 0xfc0007ff, 0x12, 0x0, [74, 86, 99]⟩,
   ⟨"bpermd", 0x7c0001f8, 0xfc0007ff, 0x30000000, 0x0, [74, 86, 81]⟩,
   ⟨"dcbtstep", 0x7c0001fe, 0xfc0007ff, 0x22000000, 0x0, [86, 75, 81]⟩,
   ⟨"mfdcrx", 0x7c000206, 0xfc0007ff, 0x60000400, 0x80000000, [86, 74]⟩,
   ⟨"mfdcrx.", 0x7c000207, 0xfc0007ff, 0x20000000, 0x0, [86, 74]⟩,
   ⟨"lvexbx", 0x7c00020a, 0xfc0007ff, 0x200000000, 0x0, [126, 75, 81]⟩,
   ⟨"icbt", 0x7c00020c, 0xffe007ff, 0x200, 0x0, [74, 81]⟩,
   ⟨"lvepxl", 0x7c00020e, 0xfc0007ff, 0x200000000, 0x0, [126, 75, 81]⟩,
   ⟨"ldfcmx", 0x7c00020e, 0xfc0007ff, 0x4000000, 0x0, [158, 74, 81]⟩,
   ⟨"doz", 0x7c000210, 0xfc0007ff, 0x12, 0x0, [86, 74, 81]⟩,
   ⟨"doz.", 0x7c000211, 0xfc0007ff, 0x12, 0x0, [86, 74, 81]⟩,
   ⟨"modud", 0x7c000212, 0xfc0007ff, 0x10000000000, 0x0, [86, 74, 81]⟩,
   ⟨"add", 0x7c000214, 0xfc0007ff, 0x21, 0x0, [86, 74, 81]⟩,
   ⟨"cax", 0x7c000214, 0xfc0007ff, 0x32, 0x0, [86, 74, 81]⟩,
   ⟨"add.", 0x7c000215, 0xfc0007ff, 0x21, 0x0, [86, 74, 81]⟩,
   ⟨"cax.", 0x7c000215, 0xfc0007ff, 0x32, 0x0, [86, 74, 81]⟩,
   ⟨"moduw", 0x7c000216, 0xfc0007ff, 0x10000000000, 0x0, [86, 74, 81]⟩,
   ⟨"lxvx", 0x7c000218, 0xfc0007fe, 0x10000000000, 0x0, [168, 75, 81]⟩,
   ⟨"lxvl", 0x7c00021a, 0xfc0007fe, 0x10000000000, 0x0, [168, 75, 81]⟩,
   ⟨"ehpriv", 0x7c00021c, 0xffffffff, 0x22000000, 0x0, []⟩,
   ⟨"tlbiel", 0x7c000224, 0xfc1007ff, 0x10000000000, 0x0, [81, 89, 150, 151, 147]⟩,
   ⟨"tlbiel", 0x7c000224, 0xffdf07ff, 0x800, 0x10040000000, [81, 58]⟩,
   ⟨"mfapidi", 0x7c000226, 0xfc0007ff, 0x400, 0x180000000, [86, 74]⟩,
   ⟨"lqarx", 0x7c000228, 0xfc2007fe, 0x1000000000, 0x0, [88, 76, 83, 156]⟩,
   ⟨"lscbx", 0x7c00022a, 0xfc0007ff, 0x12, 0x0, [86, 74, 81]⟩,
   ⟨"lscbx.", 0x7c00022b, 0xfc0007ff, 0x12, 0x0, [86, 74, 81]⟩,
   ⟨"dcbtt", 0x7e00022c, 0xffe007ff, 0x10000000, 0x0, [75, 81]⟩,
   ⟨"dcbt", 0x7c00022c, 0xfc0007ff, 0x800, 0x162000000, [75, 81, 33]⟩,
   ⟨"dcbt", 0x7c00022c, 0xfc0007ff, 0x162000000, 0x0, [33, 75, 81]⟩,
   ⟨"dcbt", 0x7c00022c, 0xfc0007ff, 0x1, 0x162000800, [75, 81]⟩,
   ⟨"lhzx", 0x7c00022e, 0xfc0007ff, 0x23, 0x0, [86, 75, 81]⟩,
   ⟨"cdtbcd", 0x7c000234, 0xfc00ffff, 0x400000, 0x0, [74, 86]⟩,
   ⟨"eqv", 0x7c000238, 0xfc0007ff, 0x23, 0x0, [74, 86, 81]⟩,
   ⟨"eqv.", 0x7c000239, 0xfc0007ff, 0x23, 0x0, [74, 86, 81]⟩,
   ⟨"lhepx", 0x7c00023e, 0xfc0007ff, 0x22000000, 0x0, [86, 75, 81]⟩,
   ⟨"mfdcrux", 0x7c000246, 0xfc0007ff, 0x40080000, 0x0, [86, 74]⟩,
   ⟨"lvexhx", 0x7c00024a, 0xfc0007ff, 0x200000000, 0x0, [126, 75, 81]⟩,
   ⟨"lvepx", 0x7c00024e, 0xfc0007ff, 0x200000000, 0x0, [126, 75, 81]⟩,
   ⟨"lxvll", 0x7c00025a, 0xfc0007fe, 0x10000000000, 0x0, [168, 75, 81]⟩,
   ⟨"mfbhrbe", 0x7c00025c, 0xfc0007ff, 0x1000000000, 0x0, [86, 40]⟩,
   ⟨"tlbie", 0x7c000264, 0xfc1007ff, 0x10000000000, 0x80000000, [81, 86, 150, 151, 147]⟩,
   ⟨"tlbie", 0x7c000264, 0xfc1f07ff, 0x10000000, 0x10080000000, [81, 86]⟩,
   ⟨"tlbie", 0x7c000264, 0xffdf07ff, 0x1, 0x190000000, [81, 58]⟩,
   ⟨"tlbi", 0x7c000264, 0xffe007ff, 0x2, 0x0, [75, 81]⟩,
   ⟨"mfvsrld", 0x7c000266, 0xfc00fffe, 0x10000000000, 0x0, [74, 168]⟩,
   ⟨"ldmx", 0x7c00026a, 0xfc0007ff, 0x10000000000, 0x0, [86, 75, 81]⟩,
   ⟨"eciwx", 0x7c00026c, 0xfc0007ff, 0x1, 0x180000000, [86, 75, 81]⟩,
   ⟨"lhzux", 0x7c00026e, 0xfc0007ff, 0x23, 0x0, [86, 77, 81]⟩,
   ⟨"cbcdtd", 0x7c000274, 0xfc00ffff, 0x400000, 0x0, [74, 86]⟩,
   ⟨"xor", 0x7c000278, 0xfc0007ff, 0x23, 0x0, [74, 86, 81]⟩,
   ⟨"xor.", 0x7c000279, 0xfc0007ff, 0x23, 0x0, [74, 86, 81]⟩,
   ⟨"dcbtep", 0x7c00027e, 0xfc0007ff, 0x22000000, 0x0, [86, 75, 81]⟩,
   ⟨"mfexisr", 0x7c001286, 0xfc1fffff, 0x200, 0x0, [86]⟩,
   ⟨"mfexier", 0x7c021286, 0xfc1fffff, 0x200, 0x0, [86]⟩,
   ⟨"mfbr0", 0x7c002286, 0xfc1fffff, 0x200, 0x0, [86]⟩,
   ⟨"mfbr1", 0x7c012286, 0xfc1fffff, 0x200, 0x0, [86]⟩,
   ⟨"mfbr2", 0x7c022286, 0xfc1fffff, 0x200, 0x0, [86]⟩,
   ⟨"mfbr3", 0x7c032286, 0xfc1fffff, 0x200, 0x0, [86]⟩,
   ⟨"mfbr4", 0x7c042286, 0xfc1fffff, 0x200, 0x0, [86]⟩,
   ⟨"mfbr5", 0x7c052286, 0xfc1fffff, 0x200, 0x0, [86]⟩,
   ⟨"mfbr6", 0x7c062286, 0xfc1fffff, 0x200, 0x0, [86]⟩,
   ⟨"mfbr7", 0x7c072286, 0xfc1fffff, 0x200, 0x0, [86]⟩,
   ⟨"mfbear", 0x7c102286, 0xfc1fffff, 0x200, 0x0, [86]⟩,
   ⟨"mfbesr", 0x7c112286, 0xfc1fffff, 0x200, 0x0, [86]⟩,
   ⟨"mfiocr", 0x7c002a86, 0xfc1fffff, 0x200, 0x0, [86]⟩,
   ⟨"mfdmacr0", 0x7c003286, 0xfc1fffff, 0x200, 0x0, [86]⟩,
   ⟨"mfdmact0", 0x7c013286, 0xfc1fffff, 0x200, 0x0, [86]⟩,
   ⟨"mfdmada0", 0x7c023286, 0xfc1fffff, 0x200, 0x0, [86]⟩,
   ⟨"mfdmasa0", 0x7c033286, 0xfc1fffff, 0x200, 0x0, [86]⟩,
   ⟨"mfdmacc0", 0x7c043286, 0xfc1fffff, 0x200, 0x0, [86]⟩,
   ⟨"mfdmacr1", 0x7c083286, 0xfc1fffff, 0x200, 0x0, [86]⟩,
   ⟨"mfdmact1", 0x7c093286, 0xfc1fffff, 0x200, 0x0, [86]⟩,
   ⟨"mfdmada1", 0x7c0a3286, 0xfc1fffff, 0x200, 0x0, [86]⟩,
   ⟨"mfdmasa1", 0x7c0b3286, 0xfc1fffff, 0x200, 0x0, [86]⟩,
   ⟨"mfdmacc1", 0x7c0c3286, 0xfc1fffff, 0x200, 0x0, [86]⟩,
   ⟨"mfdmacr2", 0x7c103286, 0xfc1fffff, 0x200, 0x0, [86]⟩,
   ⟨"mfdmact2", 0x7c113286, 0xfc1fffff, 0x200, 0x0, [86]⟩,
   ⟨"mfdmada2", 0x7c123286, 0xfc1fffff, 0x200, 0x0, [86]⟩,
   ⟨"mfdmasa2", 0x7c133286, 0xfc1fffff, 0x200, 0x0, [86]⟩,
   ⟨"mfdmacc2", 0x7c143286, 0xfc1fffff, 0x200, 0x0, [86]⟩,
   ⟨"mfdmacr3", 0x7c183286, 0xfc1fffff, 0x200, 0x0, [86]⟩,
   ⟨"mfdmact3", 0x7c193286, 0xfc1fffff, 0x200, 0x0, [86]⟩,
   ⟨"mfdmada3", 0x7c1a3286, 0xfc1fffff, 0x200, 0x0, [86]⟩,
   ⟨"mfdmasa3", 0x7c1b3286, 0xfc1fffff, 0x200, 0x0, [86]⟩,
   ⟨"mfdmacc3", 0x7c1c3286, 0xfc1fffff, 0x200, 0x0, [86]⟩,
   ⟨"mfdmasr", 0x7c003a86, 0xfc1fffff, 0x200, 0x0, [86]⟩,
   ⟨"mfdcr", 0x7c000286, 0xfc0007ff, 0x60000600, 0x180000000, [86, 108]⟩,
   ⟨"mfdcr.", 0x7c000287, 0xfc0007ff, 0x20000000, 0x0, [86, 108]⟩,
   ⟨"lvexwx", 0x7c00028a, 0xfc0007ff, 0x200000000, 0x0, [126, 75, 81]⟩,
   ⟨"dcread", 0x7c00028c, 0xfc0007ff, 0xc0000000, 0x0, [86, 75, 81]⟩,
   ⟨"div", 0x7c000296, 0xfc0007ff, 0x12, 0x0, [86, 74, 81]⟩,
   ⟨"div.", 0x7c000297, 0xfc0007ff, 0x12, 0x0, [86, 74, 81]⟩,
   ⟨"lxvdsx", 0x7c000298, 0xfc0007fe, 0x8000000, 0x0, [168, 75, 81]⟩,
   ⟨"mfpmr", 0x7c00029c, 0xfc0007ff, 0x210000, 0x0, [86, 108]⟩]

/-- ppc-opc.c:5764-5865. -/
def main20 : List Opcode :=
  [⟨"mftmr", 0x7c0002dc, 0xfc0007ff, 0x400000000, 0x0, [86, 108]⟩,
   ⟨"slbsync", 0x7c0002a4, 0xffffffff, 0x10000000000, 0x0, []⟩,
   ⟨"mfmq", 0x7c0002a6, 0xfc1fffff, 0x12, 0x0, [86]⟩,
   ⟨"mfxer", 0x7c0102a6, 0xfc1fffff, 0x23, 0x0, [86]⟩,
   ⟨"mfrtcu", 0x7c0402a6, 0xfc1fffff, 0x23, 0x80000000, [86]⟩,
   ⟨"mfrtcl", 0x7c0502a6, 0xfc1fffff, 0x23, 0x80000000, [86]⟩,
   ⟨"mfdec", 0x7c0602a6, 0xfc1fffff, 0x2, 0x0, [86]⟩,
   ⟨"mflr", 0x7c0802a6, 0xfc1fffff, 0x23, 0x0, [86]⟩,
   ⟨"mfctr", 0x7c0902a6, 0xfc1fffff, 0x23, 0x0, [86]⟩,
   ⟨"mfdscr", 0x7c1102a6, 0xfc1fffff, 0x400000, 0x0, [86]⟩,
   ⟨"mftid", 0x7c1102a6, 0xfc1fffff, 0x2, 0x0, [86]⟩,
   ⟨"mfdsisr", 0x7c1202a6, 0xfc1fffff, 0x23, 0x80000000, [86]⟩,
   ⟨"mfdar", 0x7c1302a6, 0xfc1fffff, 0x23, 0x80000000, [86]⟩,
   ⟨"mfdec", 0x7c1602a6, 0xfc1fffff, 0x80000411, 0x2, [86]⟩,
   ⟨"mfsdr0", 0x7c1802a6, 0xfc1fffff, 0x2, 0x0, [86]⟩,
   ⟨"mfsdr1", 0x7c1902a6, 0xfc1fffff, 0x23, 0x80000000, [86]⟩,
   ⟨"mfsrr0", 0x7c1a02a6, 0xfc1fffff, 0x23, 0x0, [86]⟩,
   ⟨"mfsrr1", 0x7c1b02a6, 0xfc1fffff, 0x23, 0x0, [86]⟩,
   ⟨"mfcfar", 0x7c1c02a6, 0xfc1fffff, 0x400000, 0x0, [86]⟩,
   ⟨"mfpid", 0x7c100aa6, 0xfc1fffff, 0x400, 0x0, [86]⟩,
   ⟨"mfcsrr0", 0x7c1a0aa6, 0xfc1fffff, 0x400, 0x0, [86]⟩,
   ⟨"mfcsrr1", 0x7c1b0aa6, 0xfc1fffff, 0x400, 0x0, [86]⟩,
   ⟨"mfdear", 0x7c1d0aa6, 0xfc1fffff, 0x400, 0x0, [86]⟩,
   ⟨"mfesr", 0x7c1e0aa6, 0xfc1fffff, 0x400, 0x0, [86]⟩,
   ⟨"mfivpr", 0x7c1f0aa6, 0xfc1fffff, 0x400, 0x0, [86]⟩,
   ⟨"mfctrl", 0x7c0822a6, 0xfc1fffff, 0x800, 0x0, [86]⟩,
   ⟨"mfcmpa", 0x7c1022a6, 0xfc1fffff, 0x8000000000, 0x0, [86]⟩,
   ⟨"mfcmpb", 0x7c1122a6, 0xfc1fffff, 0x8000000000, 0x0, [86]⟩,
   ⟨"mfcmpc", 0x7c1222a6, 0xfc1fffff, 0x8000000000, 0x0, [86]⟩,
   ⟨"mfcmpd", 0x7c1322a6, 0xfc1fffff, 0x8000000000, 0x0, [86]⟩,
   ⟨"mficr", 0x7c1422a6, 0xfc1fffff, 0x8000000000, 0x0, [86]⟩,
   ⟨"mfder", 0x7c1522a6, 0xfc1fffff, 0x8000000000, 0x0, [86]⟩,
   ⟨"mfcounta", 0x7c1622a6, 0xfc1fffff, 0x8000000000, 0x0, [86]⟩,
   ⟨"mfcountb", 0x7c1722a6, 0xfc1fffff, 0x8000000000, 0x0, [86]⟩,
   ⟨"mfcmpe", 0x7c1822a6, 0xfc1fffff, 0x8000000000, 0x0, [86]⟩,
   ⟨"mfcmpf", 0x7c1922a6, 0xfc1fffff, 0x8000000000, 0x0, [86]⟩,
   ⟨"mfcmpg", 0x7c1a22a6, 0xfc1fffff, 0x8000000000, 0x0, [86]⟩,
   ⟨"mfcmph", 0x7c1b22a6, 0xfc1fffff, 0x8000000000, 0x0, [86]⟩,
   ⟨"mflctrl1", 0x7c1c22a6, 0xfc1fffff, 0x8000000000, 0x0, [86]⟩,
   ⟨"mflctrl2", 0x7c1d22a6, 0xfc1fffff, 0x8000000000, 0x0, [86]⟩,
   ⟨"mfictrl", 0x7c1e22a6, 0xfc1fffff, 0x8000000000, 0x0, [86]⟩,
   ⟨"mfbar", 0x7c1f22a6, 0xfc1fffff, 0x8000000000, 0x0, [86]⟩,
   ⟨"mfvrsave", 0x7c0042a6, 0xfc1fffff, 0x100, 0x0, [86]⟩,
   ⟨"mfusprg0", 0x7c0042a6, 0xfc1fffff, 0x400, 0x0, [86]⟩,
   ⟨"mfsprg", 0x7c0042a6, 0xfc00ffff, 0x1, 0x0, [86, 111]⟩,
   ⟨"mfsprg4", 0x7c0442a6, 0xfc1fffff, 0x4000400, 0x0, [86]⟩,
   ⟨"mfsprg5", 0x7c0542a6, 0xfc1fffff, 0x4000400, 0x0, [86]⟩,
   ⟨"mfsprg6", 0x7c0642a6, 0xfc1fffff, 0x4000400, 0x0, [86]⟩,
   ⟨"mfsprg7", 0x7c0742a6, 0xfc1fffff, 0x4000400, 0x0, [86]⟩,
   ⟨"mftbu", 0x7c0d42a6, 0xfc1fffff, 0xc00, 0x0, [86]⟩,
   ⟨"mftb", 0x7c0002a6, 0xfc0007ff, 0xc00, 0x0, [86, 116]⟩,
   ⟨"mftbl", 0x7c0c42a6, 0xfc1fffff, 0xc00, 0x0, [86]⟩,
   ⟨"mfsprg0", 0x7c1042a6, 0xfc1fffff, 0x1, 0x0, [86]⟩,
   ⟨"mfsprg1", 0x7c1142a6, 0xfc1fffff, 0x1, 0x0, [86]⟩,
   ⟨"mfsprg2", 0x7c1242a6, 0xfc1fffff, 0x1, 0x0, [86]⟩,
   ⟨"mfsprg3", 0x7c1342a6, 0xfc1fffff, 0x1, 0x0, [86]⟩,
   ⟨"mfasr", 0x7c1842a6, 0xfc1fffff, 0x88, 0x0, [86]⟩,
   ⟨"mfear", 0x7c1a42a6, 0xfc1fffff, 0x1, 0x80000000, [86]⟩,
   ⟨"mfpir", 0x7c1e42a6, 0xfc1fffff, 0x400, 0x0, [86]⟩,
   ⟨"mfpvr", 0x7c1f42a6, 0xfc1fffff, 0x1, 0x0, [86]⟩,
   ⟨"mfdbsr", 0x7c104aa6, 0xfc1fffff, 0x400, 0x0, [86]⟩,
   ⟨"mfdbcr0", 0x7c144aa6, 0xfc1fffff, 0x400, 0x0, [86]⟩,
   ⟨"mfdbcr1", 0x7c154aa6, 0xfc1fffff, 0x400, 0x0, [86]⟩,
   ⟨"mfdbcr2", 0x7c164aa6, 0xfc1fffff, 0x400, 0x0, [86]⟩,
   ⟨"mfiac1", 0x7c184aa6, 0xfc1fffff, 0x400, 0x0, [86]⟩,
   ⟨"mfiac2", 0x7c194aa6, 0xfc1fffff, 0x400, 0x0, [86]⟩,
   ⟨"mfiac3", 0x7c1a4aa6, 0xfc1fffff, 0x400, 0x0, [86]⟩,
   ⟨"mfiac4", 0x7c1b4aa6, 0xfc1fffff, 0x400, 0x0, [86]⟩,
   ⟨"mfdac1", 0x7c1c4aa6, 0xfc1fffff, 0x400, 0x0, [86]⟩,
   ⟨"mfdac2", 0x7c1d4aa6, 0xfc1fffff, 0x400, 0x0, [86]⟩,
   ⟨"mfdvc1", 0x7c1e4aa6, 0xfc1fffff, 0x400, 0x0, [86]⟩,
   ⟨"mfdvc2", 0x7c1f4aa6, 0xfc1fffff, 0x400, 0x0, [86]⟩,
   ⟨"mftsr", 0x7c1052a6, 0xfc1fffff, 0x400, 0x0, [86]⟩,
   ⟨"mftcr", 0x7c1452a6, 0xfc1fffff, 0x400, 0x0, [86]⟩,
   ⟨"mfivor0", 0x7c1062a6, 0xfc1fffff, 0x400, 0x0, [86]⟩,
   ⟨"mfivor1", 0x7c1162a6, 0xfc1fffff, 0x400, 0x0, [86]⟩,
   ⟨"mfivor2", 0x7c1262a6, 0xfc1fffff, 0x400, 0x0, [86]⟩,
   ⟨"mfivor3", 0x7c1362a6, 0xfc1fffff, 0x400, 0x0, [86]⟩,
   ⟨"mfivor4", 0x7c1462a6, 0xfc1fffff, 0x400, 0x0, [86]⟩,
   ⟨"mfivor5", 0x7c1562a6, 0xfc1fffff, 0x400, 0x0, [86]⟩,
   ⟨"mfivor6", 0x7c1662a6, 0xfc1fffff, 0x400, 0x0, [86]⟩,
   ⟨"mfivor7", 0x7c1762a6, 0xfc1fffff, 0x400, 0x0, [86]⟩,
   ⟨"mfivor8", 0x7c1862a6, 0xfc1fffff, 0x400, 0x0, [86]⟩,
   ⟨"mfivor9", 0x7c1962a6, 0xfc1fffff, 0x400, 0x0, [86]⟩,
   ⟨"mfivor10", 0x7c1a62a6, 0xfc1fffff, 0x400, 0x0, [86]⟩,
   ⟨"mfivor11", 0x7c1b62a6, 0xfc1fffff, 0x400, 0x0, [86]⟩,
   ⟨"mfivor12", 0x7c1c62a6, 0xfc1fffff, 0x400, 0x0, [86]⟩,
   ⟨"mfivor13", 0x7c1d62a6, 0xfc1fffff, 0x400, 0x0, [86]⟩,
   ⟨"mfivor14", 0x7c1e62a6, 0xfc1fffff, 0x400, 0x0, [86]⟩,
   ⟨"mfivor15", 0x7c1f62a6, 0xfc1fffff, 0x400, 0x0, [86]⟩,
   ⟨"mfspefscr", 0x7c0082a6, 0xfc1fffff, 0x1000, 0x0, [86]⟩,
   ⟨"mfbbear", 0x7c0182a6, 0xfc1fffff, 0x8000, 0x0, [86]⟩,
   ⟨"mfbbtar", 0x7c0282a6, 0xfc1fffff, 0x8000, 0x0, [86]⟩,
   ⟨"mfivor32", 0x7c1082a6, 0xfc1fffff, 0x200001000, 0x0, [86]⟩,
   ⟨"mfivor33", 0x7c1182a6, 0xfc1fffff, 0x200001000, 0x0, [86]⟩,
   ⟨"mfivor34", 0x7c1282a6, 0xfc1fffff, 0x1000, 0x0, [86]⟩,
   ⟨"mfivor35", 0x7c1382a6, 0xfc1fffff, 0x10000, 0x0, [86]⟩,
   ⟨"mfibatu", 0x7c1082a6, 0xfc19f7ff, 0x1, 0x80000000, [86, 109]⟩,
   ⟨"mfibatl", 0x7c1182a6, 0xfc19f7ff, 0x1, 0x80000000, [86, 109]⟩,
   ⟨"mfdbatu", 0x7c1882a6, 0xfc19f7ff, 0x1, 0x80000000, [86, 109]⟩]

/-- ppc-opc.c:5866-5965. -/
def main21 : List Opcode :=
  [⟨"mfdbatl", 0x7c1982a6, 0xfc19f7ff, 0x1, 0x80000000, [86, 109]⟩,
   ⟨"mfic_cst", 0x7c108aa6, 0xfc1fffff, 0x8000000000, 0x0, [86]⟩,
   ⟨"mfic_adr", 0x7c118aa6, 0xfc1fffff, 0x8000000000, 0x0, [86]⟩,
   ⟨"mfic_dat", 0x7c128aa6, 0xfc1fffff, 0x8000000000, 0x0, [86]⟩,
   ⟨"mfdc_cst", 0x7c188aa6, 0xfc1fffff, 0x8000000000, 0x0, [86]⟩,
   ⟨"mfdc_adr", 0x7c198aa6, 0xfc1fffff, 0x8000000000, 0x0, [86]⟩,
   ⟨"mfdc_dat", 0x7c1a8aa6, 0xfc1fffff, 0x8000000000, 0x0, [86]⟩,
   ⟨"mfmcsrr0", 0x7c1a8aa6, 0xfc1fffff, 0x40000, 0x0, [86]⟩,
   ⟨"mfmcsrr1", 0x7c1b8aa6, 0xfc1fffff, 0x40000, 0x0, [86]⟩,
   ⟨"mfmcsr", 0x7c1c8aa6, 0xfc1fffff, 0x40000, 0x0, [86]⟩,
   ⟨"mfmcar", 0x7c1d8aa6, 0xfc1fffff, 0x40000, 0x80000000, [86]⟩,
   ⟨"mfdpdr", 0x7c169aa6, 0xfc1fffff, 0x8000000000, 0x0, [86]⟩,
   ⟨"mfdpir", 0x7c179aa6, 0xfc1fffff, 0x8000000000, 0x0, [86]⟩,
   ⟨"mfimmr", 0x7c1e9aa6, 0xfc1fffff, 0x8000000000, 0x0, [86]⟩,
   ⟨"mfupmc1", 0x7c03c2a6, 0xfc1fffff, 0x10000000000, 0x0, [86]⟩,
   ⟨"mfpmc1", 0x7c03c2a6, 0xfc1fffff, 0x10000000000, 0x0, [86]⟩,
   ⟨"mfupmc2", 0x7c04c2a6, 0xfc1fffff, 0x10000000000, 0x0, [86]⟩,
   ⟨"mfpmc2", 0x7c04c2a6, 0xfc1fffff, 0x10000000000, 0x0, [86]⟩,
   ⟨"mfupmc3", 0x7c05c2a6, 0xfc1fffff, 0x10000000000, 0x0, [86]⟩,
   ⟨"mfpmc3", 0x7c05c2a6, 0xfc1fffff, 0x10000000000, 0x0, [86]⟩,
   ⟨"mfupmc4", 0x7c06c2a6, 0xfc1fffff, 0x10000000000, 0x0, [86]⟩,
   ⟨"mfpmc4", 0x7c06c2a6, 0xfc1fffff, 0x10000000000, 0x0, [86]⟩,
   ⟨"mfupmc5", 0x7c07c2a6, 0xfc1fffff, 0x10000000000, 0x0, [86]⟩,
   ⟨"mfpmc5", 0x7c07c2a6, 0xfc1fffff, 0x10000000000, 0x0, [86]⟩,
   ⟨"mfupmc6", 0x7c08c2a6, 0xfc1fffff, 0x10000000000, 0x0, [86]⟩,
   ⟨"mfpmc6", 0x7c08c2a6, 0xfc1fffff, 0x10000000000, 0x0, [86]⟩,
   ⟨"mfmi_ctr", 0x7c10c2a6, 0xfc1fffff, 0x8000000000, 0x0, [86]⟩,
   ⟨"mfmi_ap", 0x7c12c2a6, 0xfc1fffff, 0x8000000000, 0x0, [86]⟩,
   ⟨"mfmi_epn", 0x7c13c2a6, 0xfc1fffff, 0x8000000000, 0x0, [86]⟩,
   ⟨"mfmi_twc", 0x7c15c2a6, 0xfc1fffff, 0x8000000000, 0x0, [86]⟩,
   ⟨"mfmi_rpn", 0x7c16c2a6, 0xfc1fffff, 0x8000000000, 0x0, [86]⟩,
   ⟨"mfmd_ctr", 0x7c18c2a6, 0xfc1fffff, 0x8000000000, 0x0, [86]⟩,
   ⟨"mfm_casid", 0x7c19c2a6, 0xfc1fffff, 0x8000000000, 0x0, [86]⟩,
   ⟨"mfmd_ap", 0x7c1ac2a6, 0xfc1fffff, 0x8000000000, 0x0, [86]⟩,
   ⟨"mfmd_epn", 0x7c1bc2a6, 0xfc1fffff, 0x8000000000, 0x0, [86]⟩,
   ⟨"mfmd_twb", 0x7c1cc2a6, 0xfc1fffff, 0x8000000000, 0x0, [86]⟩,
   ⟨"mfmd_twc", 0x7c1dc2a6, 0xfc1fffff, 0x8000000000, 0x0, [86]⟩,
   ⟨"mfmd_rpn", 0x7c1ec2a6, 0xfc1fffff, 0x8000000000, 0x0, [86]⟩,
   ⟨"mfm_tw", 0x7c1fc2a6, 0xfc1fffff, 0x8000000000, 0x0, [86]⟩,
   ⟨"mfmi_dbcam", 0x7c10caa6, 0xfc1fffff, 0x8000000000, 0x0, [86]⟩,
   ⟨"mfmi_dbram0", 0x7c11caa6, 0xfc1fffff, 0x8000000000, 0x0, [86]⟩,
   ⟨"mfmi_dbram1", 0x7c12caa6, 0xfc1fffff, 0x8000000000, 0x0, [86]⟩,
   ⟨"mfmd_dbcam", 0x7c18caa6, 0xfc1fffff, 0x8000000000, 0x0, [86]⟩,
   ⟨"mfmd_dbram0", 0x7c19caa6, 0xfc1fffff, 0x8000000000, 0x0, [86]⟩,
   ⟨"mfmd_dbram1", 0x7c1acaa6, 0xfc1fffff, 0x8000000000, 0x0, [86]⟩,
   ⟨"mfivndx", 0x7c10daa6, 0xfc1fffff, 0x80000000, 0x0, [86]⟩,
   ⟨"mfdvndx", 0x7c11daa6, 0xfc1fffff, 0x80000000, 0x0, [86]⟩,
   ⟨"mfivlim", 0x7c12daa6, 0xfc1fffff, 0x80000000, 0x0, [86]⟩,
   ⟨"mfdvlim", 0x7c13daa6, 0xfc1fffff, 0x80000000, 0x0, [86]⟩,
   ⟨"mfclcsr", 0x7c14daa6, 0xfc1fffff, 0x80000000, 0x0, [86]⟩,
   ⟨"mfccr1", 0x7c18daa6, 0xfc1fffff, 0x80000000, 0x0, [86]⟩,
   ⟨"mfppr", 0x7c00e2a6, 0xfc1fffff, 0x10000000, 0x0, [86]⟩,
   ⟨"mfppr32", 0x7c02e2a6, 0xfc1fffff, 0x10000000, 0x0, [86]⟩,
   ⟨"mfgqr", 0x7c10e2a6, 0xfc18ffff, 0x1000000, 0x0, [86, 110]⟩,
   ⟨"mfhid2", 0x7c18e2a6, 0xfc1fffff, 0x2000000000, 0x0, [86]⟩,
   ⟨"mfwpar", 0x7c19e2a6, 0xfc1fffff, 0x2000000000, 0x0, [86]⟩,
   ⟨"mfdmau", 0x7c1ae2a6, 0xfc1fffff, 0x2000000000, 0x0, [86]⟩,
   ⟨"mfdmal", 0x7c1be2a6, 0xfc1fffff, 0x2000000000, 0x0, [86]⟩,
   ⟨"mfrstcfg", 0x7c1be2a6, 0xfc1fffff, 0x80000000, 0x0, [86]⟩,
   ⟨"mfdcdbtrl", 0x7c1ce2a6, 0xfc1fffff, 0x80000000, 0x0, [86]⟩,
   ⟨"mfdcdbtrh", 0x7c1de2a6, 0xfc1fffff, 0x80000000, 0x0, [86]⟩,
   ⟨"mficdbtr", 0x7c1fe2a6, 0xfc1fffff, 0x80000000, 0x0, [86]⟩,
   ⟨"mfummcr0", 0x7c08eaa6, 0xfc1fffff, 0x2000000000, 0x0, [86]⟩,
   ⟨"mfupmc1", 0x7c09eaa6, 0xfc1fffff, 0x2000000000, 0x0, [86]⟩,
   ⟨"mfupmc2", 0x7c0aeaa6, 0xfc1fffff, 0x2000000000, 0x0, [86]⟩,
   ⟨"mfusia", 0x7c0beaa6, 0xfc1fffff, 0x2000000000, 0x0, [86]⟩,
   ⟨"mfummcr1", 0x7c0ceaa6, 0xfc1fffff, 0x2000000000, 0x0, [86]⟩,
   ⟨"mfupmc3", 0x7c0deaa6, 0xfc1fffff, 0x2000000000, 0x0, [86]⟩,
   ⟨"mfupmc4", 0x7c0eeaa6, 0xfc1fffff, 0x2000000000, 0x0, [86]⟩,
   ⟨"mfzpr", 0x7c10eaa6, 0xfc1fffff, 0x200, 0x0, [86]⟩,
   ⟨"mfpid", 0x7c11eaa6, 0xfc1fffff, 0x200, 0x0, [86]⟩,
   ⟨"mfmmucr", 0x7c12eaa6, 0xfc1fffff, 0x80000000, 0x0, [86]⟩,
   ⟨"mfccr0", 0x7c13eaa6, 0xfc1fffff, 0x84000000, 0x0, [86]⟩,
   ⟨"mfiac3", 0x7c14eaa6, 0xfc1fffff, 0x4000000, 0x0, [86]⟩,
   ⟨"mfiac4", 0x7c15eaa6, 0xfc1fffff, 0x4000000, 0x0, [86]⟩,
   ⟨"mfdvc1", 0x7c16eaa6, 0xfc1fffff, 0x4000000, 0x0, [86]⟩,
   ⟨"mfdvc2", 0x7c17eaa6, 0xfc1fffff, 0x4000000, 0x0, [86]⟩,
   ⟨"mfmmcr0", 0x7c18eaa6, 0xfc1fffff, 0x2000000000, 0x0, [86]⟩,
   ⟨"mfpmc1", 0x7c19eaa6, 0xfc1fffff, 0x2000000000, 0x0, [86]⟩,
   ⟨"mfsgr", 0x7c19eaa6, 0xfc1fffff, 0x200, 0x0, [86]⟩,
   ⟨"mfdcwr", 0x7c1aeaa6, 0xfc1fffff, 0x200, 0x0, [86]⟩,
   ⟨"mfpmc2", 0x7c1aeaa6, 0xfc1fffff, 0x2000000000, 0x0, [86]⟩,
   ⟨"mfsia", 0x7c1beaa6, 0xfc1fffff, 0x2000000000, 0x0, [86]⟩,
   ⟨"mfsler", 0x7c1beaa6, 0xfc1fffff, 0x4000000, 0x0, [86]⟩,
   ⟨"mfmmcr1", 0x7c1ceaa6, 0xfc1fffff, 0x2000000000, 0x0, [86]⟩,
   ⟨"mfsu0r", 0x7c1ceaa6, 0xfc1fffff, 0x4000000, 0x0, [86]⟩,
   ⟨"mfdbcr1", 0x7c1deaa6, 0xfc1fffff, 0x4000000, 0x0, [86]⟩,
   ⟨"mfpmc3", 0x7c1deaa6, 0xfc1fffff, 0x2000000000, 0x0, [86]⟩,
   ⟨"mfpmc4", 0x7c1eeaa6, 0xfc1fffff, 0x2000000000, 0x0, [86]⟩,
   ⟨"mficdbdr", 0x7c13f2a6, 0xfc1fffff, 0x80000200, 0x0, [86]⟩,
   ⟨"mfesr", 0x7c14f2a6, 0xfc1fffff, 0x200, 0x0, [86]⟩,
   ⟨"mfdear", 0x7c15f2a6, 0xfc1fffff, 0x200, 0x0, [86]⟩,
   ⟨"mfevpr", 0x7c16f2a6, 0xfc1fffff, 0x200, 0x0, [86]⟩,
   ⟨"mfcdbcr", 0x7c17f2a6, 0xfc1fffff, 0x200, 0x0, [86]⟩,
   ⟨"mftsr", 0x7c18f2a6, 0xfc1fffff, 0x200, 0x0, [86]⟩,
   ⟨"mftcr", 0x7c1af2a6, 0xfc1fffff, 0x200, 0x0, [86]⟩,
   ⟨"mfpit", 0x7c1bf2a6, 0xfc1fffff, 0x200, 0x0, [86]⟩,
   ⟨"mftbhi", 0x7c1cf2a6, 0xfc1fffff, 0x200, 0x0, [86]⟩,
   ⟨"mftblo", 0x7c1df2a6, 0xfc1fffff, 0x200, 0x0, [86]⟩,
   ⟨"mfsrr2", 0x7c1ef2a6, 0xfc1fffff, 0x200, 0x0, [86]⟩]

/-- ppc-opc.c:5966-6107. -/
def main22 : List Opcode :=
  [⟨"mfsrr3", 0x7c1ff2a6, 0xfc1fffff, 0x200, 0x0, [86]⟩,
   ⟨"mfdbsr", 0x7c10faa6, 0xfc1fffff, 0x200, 0x0, [86]⟩,
   ⟨"mfhid0", 0x7c10faa6, 0xfc1fffff, 0x2000000000, 0x0, [86]⟩,
   ⟨"mfhid1", 0x7c11faa6, 0xfc1fffff, 0x2000000000, 0x0, [86]⟩,
   ⟨"mfdbcr0", 0x7c12faa6, 0xfc1fffff, 0x4000000, 0x0, [86]⟩,
   ⟨"mfiabr", 0x7c12faa6, 0xfc1fffff, 0x2000000000, 0x0, [86]⟩,
   ⟨"mfhid4", 0x7c13faa6, 0xfc1fffff, 0x2000000000, 0x0, [86]⟩,
   ⟨"mfdbdr", 0x7c13faa6, 0xfc1fffff, 0x80000000, 0x0, [86]⟩,
   ⟨"mfiac1", 0x7c14faa6, 0xfc1fffff, 0x200, 0x0, [86]⟩,
   ⟨"mfiac2", 0x7c15faa6, 0xfc1fffff, 0x200, 0x0, [86]⟩,
   ⟨"mfdabr", 0x7c15faa6, 0xfc1fffff, 0x2000000000, 0x0, [86]⟩,
   ⟨"mfdac1", 0x7c16faa6, 0xfc1fffff, 0x200, 0x0, [86]⟩,
   ⟨"mfdac2", 0x7c17faa6, 0xfc1fffff, 0x200, 0x0, [86]⟩,
   ⟨"mfl2cr", 0x7c19faa6, 0xfc1fffff, 0x2000000000, 0x0, [86]⟩,
   ⟨"mfdccr", 0x7c1afaa6, 0xfc1fffff, 0x200, 0x0, [86]⟩,
   ⟨"mficcr", 0x7c1bfaa6, 0xfc1fffff, 0x200, 0x0, [86]⟩,
   ⟨"mfictc", 0x7c1bfaa6, 0xfc1fffff, 0x2000000000, 0x0, [86]⟩,
   ⟨"mfpbl1", 0x7c1cfaa6, 0xfc1fffff, 0x200, 0x0, [86]⟩,
   ⟨"mfthrm1", 0x7c1cfaa6, 0xfc1fffff, 0x2000000000, 0x0, [86]⟩,
   ⟨"mfpbu1", 0x7c1dfaa6, 0xfc1fffff, 0x200, 0x0, [86]⟩,
   ⟨"mfthrm2", 0x7c1dfaa6, 0xfc1fffff, 0x2000000000, 0x0, [86]⟩,
   ⟨"mfpbl2", 0x7c1efaa6, 0xfc1fffff, 0x200, 0x0, [86]⟩,
   ⟨"mfthrm3", 0x7c1efaa6, 0xfc1fffff, 0x2000000000, 0x0, [86]⟩,
   ⟨"mfpbu2", 0x7c1ffaa6, 0xfc1fffff, 0x200, 0x0, [86]⟩,
   ⟨"mfspr", 0x7c0002a6, 0xfc0007ff, 0x23, 0x0, [86, 108]⟩,
   ⟨"lwax", 0x7c0002aa, 0xfc0007ff, 0x88, 0x0, [86, 75, 81]⟩,
   ⟨"dst", 0x7c0002ac, 0xfe0007fe, 0x100, 0x0, [74, 81, 113]⟩,
   ⟨"lhax", 0x7c0002ae, 0xfc0007ff, 0x23, 0x0, [86, 75, 81]⟩,
   ⟨"lvxl", 0x7c0002ce, 0xfc0007ff, 0x100, 0x0, [126, 75, 81]⟩,
   ⟨"abs", 0x7c0002d0, 0xfc00ffff, 0x12, 0x0, [86, 74]⟩,
   ⟨"abs.", 0x7c0002d1, 0xfc00ffff, 0x12, 0x0, [86, 74]⟩,
   ⟨"divs", 0x7c0002d6, 0xfc0007ff, 0x12, 0x0, [86, 74, 81]⟩,
   ⟨"divs.", 0x7c0002d7, 0xfc0007ff, 0x12, 0x0, [86, 74, 81]⟩,
   ⟨"lxvwsx", 0x7c0002d8, 0xfc0007fe, 0x10000000000, 0x0, [168, 75, 81]⟩,
   ⟨"tlbia", 0x7c0002e4, 0xffffffff, 0x1, 0x180000000, []⟩,
   ⟨"mftbu", 0x7c0d42e6, 0xfc1fffff, 0x1, 0x1004c00, [86]⟩,
   ⟨"mftb", 0x7c0002e6, 0xfc0007ff, 0x1, 0x1004c00, [86, 116]⟩,
   ⟨"mftbl", 0x7c0c42e6, 0xfc1fffff, 0x1, 0x1004c00, [86]⟩,
   ⟨"lwaux", 0x7c0002ea, 0xfc0007ff, 0x88, 0x0, [86, 77, 81]⟩,
   ⟨"dstst", 0x7c0002ec, 0xfe0007fe, 0x100, 0x0, [74, 81, 113]⟩,
   ⟨"lhaux", 0x7c0002ee, 0xfc0007ff, 0x23, 0x0, [86, 77, 81]⟩,
   ⟨"popcntw", 0x7c0002f4, 0xfc00ffff, 0x30000000, 0x0, [74, 86]⟩,
   ⟨"mtdcrx", 0x7c000306, 0xfc0007ff, 0x60000400, 0x80000000, [74, 86]⟩,
   ⟨"mtdcrx.", 0x7c000307, 0xfc0007ff, 0x20000000, 0x0, [74, 86]⟩,
   ⟨"stvexbx", 0x7c00030a, 0xfc0007ff, 0x200000000, 0x0, [126, 75, 81]⟩,
   ⟨"dcblc", 0x7c00030c, 0xfc0007ff, 0xc0020000, 0x0, [33, 75, 81]⟩,
   ⟨"stdfcmx", 0x7c00030e, 0xfc0007ff, 0x4000000, 0x0, [158, 74, 81]⟩,
   ⟨"divdeu", 0x7c000312, 0xfc0007ff, 0x30000000, 0x0, [86, 74, 81]⟩,
   ⟨"divdeu.", 0x7c000313, 0xfc0007ff, 0x30000000, 0x0, [86, 74, 81]⟩,
   ⟨"divweu", 0x7c000316, 0xfc0007ff, 0x30000000, 0x0, [86, 74, 81]⟩,
   ⟨"divweu.", 0x7c000317, 0xfc0007ff, 0x30000000, 0x0, [86, 74, 81]⟩,
   ⟨"stxvx", 0x7c000318, 0xfc0007fe, 0x10000000000, 0x0, [168, 75, 81]⟩,
   ⟨"stxvl", 0x7c00031a, 0xfc0007fe, 0x10000000000, 0x0, [168, 75, 81]⟩,
   ⟨"dcblce", 0x7c00031c, 0xfc0007ff, 0x20000, 0x2000000, [33, 74, 81]⟩,
   ⟨"slbmte", 0x7c000324, 0xfc1f07ff, 0x88, 0x0, [86, 81]⟩,
   ⟨"mtvsrws", 0x7c000326, 0xfc00fffe, 0x10000000000, 0x0, [168, 74]⟩,
   ⟨"pbt.", 0x7c000329, 0xfc0007ff, 0x1000000000, 0x0, [86, 75, 81]⟩,
   ⟨"icswx", 0x7c00032c, 0xfc0007ff, 0x30000000, 0x0, [86, 74, 81]⟩,
   ⟨"icswx.", 0x7c00032d, 0xfc0007ff, 0x30000000, 0x0, [86, 74, 81]⟩,
   ⟨"sthx", 0x7c00032e, 0xfc0007ff, 0x23, 0x0, [86, 75, 81]⟩,
   ⟨"orc", 0x7c000338, 0xfc0007ff, 0x23, 0x0, [74, 86, 81]⟩,
   ⟨"orc.", 0x7c000339, 0xfc0007ff, 0x23, 0x0, [74, 86, 81]⟩,
   ⟨"sthepx", 0x7c00033e, 0xfc0007ff, 0x22000000, 0x0, [86, 75, 81]⟩,
   ⟨"mtdcrux", 0x7c000346, 0xfc0007ff, 0x40080000, 0x0, [74, 86]⟩,
   ⟨"stvexhx", 0x7c00034a, 0xfc0007ff, 0x200000000, 0x0, [126, 75, 81]⟩,
   ⟨"dcblq.", 0x7c00034d, 0xfc0007ff, 0x200000000, 0x0, [33, 75, 81]⟩,
   ⟨"divde", 0x7c000352, 0xfc0007ff, 0x30000000, 0x0, [86, 74, 81]⟩,
   ⟨"divde.", 0x7c000353, 0xfc0007ff, 0x30000000, 0x0, [86, 74, 81]⟩,
   ⟨"divwe", 0x7c000356, 0xfc0007ff, 0x30000000, 0x0, [86, 74, 81]⟩,
   ⟨"divwe.", 0x7c000357, 0xfc0007ff, 0x30000000, 0x0, [86, 74, 81]⟩,
   ⟨"stxvll", 0x7c00035a, 0xfc0007fe, 0x10000000000, 0x0, [168, 75, 81]⟩,
   ⟨"clrbhrb", 0x7c00035c, 0xffffffff, 0x1000000000, 0x0, []⟩,
   ⟨"slbie", 0x7c000364, 0xffff07ff, 0x88, 0x0, [81]⟩,
   ⟨"mtvsrdd", 0x7c000366, 0xfc0007fe, 0x10000000000, 0x0, [168, 75, 81]⟩,
   ⟨"ecowx", 0x7c00036c, 0xfc0007ff, 0x1, 0x180000000, [86, 75, 81]⟩,
   ⟨"sthux", 0x7c00036e, 0xfc0007ff, 0x23, 0x0, [86, 79, 81]⟩,
   ⟨"mdors", 0x7f9ce378, 0xffffffff, 0x2000000, 0x0, []⟩,
   ⟨"miso", 0x7f5ad378, 0xffffffff, 0x200000000, 0x0, []⟩,
   ⟨"yield", 0x7f7bdb78, 0xffffffff, 0x10000000, 0x0, []⟩,
   ⟨"mdoio", 0x7fbdeb78, 0xffffffff, 0x10000000, 0x0, []⟩,
   ⟨"mdoom", 0x7fdef378, 0xffffffff, 0x10000000, 0x0, []⟩,
   ⟨"mr", 0x7c000378, 0xfc0007ff, 0x23, 0x0, [74, 82]⟩,
   ⟨"or", 0x7c000378, 0xfc0007ff, 0x23, 0x0, [74, 86, 81]⟩,
   ⟨"mr.", 0x7c000379, 0xfc0007ff, 0x23, 0x0, [74, 82]⟩,
   ⟨"or.", 0x7c000379, 0xfc0007ff, 0x23, 0x0, [74, 86, 81]⟩,
   ⟨"mtexisr", 0x7c001386, 0xfc1fffff, 0x200, 0x0, [86]⟩,
   ⟨"mtexier", 0x7c021386, 0xfc1fffff, 0x200, 0x0, [86]⟩,
   ⟨"mtbr0", 0x7c002386, 0xfc1fffff, 0x200, 0x0, [86]⟩,
   ⟨"mtbr1", 0x7c012386, 0xfc1fffff, 0x200, 0x0, [86]⟩,
   ⟨"mtbr2", 0x7c022386, 0xfc1fffff, 0x200, 0x0, [86]⟩,
   ⟨"mtbr3", 0x7c032386, 0xfc1fffff, 0x200, 0x0, [86]⟩,
   ⟨"mtbr4", 0x7c042386, 0xfc1fffff, 0x200, 0x0, [86]⟩,
   ⟨"mtbr5", 0x7c052386, 0xfc1fffff, 0x200, 0x0, [86]⟩,
   ⟨"mtbr6", 0x7c062386, 0xfc1fffff, 0x200, 0x0, [86]⟩,
   ⟨"mtbr7", 0x7c072386, 0xfc1fffff, 0x200, 0x0, [86]⟩,
   ⟨"mtbear", 0x7c102386, 0xfc1fffff, 0x200, 0x0, [86]⟩,
   ⟨"mtbesr", 0x7c112386, 0xfc1fffff, 0x200, 0x0, [86]⟩,
   ⟨"mtiocr", 0x7c002b86, 0xfc1fffff, 0x200, 0x0, [86]⟩,
   ⟨"mtdmacr0", 0x7c003386, 0xfc1fffff, 0x200, 0x0, [86]⟩,
   ⟨"mtdmact0", 0x7c013386, 0xfc1fffff, 0x200, 0x0, [86]⟩]

/-- ppc-opc.c:6108-6214. -/
def main23 : List Opcode :=
  [⟨"mtdmada0", 0x7c023386, 0xfc1fffff, 0x200, 0x0, [86]⟩,
   ⟨"mtdmasa0", 0x7c033386, 0xfc1fffff, 0x200, 0x0, [86]⟩,
   ⟨"mtdmacc0", 0x7c043386, 0xfc1fffff, 0x200, 0x0, [86]⟩,
   ⟨"mtdmacr1", 0x7c083386, 0xfc1fffff, 0x200, 0x0, [86]⟩,
   ⟨"mtdmact1", 0x7c093386, 0xfc1fffff, 0x200, 0x0, [86]⟩,
   ⟨"mtdmada1", 0x7c0a3386, 0xfc1fffff, 0x200, 0x0, [86]⟩,
   ⟨"mtdmasa1", 0x7c0b3386, 0xfc1fffff, 0x200, 0x0, [86]⟩,
   ⟨"mtdmacc1", 0x7c0c3386, 0xfc1fffff, 0x200, 0x0, [86]⟩,
   ⟨"mtdmacr2", 0x7c103386, 0xfc1fffff, 0x200, 0x0, [86]⟩,
   ⟨"mtdmact2", 0x7c113386, 0xfc1fffff, 0x200, 0x0, [86]⟩,
   ⟨"mtdmada2", 0x7c123386, 0xfc1fffff, 0x200, 0x0, [86]⟩,
   ⟨"mtdmasa2", 0x7c133386, 0xfc1fffff, 0x200, 0x0, [86]⟩,
   ⟨"mtdmacc2", 0x7c143386, 0xfc1fffff, 0x200, 0x0, [86]⟩,
   ⟨"mtdmacr3", 0x7c183386, 0xfc1fffff, 0x200, 0x0, [86]⟩,
   ⟨"mtdmact3", 0x7c193386, 0xfc1fffff, 0x200, 0x0, [86]⟩,
   ⟨"mtdmada3", 0x7c1a3386, 0xfc1fffff, 0x200, 0x0, [86]⟩,
   ⟨"mtdmasa3", 0x7c1b3386, 0xfc1fffff, 0x200, 0x0, [86]⟩,
   ⟨"mtdmacc3", 0x7c1c3386, 0xfc1fffff, 0x200, 0x0, [86]⟩,
   ⟨"mtdmasr", 0x7c003b86, 0xfc1fffff, 0x200, 0x0, [86]⟩,
   ⟨"mtdcr", 0x7c000386, 0xfc0007ff, 0x60000600, 0x180000000, [108, 86]⟩,
   ⟨"mtdcr.", 0x7c000387, 0xfc0007ff, 0x20000000, 0x0, [108, 86]⟩,
   ⟨"stvexwx", 0x7c00038a, 0xfc0007ff, 0x200000000, 0x0, [126, 75, 81]⟩,
   ⟨"dccci", 0x7c00038c, 0xffe007ff, 0xe0080200, 0x0, [80, 84]⟩,
   ⟨"dci", 0x7c00038c, 0xfc1fffff, 0x60000000, 0x0, [33]⟩,
   ⟨"divdu", 0x7c000392, 0xfc0007ff, 0x88, 0x0, [86, 74, 81]⟩,
   ⟨"divdu.", 0x7c000393, 0xfc0007ff, 0x88, 0x0, [86, 74, 81]⟩,
   ⟨"divwu", 0x7c000396, 0xfc0007ff, 0x1, 0x0, [86, 74, 81]⟩,
   ⟨"divwu.", 0x7c000397, 0xfc0007ff, 0x1, 0x0, [86, 74, 81]⟩,
   ⟨"mtpmr", 0x7c00039c, 0xfc0007ff, 0x210000, 0x0, [108, 86]⟩,
   ⟨"mttmr", 0x7c0003dc, 0xfc0007ff, 0x400000000, 0x0, [108, 86]⟩,
   ⟨"slbieg", 0x7c0003a4, 0xfc1f07ff, 0x10000000000, 0x0, [86, 81]⟩,
   ⟨"mtmq", 0x7c0003a6, 0xfc1fffff, 0x12, 0x0, [86]⟩,
   ⟨"mtxer", 0x7c0103a6, 0xfc1fffff, 0x23, 0x0, [86]⟩,
   ⟨"mtlr", 0x7c0803a6, 0xfc1fffff, 0x23, 0x0, [86]⟩,
   ⟨"mtctr", 0x7c0903a6, 0xfc1fffff, 0x23, 0x0, [86]⟩,
   ⟨"mtdscr", 0x7c1103a6, 0xfc1fffff, 0x400000, 0x0, [86]⟩,
   ⟨"mttid", 0x7c1103a6, 0xfc1fffff, 0x2, 0x0, [86]⟩,
   ⟨"mtdsisr", 0x7c1203a6, 0xfc1fffff, 0x23, 0x80000000, [86]⟩,
   ⟨"mtdar", 0x7c1303a6, 0xfc1fffff, 0x23, 0x80000000, [86]⟩,
   ⟨"mtrtcu", 0x7c1403a6, 0xfc1fffff, 0x23, 0x80000000, [86]⟩,
   ⟨"mtrtcl", 0x7c1503a6, 0xfc1fffff, 0x23, 0x80000000, [86]⟩,
   ⟨"mtdec", 0x7c1603a6, 0xfc1fffff, 0x23, 0x0, [86]⟩,
   ⟨"mtsdr0", 0x7c1803a6, 0xfc1fffff, 0x2, 0x0, [86]⟩,
   ⟨"mtsdr1", 0x7c1903a6, 0xfc1fffff, 0x23, 0x80000000, [86]⟩,
   ⟨"mtsrr0", 0x7c1a03a6, 0xfc1fffff, 0x23, 0x0, [86]⟩,
   ⟨"mtsrr1", 0x7c1b03a6, 0xfc1fffff, 0x23, 0x0, [86]⟩,
   ⟨"mtcfar", 0x7c1c03a6, 0xfc1fffff, 0x400000, 0x0, [86]⟩,
   ⟨"mtpid", 0x7c100ba6, 0xfc1fffff, 0x400, 0x0, [86]⟩,
   ⟨"mtdecar", 0x7c160ba6, 0xfc1fffff, 0x400, 0x0, [86]⟩,
   ⟨"mtcsrr0", 0x7c1a0ba6, 0xfc1fffff, 0x400, 0x0, [86]⟩,
   ⟨"mtcsrr1", 0x7c1b0ba6, 0xfc1fffff, 0x400, 0x0, [86]⟩,
   ⟨"mtdear", 0x7c1d0ba6, 0xfc1fffff, 0x400, 0x0, [86]⟩,
   ⟨"mtesr", 0x7c1e0ba6, 0xfc1fffff, 0x400, 0x0, [86]⟩,
   ⟨"mtivpr", 0x7c1f0ba6, 0xfc1fffff, 0x400, 0x0, [86]⟩,
   ⟨"mtcmpa", 0x7c1023a6, 0xfc1fffff, 0x8000000000, 0x0, [86]⟩,
   ⟨"mtcmpb", 0x7c1123a6, 0xfc1fffff, 0x8000000000, 0x0, [86]⟩,
   ⟨"mtcmpc", 0x7c1223a6, 0xfc1fffff, 0x8000000000, 0x0, [86]⟩,
   ⟨"mtcmpd", 0x7c1323a6, 0xfc1fffff, 0x8000000000, 0x0, [86]⟩,
   ⟨"mticr", 0x7c1423a6, 0xfc1fffff, 0x8000000000, 0x0, [86]⟩,
   ⟨"mtder", 0x7c1523a6, 0xfc1fffff, 0x8000000000, 0x0, [86]⟩,
   ⟨"mtcounta", 0x7c1623a6, 0xfc1fffff, 0x8000000000, 0x0, [86]⟩,
   ⟨"mtcountb", 0x7c1723a6, 0xfc1fffff, 0x8000000000, 0x0, [86]⟩,
   ⟨"mtctrl", 0x7c1823a6, 0xfc1fffff, 0x800, 0x0, [86]⟩,
   ⟨"mtcmpe", 0x7c1823a6, 0xfc1fffff, 0x8000000000, 0x0, [86]⟩,
   ⟨"mtcmpf", 0x7c1923a6, 0xfc1fffff, 0x8000000000, 0x0, [86]⟩,
   ⟨"mtcmpg", 0x7c1a23a6, 0xfc1fffff, 0x8000000000, 0x0, [86]⟩,
   ⟨"mtcmph", 0x7c1b23a6, 0xfc1fffff, 0x8000000000, 0x0, [86]⟩,
   ⟨"mtlctrl1", 0x7c1c23a6, 0xfc1fffff, 0x8000000000, 0x0, [86]⟩,
   ⟨"mtlctrl2", 0x7c1d23a6, 0xfc1fffff, 0x8000000000, 0x0, [86]⟩,
   ⟨"mtictrl", 0x7c1e23a6, 0xfc1fffff, 0x8000000000, 0x0, [86]⟩,
   ⟨"mtbar", 0x7c1f23a6, 0xfc1fffff, 0x8000000000, 0x0, [86]⟩,
   ⟨"mtvrsave", 0x7c0043a6, 0xfc1fffff, 0x100, 0x0, [86]⟩,
   ⟨"mtusprg0", 0x7c0043a6, 0xfc1fffff, 0x400, 0x0, [86]⟩,
   ⟨"mtsprg", 0x7c0043a6, 0xfc00ffff, 0x1, 0x0, [111, 86]⟩,
   ⟨"mtsprg0", 0x7c1043a6, 0xfc1fffff, 0x1, 0x0, [86]⟩,
   ⟨"mtsprg1", 0x7c1143a6, 0xfc1fffff, 0x1, 0x0, [86]⟩,
   ⟨"mtsprg2", 0x7c1243a6, 0xfc1fffff, 0x1, 0x0, [86]⟩,
   ⟨"mtsprg3", 0x7c1343a6, 0xfc1fffff, 0x1, 0x0, [86]⟩,
   ⟨"mtsprg4", 0x7c1443a6, 0xfc1fffff, 0x4000400, 0x0, [86]⟩,
   ⟨"mtsprg5", 0x7c1543a6, 0xfc1fffff, 0x4000400, 0x0, [86]⟩,
   ⟨"mtsprg6", 0x7c1643a6, 0xfc1fffff, 0x4000400, 0x0, [86]⟩,
   ⟨"mtsprg7", 0x7c1743a6, 0xfc1fffff, 0x4000400, 0x0, [86]⟩,
   ⟨"mtasr", 0x7c1843a6, 0xfc1fffff, 0x88, 0x0, [86]⟩,
   ⟨"mtear", 0x7c1a43a6, 0xfc1fffff, 0x1, 0x80000000, [86]⟩,
   ⟨"mttbl", 0x7c1c43a6, 0xfc1fffff, 0x1, 0x0, [86]⟩,
   ⟨"mttbu", 0x7c1d43a6, 0xfc1fffff, 0x1, 0x0, [86]⟩,
   ⟨"mtdbsr", 0x7c104ba6, 0xfc1fffff, 0x400, 0x0, [86]⟩,
   ⟨"mtdbcr0", 0x7c144ba6, 0xfc1fffff, 0x400, 0x0, [86]⟩,
   ⟨"mtdbcr1", 0x7c154ba6, 0xfc1fffff, 0x400, 0x0, [86]⟩,
   ⟨"mtdbcr2", 0x7c164ba6, 0xfc1fffff, 0x400, 0x0, [86]⟩,
   ⟨"mtiac1", 0x7c184ba6, 0xfc1fffff, 0x400, 0x0, [86]⟩,
   ⟨"mtiac2", 0x7c194ba6, 0xfc1fffff, 0x400, 0x0, [86]⟩,
   ⟨"mtiac3", 0x7c1a4ba6, 0xfc1fffff, 0x400, 0x0, [86]⟩,
   ⟨"mtiac4", 0x7c1b4ba6, 0xfc1fffff, 0x400, 0x0, [86]⟩,
   ⟨"mtdac1", 0x7c1c4ba6, 0xfc1fffff, 0x400, 0x0, [86]⟩,
   ⟨"mtdac2", 0x7c1d4ba6, 0xfc1fffff, 0x400, 0x0, [86]⟩,
   ⟨"mtdvc1", 0x7c1e4ba6, 0xfc1fffff, 0x400, 0x0, [86]⟩,
   ⟨"mtdvc2", 0x7c1f4ba6, 0xfc1fffff, 0x400, 0x0, [86]⟩,
   ⟨"mttsr", 0x7c1053a6, 0xfc1fffff, 0x400, 0x0, [86]⟩,
   ⟨"mttcr", 0x7c1453a6, 0xfc1fffff, 0x400, 0x0, [86]⟩]

/-- ppc-opc.c:6215-6314. -/
def main24 : List Opcode :=
  [⟨"mtivor0", 0x7c1063a6, 0xfc1fffff, 0x400, 0x0, [86]⟩,
   ⟨"mtivor1", 0x7c1163a6, 0xfc1fffff, 0x400, 0x0, [86]⟩,
   ⟨"mtivor2", 0x7c1263a6, 0xfc1fffff, 0x400, 0x0, [86]⟩,
   ⟨"mtivor3", 0x7c1363a6, 0xfc1fffff, 0x400, 0x0, [86]⟩,
   ⟨"mtivor4", 0x7c1463a6, 0xfc1fffff, 0x400, 0x0, [86]⟩,
   ⟨"mtivor5", 0x7c1563a6, 0xfc1fffff, 0x400, 0x0, [86]⟩,
   ⟨"mtivor6", 0x7c1663a6, 0xfc1fffff, 0x400, 0x0, [86]⟩,
   ⟨"mtivor7", 0x7c1763a6, 0xfc1fffff, 0x400, 0x0, [86]⟩,
   ⟨"mtivor8", 0x7c1863a6, 0xfc1fffff, 0x400, 0x0, [86]⟩,
   ⟨"mtivor9", 0x7c1963a6, 0xfc1fffff, 0x400, 0x0, [86]⟩,
   ⟨"mtivor10", 0x7c1a63a6, 0xfc1fffff, 0x400, 0x0, [86]⟩,
   ⟨"mtivor11", 0x7c1b63a6, 0xfc1fffff, 0x400, 0x0, [86]⟩,
   ⟨"mtivor12", 0x7c1c63a6, 0xfc1fffff, 0x400, 0x0, [86]⟩,
   ⟨"mtivor13", 0x7c1d63a6, 0xfc1fffff, 0x400, 0x0, [86]⟩,
   ⟨"mtivor14", 0x7c1e63a6, 0xfc1fffff, 0x400, 0x0, [86]⟩,
   ⟨"mtivor15", 0x7c1f63a6, 0xfc1fffff, 0x400, 0x0, [86]⟩,
   ⟨"mtspefscr", 0x7c0083a6, 0xfc1fffff, 0x1000, 0x0, [86]⟩,
   ⟨"mtbbear", 0x7c0183a6, 0xfc1fffff, 0x8000, 0x0, [86]⟩,
   ⟨"mtbbtar", 0x7c0283a6, 0xfc1fffff, 0x8000, 0x0, [86]⟩,
   ⟨"mtivor32", 0x7c1083a6, 0xfc1fffff, 0x200001000, 0x0, [86]⟩,
   ⟨"mtivor33", 0x7c1183a6, 0xfc1fffff, 0x200001000, 0x0, [86]⟩,
   ⟨"mtivor34", 0x7c1283a6, 0xfc1fffff, 0x1000, 0x0, [86]⟩,
   ⟨"mtivor35", 0x7c1383a6, 0xfc1fffff, 0x10000, 0x0, [86]⟩,
   ⟨"mtibatu", 0x7c1083a6, 0xfc19f7ff, 0x1, 0x80000000, [109, 86]⟩,
   ⟨"mtibatl", 0x7c1183a6, 0xfc19f7ff, 0x1, 0x80000000, [109, 86]⟩,
   ⟨"mtdbatu", 0x7c1883a6, 0xfc19f7ff, 0x1, 0x80000000, [109, 86]⟩,
   ⟨"mtdbatl", 0x7c1983a6, 0xfc19f7ff, 0x1, 0x80000000, [109, 86]⟩,
   ⟨"mtmcsrr0", 0x7c1a8ba6, 0xfc1fffff, 0x40000, 0x0, [86]⟩,
   ⟨"mtmcsrr1", 0x7c1b8ba6, 0xfc1fffff, 0x40000, 0x0, [86]⟩,
   ⟨"mtmcsr", 0x7c1c8ba6, 0xfc1fffff, 0x40000, 0x0, [86]⟩,
   ⟨"mtupmc1", 0x7c03c3a6, 0xfc1fffff, 0x10000000000, 0x0, [86]⟩,
   ⟨"mtupmc2", 0x7c04c3a6, 0xfc1fffff, 0x10000000000, 0x0, [86]⟩,
   ⟨"mtupmc3", 0x7c05c3a6, 0xfc1fffff, 0x10000000000, 0x0, [86]⟩,
   ⟨"mtupmc4", 0x7c06c3a6, 0xfc1fffff, 0x10000000000, 0x0, [86]⟩,
   ⟨"mtupmc5", 0x7c07c3a6, 0xfc1fffff, 0x10000000000, 0x0, [86]⟩,
   ⟨"mtupmc6", 0x7c08c3a6, 0xfc1fffff, 0x10000000000, 0x0, [86]⟩,
   ⟨"mtivndx", 0x7c10dba6, 0xfc1fffff, 0x80000000, 0x0, [86]⟩,
   ⟨"mtdvndx", 0x7c11dba6, 0xfc1fffff, 0x80000000, 0x0, [86]⟩,
   ⟨"mtivlim", 0x7c12dba6, 0xfc1fffff, 0x80000000, 0x0, [86]⟩,
   ⟨"mtdvlim", 0x7c13dba6, 0xfc1fffff, 0x80000000, 0x0, [86]⟩,
   ⟨"mtclcsr", 0x7c14dba6, 0xfc1fffff, 0x80000000, 0x0, [86]⟩,
   ⟨"mtccr1", 0x7c18dba6, 0xfc1fffff, 0x80000000, 0x0, [86]⟩,
   ⟨"mtppr", 0x7c00e3a6, 0xfc1fffff, 0x10000000, 0x0, [86]⟩,
   ⟨"mtppr32", 0x7c02e3a6, 0xfc1fffff, 0x10000000, 0x0, [86]⟩,
   ⟨"mtgqr", 0x7c10e3a6, 0xfc18ffff, 0x1000000, 0x0, [110, 86]⟩,
   ⟨"mthid2", 0x7c18e3a6, 0xfc1fffff, 0x2000000000, 0x0, [86]⟩,
   ⟨"mtwpar", 0x7c19e3a6, 0xfc1fffff, 0x2000000000, 0x0, [86]⟩,
   ⟨"mtdmau", 0x7c1ae3a6, 0xfc1fffff, 0x2000000000, 0x0, [86]⟩,
   ⟨"mtdmal", 0x7c1be3a6, 0xfc1fffff, 0x2000000000, 0x0, [86]⟩,
   ⟨"mtummcr0", 0x7c08eba6, 0xfc1fffff, 0x2000000000, 0x0, [86]⟩,
   ⟨"mtupmc1", 0x7c09eba6, 0xfc1fffff, 0x2000000000, 0x0, [86]⟩,
   ⟨"mtupmc2", 0x7c0aeba6, 0xfc1fffff, 0x2000000000, 0x0, [86]⟩,
   ⟨"mtusia", 0x7c0beba6, 0xfc1fffff, 0x2000000000, 0x0, [86]⟩,
   ⟨"mtummcr1", 0x7c0ceba6, 0xfc1fffff, 0x2000000000, 0x0, [86]⟩,
   ⟨"mtupmc3", 0x7c0deba6, 0xfc1fffff, 0x2000000000, 0x0, [86]⟩,
   ⟨"mtupmc4", 0x7c0eeba6, 0xfc1fffff, 0x2000000000, 0x0, [86]⟩,
   ⟨"mtzpr", 0x7c10eba6, 0xfc1fffff, 0x200, 0x0, [86]⟩,
   ⟨"mtpid", 0x7c11eba6, 0xfc1fffff, 0x200, 0x0, [86]⟩,
   ⟨"mtrmmucr", 0x7c12eba6, 0xfc1fffff, 0x80000000, 0x0, [86]⟩,
   ⟨"mtccr0", 0x7c13eba6, 0xfc1fffff, 0x84000000, 0x0, [86]⟩,
   ⟨"mtiac3", 0x7c14eba6, 0xfc1fffff, 0x4000000, 0x0, [86]⟩,
   ⟨"mtiac4", 0x7c15eba6, 0xfc1fffff, 0x4000000, 0x0, [86]⟩,
   ⟨"mtdvc1", 0x7c16eba6, 0xfc1fffff, 0x4000000, 0x0, [86]⟩,
   ⟨"mtdvc2", 0x7c17eba6, 0xfc1fffff, 0x4000000, 0x0, [86]⟩,
   ⟨"mtmmcr0", 0x7c18eba6, 0xfc1fffff, 0x2000000000, 0x0, [86]⟩,
   ⟨"mtpmc1", 0x7c19eba6, 0xfc1fffff, 0x2000000000, 0x0, [86]⟩,
   ⟨"mtsgr", 0x7c19eba6, 0xfc1fffff, 0x200, 0x0, [86]⟩,
   ⟨"mtdcwr", 0x7c1aeba6, 0xfc1fffff, 0x200, 0x0, [86]⟩,
   ⟨"mtpmc2", 0x7c1aeba6, 0xfc1fffff, 0x2000000000, 0x0, [86]⟩,
   ⟨"mtsia", 0x7c1beba6, 0xfc1fffff, 0x2000000000, 0x0, [86]⟩,
   ⟨"mtsler", 0x7c1beba6, 0xfc1fffff, 0x4000000, 0x0, [86]⟩,
   ⟨"mtmmcr1", 0x7c1ceba6, 0xfc1fffff, 0x2000000000, 0x0, [86]⟩,
   ⟨"mtsu0r", 0x7c1ceba6, 0xfc1fffff, 0x4000000, 0x0, [86]⟩,
   ⟨"mtdbcr1", 0x7c1deba6, 0xfc1fffff, 0x4000000, 0x0, [86]⟩,
   ⟨"mtpmc3", 0x7c1deba6, 0xfc1fffff, 0x2000000000, 0x0, [86]⟩,
   ⟨"mtpmc4", 0x7c1eeba6, 0xfc1fffff, 0x2000000000, 0x0, [86]⟩,
   ⟨"mticdbdr", 0x7c13f3a6, 0xfc1fffff, 0x200, 0x0, [86]⟩,
   ⟨"mtesr", 0x7c14f3a6, 0xfc1fffff, 0x200, 0x0, [86]⟩,
   ⟨"mtdear", 0x7c15f3a6, 0xfc1fffff, 0x200, 0x0, [86]⟩,
   ⟨"mtevpr", 0x7c16f3a6, 0xfc1fffff, 0x200, 0x0, [86]⟩,
   ⟨"mtcdbcr", 0x7c17f3a6, 0xfc1fffff, 0x200, 0x0, [86]⟩,
   ⟨"mttsr", 0x7c18f3a6, 0xfc1fffff, 0x200, 0x0, [86]⟩,
   ⟨"mttcr", 0x7c1af3a6, 0xfc1fffff, 0x200, 0x0, [86]⟩,
   ⟨"mtpit", 0x7c1bf3a6, 0xfc1fffff, 0x200, 0x0, [86]⟩,
   ⟨"mttbhi", 0x7c1cf3a6, 0xfc1fffff, 0x200, 0x0, [86]⟩,
   ⟨"mttblo", 0x7c1df3a6, 0xfc1fffff, 0x200, 0x0, [86]⟩,
   ⟨"mtsrr2", 0x7c1ef3a6, 0xfc1fffff, 0x200, 0x0, [86]⟩,
   ⟨"mtsrr3", 0x7c1ff3a6, 0xfc1fffff, 0x200, 0x0, [86]⟩,
   ⟨"mtdbsr", 0x7c10fba6, 0xfc1fffff, 0x200, 0x0, [86]⟩,
   ⟨"mthid0", 0x7c10fba6, 0xfc1fffff, 0x2000000000, 0x0, [86]⟩,
   ⟨"mthid1", 0x7c11fba6, 0xfc1fffff, 0x2000000000, 0x0, [86]⟩,
   ⟨"mtdbcr0", 0x7c12fba6, 0xfc1fffff, 0x4000000, 0x0, [86]⟩,
   ⟨"mtiabr", 0x7c12fba6, 0xfc1fffff, 0x2000000000, 0x0, [86]⟩,
   ⟨"mthid4", 0x7c13fba6, 0xfc1fffff, 0x2000000000, 0x0, [86]⟩,
   ⟨"mtdbdr", 0x7c13fba6, 0xfc1fffff, 0x80000000, 0x0, [86]⟩,
   ⟨"mtiac1", 0x7c14fba6, 0xfc1fffff, 0x200, 0x0, [86]⟩,
   ⟨"mtiac2", 0x7c15fba6, 0xfc1fffff, 0x200, 0x0, [86]⟩,
   ⟨"mtdabr", 0x7c15fba6, 0xfc1fffff, 0x2000000000, 0x0, [86]⟩,
   ⟨"mtdac1", 0x7c16fba6, 0xfc1fffff, 0x200, 0x0, [86]⟩,
   ⟨"mtdac2", 0x7c17fba6, 0xfc1fffff, 0x200, 0x0, [86]⟩]

/-- ppc-opc.c:6315-6462. -/
def main25 : List Opcode :=
  [⟨"mtl2cr", 0x7c19fba6, 0xfc1fffff, 0x2000000000, 0x0, [86]⟩,
   ⟨"mtdccr", 0x7c1afba6, 0xfc1fffff, 0x200, 0x0, [86]⟩,
   ⟨"mticcr", 0x7c1bfba6, 0xfc1fffff, 0x200, 0x0, [86]⟩,
   ⟨"mtictc", 0x7c1bfba6, 0xfc1fffff, 0x2000000000, 0x0, [86]⟩,
   ⟨"mtpbl1", 0x7c1cfba6, 0xfc1fffff, 0x200, 0x0, [86]⟩,
   ⟨"mtthrm1", 0x7c1cfba6, 0xfc1fffff, 0x2000000000, 0x0, [86]⟩,
   ⟨"mtpbu1", 0x7c1dfba6, 0xfc1fffff, 0x200, 0x0, [86]⟩,
   ⟨"mtthrm2", 0x7c1dfba6, 0xfc1fffff, 0x2000000000, 0x0, [86]⟩,
   ⟨"mtpbl2", 0x7c1efba6, 0xfc1fffff, 0x200, 0x0, [86]⟩,
   ⟨"mtthrm3", 0x7c1efba6, 0xfc1fffff, 0x2000000000, 0x0, [86]⟩,
   ⟨"mtpbu2", 0x7c1ffba6, 0xfc1fffff, 0x200, 0x0, [86]⟩,
   ⟨"mtspr", 0x7c0003a6, 0xfc0007ff, 0x23, 0x0, [108, 86]⟩,
   ⟨"dcbi", 0x7c0003ac, 0xffe007ff, 0x1, 0x0, [75, 81]⟩,
   ⟨"nand", 0x7c0003b8, 0xfc0007ff, 0x23, 0x0, [74, 86, 81]⟩,
   ⟨"nand.", 0x7c0003b9, 0xfc0007ff, 0x23, 0x0, [74, 86, 81]⟩,
   ⟨"dsn", 0x7c0003c6, 0xffe007ff, 0x2000000, 0x0, [74, 81]⟩,
   ⟨"dcread", 0x7c0003cc, 0xfc0007ff, 0x80200, 0x20000000, [86, 75, 81]⟩,
   ⟨"icbtls", 0x7c0003cc, 0xfc0007ff, 0xc0020000, 0x0, [33, 75, 81]⟩,
   ⟨"stvxl", 0x7c0003ce, 0xfc0007ff, 0x100, 0x0, [126, 75, 81]⟩,
   ⟨"nabs", 0x7c0003d0, 0xfc00ffff, 0x12, 0x0, [86, 74]⟩,
   ⟨"nabs.", 0x7c0003d1, 0xfc00ffff, 0x12, 0x0, [86, 74]⟩,
   ⟨"divd", 0x7c0003d2, 0xfc0007ff, 0x88, 0x0, [86, 74, 81]⟩,
   ⟨"divd.", 0x7c0003d3, 0xfc0007ff, 0x88, 0x0, [86, 74, 81]⟩,
   ⟨"divw", 0x7c0003d6, 0xfc0007ff, 0x1, 0x0, [86, 74, 81]⟩,
   ⟨"divw.", 0x7c0003d7, 0xfc0007ff, 0x1, 0x0, [86, 74, 81]⟩,
   ⟨"icbtlse", 0x7c0003dc, 0xfc0007ff, 0x20000, 0x2000000, [33, 74, 81]⟩,
   ⟨"slbia", 0x7c0003e4, 0xff1fffff, 0x400000, 0x0, [178]⟩,
   ⟨"slbia", 0x7c0003e4, 0xffffffff, 0x88, 0x400000, []⟩,
   ⟨"cli", 0x7c0003ec, 0xfc00ffff, 0x2, 0x0, [86, 74]⟩,
   ⟨"popcntd", 0x7c0003f4, 0xfc00ffff, 0x30000000, 0x0, [74, 86]⟩,
   ⟨"cmpb", 0x7c0003f8, 0xfc0007ff, 0x60400000, 0x0, [74, 86, 81]⟩,
   ⟨"mcrxr", 0x7c000400, 0xfc7fffff, 0x23, 0x10000000, [13]⟩,
   ⟨"lbdcbx", 0x7c000404, 0xfc0007ff, 0x20000000000, 0x0, [86, 74, 81]⟩,
   ⟨"lbdx", 0x7c000406, 0xfc0007ff, 0x20002000000, 0x0, [86, 74, 81]⟩,
   ⟨"bblels", 0x7c00040c, 0xfc0007ff, 0x8000, 0x0, []⟩,
   ⟨"lvlx", 0x7c00040e, 0xfc0007ff, 0x800000, 0x0, [126, 75, 81]⟩,
   ⟨"lbfcmux", 0x7c00040e, 0xfc0007ff, 0x4000000, 0x0, [158, 74, 81]⟩,
   ⟨"subfco", 0x7c000410, 0xfc0007ff, 0x21, 0x0, [86, 74, 81]⟩,
   ⟨"sfo", 0x7c000410, 0xfc0007ff, 0x32, 0x0, [86, 74, 81]⟩,
   ⟨"subco", 0x7c000410, 0xfc0007ff, 0x21, 0x0, [86, 81, 74]⟩,
   ⟨"subfco.", 0x7c000411, 0xfc0007ff, 0x21, 0x0, [86, 74, 81]⟩,
   ⟨"sfo.", 0x7c000411, 0xfc0007ff, 0x32, 0x0, [86, 74, 81]⟩,
   ⟨"subco.", 0x7c000411, 0xfc0007ff, 0x21, 0x0, [86, 81, 74]⟩,
   ⟨"addco", 0x7c000414, 0xfc0007ff, 0x21, 0x0, [86, 74, 81]⟩,
   ⟨"ao", 0x7c000414, 0xfc0007ff, 0x32, 0x0, [86, 74, 81]⟩,
   ⟨"addco.", 0x7c000415, 0xfc0007ff, 0x21, 0x0, [86, 74, 81]⟩,
   ⟨"ao.", 0x7c000415, 0xfc0007ff, 0x32, 0x0, [86, 74, 81]⟩,
   ⟨"lxsspx", 0x7c000418, 0xfc0007fe, 0x1000000000, 0x0, [168, 75, 81]⟩,
   ⟨"clcs", 0x7c000426, 0xfc00ffff, 0x12, 0x0, [86, 74]⟩,
   ⟨"ldbrx", 0x7c000428, 0xfc0007ff, 0x30800000, 0x0, [86, 75, 81]⟩,
   ⟨"lswx", 0x7c00042a, 0xfc0007ff, 0x21, 0x102000000, [86, 76, 83]⟩,
   ⟨"lsx", 0x7c00042a, 0xfc0007ff, 0x32, 0x0, [86, 74, 81]⟩,
   ⟨"lwbrx", 0x7c00042c, 0xfc0007ff, 0x21, 0x0, [86, 75, 81]⟩,
   ⟨"lbrx", 0x7c00042c, 0xfc0007ff, 0x32, 0x0, [86, 74, 81]⟩,
   ⟨"lfsx", 0x7c00042e, 0xfc0007ff, 0x23, 0x4000, [52, 75, 81]⟩,
   ⟨"srw", 0x7c000430, 0xfc0007ff, 0x21, 0x0, [74, 86, 81]⟩,
   ⟨"sr", 0x7c000430, 0xfc0007ff, 0x32, 0x0, [74, 86, 81]⟩,
   ⟨"srw.", 0x7c000431, 0xfc0007ff, 0x21, 0x0, [74, 86, 81]⟩,
   ⟨"sr.", 0x7c000431, 0xfc0007ff, 0x32, 0x0, [74, 86, 81]⟩,
   ⟨"rrib", 0x7c000432, 0xfc0007ff, 0x12, 0x0, [74, 86, 81]⟩,
   ⟨"rrib.", 0x7c000433, 0xfc0007ff, 0x12, 0x0, [74, 86, 81]⟩,
   ⟨"cnttzw", 0x7c000434, 0xfc00ffff, 0x10000000000, 0x0, [74, 86]⟩,
   ⟨"cnttzw.", 0x7c000435, 0xfc00ffff, 0x10000000000, 0x0, [74, 86]⟩,
   ⟨"srd", 0x7c000436, 0xfc0007ff, 0x88, 0x0, [74, 86, 81]⟩,
   ⟨"srd.", 0x7c000437, 0xfc0007ff, 0x88, 0x0, [74, 86, 81]⟩,
   ⟨"maskir", 0x7c00043a, 0xfc0007ff, 0x12, 0x0, [74, 86, 81]⟩,
   ⟨"maskir.", 0x7c00043b, 0xfc0007ff, 0x12, 0x0, [74, 86, 81]⟩,
   ⟨"lhdcbx", 0x7c000444, 0xfc0007ff, 0x20000000000, 0x0, [86, 74, 81]⟩,
   ⟨"lhdx", 0x7c000446, 0xfc0007ff, 0x20002000000, 0x0, [86, 74, 81]⟩,
   ⟨"lvtrx", 0x7c00044a, 0xfc0007ff, 0x200000000, 0x0, [126, 75, 81]⟩,
   ⟨"bbelr", 0x7c00044c, 0xfc0007ff, 0x8000, 0x0, []⟩,
   ⟨"lvrx", 0x7c00044e, 0xfc0007ff, 0x800000, 0x0, [126, 75, 81]⟩,
   ⟨"lhfcmux", 0x7c00044e, 0xfc0007ff, 0x4000000, 0x0, [158, 74, 81]⟩,
   ⟨"subfo", 0x7c000450, 0xfc0007ff, 0x1, 0x0, [86, 74, 81]⟩,
   ⟨"subo", 0x7c000450, 0xfc0007ff, 0x1, 0x0, [86, 81, 74]⟩,
   ⟨"subfo.", 0x7c000451, 0xfc0007ff, 0x1, 0x0, [86, 74, 81]⟩,
   ⟨"subo.", 0x7c000451, 0xfc0007ff, 0x1, 0x0, [86, 81, 74]⟩,
   ⟨"tlbsync", 0x7c00046c, 0xffffffff, 0x1, 0x0, []⟩,
   ⟨"lfsux", 0x7c00046e, 0xfc0007ff, 0x23, 0x4000, [52, 79, 81]⟩,
   ⟨"cnttzd", 0x7c000474, 0xfc00ffff, 0x10000000000, 0x0, [74, 86]⟩,
   ⟨"cnttzd.", 0x7c000475, 0xfc00ffff, 0x10000000000, 0x0, [74, 86]⟩,
   ⟨"mcrxrx", 0x7c000480, 0xfc7fffff, 0x10000000000, 0x0, [13]⟩,
   ⟨"lwdcbx", 0x7c000484, 0xfc0007ff, 0x20000000000, 0x0, [86, 74, 81]⟩,
   ⟨"lwdx", 0x7c000486, 0xfc0007ff, 0x20002000000, 0x0, [86, 74, 81]⟩,
   ⟨"lvtlx", 0x7c00048a, 0xfc0007ff, 0x200000000, 0x0, [126, 75, 81]⟩,
   ⟨"lwat", 0x7c00048c, 0xfc0007ff, 0x10000000000, 0x0, [86, 75, 99]⟩,
   ⟨"lwfcmux", 0x7c00048e, 0xfc0007ff, 0x4000000, 0x0, [158, 74, 81]⟩,
   ⟨"lxsdx", 0x7c000498, 0xfc0007fe, 0x8000000, 0x0, [168, 75, 81]⟩,
   ⟨"mfsr", 0x7c0004a6, 0xfc10ffff, 0x23, 0x82004808, [86, 112]⟩,
   ⟨"lswi", 0x7c0004aa, 0xfc0007ff, 0x21, 0x102000000, [86, 76, 71]⟩,
   ⟨"lsi", 0x7c0004aa, 0xfc0007ff, 0x32, 0x0, [86, 75, 70]⟩,
   ⟨"hwsync", 0x7c0004ac, 0xffffffff, 0x800, 0x40000400, []⟩,
   ⟨"lwsync", 0x7c2004ac, 0xffffffff, 0x1, 0x100000000, []⟩,
   ⟨"ptesync", 0x7c4004ac, 0xffffffff, 0x88, 0x0, []⟩,
   ⟨"sync", 0x7c0004ac, 0xff90ffff, 0x200000000, 0x0, [65, 114]⟩,
   ⟨"sync", 0x7c0004ac, 0xff9fffff, 0x21, 0x40000400, [65]⟩,
   ⟨"msync", 0x7c0004ac, 0xffffffff, 0x60000400, 0x0, []⟩,
   ⟨"sync", 0x7c0004ac, 0xffffffff, 0x40000400, 0x200000000, []⟩,
   ⟨"lwsync", 0x7c0004ac, 0xffffffff, 0x100000000, 0x0, []⟩,
   ⟨"dcs", 0x7c0004ac, 0xffffffff, 0x32, 0x0, []⟩]

/-- ppc-opc.c:6464-6619. -/
def main26 : List Opcode :=
  [⟨"lfdx", 0x7c0004ae, 0xfc0007ff, 0x23, 0x4000, [52, 75, 81]⟩,
   ⟨"mffgpr", 0x7c0004be, 0xfc1f07ff, 0x400000, 0x10000000, [52, 81]⟩,
   ⟨"lfdepx", 0x7c0004be, 0xfc0007ff, 0x22000000, 0x0, [52, 75, 81]⟩,
   ⟨"lddx", 0x7c0004c6, 0xfc0007ff, 0x2000000, 0x0, [86, 74, 81]⟩,
   ⟨"lvswx", 0x7c0004ca, 0xfc0007ff, 0x200000000, 0x0, [126, 75, 81]⟩,
   ⟨"ldat", 0x7c0004cc, 0xfc0007ff, 0x10000000000, 0x0, [86, 75, 99]⟩,
   ⟨"lqfcmux", 0x7c0004ce, 0xfc0007ff, 0x4000000, 0x0, [158, 74, 81]⟩,
   ⟨"nego", 0x7c0004d0, 0xfc00ffff, 0x23, 0x0, [86, 74]⟩,
   ⟨"nego.", 0x7c0004d1, 0xfc00ffff, 0x23, 0x0, [86, 74]⟩,
   ⟨"mulo", 0x7c0004d6, 0xfc0007ff, 0x12, 0x0, [86, 74, 81]⟩,
   ⟨"mulo.", 0x7c0004d7, 0xfc0007ff, 0x12, 0x0, [86, 74, 81]⟩,
   ⟨"mfsri", 0x7c0004e6, 0xfc0007ff, 0x12, 0x0, [86, 74, 81]⟩,
   ⟨"dclst", 0x7c0004ec, 0xfc00ffff, 0x12, 0x0, [86, 74]⟩,
   ⟨"lfdux", 0x7c0004ee, 0xfc0007ff, 0x23, 0x4000, [52, 79, 81]⟩,
   ⟨"stbdcbx", 0x7c000504, 0xfc0007ff, 0x20000000000, 0x0, [86, 74, 81]⟩,
   ⟨"stbdx", 0x7c000506, 0xfc0007ff, 0x20002000000, 0x0, [86, 74, 81]⟩,
   ⟨"stvlx", 0x7c00050e, 0xfc0007ff, 0x800000, 0x0, [126, 75, 81]⟩,
   ⟨"stbfcmux", 0x7c00050e, 0xfc0007ff, 0x4000000, 0x0, [158, 74, 81]⟩,
   ⟨"stxsspx", 0x7c000518, 0xfc0007fe, 0x1000000000, 0x0, [168, 75, 81]⟩,
   ⟨"tbegin.", 0x7c00051d, 0xffdfffff, 0x1000000000, 0x0, [58]⟩,
   ⟨"subfeo", 0x7c000510, 0xfc0007ff, 0x21, 0x0, [86, 74, 81]⟩,
   ⟨"sfeo", 0x7c000510, 0xfc0007ff, 0x32, 0x0, [86, 74, 81]⟩,
   ⟨"subfeo.", 0x7c000511, 0xfc0007ff, 0x21, 0x0, [86, 74, 81]⟩,
   ⟨"sfeo.", 0x7c000511, 0xfc0007ff, 0x32, 0x0, [86, 74, 81]⟩,
   ⟨"addeo", 0x7c000514, 0xfc0007ff, 0x21, 0x0, [86, 74, 81]⟩,
   ⟨"aeo", 0x7c000514, 0xfc0007ff, 0x32, 0x0, [86, 74, 81]⟩,
   ⟨"addeo.", 0x7c000515, 0xfc0007ff, 0x21, 0x0, [86, 74, 81]⟩,
   ⟨"aeo.", 0x7c000515, 0xfc0007ff, 0x32, 0x0, [86, 74, 81]⟩,
   ⟨"mfsrin", 0x7c000526, 0xfc1f07ff, 0x1, 0x82004808, [86, 81]⟩,
   ⟨"stdbrx", 0x7c000528, 0xfc0007ff, 0x30800000, 0x0, [86, 75, 81]⟩,
   ⟨"stswx", 0x7c00052a, 0xfc0007ff, 0x21, 0x102000000, [86, 75, 81]⟩,
   ⟨"stsx", 0x7c00052a, 0xfc0007ff, 0x32, 0x0, [86, 75, 81]⟩,
   ⟨"stwbrx", 0x7c00052c, 0xfc0007ff, 0x21, 0x0, [86, 75, 81]⟩,
   ⟨"stbrx", 0x7c00052c, 0xfc0007ff, 0x32, 0x0, [86, 75, 81]⟩,
   ⟨"stfsx", 0x7c00052e, 0xfc0007ff, 0x23, 0x4000, [52, 75, 81]⟩,
   ⟨"srq", 0x7c000530, 0xfc0007ff, 0x12, 0x0, [74, 86, 81]⟩,
   ⟨"srq.", 0x7c000531, 0xfc0007ff, 0x12, 0x0, [74, 86, 81]⟩,
   ⟨"sre", 0x7c000532, 0xfc0007ff, 0x12, 0x0, [74, 86, 81]⟩,
   ⟨"sre.", 0x7c000533, 0xfc0007ff, 0x12, 0x0, [74, 86, 81]⟩,
   ⟨"sthdcbx", 0x7c000544, 0xfc0007ff, 0x20000000000, 0x0, [86, 74, 81]⟩,
   ⟨"sthdx", 0x7c000546, 0xfc0007ff, 0x20002000000, 0x0, [86, 74, 81]⟩,
   ⟨"stvfrx", 0x7c00054a, 0xfc0007ff, 0x200000000, 0x0, [126, 75, 81]⟩,
   ⟨"stvrx", 0x7c00054e, 0xfc0007ff, 0x800000, 0x0, [126, 75, 81]⟩,
   ⟨"sthfcmux", 0x7c00054e, 0xfc0007ff, 0x4000000, 0x0, [158, 74, 81]⟩,
   ⟨"tendall.", 0x7e00055d, 0xffffffff, 0x1000000000, 0x0, []⟩,
   ⟨"tend.", 0x7c00055d, 0xfdffffff, 0x1000000000, 0x0, [157]⟩,
   ⟨"stbcx.", 0x7c00056d, 0xfc0007ff, 0x1200000000, 0x0, [86, 75, 81]⟩,
   ⟨"stfsux", 0x7c00056e, 0xfc0007ff, 0x23, 0x4000, [52, 79, 81]⟩,
   ⟨"sriq", 0x7c000570, 0xfc0007ff, 0x12, 0x0, [74, 86, 99]⟩,
   ⟨"sriq.", 0x7c000571, 0xfc0007ff, 0x12, 0x0, [74, 86, 99]⟩,
   ⟨"stwdcbx", 0x7c000584, 0xfc0007ff, 0x20000000000, 0x0, [86, 74, 81]⟩,
   ⟨"stwdx", 0x7c000586, 0xfc0007ff, 0x20002000000, 0x0, [86, 74, 81]⟩,
   ⟨"stvflx", 0x7c00058a, 0xfc0007ff, 0x200000000, 0x0, [126, 75, 81]⟩,
   ⟨"stwat", 0x7c00058c, 0xfc0007ff, 0x10000000000, 0x0, [86, 75, 99]⟩,
   ⟨"stwfcmux", 0x7c00058e, 0xfc0007ff, 0x4000000, 0x0, [158, 74, 81]⟩,
   ⟨"stxsdx", 0x7c000598, 0xfc0007fe, 0x8000000, 0x0, [168, 75, 81]⟩,
   ⟨"tcheck", 0x7c00059c, 0xfc7fffff, 0x1000000000, 0x0, [13]⟩,
   ⟨"subfzeo", 0x7c000590, 0xfc00ffff, 0x21, 0x0, [86, 74]⟩,
   ⟨"sfzeo", 0x7c000590, 0xfc00ffff, 0x32, 0x0, [86, 74]⟩,
   ⟨"subfzeo.", 0x7c000591, 0xfc00ffff, 0x21, 0x0, [86, 74]⟩,
   ⟨"sfzeo.", 0x7c000591, 0xfc00ffff, 0x32, 0x0, [86, 74]⟩,
   ⟨"addzeo", 0x7c000594, 0xfc00ffff, 0x21, 0x0, [86, 74]⟩,
   ⟨"azeo", 0x7c000594, 0xfc00ffff, 0x32, 0x0, [86, 74]⟩,
   ⟨"addzeo.", 0x7c000595, 0xfc00ffff, 0x21, 0x0, [86, 74]⟩,
   ⟨"azeo.", 0x7c000595, 0xfc00ffff, 0x32, 0x0, [86, 74]⟩,
   ⟨"stswi", 0x7c0005aa, 0xfc0007ff, 0x21, 0x102000000, [86, 75, 70]⟩,
   ⟨"stsi", 0x7c0005aa, 0xfc0007ff, 0x32, 0x0, [86, 75, 70]⟩,
   ⟨"sthcx.", 0x7c0005ad, 0xfc0007ff, 0x1200000000, 0x0, [86, 75, 81]⟩,
   ⟨"stfdx", 0x7c0005ae, 0xfc0007ff, 0x23, 0x4000, [52, 75, 81]⟩,
   ⟨"srlq", 0x7c0005b0, 0xfc0007ff, 0x12, 0x0, [74, 86, 81]⟩,
   ⟨"srlq.", 0x7c0005b1, 0xfc0007ff, 0x12, 0x0, [74, 86, 81]⟩,
   ⟨"sreq", 0x7c0005b2, 0xfc0007ff, 0x12, 0x0, [74, 86, 81]⟩,
   ⟨"sreq.", 0x7c0005b3, 0xfc0007ff, 0x12, 0x0, [74, 86, 81]⟩,
   ⟨"mftgpr", 0x7c0005be, 0xfc1f07ff, 0x400000, 0x10000000, [86, 49]⟩,
   ⟨"stfdepx", 0x7c0005be, 0xfc0007ff, 0x22000000, 0x0, [52, 75, 81]⟩,
   ⟨"stddx", 0x7c0005c6, 0xfc0007ff, 0x2000000, 0x0, [86, 74, 81]⟩,
   ⟨"stvswx", 0x7c0005ca, 0xfc0007ff, 0x200000000, 0x0, [126, 75, 81]⟩,
   ⟨"stdat", 0x7c0005cc, 0xfc0007ff, 0x10000000000, 0x0, [86, 75, 99]⟩,
   ⟨"stqfcmux", 0x7c0005ce, 0xfc0007ff, 0x4000000, 0x0, [158, 74, 81]⟩,
   ⟨"subfmeo", 0x7c0005d0, 0xfc00ffff, 0x21, 0x0, [86, 74]⟩,
   ⟨"sfmeo", 0x7c0005d0, 0xfc00ffff, 0x32, 0x0, [86, 74]⟩,
   ⟨"subfmeo.", 0x7c0005d1, 0xfc00ffff, 0x21, 0x0, [86, 74]⟩,
   ⟨"sfmeo.", 0x7c0005d1, 0xfc00ffff, 0x32, 0x0, [86, 74]⟩,
   ⟨"mulldo", 0x7c0005d2, 0xfc0007ff, 0x88, 0x0, [86, 74, 81]⟩,
   ⟨"mulldo.", 0x7c0005d3, 0xfc0007ff, 0x88, 0x0, [86, 74, 81]⟩,
   ⟨"addmeo", 0x7c0005d4, 0xfc00ffff, 0x21, 0x0, [86, 74]⟩,
   ⟨"ameo", 0x7c0005d4, 0xfc00ffff, 0x32, 0x0, [86, 74]⟩,
   ⟨"addmeo.", 0x7c0005d5, 0xfc00ffff, 0x21, 0x0, [86, 74]⟩,
   ⟨"ameo.", 0x7c0005d5, 0xfc00ffff, 0x32, 0x0, [86, 74]⟩,
   ⟨"mullwo", 0x7c0005d6, 0xfc0007ff, 0x21, 0x0, [86, 74, 81]⟩,
   ⟨"mulso", 0x7c0005d6, 0xfc0007ff, 0x32, 0x0, [86, 74, 81]⟩,
   ⟨"mullwo.", 0x7c0005d7, 0xfc0007ff, 0x21, 0x0, [86, 74, 81]⟩,
   ⟨"mulso.", 0x7c0005d7, 0xfc0007ff, 0x32, 0x0, [86, 74, 81]⟩,
   ⟨"tsuspend.", 0x7c0005dd, 0xffffffff, 0x1000000000, 0x0, []⟩,
   ⟨"tresume.", 0x7c2005dd, 0xffffffff, 0x1000000000, 0x0, []⟩,
   ⟨"tsr.", 0x7c0005dd, 0xffdfffff, 0x1000000000, 0x0, [57]⟩,
   ⟨"darn", 0x7c0005e6, 0xfc1cffff, 0x10000000000, 0x0, [86, 176]⟩,
   ⟨"dcba", 0x7c0005ec, 0xffe007ff, 0x4064000400, 0x0, [75, 81]⟩,
   ⟨"dcbal", 0x7c2005ec, 0xffe007ff, 0x2000000, 0x0, [75, 81]⟩,
   ⟨"stfdux", 0x7c0005ee, 0xfc0007ff, 0x23, 0x4000, [52, 79, 81]⟩]

/-- ppc-opc.c:6621-6777. -/
def main27 : List Opcode :=
  [⟨"srliq", 0x7c0005f0, 0xfc0007ff, 0x12, 0x0, [74, 86, 99]⟩,
   ⟨"srliq.", 0x7c0005f1, 0xfc0007ff, 0x12, 0x0, [74, 86, 99]⟩,
   ⟨"lvsm", 0x7c00060a, 0xfc0007ff, 0x200000000, 0x0, [126, 75, 81]⟩,
   ⟨"copy", 0x7c20060c, 0xffe007ff, 0x10000000000, 0x0, [75, 81]⟩,
   ⟨"stvepxl", 0x7c00060e, 0xfc0007ff, 0x200000000, 0x0, [126, 75, 81]⟩,
   ⟨"lvlxl", 0x7c00060e, 0xfc0007ff, 0x800000, 0x0, [126, 75, 81]⟩,
   ⟨"ldfcmux", 0x7c00060e, 0xfc0007ff, 0x4000000, 0x0, [158, 74, 81]⟩,
   ⟨"dozo", 0x7c000610, 0xfc0007ff, 0x12, 0x0, [86, 74, 81]⟩,
   ⟨"dozo.", 0x7c000611, 0xfc0007ff, 0x12, 0x0, [86, 74, 81]⟩,
   ⟨"addo", 0x7c000614, 0xfc0007ff, 0x21, 0x0, [86, 74, 81]⟩,
   ⟨"caxo", 0x7c000614, 0xfc0007ff, 0x32, 0x0, [86, 74, 81]⟩,
   ⟨"addo.", 0x7c000615, 0xfc0007ff, 0x21, 0x0, [86, 74, 81]⟩,
   ⟨"caxo.", 0x7c000615, 0xfc0007ff, 0x32, 0x0, [86, 74, 81]⟩,
   ⟨"modsd", 0x7c000612, 0xfc0007ff, 0x10000000000, 0x0, [86, 74, 81]⟩,
   ⟨"modsw", 0x7c000616, 0xfc0007ff, 0x10000000000, 0x0, [86, 74, 81]⟩,
   ⟨"lxvw4x", 0x7c000618, 0xfc0007fe, 0x8000000, 0x0, [168, 75, 81]⟩,
   ⟨"lxsibzx", 0x7c00061a, 0xfc0007fe, 0x10000000000, 0x0, [168, 75, 81]⟩,
   ⟨"tabortwc.", 0x7c00061d, 0xfc0007ff, 0x1000000000, 0x0, [117, 74, 81]⟩,
   ⟨"tlbivax", 0x7c000624, 0xffe007ff, 0x60000400, 0x0, [75, 81]⟩,
   ⟨"lwzcix", 0x7c00062a, 0xfc0007ff, 0x400000, 0x0, [86, 75, 81]⟩,
   ⟨"lhbrx", 0x7c00062c, 0xfc0007ff, 0x23, 0x0, [86, 75, 81]⟩,
   ⟨"lfdpx", 0x7c00062e, 0xfc2007ff, 0x400000, 0x10000000, [53, 75, 81]⟩,
   ⟨"lfqx", 0x7c00062e, 0xfc0007ff, 0x6, 0x0, [52, 74, 81]⟩,
   ⟨"sraw", 0x7c000630, 0xfc0007ff, 0x21, 0x0, [74, 86, 81]⟩,
   ⟨"sra", 0x7c000630, 0xfc0007ff, 0x32, 0x0, [74, 86, 81]⟩,
   ⟨"sraw.", 0x7c000631, 0xfc0007ff, 0x21, 0x0, [74, 86, 81]⟩,
   ⟨"sra.", 0x7c000631, 0xfc0007ff, 0x32, 0x0, [74, 86, 81]⟩,
   ⟨"srad", 0x7c000634, 0xfc0007ff, 0x88, 0x0, [74, 86, 81]⟩,
   ⟨"srad.", 0x7c000635, 0xfc0007ff, 0x88, 0x0, [74, 86, 81]⟩,
   ⟨"evlddepx", 0x7c00063e, 0xfc0007ff, 0x1000, 0x0, [86, 74, 81]⟩,
   ⟨"lfddx", 0x7c000646, 0xfc0007ff, 0x2000000, 0x0, [52, 74, 81]⟩,
   ⟨"lvtrxl", 0x7c00064a, 0xfc0007ff, 0x200000000, 0x0, [126, 75, 81]⟩,
   ⟨"stvepx", 0x7c00064e, 0xfc0007ff, 0x200000000, 0x0, [126, 75, 81]⟩,
   ⟨"lvrxl", 0x7c00064e, 0xfc0007ff, 0x800000, 0x0, [126, 75, 81]⟩,
   ⟨"lxvh8x", 0x7c000658, 0xfc0007fe, 0x10000000000, 0x0, [168, 75, 81]⟩,
   ⟨"lxsihzx", 0x7c00065a, 0xfc0007fe, 0x10000000000, 0x0, [168, 75, 81]⟩,
   ⟨"tabortdc.", 0x7c00065d, 0xfc0007ff, 0x1000000000, 0x0, [117, 74, 81]⟩,
   ⟨"rac", 0x7c000664, 0xfc0007ff, 0x12, 0x0, [86, 74, 81]⟩,
   ⟨"erativax", 0x7c000666, 0xfc0007ff, 0x20000000, 0x0, [86, 75, 81]⟩,
   ⟨"lhzcix", 0x7c00066a, 0xfc0007ff, 0x400000, 0x0, [86, 75, 81]⟩,
   ⟨"dss", 0x7c00066c, 0xfe0007fe, 0x100, 0x0, [113]⟩,
   ⟨"lfqux", 0x7c00066e, 0xfc0007ff, 0x6, 0x0, [52, 74, 81]⟩,
   ⟨"srawi", 0x7c000670, 0xfc0007ff, 0x21, 0x0, [74, 86, 99]⟩,
   ⟨"srai", 0x7c000670, 0xfc0007ff, 0x32, 0x0, [74, 86, 99]⟩,
   ⟨"srawi.", 0x7c000671, 0xfc0007ff, 0x21, 0x0, [74, 86, 99]⟩,
   ⟨"srai.", 0x7c000671, 0xfc0007ff, 0x32, 0x0, [74, 86, 99]⟩,
   ⟨"sradi", 0x7c000674, 0xfc0007fd, 0x88, 0x0, [74, 86, 103]⟩,
   ⟨"sradi.", 0x7c000675, 0xfc0007fd, 0x88, 0x0, [74, 86, 103]⟩,
   ⟨"lvtlxl", 0x7c00068a, 0xfc0007ff, 0x200000000, 0x0, [126, 75, 81]⟩,
   ⟨"cpabort", 0x7c00068c, 0xffffffff, 0x10000000000, 0x0, []⟩,
   ⟨"divo", 0x7c000696, 0xfc0007ff, 0x12, 0x0, [86, 74, 81]⟩,
   ⟨"divo.", 0x7c000697, 0xfc0007ff, 0x12, 0x0, [86, 74, 81]⟩,
   ⟨"lxvd2x", 0x7c000698, 0xfc0007fe, 0x8000000, 0x0, [168, 75, 81]⟩,
   ⟨"lxvx", 0x7c000698, 0xfc0007fe, 0x1000000000, 0x10000000000, [168, 75, 81]⟩,
   ⟨"tabortwci.", 0x7c00069d, 0xfc0007ff, 0x1000000000, 0x0, [117, 74, 102]⟩,
   ⟨"tlbsrx.", 0x7c0006a5, 0xffe007ff, 0x20000000, 0x0, [75, 81]⟩,
   ⟨"slbiag", 0x7c0006a4, 0xfc1fffff, 0x10000000000, 0x0, [86]⟩,
   ⟨"slbmfev", 0x7c0006a6, 0xfc1e07ff, 0x10000000000, 0x0, [86, 81, 147]⟩,
   ⟨"slbmfev", 0x7c0006a6, 0xfc1f07ff, 0x88, 0x10000000000, [86, 81]⟩,
   ⟨"lbzcix", 0x7c0006aa, 0xfc0007ff, 0x400000, 0x0, [86, 75, 81]⟩,
   ⟨"eieio", 0x7c0006ac, 0xffffffff, 0x1, 0x60000400, []⟩,
   ⟨"mbar", 0x7c0006ac, 0xfc0007ff, 0x60000400, 0x0, [33]⟩,
   ⟨"eieio", 0x7c2006ac, 0xffffffff, 0x100000000, 0x0, []⟩,
   ⟨"eieio", 0x7c0006ac, 0xffffffff, 0x60000000, 0x0, []⟩,
   ⟨"lfiwax", 0x7c0006ae, 0xfc0007ff, 0x60400000, 0x0, [52, 75, 81]⟩,
   ⟨"lvswxl", 0x7c0006ca, 0xfc0007ff, 0x200000000, 0x0, [126, 75, 81]⟩,
   ⟨"abso", 0x7c0006d0, 0xfc00ffff, 0x12, 0x0, [86, 74]⟩,
   ⟨"abso.", 0x7c0006d1, 0xfc00ffff, 0x12, 0x0, [86, 74]⟩,
   ⟨"divso", 0x7c0006d6, 0xfc0007ff, 0x12, 0x0, [86, 74, 81]⟩,
   ⟨"divso.", 0x7c0006d7, 0xfc0007ff, 0x12, 0x0, [86, 74, 81]⟩,
   ⟨"lxvb16x", 0x7c0006d8, 0xfc0007fe, 0x10000000000, 0x0, [168, 75, 81]⟩,
   ⟨"tabortdci.", 0x7c0006dd, 0xfc0007ff, 0x1000000000, 0x0, [117, 74, 102]⟩,
   ⟨"rmieg", 0x7c0006e4, 0xffff07ff, 0x10000000000, 0x0, [81]⟩,
   ⟨"ldcix", 0x7c0006ea, 0xfc0007ff, 0x400000, 0x0, [86, 75, 81]⟩,
   ⟨"msgsync", 0x7c0006ec, 0xffffffff, 0x10000000000, 0x0, []⟩,
   ⟨"lfiwzx", 0x7c0006ee, 0xfc0007ff, 0x30000000, 0x0, [52, 75, 81]⟩,
   ⟨"extswsli", 0x7c0006f4, 0xfc0007fd, 0x10000000000, 0x0, [74, 86, 103]⟩,
   ⟨"extswsli.", 0x7c0006f5, 0xfc0007fd, 0x10000000000, 0x0, [74, 86, 103]⟩,
   ⟨"paste.", 0x7c20070d, 0xffe007ff, 0x10000000000, 0x0, [75, 81]⟩,
   ⟨"stvlxl", 0x7c00070e, 0xfc0007ff, 0x800000, 0x0, [126, 75, 81]⟩,
   ⟨"stdfcmux", 0x7c00070e, 0xfc0007ff, 0x4000000, 0x0, [158, 74, 81]⟩,
   ⟨"divdeuo", 0x7c000712, 0xfc0007ff, 0x30000000, 0x0, [86, 74, 81]⟩,
   ⟨"divdeuo.", 0x7c000713, 0xfc0007ff, 0x30000000, 0x0, [86, 74, 81]⟩,
   ⟨"divweuo", 0x7c000716, 0xfc0007ff, 0x30000000, 0x0, [86, 74, 81]⟩,
   ⟨"divweuo.", 0x7c000717, 0xfc0007ff, 0x30000000, 0x0, [86, 74, 81]⟩,
   ⟨"stxvw4x", 0x7c000718, 0xfc0007fe, 0x8000000, 0x0, [168, 75, 81]⟩,
   ⟨"stxsibx", 0x7c00071a, 0xfc0007fe, 0x10000000000, 0x0, [168, 75, 81]⟩,
   ⟨"tabort.", 0x7c00071d, 0xffe0ffff, 0x1000000000, 0x0, [74]⟩,
   ⟨"tlbsx", 0x7c000724, 0xfc0007ff, 0x60000600, 0x0, [89, 75, 81]⟩,
   ⟨"tlbsx.", 0x7c000725, 0xfc0007ff, 0x60000600, 0x0, [89, 75, 81]⟩,
   ⟨"slbmfee", 0x7c000726, 0xfc1e07ff, 0x10000000000, 0x0, [86, 81, 147]⟩,
   ⟨"slbmfee", 0x7c000726, 0xfc1f07ff, 0x88, 0x10000000000, [86, 81]⟩,
   ⟨"stwcix", 0x7c00072a, 0xfc0007ff, 0x400000, 0x0, [86, 75, 81]⟩,
   ⟨"sthbrx", 0x7c00072c, 0xfc0007ff, 0x23, 0x0, [86, 75, 81]⟩,
   ⟨"stfdpx", 0x7c00072e, 0xfc2007ff, 0x400000, 0x10000000, [53, 75, 81]⟩,
   ⟨"stfqx", 0x7c00072e, 0xfc0007ff, 0x6, 0x0, [52, 75, 81]⟩,
   ⟨"sraq", 0x7c000730, 0xfc0007ff, 0x12, 0x0, [74, 86, 81]⟩,
   ⟨"sraq.", 0x7c000731, 0xfc0007ff, 0x12, 0x0, [74, 86, 81]⟩,
   ⟨"srea", 0x7c000732, 0xfc0007ff, 0x12, 0x0, [74, 86, 81]⟩,
   ⟨"srea.", 0x7c000733, 0xfc0007ff, 0x12, 0x0, [74, 86, 81]⟩]

/-- ppc-opc.c:6779-6937. -/
def main28 : List Opcode :=
  [⟨"extsh", 0x7c000734, 0xfc00ffff, 0x21, 0x0, [74, 86]⟩,
   ⟨"exts", 0x7c000734, 0xfc00ffff, 0x32, 0x0, [74, 86]⟩,
   ⟨"extsh.", 0x7c000735, 0xfc00ffff, 0x21, 0x0, [74, 86]⟩,
   ⟨"exts.", 0x7c000735, 0xfc00ffff, 0x32, 0x0, [74, 86]⟩,
   ⟨"evstddepx", 0x7c00073e, 0xfc0007ff, 0x1000, 0x0, [86, 74, 81]⟩,
   ⟨"stfddx", 0x7c000746, 0xfc0007ff, 0x2000000, 0x0, [52, 74, 81]⟩,
   ⟨"stvfrxl", 0x7c00074a, 0xfc0007ff, 0x200000000, 0x0, [126, 75, 81]⟩,
   ⟨"wclrone", 0x7c40074c, 0xffe007ff, 0x20000000, 0x0, [75, 81]⟩,
   ⟨"wclrall", 0x7c00074c, 0xfc1fffff, 0x20000000, 0x0, [113]⟩,
   ⟨"wclr", 0x7c00074c, 0xfc0007ff, 0x20000000, 0x0, [113, 75, 81]⟩,
   ⟨"stvrxl", 0x7c00074e, 0xfc0007ff, 0x800000, 0x0, [126, 75, 81]⟩,
   ⟨"divdeo", 0x7c000752, 0xfc0007ff, 0x30000000, 0x0, [86, 74, 81]⟩,
   ⟨"divdeo.", 0x7c000753, 0xfc0007ff, 0x30000000, 0x0, [86, 74, 81]⟩,
   ⟨"divweo", 0x7c000756, 0xfc0007ff, 0x30000000, 0x0, [86, 74, 81]⟩,
   ⟨"divweo.", 0x7c000757, 0xfc0007ff, 0x30000000, 0x0, [86, 74, 81]⟩,
   ⟨"stxvh8x", 0x7c000758, 0xfc0007fe, 0x10000000000, 0x0, [168, 75, 81]⟩,
   ⟨"stxsihx", 0x7c00075a, 0xfc0007fe, 0x10000000000, 0x0, [168, 75, 81]⟩,
   ⟨"treclaim.", 0x7c00075d, 0xffe0ffff, 0x1000000000, 0x0, [74]⟩,
   ⟨"tlbrehi", 0x7c000764, 0xfc00ffff, 0x200, 0x20000000, [86, 74]⟩,
   ⟨"tlbrelo", 0x7c000f64, 0xfc00ffff, 0x200, 0x20000000, [86, 74]⟩,
   ⟨"tlbre", 0x7c000764, 0xfc0007ff, 0x60000600, 0x0, [89, 80, 104]⟩,
   ⟨"sthcix", 0x7c00076a, 0xfc0007ff, 0x400000, 0x0, [86, 75, 81]⟩,
   ⟨"icswepx", 0x7c00076c, 0xfc0007ff, 0x20000000, 0x0, [86, 74, 81]⟩,
   ⟨"icswepx.", 0x7c00076d, 0xfc0007ff, 0x20000000, 0x0, [86, 74, 81]⟩,
   ⟨"stfqux", 0x7c00076e, 0xfc0007ff, 0x6, 0x0, [52, 74, 81]⟩,
   ⟨"sraiq", 0x7c000770, 0xfc0007ff, 0x12, 0x0, [74, 86, 99]⟩,
   ⟨"sraiq.", 0x7c000771, 0xfc0007ff, 0x12, 0x0, [74, 86, 99]⟩,
   ⟨"extsb", 0x7c000774, 0xfc00ffff, 0x1, 0x0, [74, 86]⟩,
   ⟨"extsb.", 0x7c000775, 0xfc00ffff, 0x1, 0x0, [74, 86]⟩,
   ⟨"stvflxl", 0x7c00078a, 0xfc0007ff, 0x200000000, 0x0, [126, 75, 81]⟩,
   ⟨"iccci", 0x7c00078c, 0xffe007ff, 0xe0080200, 0x0, [80, 84]⟩,
   ⟨"ici", 0x7c00078c, 0xfc1fffff, 0x60000000, 0x0, [33]⟩,
   ⟨"divduo", 0x7c000792, 0xfc0007ff, 0x88, 0x0, [86, 74, 81]⟩,
   ⟨"divduo.", 0x7c000793, 0xfc0007ff, 0x88, 0x0, [86, 74, 81]⟩,
   ⟨"divwuo", 0x7c000796, 0xfc0007ff, 0x1, 0x0, [86, 74, 81]⟩,
   ⟨"divwuo.", 0x7c000797, 0xfc0007ff, 0x1, 0x0, [86, 74, 81]⟩,
   ⟨"stxvd2x", 0x7c000798, 0xfc0007fe, 0x8000000, 0x0, [168, 75, 81]⟩,
   ⟨"stxvx", 0x7c000798, 0xfc0007fe, 0x1000000000, 0x10000000000, [168, 75, 81]⟩,
   ⟨"tlbld", 0x7c0007a4, 0xffff07ff, 0x1, 0x60000600, [81]⟩,
   ⟨"tlbwehi", 0x7c0007a4, 0xfc00ffff, 0x200, 0x0, [86, 74]⟩,
   ⟨"tlbwelo", 0x7c000fa4, 0xfc00ffff, 0x200, 0x0, [86, 74]⟩,
   ⟨"tlbwe", 0x7c0007a4, 0xfc0007ff, 0x60000600, 0x0, [89, 80, 104]⟩,
   ⟨"slbfee.", 0x7c0007a7, 0xfc1f07ff, 0x400000, 0x0, [86, 81]⟩,
   ⟨"stbcix", 0x7c0007aa, 0xfc0007ff, 0x400000, 0x0, [86, 75, 81]⟩,
   ⟨"icbi", 0x7c0007ac, 0xffe007ff, 0x1, 0x0, [75, 81]⟩,
   ⟨"stfiwx", 0x7c0007ae, 0xfc0007ff, 0x1, 0x4000, [52, 75, 81]⟩,
   ⟨"extsw", 0x7c0007b4, 0xfc00ffff, 0x88, 0x0, [74, 86]⟩,
   ⟨"extsw.", 0x7c0007b5, 0xfc00ffff, 0x88, 0x0, [74, 86]⟩,
   ⟨"icbiep", 0x7c0007be, 0xffe007ff, 0x22000000, 0x0, [75, 81]⟩,
   ⟨"stvswxl", 0x7c0007ca, 0xfc0007ff, 0x200000000, 0x0, [126, 75, 81]⟩,
   ⟨"icread", 0x7c0007cc, 0xffe007ff, 0xc0080200, 0x0, [75, 81]⟩,
   ⟨"nabso", 0x7c0007d0, 0xfc00ffff, 0x12, 0x0, [86, 74]⟩,
   ⟨"nabso.", 0x7c0007d1, 0xfc00ffff, 0x12, 0x0, [86, 74]⟩,
   ⟨"divdo", 0x7c0007d2, 0xfc0007ff, 0x88, 0x0, [86, 74, 81]⟩,
   ⟨"divdo.", 0x7c0007d3, 0xfc0007ff, 0x88, 0x0, [86, 74, 81]⟩,
   ⟨"divwo", 0x7c0007d6, 0xfc0007ff, 0x1, 0x0, [86, 74, 81]⟩,
   ⟨"divwo.", 0x7c0007d7, 0xfc0007ff, 0x1, 0x0, [86, 74, 81]⟩,
   ⟨"stxvb16x", 0x7c0007d8, 0xfc0007fe, 0x10000000000, 0x0, [168, 75, 81]⟩,
   ⟨"trechkpt.", 0x7c0007dd, 0xffffffff, 0x1000000000, 0x0, []⟩,
   ⟨"tlbli", 0x7c0007e4, 0xffff07ff, 0x1, 0x80000000, [81]⟩,
   ⟨"stdcix", 0x7c0007ea, 0xfc0007ff, 0x400000, 0x0, [86, 75, 81]⟩,
   ⟨"dcbz", 0x7c0007ec, 0xffe007ff, 0x1, 0x0, [75, 81]⟩,
   ⟨"dclz", 0x7c0007ec, 0xffe007ff, 0x1, 0x0, [75, 81]⟩,
   ⟨"dcbzep", 0x7c0007fe, 0xffe007ff, 0x22000000, 0x0, [75, 81]⟩,
   ⟨"dcbzl", 0x7c2007ec, 0xffe007ff, 0x2000800, 0x40000000, [75, 81]⟩,
   ⟨"cctpl", 0x7c210b78, 0xffffffff, 0x800000, 0x0, []⟩,
   ⟨"cctpm", 0x7c421378, 0xffffffff, 0x800000, 0x0, []⟩,
   ⟨"cctph", 0x7c631b78, 0xffffffff, 0x800000, 0x0, []⟩,
   ⟨"dstt", 0x7e0002ac, 0xfe0007fe, 0x100, 0x0, [74, 81, 113]⟩,
   ⟨"dststt", 0x7e0002ec, 0xfe0007fe, 0x100, 0x0, [74, 81, 113]⟩,
   ⟨"dssall", 0x7e00066c, 0xfe0007fe, 0x100, 0x0, []⟩,
   ⟨"db8cyc", 0x7f9ce378, 0xffffffff, 0x800000, 0x0, []⟩,
   ⟨"db10cyc", 0x7fbdeb78, 0xffffffff, 0x800000, 0x0, []⟩,
   ⟨"db12cyc", 0x7fdef378, 0xffffffff, 0x800000, 0x0, []⟩,
   ⟨"db16cyc", 0x7ffffb78, 0xffffffff, 0x800000, 0x0, []⟩,
   ⟨"lwz", 0x80000000, 0xfc000000, 0x21, 0x800000000, [86, 34, 75]⟩,
   ⟨"l", 0x80000000, 0xfc000000, 0x32, 0x800000000, [86, 34, 75]⟩,
   ⟨"lwzu", 0x84000000, 0xfc000000, 0x21, 0x800000000, [86, 34, 77]⟩,
   ⟨"lu", 0x84000000, 0xfc000000, 0x32, 0x800000000, [86, 34, 75]⟩,
   ⟨"lbz", 0x88000000, 0xfc000000, 0x23, 0x800000000, [86, 34, 75]⟩,
   ⟨"lbzu", 0x8c000000, 0xfc000000, 0x23, 0x800000000, [86, 34, 77]⟩,
   ⟨"stw", 0x90000000, 0xfc000000, 0x21, 0x800000000, [86, 34, 75]⟩,
   ⟨"st", 0x90000000, 0xfc000000, 0x32, 0x800000000, [86, 34, 75]⟩,
   ⟨"stwu", 0x94000000, 0xfc000000, 0x21, 0x800000000, [86, 34, 79]⟩,
   ⟨"stu", 0x94000000, 0xfc000000, 0x32, 0x800000000, [86, 34, 75]⟩,
   ⟨"stb", 0x98000000, 0xfc000000, 0x23, 0x800000000, [86, 34, 75]⟩,
   ⟨"stbu", 0x9c000000, 0xfc000000, 0x23, 0x800000000, [86, 34, 79]⟩,
   ⟨"lhz", 0xa0000000, 0xfc000000, 0x23, 0x800000000, [86, 34, 75]⟩,
   ⟨"lhzu", 0xa4000000, 0xfc000000, 0x23, 0x800000000, [86, 34, 77]⟩,
   ⟨"lha", 0xa8000000, 0xfc000000, 0x23, 0x800000000, [86, 34, 75]⟩,
   ⟨"lhau", 0xac000000, 0xfc000000, 0x23, 0x800000000, [86, 34, 77]⟩,
   ⟨"sth", 0xb0000000, 0xfc000000, 0x23, 0x800000000, [86, 34, 75]⟩,
   ⟨"sthu", 0xb4000000, 0xfc000000, 0x23, 0x800000000, [86, 34, 79]⟩,
   ⟨"lmw", 0xb8000000, 0xfc000000, 0x21, 0x800000000, [86, 34, 78]⟩,
   ⟨"lm", 0xb8000000, 0xfc000000, 0x32, 0x800000000, [86, 34, 75]⟩,
   ⟨"stmw", 0xbc000000, 0xfc000000, 0x21, 0x800000000, [86, 34, 75]⟩,
   ⟨"stm", 0xbc000000, 0xfc000000, 0x32, 0x800000000, [86, 34, 75]⟩,
   ⟨"lfs", 0xc0000000, 0xfc000000, 0x23, 0x800004000, [52, 34, 75]⟩,
   ⟨"lfsu", 0xc4000000, 0xfc000000, 0x23, 0x800004000, [52, 34, 79]⟩,
   ⟨"lfd", 0xc8000000, 0xfc000000, 0x23, 0x800004000, [52, 34, 75]⟩]

/-- ppc-opc.c:6939-7082. -/
def main29 : List Opcode :=
  [⟨"lfdu", 0xcc000000, 0xfc000000, 0x23, 0x800004000, [52, 34, 79]⟩,
   ⟨"stfs", 0xd0000000, 0xfc000000, 0x23, 0x800004000, [52, 34, 75]⟩,
   ⟨"stfsu", 0xd4000000, 0xfc000000, 0x23, 0x800004000, [52, 34, 79]⟩,
   ⟨"stfd", 0xd8000000, 0xfc000000, 0x23, 0x800004000, [52, 34, 75]⟩,
   ⟨"stfdu", 0xdc000000, 0xfc000000, 0x23, 0x800004000, [52, 34, 79]⟩,
   ⟨"lq", 0xe0000000, 0xfc200000, 0x800, 0x840000000, [88, 38, 76]⟩,
   ⟨"psq_l", 0xe0000000, 0xfc000000, 0x1000000, 0x800000000, [52, 146, 74, 43, 144]⟩,
   ⟨"lfq", 0xe0000000, 0xfc000000, 0x6, 0x800000000, [52, 34, 75]⟩,
   ⟨"lxsd", 0xe4000002, 0xfc000003, 0x10000000000, 0x800000000, [126, 39, 75]⟩,
   ⟨"lxssp", 0xe4000003, 0xfc000003, 0x10000000000, 0x800000000, [126, 39, 75]⟩,
   ⟨"lfdp", 0xe4000000, 0xfc200000, 0x400000, 0x810000000, [53, 39, 75]⟩,
   ⟨"psq_lu", 0xe4000000, 0xfc000000, 0x1000000, 0x800000000, [52, 146, 74, 43, 144]⟩,
   ⟨"lfqu", 0xe4000000, 0xfc000000, 0x6, 0x800000000, [52, 34, 75]⟩,
   ⟨"ld", 0xe8000000, 0xfc000003, 0x88, 0x800000000, [86, 39, 75]⟩,
   ⟨"ldu", 0xe8000001, 0xfc000003, 0x88, 0x800000000, [86, 39, 77]⟩,
   ⟨"lwa", 0xe8000002, 0xfc000003, 0x88, 0x800000000, [86, 39, 75]⟩,
   ⟨"dadd", 0xec000004, 0xfc0007ff, 0x400000, 0x800000000, [52, 47, 49]⟩,
   ⟨"dadd.", 0xec000005, 0xfc0007ff, 0x400000, 0x800000000, [52, 47, 49]⟩,
   ⟨"dqua", 0xec000006, 0xfc0001ff, 0x400000, 0x800000000, [52, 47, 49, 148]⟩,
   ⟨"dqua.", 0xec000007, 0xfc0001ff, 0x400000, 0x800000000, [52, 47, 49, 148]⟩,
   ⟨"fdivs", 0xec000024, 0xfc0007ff, 0x1, 0x800004000, [52, 47, 49]⟩,
   ⟨"fdivs.", 0xec000025, 0xfc0007ff, 0x1, 0x800004000, [52, 47, 49]⟩,
   ⟨"fsubs", 0xec000028, 0xfc0007ff, 0x1, 0x800004000, [52, 47, 49]⟩,
   ⟨"fsubs.", 0xec000029, 0xfc0007ff, 0x1, 0x800004000, [52, 47, 49]⟩,
   ⟨"fadds", 0xec00002a, 0xfc0007ff, 0x1, 0x800004000, [52, 47, 49]⟩,
   ⟨"fadds.", 0xec00002b, 0xfc0007ff, 0x1, 0x800004000, [52, 47, 49]⟩,
   ⟨"fsqrts", 0xec00002c, 0xfc1f07ff, 0x1, 0x880000000, [52, 49]⟩,
   ⟨"fsqrts.", 0xec00002d, 0xfc1f07ff, 0x1, 0x880000000, [52, 49]⟩,
   ⟨"fres", 0xec000030, 0xfc1f07ff, 0x10000000, 0x800000000, [52, 49]⟩,
   ⟨"fres", 0xec000030, 0xfc1e07ff, 0x1, 0x810000000, [52, 49, 147]⟩,
   ⟨"fres.", 0xec000031, 0xfc1f07ff, 0x10000000, 0x800000000, [52, 49]⟩,
   ⟨"fres.", 0xec000031, 0xfc1e07ff, 0x1, 0x810000000, [52, 49, 147]⟩,
   ⟨"fmuls", 0xec000032, 0xfc00f83f, 0x1, 0x800004000, [52, 47, 51]⟩,
   ⟨"fmuls.", 0xec000033, 0xfc00f83f, 0x1, 0x800004000, [52, 47, 51]⟩,
   ⟨"frsqrtes", 0xec000034, 0xfc1f07ff, 0x10000000, 0x800000000, [52, 49]⟩,
   ⟨"frsqrtes", 0xec000034, 0xfc1e07ff, 0x100000, 0x810000000, [52, 49, 147]⟩,
   ⟨"frsqrtes.", 0xec000035, 0xfc1f07ff, 0x10000000, 0x800000000, [52, 49]⟩,
   ⟨"frsqrtes.", 0xec000035, 0xfc1e07ff, 0x100000, 0x810000000, [52, 49, 147]⟩,
   ⟨"fmsubs", 0xec000038, 0xfc00003f, 0x1, 0x800004000, [52, 47, 51, 49]⟩,
   ⟨"fmsubs.", 0xec000039, 0xfc00003f, 0x1, 0x800004000, [52, 47, 51, 49]⟩,
   ⟨"fmadds", 0xec00003a, 0xfc00003f, 0x1, 0x800004000, [52, 47, 51, 49]⟩,
   ⟨"fmadds.", 0xec00003b, 0xfc00003f, 0x1, 0x800004000, [52, 47, 51, 49]⟩,
   ⟨"fnmsubs", 0xec00003c, 0xfc00003f, 0x1, 0x800004000, [52, 47, 51, 49]⟩,
   ⟨"fnmsubs.", 0xec00003d, 0xfc00003f, 0x1, 0x800004000, [52, 47, 51, 49]⟩,
   ⟨"fnmadds", 0xec00003e, 0xfc00003f, 0x1, 0x800004000, [52, 47, 51, 49]⟩,
   ⟨"fnmadds.", 0xec00003f, 0xfc00003f, 0x1, 0x800004000, [52, 47, 51, 49]⟩,
   ⟨"dmul", 0xec000044, 0xfc0007ff, 0x400000, 0x800000000, [52, 47, 49]⟩,
   ⟨"dmul.", 0xec000045, 0xfc0007ff, 0x400000, 0x800000000, [52, 47, 49]⟩,
   ⟨"drrnd", 0xec000046, 0xfc0001ff, 0x400000, 0x800000000, [52, 47, 49, 148]⟩,
   ⟨"drrnd.", 0xec000047, 0xfc0001ff, 0x400000, 0x800000000, [52, 47, 49, 148]⟩,
   ⟨"dscli", 0xec000084, 0xfc0003ff, 0x400000, 0x800000000, [52, 47, 155]⟩,
   ⟨"dscli.", 0xec000085, 0xfc0003ff, 0x400000, 0x800000000, [52, 47, 155]⟩,
   ⟨"dquai", 0xec000086, 0xfc0001ff, 0x400000, 0x800000000, [127, 52, 49, 148]⟩,
   ⟨"dquai.", 0xec000087, 0xfc0001ff, 0x400000, 0x800000000, [127, 52, 49, 148]⟩,
   ⟨"dscri", 0xec0000c4, 0xfc0003ff, 0x400000, 0x800000000, [52, 47, 155]⟩,
   ⟨"dscri.", 0xec0000c5, 0xfc0003ff, 0x400000, 0x800000000, [52, 47, 155]⟩,
   ⟨"drintx", 0xec0000c6, 0xfc0001ff, 0x400000, 0x800000000, [149, 52, 49, 148]⟩,
   ⟨"drintx.", 0xec0000c7, 0xfc0001ff, 0x400000, 0x800000000, [149, 52, 49, 148]⟩,
   ⟨"dcmpo", 0xec000104, 0xfc0007ff, 0x400000, 0x800000000, [13, 47, 49]⟩,
   ⟨"dtstex", 0xec000144, 0xfc0007ff, 0x400000, 0x800000000, [13, 47, 49]⟩,
   ⟨"dtstdc", 0xec000184, 0xfc0003ff, 0x400000, 0x800000000, [13, 47, 155]⟩,
   ⟨"dtstdg", 0xec0001c4, 0xfc0003ff, 0x400000, 0x800000000, [13, 47, 155]⟩,
   ⟨"drintn", 0xec0001c6, 0xfc0001ff, 0x400000, 0x800000000, [149, 52, 49, 148]⟩,
   ⟨"drintn.", 0xec0001c7, 0xfc0001ff, 0x400000, 0x800000000, [149, 52, 49, 148]⟩,
   ⟨"dctdp", 0xec000204, 0xfc0007ff, 0x400000, 0x800000000, [52, 49]⟩,
   ⟨"dctdp.", 0xec000205, 0xfc0007ff, 0x400000, 0x800000000, [52, 49]⟩,
   ⟨"dctfix", 0xec000244, 0xfc0007ff, 0x400000, 0x800000000, [52, 49]⟩,
   ⟨"dctfix.", 0xec000245, 0xfc0007ff, 0x400000, 0x800000000, [52, 49]⟩,
   ⟨"ddedpd", 0xec000284, 0xfc0007ff, 0x400000, 0x800000000, [152, 52, 49]⟩,
   ⟨"ddedpd.", 0xec000285, 0xfc0007ff, 0x400000, 0x800000000, [152, 52, 49]⟩,
   ⟨"dxex", 0xec0002c4, 0xfc0007ff, 0x400000, 0x800000000, [52, 49]⟩,
   ⟨"dxex.", 0xec0002c5, 0xfc0007ff, 0x400000, 0x800000000, [52, 49]⟩,
   ⟨"dsub", 0xec000404, 0xfc0007ff, 0x400000, 0x800000000, [52, 47, 49]⟩,
   ⟨"dsub.", 0xec000405, 0xfc0007ff, 0x400000, 0x800000000, [52, 47, 49]⟩,
   ⟨"ddiv", 0xec000444, 0xfc0007ff, 0x400000, 0x800000000, [52, 47, 49]⟩,
   ⟨"ddiv.", 0xec000445, 0xfc0007ff, 0x400000, 0x800000000, [52, 47, 49]⟩,
   ⟨"dcmpu", 0xec000504, 0xfc0007ff, 0x400000, 0x800000000, [13, 47, 49]⟩,
   ⟨"dtstsf", 0xec000544, 0xfc0007ff, 0x400000, 0x800000000, [13, 47, 49]⟩,
   ⟨"dtstsfi", 0xec000546, 0xfc4007ff, 0x10000000000, 0x800000000, [13, 130, 49]⟩,
   ⟨"drsp", 0xec000604, 0xfc0007ff, 0x400000, 0x800000000, [52, 49]⟩,
   ⟨"drsp.", 0xec000605, 0xfc0007ff, 0x400000, 0x800000000, [52, 49]⟩,
   ⟨"dcffix", 0xec000644, 0xfc1f07ff, 0x10000000, 0x800000000, [52, 49]⟩,
   ⟨"dcffix.", 0xec000645, 0xfc1f07ff, 0x10000000, 0x800000000, [52, 49]⟩,
   ⟨"denbcd", 0xec000684, 0xfc0007ff, 0x400000, 0x800000000, [153, 52, 49]⟩,
   ⟨"denbcd.", 0xec000685, 0xfc0007ff, 0x400000, 0x800000000, [153, 52, 49]⟩,
   ⟨"fcfids", 0xec00069c, 0xfc1f07ff, 0x30000000, 0x800000000, [52, 49]⟩,
   ⟨"fcfids.", 0xec00069d, 0xfc1f07ff, 0x30000000, 0x800000000, [52, 49]⟩,
   ⟨"diex", 0xec0006c4, 0xfc0007ff, 0x400000, 0x800000000, [52, 47, 49]⟩,
   ⟨"diex.", 0xec0006c5, 0xfc0007ff, 0x400000, 0x800000000, [52, 47, 49]⟩,
   ⟨"fcfidus", 0xec00079c, 0xfc1f07ff, 0x30000000, 0x800000000, [52, 49]⟩,
   ⟨"fcfidus.", 0xec00079d, 0xfc1f07ff, 0x30000000, 0x800000000, [52, 49]⟩,
   ⟨"xsaddsp", 0xf0000000, 0xfc0007f8, 0x1000000000, 0x800000000, [168, 170, 171]⟩,
   ⟨"xsmaddasp", 0xf0000008, 0xfc0007f8, 0x1000000000, 0x800000000, [168, 170, 171]⟩,
   ⟨"xxsldwi", 0xf0000010, 0xfc0004f8, 0x8000000, 0x800000000, [168, 170, 171, 174]⟩,
   ⟨"xscmpeqdp", 0xf0000018, 0xfc0007f8, 0x10000000000, 0x800000000, [168, 170, 171]⟩,
   ⟨"xsrsqrtesp", 0xf0000028, 0xfc1f07fc, 0x1000000000, 0x800000000, [168, 171]⟩,
   ⟨"xssqrtsp", 0xf000002c, 0xfc1f07fc, 0x1000000000, 0x800000000, [168, 171]⟩,
   ⟨"xxsel", 0xf0000030, 0xfc000030, 0x8000000, 0x800000000, [168, 170, 171, 173]⟩,
   ⟨"xssubsp", 0xf0000040, 0xfc0007f8, 0x1000000000, 0x800000000, [168, 170, 171]⟩,
   ⟨"xsmaddmsp", 0xf0000048, 0xfc0007f8, 0x1000000000, 0x800000000, [168, 170, 171]⟩]

/-- ppc-opc.c:7083-7182. -/
def main30 : List Opcode :=
  [⟨"xxspltd", 0xf0000050, 0xfc0004f8, 0x8000000, 0x800000000, [168, 172, 175]⟩,
   ⟨"xxmrghd", 0xf0000050, 0xfc0007f8, 0x8000000, 0x800000000, [168, 170, 171]⟩,
   ⟨"xxswapd", 0xf0000250, 0xfc0007f8, 0x8000000, 0x800000000, [168, 172]⟩,
   ⟨"xxmrgld", 0xf0000350, 0xfc0007f8, 0x8000000, 0x800000000, [168, 170, 171]⟩,
   ⟨"xxpermdi", 0xf0000050, 0xfc0004f8, 0x8000000, 0x800000000, [168, 170, 171, 174]⟩,
   ⟨"xscmpgtdp", 0xf0000058, 0xfc0007f8, 0x10000000000, 0x800000000, [168, 170, 171]⟩,
   ⟨"xsresp", 0xf0000068, 0xfc1f07fc, 0x1000000000, 0x800000000, [168, 171]⟩,
   ⟨"xsmulsp", 0xf0000080, 0xfc0007f8, 0x1000000000, 0x800000000, [168, 170, 171]⟩,
   ⟨"xsmsubasp", 0xf0000088, 0xfc0007f8, 0x1000000000, 0x800000000, [168, 170, 171]⟩,
   ⟨"xxmrghw", 0xf0000090, 0xfc0007f8, 0x8000000, 0x800000000, [168, 170, 171]⟩,
   ⟨"xscmpgedp", 0xf0000098, 0xfc0007f8, 0x10000000000, 0x800000000, [168, 170, 171]⟩,
   ⟨"xsdivsp", 0xf00000c0, 0xfc0007f8, 0x1000000000, 0x800000000, [168, 170, 171]⟩,
   ⟨"xsmsubmsp", 0xf00000c8, 0xfc0007f8, 0x1000000000, 0x800000000, [168, 170, 171]⟩,
   ⟨"xxperm", 0xf00000d0, 0xfc0007f8, 0x10000000000, 0x800000000, [168, 170, 171]⟩,
   ⟨"xsadddp", 0xf0000100, 0xfc0007f8, 0x8000000, 0x800000000, [168, 170, 171]⟩,
   ⟨"xsmaddadp", 0xf0000108, 0xfc0007f8, 0x8000000, 0x800000000, [168, 170, 171]⟩,
   ⟨"xscmpudp", 0xf0000118, 0xfc6007f9, 0x8000000, 0x800000000, [13, 170, 171]⟩,
   ⟨"xscvdpuxws", 0xf0000120, 0xfc1f07fc, 0x8000000, 0x800000000, [168, 171]⟩,
   ⟨"xsrdpi", 0xf0000124, 0xfc1f07fc, 0x8000000, 0x800000000, [168, 171]⟩,
   ⟨"xsrsqrtedp", 0xf0000128, 0xfc1f07fc, 0x8000000, 0x800000000, [168, 171]⟩,
   ⟨"xssqrtdp", 0xf000012c, 0xfc1f07fc, 0x8000000, 0x800000000, [168, 171]⟩,
   ⟨"xssubdp", 0xf0000140, 0xfc0007f8, 0x8000000, 0x800000000, [168, 170, 171]⟩,
   ⟨"xsmaddmdp", 0xf0000148, 0xfc0007f8, 0x8000000, 0x800000000, [168, 170, 171]⟩,
   ⟨"xscmpodp", 0xf0000158, 0xfc6007f9, 0x8000000, 0x800000000, [13, 170, 171]⟩,
   ⟨"xscvdpsxws", 0xf0000160, 0xfc1f07fc, 0x8000000, 0x800000000, [168, 171]⟩,
   ⟨"xsrdpiz", 0xf0000164, 0xfc1f07fc, 0x8000000, 0x800000000, [168, 171]⟩,
   ⟨"xsredp", 0xf0000168, 0xfc1f07fc, 0x8000000, 0x800000000, [168, 171]⟩,
   ⟨"xsmuldp", 0xf0000180, 0xfc0007f8, 0x8000000, 0x800000000, [168, 170, 171]⟩,
   ⟨"xsmsubadp", 0xf0000188, 0xfc0007f8, 0x8000000, 0x800000000, [168, 170, 171]⟩,
   ⟨"xxmrglw", 0xf0000190, 0xfc0007f8, 0x8000000, 0x800000000, [168, 170, 171]⟩,
   ⟨"xsrdpip", 0xf00001a4, 0xfc1f07fc, 0x8000000, 0x800000000, [168, 171]⟩,
   ⟨"xstsqrtdp", 0xf00001a8, 0xfc7f07fd, 0x8000000, 0x800000000, [13, 171]⟩,
   ⟨"xsrdpic", 0xf00001ac, 0xfc1f07fc, 0x8000000, 0x800000000, [168, 171]⟩,
   ⟨"xsdivdp", 0xf00001c0, 0xfc0007f8, 0x8000000, 0x800000000, [168, 170, 171]⟩,
   ⟨"xsmsubmdp", 0xf00001c8, 0xfc0007f8, 0x8000000, 0x800000000, [168, 170, 171]⟩,
   ⟨"xxpermr", 0xf00001d0, 0xfc0007f8, 0x10000000000, 0x800000000, [168, 170, 171]⟩,
   ⟨"xscmpexpdp", 0xf00001d8, 0xfc6007f9, 0x10000000000, 0x800000000, [13, 170, 171]⟩,
   ⟨"xsrdpim", 0xf00001e4, 0xfc1f07fc, 0x8000000, 0x800000000, [168, 171]⟩,
   ⟨"xstdivdp", 0xf00001e8, 0xfc6007f9, 0x8000000, 0x800000000, [13, 170, 171]⟩,
   ⟨"xvaddsp", 0xf0000200, 0xfc0007f8, 0x8000000, 0x800000000, [168, 170, 171]⟩,
   ⟨"xvmaddasp", 0xf0000208, 0xfc0007f8, 0x8000000, 0x800000000, [168, 170, 171]⟩,
   ⟨"xvcmpeqsp", 0xf0000218, 0xfc0007f8, 0x8000000, 0x800000000, [168, 170, 171]⟩,
   ⟨"xvcmpeqsp.", 0xf0000618, 0xfc0007f8, 0x8000000, 0x800000000, [168, 170, 171]⟩,
   ⟨"xvcvspuxws", 0xf0000220, 0xfc1f07fc, 0x8000000, 0x800000000, [168, 171]⟩,
   ⟨"xvrspi", 0xf0000224, 0xfc1f07fc, 0x8000000, 0x800000000, [168, 171]⟩,
   ⟨"xvrsqrtesp", 0xf0000228, 0xfc1f07fc, 0x8000000, 0x800000000, [168, 171]⟩,
   ⟨"xvsqrtsp", 0xf000022c, 0xfc1f07fc, 0x8000000, 0x800000000, [168, 171]⟩,
   ⟨"xvsubsp", 0xf0000240, 0xfc0007f8, 0x8000000, 0x800000000, [168, 170, 171]⟩,
   ⟨"xvmaddmsp", 0xf0000248, 0xfc0007f8, 0x8000000, 0x800000000, [168, 170, 171]⟩,
   ⟨"xvcmpgtsp", 0xf0000258, 0xfc0007f8, 0x8000000, 0x800000000, [168, 170, 171]⟩,
   ⟨"xvcmpgtsp.", 0xf0000658, 0xfc0007f8, 0x8000000, 0x800000000, [168, 170, 171]⟩,
   ⟨"xvcvspsxws", 0xf0000260, 0xfc1f07fc, 0x8000000, 0x800000000, [168, 171]⟩,
   ⟨"xvrspiz", 0xf0000264, 0xfc1f07fc, 0x8000000, 0x800000000, [168, 171]⟩,
   ⟨"xvresp", 0xf0000268, 0xfc1f07fc, 0x8000000, 0x800000000, [168, 171]⟩,
   ⟨"xvmulsp", 0xf0000280, 0xfc0007f8, 0x8000000, 0x800000000, [168, 170, 171]⟩,
   ⟨"xvmsubasp", 0xf0000288, 0xfc0007f8, 0x8000000, 0x800000000, [168, 170, 171]⟩,
   ⟨"xxspltw", 0xf0000290, 0xfc1c07fc, 0x8000000, 0x800000000, [168, 171, 176]⟩,
   ⟨"xxextractuw", 0xf0000294, 0xfc1007fc, 0x10000000000, 0x800000000, [168, 171, 112]⟩,
   ⟨"xvcmpgesp", 0xf0000298, 0xfc0007f8, 0x8000000, 0x800000000, [168, 170, 171]⟩,
   ⟨"xvcmpgesp.", 0xf0000698, 0xfc0007f8, 0x8000000, 0x800000000, [168, 170, 171]⟩,
   ⟨"xvcvuxwsp", 0xf00002a0, 0xfc1f07fc, 0x8000000, 0x800000000, [168, 171]⟩,
   ⟨"xvrspip", 0xf00002a4, 0xfc1f07fc, 0x8000000, 0x800000000, [168, 171]⟩,
   ⟨"xvtsqrtsp", 0xf00002a8, 0xfc7f07fd, 0x8000000, 0x800000000, [13, 171]⟩,
   ⟨"xvrspic", 0xf00002ac, 0xfc1f07fc, 0x8000000, 0x800000000, [168, 171]⟩,
   ⟨"xvdivsp", 0xf00002c0, 0xfc0007f8, 0x8000000, 0x800000000, [168, 170, 171]⟩,
   ⟨"xvmsubmsp", 0xf00002c8, 0xfc0007f8, 0x8000000, 0x800000000, [168, 170, 171]⟩,
   ⟨"xxspltib", 0xf00002d0, 0xfc1807fe, 0x10000000000, 0x800000000, [168, 179]⟩,
   ⟨"xxinsertw", 0xf00002d4, 0xfc1007fc, 0x10000000000, 0x800000000, [168, 171, 112]⟩,
   ⟨"xvcvsxwsp", 0xf00002e0, 0xfc1f07fc, 0x8000000, 0x800000000, [168, 171]⟩,
   ⟨"xvrspim", 0xf00002e4, 0xfc1f07fc, 0x8000000, 0x800000000, [168, 171]⟩,
   ⟨"xvtdivsp", 0xf00002e8, 0xfc6007f9, 0x8000000, 0x800000000, [13, 170, 171]⟩,
   ⟨"xvadddp", 0xf0000300, 0xfc0007f8, 0x8000000, 0x800000000, [168, 170, 171]⟩,
   ⟨"xvmaddadp", 0xf0000308, 0xfc0007f8, 0x8000000, 0x800000000, [168, 170, 171]⟩,
   ⟨"xvcmpeqdp", 0xf0000318, 0xfc0007f8, 0x8000000, 0x800000000, [168, 170, 171]⟩,
   ⟨"xvcmpeqdp.", 0xf0000718, 0xfc0007f8, 0x8000000, 0x800000000, [168, 170, 171]⟩,
   ⟨"xvcvdpuxws", 0xf0000320, 0xfc1f07fc, 0x8000000, 0x800000000, [168, 171]⟩,
   ⟨"xvrdpi", 0xf0000324, 0xfc1f07fc, 0x8000000, 0x800000000, [168, 171]⟩,
   ⟨"xvrsqrtedp", 0xf0000328, 0xfc1f07fc, 0x8000000, 0x800000000, [168, 171]⟩,
   ⟨"xvsqrtdp", 0xf000032c, 0xfc1f07fc, 0x8000000, 0x800000000, [168, 171]⟩,
   ⟨"xvsubdp", 0xf0000340, 0xfc0007f8, 0x8000000, 0x800000000, [168, 170, 171]⟩,
   ⟨"xvmaddmdp", 0xf0000348, 0xfc0007f8, 0x8000000, 0x800000000, [168, 170, 171]⟩,
   ⟨"xvcmpgtdp", 0xf0000358, 0xfc0007f8, 0x8000000, 0x800000000, [168, 170, 171]⟩,
   ⟨"xvcmpgtdp.", 0xf0000758, 0xfc0007f8, 0x8000000, 0x800000000, [168, 170, 171]⟩,
   ⟨"xvcvdpsxws", 0xf0000360, 0xfc1f07fc, 0x8000000, 0x800000000, [168, 171]⟩,
   ⟨"xvrdpiz", 0xf0000364, 0xfc1f07fc, 0x8000000, 0x800000000, [168, 171]⟩,
   ⟨"xvredp", 0xf0000368, 0xfc1f07fc, 0x8000000, 0x800000000, [168, 171]⟩,
   ⟨"xvmuldp", 0xf0000380, 0xfc0007f8, 0x8000000, 0x800000000, [168, 170, 171]⟩,
   ⟨"xvmsubadp", 0xf0000388, 0xfc0007f8, 0x8000000, 0x800000000, [168, 170, 171]⟩,
   ⟨"xvcmpgedp", 0xf0000398, 0xfc0007f8, 0x8000000, 0x800000000, [168, 170, 171]⟩,
   ⟨"xvcmpgedp.", 0xf0000798, 0xfc0007f8, 0x8000000, 0x800000000, [168, 170, 171]⟩,
   ⟨"xvcvuxwdp", 0xf00003a0, 0xfc1f07fc, 0x8000000, 0x800000000, [168, 171]⟩,
   ⟨"xvrdpip", 0xf00003a4, 0xfc1f07fc, 0x8000000, 0x800000000, [168, 171]⟩,
   ⟨"xvtsqrtdp", 0xf00003a8, 0xfc7f07fd, 0x8000000, 0x800000000, [13, 171]⟩,
   ⟨"xvrdpic", 0xf00003ac, 0xfc1f07fc, 0x8000000, 0x800000000, [168, 171]⟩,
   ⟨"xvdivdp", 0xf00003c0, 0xfc0007f8, 0x8000000, 0x800000000, [168, 170, 171]⟩,
   ⟨"xvmsubmdp", 0xf00003c8, 0xfc0007f8, 0x8000000, 0x800000000, [168, 170, 171]⟩,
   ⟨"xvcvsxwdp", 0xf00003e0, 0xfc1f07fc, 0x8000000, 0x800000000, [168, 171]⟩,
   ⟨"xvrdpim", 0xf00003e4, 0xfc1f07fc, 0x8000000, 0x800000000, [168, 171]⟩,
   ⟨"xvtdivdp", 0xf00003e8, 0xfc6007f9, 0x8000000, 0x800000000, [13, 170, 171]⟩,
   ⟨"xsmaxcdp", 0xf0000400, 0xfc0007f8, 0x10000000000, 0x800000000, [168, 170, 171]⟩]

/-- ppc-opc.c:7183-7285. -/
def main31 : List Opcode :=
  [⟨"xsnmaddasp", 0xf0000408, 0xfc0007f8, 0x1000000000, 0x800000000, [168, 170, 171]⟩,
   ⟨"xxland", 0xf0000410, 0xfc0007f8, 0x8000000, 0x800000000, [168, 170, 171]⟩,
   ⟨"xscvdpsp", 0xf0000424, 0xfc1f07fc, 0x8000000, 0x800000000, [168, 171]⟩,
   ⟨"xscvdpspn", 0xf000042c, 0xfc1f07fc, 0x1000000000, 0x800000000, [168, 171]⟩,
   ⟨"xsmincdp", 0xf0000440, 0xfc0007f8, 0x10000000000, 0x800000000, [168, 170, 171]⟩,
   ⟨"xsnmaddmsp", 0xf0000448, 0xfc0007f8, 0x1000000000, 0x800000000, [168, 170, 171]⟩,
   ⟨"xxlandc", 0xf0000450, 0xfc0007f8, 0x8000000, 0x800000000, [168, 170, 171]⟩,
   ⟨"xsrsp", 0xf0000464, 0xfc1f07fc, 0x1000000000, 0x800000000, [168, 171]⟩,
   ⟨"xsmaxjdp", 0xf0000480, 0xfc0007f8, 0x10000000000, 0x800000000, [168, 170, 171]⟩,
   ⟨"xsnmsubasp", 0xf0000488, 0xfc0007f8, 0x1000000000, 0x800000000, [168, 170, 171]⟩,
   ⟨"xxlor", 0xf0000490, 0xfc0007f8, 0x8000000, 0x800000000, [168, 170, 171]⟩,
   ⟨"xscvuxdsp", 0xf00004a0, 0xfc1f07fc, 0x1000000000, 0x800000000, [168, 171]⟩,
   ⟨"xststdcsp", 0xf00004a8, 0xfc0007fd, 0x10000000000, 0x800000000, [13, 171, 36]⟩,
   ⟨"xsminjdp", 0xf00004c0, 0xfc0007f8, 0x10000000000, 0x800000000, [168, 170, 171]⟩,
   ⟨"xsnmsubmsp", 0xf00004c8, 0xfc0007f8, 0x1000000000, 0x800000000, [168, 170, 171]⟩,
   ⟨"xxlxor", 0xf00004d0, 0xfc0007f8, 0x8000000, 0x800000000, [168, 170, 171]⟩,
   ⟨"xscvsxdsp", 0xf00004e0, 0xfc1f07fc, 0x1000000000, 0x800000000, [168, 171]⟩,
   ⟨"xsmaxdp", 0xf0000500, 0xfc0007f8, 0x8000000, 0x800000000, [168, 170, 171]⟩,
   ⟨"xsnmaddadp", 0xf0000508, 0xfc0007f8, 0x8000000, 0x800000000, [168, 170, 171]⟩,
   ⟨"xxlnor", 0xf0000510, 0xfc0007f8, 0x8000000, 0x800000000, [168, 170, 171]⟩,
   ⟨"xscvdpuxds", 0xf0000520, 0xfc1f07fc, 0x8000000, 0x800000000, [168, 171]⟩,
   ⟨"xscvspdp", 0xf0000524, 0xfc1f07fc, 0x8000000, 0x800000000, [168, 171]⟩,
   ⟨"xscvspdpn", 0xf000052c, 0xfc1f07fc, 0x1000000000, 0x800000000, [168, 171]⟩,
   ⟨"xsmindp", 0xf0000540, 0xfc0007f8, 0x8000000, 0x800000000, [168, 170, 171]⟩,
   ⟨"xsnmaddmdp", 0xf0000548, 0xfc0007f8, 0x8000000, 0x800000000, [168, 170, 171]⟩,
   ⟨"xxlorc", 0xf0000550, 0xfc0007f8, 0x1000000000, 0x800000000, [168, 170, 171]⟩,
   ⟨"xscvdpsxds", 0xf0000560, 0xfc1f07fc, 0x8000000, 0x800000000, [168, 171]⟩,
   ⟨"xsabsdp", 0xf0000564, 0xfc1f07fc, 0x8000000, 0x800000000, [168, 171]⟩,
   ⟨"xsxexpdp", 0xf000056c, 0xfc1f07fd, 0x10000000000, 0x800000000, [86, 171]⟩,
   ⟨"xsxsigdp", 0xf001056c, 0xfc1f07fd, 0x10000000000, 0x800000000, [86, 171]⟩,
   ⟨"xscvhpdp", 0xf010056c, 0xfc1f07fc, 0x10000000000, 0x800000000, [168, 171]⟩,
   ⟨"xscvdphp", 0xf011056c, 0xfc1f07fc, 0x10000000000, 0x800000000, [168, 171]⟩,
   ⟨"xscpsgndp", 0xf0000580, 0xfc0007f8, 0x8000000, 0x800000000, [168, 170, 171]⟩,
   ⟨"xsnmsubadp", 0xf0000588, 0xfc0007f8, 0x8000000, 0x800000000, [168, 170, 171]⟩,
   ⟨"xxlnand", 0xf0000590, 0xfc0007f8, 0x1000000000, 0x800000000, [168, 170, 171]⟩,
   ⟨"xscvuxddp", 0xf00005a0, 0xfc1f07fc, 0x8000000, 0x800000000, [168, 171]⟩,
   ⟨"xsnabsdp", 0xf00005a4, 0xfc1f07fc, 0x8000000, 0x800000000, [168, 171]⟩,
   ⟨"xststdcdp", 0xf00005a8, 0xfc0007fd, 0x10000000000, 0x800000000, [13, 171, 36]⟩,
   ⟨"xsnmsubmdp", 0xf00005c8, 0xfc0007f8, 0x8000000, 0x800000000, [168, 170, 171]⟩,
   ⟨"xxleqv", 0xf00005d0, 0xfc0007f8, 0x1000000000, 0x800000000, [168, 170, 171]⟩,
   ⟨"xscvsxddp", 0xf00005e0, 0xfc1f07fc, 0x8000000, 0x800000000, [168, 171]⟩,
   ⟨"xsnegdp", 0xf00005e4, 0xfc1f07fc, 0x8000000, 0x800000000, [168, 171]⟩,
   ⟨"xvmaxsp", 0xf0000600, 0xfc0007f8, 0x8000000, 0x800000000, [168, 170, 171]⟩,
   ⟨"xvnmaddasp", 0xf0000608, 0xfc0007f8, 0x8000000, 0x800000000, [168, 170, 171]⟩,
   ⟨"xvcvspuxds", 0xf0000620, 0xfc1f07fc, 0x8000000, 0x800000000, [168, 171]⟩,
   ⟨"xvcvdpsp", 0xf0000624, 0xfc1f07fc, 0x8000000, 0x800000000, [168, 171]⟩,
   ⟨"xvminsp", 0xf0000640, 0xfc0007f8, 0x8000000, 0x800000000, [168, 170, 171]⟩,
   ⟨"xvnmaddmsp", 0xf0000648, 0xfc0007f8, 0x8000000, 0x800000000, [168, 170, 171]⟩,
   ⟨"xvcvspsxds", 0xf0000660, 0xfc1f07fc, 0x8000000, 0x800000000, [168, 171]⟩,
   ⟨"xvabssp", 0xf0000664, 0xfc1f07fc, 0x8000000, 0x800000000, [168, 171]⟩,
   ⟨"xvmovsp", 0xf0000680, 0xfc0007f8, 0x8000000, 0x800000000, [168, 172]⟩,
   ⟨"xvcpsgnsp", 0xf0000680, 0xfc0007f8, 0x8000000, 0x800000000, [168, 170, 171]⟩,
   ⟨"xvnmsubasp", 0xf0000688, 0xfc0007f8, 0x8000000, 0x800000000, [168, 170, 171]⟩,
   ⟨"xvcvuxdsp", 0xf00006a0, 0xfc1f07fc, 0x8000000, 0x800000000, [168, 171]⟩,
   ⟨"xvnabssp", 0xf00006a4, 0xfc1f07fc, 0x8000000, 0x800000000, [168, 171]⟩,
   ⟨"xvtstdcsp", 0xf00006a8, 0xfc0007b8, 0x10000000000, 0x800000000, [168, 171, 37]⟩,
   ⟨"xviexpsp", 0xf00006c0, 0xfc0007f8, 0x10000000000, 0x800000000, [168, 170, 171]⟩,
   ⟨"xvnmsubmsp", 0xf00006c8, 0xfc0007f8, 0x8000000, 0x800000000, [168, 170, 171]⟩,
   ⟨"xvcvsxdsp", 0xf00006e0, 0xfc1f07fc, 0x8000000, 0x800000000, [168, 171]⟩,
   ⟨"xvnegsp", 0xf00006e4, 0xfc1f07fc, 0x8000000, 0x800000000, [168, 171]⟩,
   ⟨"xvmaxdp", 0xf0000700, 0xfc0007f8, 0x8000000, 0x800000000, [168, 170, 171]⟩,
   ⟨"xvnmaddadp", 0xf0000708, 0xfc0007f8, 0x8000000, 0x800000000, [168, 170, 171]⟩,
   ⟨"xvcvdpuxds", 0xf0000720, 0xfc1f07fc, 0x8000000, 0x800000000, [168, 171]⟩,
   ⟨"xvcvspdp", 0xf0000724, 0xfc1f07fc, 0x8000000, 0x800000000, [168, 171]⟩,
   ⟨"xsiexpdp", 0xf000072c, 0xfc0007fe, 0x10000000000, 0x800000000, [168, 74, 81]⟩,
   ⟨"xvmindp", 0xf0000740, 0xfc0007f8, 0x8000000, 0x800000000, [168, 170, 171]⟩,
   ⟨"xvnmaddmdp", 0xf0000748, 0xfc0007f8, 0x8000000, 0x800000000, [168, 170, 171]⟩,
   ⟨"xvcvdpsxds", 0xf0000760, 0xfc1f07fc, 0x8000000, 0x800000000, [168, 171]⟩,
   ⟨"xvabsdp", 0xf0000764, 0xfc1f07fc, 0x8000000, 0x800000000, [168, 171]⟩,
   ⟨"xvxexpdp", 0xf000076c, 0xfc1f07fc, 0x10000000000, 0x800000000, [168, 171]⟩,
   ⟨"xvxsigdp", 0xf001076c, 0xfc1f07fc, 0x10000000000, 0x800000000, [168, 171]⟩,
   ⟨"xxbrh", 0xf007076c, 0xfc1f07fc, 0x10000000000, 0x800000000, [168, 171]⟩,
   ⟨"xvxexpsp", 0xf008076c, 0xfc1f07fc, 0x10000000000, 0x800000000, [168, 171]⟩,
   ⟨"xvxsigsp", 0xf009076c, 0xfc1f07fc, 0x10000000000, 0x800000000, [168, 171]⟩,
   ⟨"xxbrw", 0xf00f076c, 0xfc1f07fc, 0x10000000000, 0x800000000, [168, 171]⟩,
   ⟨"xxbrd", 0xf017076c, 0xfc1f07fc, 0x10000000000, 0x800000000, [168, 171]⟩,
   ⟨"xvcvhpsp", 0xf018076c, 0xfc1f07fc, 0x10000000000, 0x800000000, [168, 171]⟩,
   ⟨"xvcvsphp", 0xf019076c, 0xfc1f07fc, 0x10000000000, 0x800000000, [168, 171]⟩,
   ⟨"xxbrq", 0xf01f076c, 0xfc1f07fc, 0x10000000000, 0x800000000, [168, 171]⟩,
   ⟨"xvmovdp", 0xf0000780, 0xfc0007f8, 0x8000000, 0x800000000, [168, 172]⟩,
   ⟨"xvcpsgndp", 0xf0000780, 0xfc0007f8, 0x8000000, 0x800000000, [168, 170, 171]⟩,
   ⟨"xvnmsubadp", 0xf0000788, 0xfc0007f8, 0x8000000, 0x800000000, [168, 170, 171]⟩,
   ⟨"xvcvuxddp", 0xf00007a0, 0xfc1f07fc, 0x8000000, 0x800000000, [168, 171]⟩,
   ⟨"xvnabsdp", 0xf00007a4, 0xfc1f07fc, 0x8000000, 0x800000000, [168, 171]⟩,
   ⟨"xvtstdcdp", 0xf00007a8, 0xfc0007b8, 0x10000000000, 0x800000000, [168, 171, 37]⟩,
   ⟨"xviexpdp", 0xf00007c0, 0xfc0007f8, 0x10000000000, 0x800000000, [168, 170, 171]⟩,
   ⟨"xvnmsubmdp", 0xf00007c8, 0xfc0007f8, 0x8000000, 0x800000000, [168, 170, 171]⟩,
   ⟨"xvcvsxddp", 0xf00007e0, 0xfc1f07fc, 0x8000000, 0x800000000, [168, 171]⟩,
   ⟨"xvnegdp", 0xf00007e4, 0xfc1f07fc, 0x8000000, 0x800000000, [168, 171]⟩,
   ⟨"psq_st", 0xf0000000, 0xfc000000, 0x1000000, 0x800000000, [52, 146, 74, 43, 144]⟩,
   ⟨"stfq", 0xf0000000, 0xfc000000, 0x6, 0x800000000, [52, 34, 74]⟩,
   ⟨"lxv", 0xf4000001, 0xfc000007, 0x10000000000, 0x800000000, [169, 38, 75]⟩,
   ⟨"stxv", 0xf4000005, 0xfc000007, 0x10000000000, 0x800000000, [169, 38, 75]⟩,
   ⟨"stxsd", 0xf4000002, 0xfc000003, 0x10000000000, 0x800000000, [126, 39, 75]⟩,
   ⟨"stxssp", 0xf4000003, 0xfc000003, 0x10000000000, 0x800000000, [126, 39, 75]⟩,
   ⟨"stfdp", 0xf4000000, 0xfc200000, 0x400000, 0x810000000, [53, 39, 75]⟩,
   ⟨"psq_stu", 0xf4000000, 0xfc000000, 0x1000000, 0x800000000, [52, 146, 74, 43, 144]⟩,
   ⟨"stfqu", 0xf4000000, 0xfc000000, 0x6, 0x800000000, [52, 34, 74]⟩,
   ⟨"std", 0xf8000000, 0xfc000003, 0x88, 0x800000000, [86, 39, 75]⟩,
   ⟨"stdu", 0xf8000001, 0xfc000003, 0x88, 0x800000000, [86, 39, 79]⟩]

/-- ppc-opc.c:7286-7426. -/
def main32 : List Opcode :=
  [⟨"stq", 0xf8000002, 0xfc200003, 0x800, 0x840000000, [88, 39, 75]⟩,
   ⟨"fcmpu", 0xfc000000, 0xfc6007ff, 0x23, 0x800004000, [13, 47, 49]⟩,
   ⟨"daddq", 0xfc000004, 0xfc2007ff, 0x400000, 0x800000000, [53, 48, 50]⟩,
   ⟨"daddq.", 0xfc000005, 0xfc2007ff, 0x400000, 0x800000000, [53, 48, 50]⟩,
   ⟨"dquaq", 0xfc000006, 0xfc2001ff, 0x400000, 0x800000000, [53, 48, 50, 148]⟩,
   ⟨"dquaq.", 0xfc000007, 0xfc2001ff, 0x400000, 0x800000000, [53, 48, 50, 148]⟩,
   ⟨"xsaddqp", 0xfc000008, 0xfc0007ff, 0x10000000000, 0x800000000, [126, 123, 124]⟩,
   ⟨"xsaddqpo", 0xfc000009, 0xfc0007ff, 0x10000000000, 0x800000000, [126, 123, 124]⟩,
   ⟨"xsrqpi", 0xfc00000a, 0xfc0001ff, 0x10000000000, 0x800000000, [149, 126, 124, 148]⟩,
   ⟨"xsrqpix", 0xfc00000b, 0xfc0001ff, 0x10000000000, 0x800000000, [149, 126, 124, 148]⟩,
   ⟨"fcpsgn", 0xfc000010, 0xfc0007ff, 0x60400000, 0x800000000, [52, 47, 49]⟩,
   ⟨"fcpsgn.", 0xfc000011, 0xfc0007ff, 0x60400000, 0x800000000, [52, 47, 49]⟩,
   ⟨"frsp", 0xfc000018, 0xfc1f07ff, 0x23, 0x800004000, [52, 49]⟩,
   ⟨"frsp.", 0xfc000019, 0xfc1f07ff, 0x23, 0x800004000, [52, 49]⟩,
   ⟨"fctiw", 0xfc00001c, 0xfc1f07ff, 0x21, 0x800004000, [52, 49]⟩,
   ⟨"fcir", 0xfc00001c, 0xfc1f07ff, 0x26, 0x800000000, [52, 49]⟩,
   ⟨"fctiw.", 0xfc00001d, 0xfc1f07ff, 0x21, 0x800004000, [52, 49]⟩,
   ⟨"fcir.", 0xfc00001d, 0xfc1f07ff, 0x26, 0x800000000, [52, 49]⟩,
   ⟨"fctiwz", 0xfc00001e, 0xfc1f07ff, 0x21, 0x800004000, [52, 49]⟩,
   ⟨"fcirz", 0xfc00001e, 0xfc1f07ff, 0x26, 0x800000000, [52, 49]⟩,
   ⟨"fctiwz.", 0xfc00001f, 0xfc1f07ff, 0x21, 0x800004000, [52, 49]⟩,
   ⟨"fcirz.", 0xfc00001f, 0xfc1f07ff, 0x26, 0x800000000, [52, 49]⟩,
   ⟨"fdiv", 0xfc000024, 0xfc0007ff, 0x21, 0x800004000, [52, 47, 49]⟩,
   ⟨"fd", 0xfc000024, 0xfc0007ff, 0x32, 0x800000000, [52, 47, 49]⟩,
   ⟨"fdiv.", 0xfc000025, 0xfc0007ff, 0x21, 0x800004000, [52, 47, 49]⟩,
   ⟨"fd.", 0xfc000025, 0xfc0007ff, 0x32, 0x800000000, [52, 47, 49]⟩,
   ⟨"fsub", 0xfc000028, 0xfc0007ff, 0x21, 0x800004000, [52, 47, 49]⟩,
   ⟨"fs", 0xfc000028, 0xfc0007ff, 0x32, 0x800000000, [52, 47, 49]⟩,
   ⟨"fsub.", 0xfc000029, 0xfc0007ff, 0x21, 0x800004000, [52, 47, 49]⟩,
   ⟨"fs.", 0xfc000029, 0xfc0007ff, 0x32, 0x800000000, [52, 47, 49]⟩,
   ⟨"fadd", 0xfc00002a, 0xfc0007ff, 0x21, 0x800004000, [52, 47, 49]⟩,
   ⟨"fa", 0xfc00002a, 0xfc0007ff, 0x32, 0x800000000, [52, 47, 49]⟩,
   ⟨"fadd.", 0xfc00002b, 0xfc0007ff, 0x21, 0x800004000, [52, 47, 49]⟩,
   ⟨"fa.", 0xfc00002b, 0xfc0007ff, 0x32, 0x800000000, [52, 47, 49]⟩,
   ⟨"fsqrt", 0xfc00002c, 0xfc1f07ff, 0x27, 0x880000000, [52, 49]⟩,
   ⟨"fsqrt.", 0xfc00002d, 0xfc1f07ff, 0x27, 0x880000000, [52, 49]⟩,
   ⟨"fsel", 0xfc00002e, 0xfc00003f, 0x1, 0x800004000, [52, 47, 51, 49]⟩,
   ⟨"fsel.", 0xfc00002f, 0xfc00003f, 0x1, 0x800004000, [52, 47, 51, 49]⟩,
   ⟨"fre", 0xfc000030, 0xfc1f07ff, 0x10000000, 0x800000000, [52, 49]⟩,
   ⟨"fre", 0xfc000030, 0xfc1e07ff, 0x100000, 0x810000000, [52, 49, 147]⟩,
   ⟨"fre.", 0xfc000031, 0xfc1f07ff, 0x10000000, 0x800000000, [52, 49]⟩,
   ⟨"fre.", 0xfc000031, 0xfc1e07ff, 0x100000, 0x810000000, [52, 49, 147]⟩,
   ⟨"fmul", 0xfc000032, 0xfc00f83f, 0x21, 0x800004000, [52, 47, 51]⟩,
   ⟨"fm", 0xfc000032, 0xfc00f83f, 0x32, 0x800000000, [52, 47, 51]⟩,
   ⟨"fmul.", 0xfc000033, 0xfc00f83f, 0x21, 0x800004000, [52, 47, 51]⟩,
   ⟨"fm.", 0xfc000033, 0xfc00f83f, 0x32, 0x800000000, [52, 47, 51]⟩,
   ⟨"frsqrte", 0xfc000034, 0xfc1f07ff, 0x10000000, 0x800000000, [52, 49]⟩,
   ⟨"frsqrte", 0xfc000034, 0xfc1e07ff, 0x1, 0x810000000, [52, 49, 147]⟩,
   ⟨"frsqrte.", 0xfc000035, 0xfc1f07ff, 0x10000000, 0x800000000, [52, 49]⟩,
   ⟨"frsqrte.", 0xfc000035, 0xfc1e07ff, 0x1, 0x810000000, [52, 49, 147]⟩,
   ⟨"fmsub", 0xfc000038, 0xfc00003f, 0x21, 0x800004000, [52, 47, 51, 49]⟩,
   ⟨"fms", 0xfc000038, 0xfc00003f, 0x32, 0x800000000, [52, 47, 51, 49]⟩,
   ⟨"fmsub.", 0xfc000039, 0xfc00003f, 0x21, 0x800004000, [52, 47, 51, 49]⟩,
   ⟨"fms.", 0xfc000039, 0xfc00003f, 0x32, 0x800000000, [52, 47, 51, 49]⟩,
   ⟨"fmadd", 0xfc00003a, 0xfc00003f, 0x21, 0x800004000, [52, 47, 51, 49]⟩,
   ⟨"fma", 0xfc00003a, 0xfc00003f, 0x32, 0x800000000, [52, 47, 51, 49]⟩,
   ⟨"fmadd.", 0xfc00003b, 0xfc00003f, 0x21, 0x800004000, [52, 47, 51, 49]⟩,
   ⟨"fma.", 0xfc00003b, 0xfc00003f, 0x32, 0x800000000, [52, 47, 51, 49]⟩,
   ⟨"fnmsub", 0xfc00003c, 0xfc00003f, 0x21, 0x800004000, [52, 47, 51, 49]⟩,
   ⟨"fnms", 0xfc00003c, 0xfc00003f, 0x32, 0x800000000, [52, 47, 51, 49]⟩,
   ⟨"fnmsub.", 0xfc00003d, 0xfc00003f, 0x21, 0x800004000, [52, 47, 51, 49]⟩,
   ⟨"fnms.", 0xfc00003d, 0xfc00003f, 0x32, 0x800000000, [52, 47, 51, 49]⟩,
   ⟨"fnmadd", 0xfc00003e, 0xfc00003f, 0x21, 0x800004000, [52, 47, 51, 49]⟩,
   ⟨"fnma", 0xfc00003e, 0xfc00003f, 0x32, 0x800000000, [52, 47, 51, 49]⟩,
   ⟨"fnmadd.", 0xfc00003f, 0xfc00003f, 0x21, 0x800004000, [52, 47, 51, 49]⟩,
   ⟨"fnma.", 0xfc00003f, 0xfc00003f, 0x32, 0x800000000, [52, 47, 51, 49]⟩,
   ⟨"fcmpo", 0xfc000040, 0xfc6007ff, 0x23, 0x800004000, [13, 47, 49]⟩,
   ⟨"dmulq", 0xfc000044, 0xfc2007ff, 0x400000, 0x800000000, [53, 48, 50]⟩,
   ⟨"dmulq.", 0xfc000045, 0xfc2007ff, 0x400000, 0x800000000, [53, 48, 50]⟩,
   ⟨"drrndq", 0xfc000046, 0xfc2001ff, 0x400000, 0x800000000, [53, 47, 50, 148]⟩,
   ⟨"drrndq.", 0xfc000047, 0xfc2001ff, 0x400000, 0x800000000, [53, 47, 50, 148]⟩,
   ⟨"xsmulqp", 0xfc000048, 0xfc0007ff, 0x10000000000, 0x800000000, [126, 123, 124]⟩,
   ⟨"xsmulqpo", 0xfc000049, 0xfc0007ff, 0x10000000000, 0x800000000, [126, 123, 124]⟩,
   ⟨"xsrqpxp", 0xfc00004a, 0xfc0001ff, 0x10000000000, 0x800000000, [149, 126, 124, 148]⟩,
   ⟨"mtfsb1", 0xfc00004c, 0xfc1fffff, 0x23, 0x800000000, [21]⟩,
   ⟨"mtfsb1.", 0xfc00004d, 0xfc1fffff, 0x23, 0x800000000, [21]⟩,
   ⟨"fneg", 0xfc000050, 0xfc1f07ff, 0x23, 0x800004000, [52, 49]⟩,
   ⟨"fneg.", 0xfc000051, 0xfc1f07ff, 0x23, 0x800004000, [52, 49]⟩,
   ⟨"mcrfs", 0xfc000080, 0xfc63ffff, 0x23, 0x800000000, [13, 16]⟩,
   ⟨"dscliq", 0xfc000084, 0xfc2003ff, 0x400000, 0x800000000, [53, 48, 155]⟩,
   ⟨"dscliq.", 0xfc000085, 0xfc2003ff, 0x400000, 0x800000000, [53, 48, 155]⟩,
   ⟨"dquaiq", 0xfc000086, 0xfc2001ff, 0x400000, 0x800000000, [127, 53, 50, 148]⟩,
   ⟨"dquaiq.", 0xfc000087, 0xfc2001ff, 0x400000, 0x800000000, [127, 53, 50, 148]⟩,
   ⟨"mtfsb0", 0xfc00008c, 0xfc1fffff, 0x23, 0x800000000, [21]⟩,
   ⟨"mtfsb0.", 0xfc00008d, 0xfc1fffff, 0x23, 0x800000000, [21]⟩,
   ⟨"fmr", 0xfc000090, 0xfc1f07ff, 0x23, 0x800004000, [52, 49]⟩,
   ⟨"fmr.", 0xfc000091, 0xfc1f07ff, 0x23, 0x800004000, [52, 49]⟩,
   ⟨"dscriq", 0xfc0000c4, 0xfc2003ff, 0x400000, 0x800000000, [53, 48, 155]⟩,
   ⟨"dscriq.", 0xfc0000c5, 0xfc2003ff, 0x400000, 0x800000000, [53, 48, 155]⟩,
   ⟨"drintxq", 0xfc0000c6, 0xfc2001ff, 0x400000, 0x800000000, [149, 53, 50, 148]⟩,
   ⟨"drintxq.", 0xfc0000c7, 0xfc2001ff, 0x400000, 0x800000000, [149, 53, 50, 148]⟩,
   ⟨"xscpsgnqp", 0xfc0000c8, 0xfc0007ff, 0x10000000000, 0x800000000, [126, 123, 124]⟩,
   ⟨"ftdiv", 0xfc000100, 0xfc6007ff, 0x10000000, 0x800000000, [13, 47, 49]⟩,
   ⟨"dcmpoq", 0xfc000104, 0xfc0007ff, 0x400000, 0x800000000, [13, 48, 50]⟩,
   ⟨"xscmpoqp", 0xfc000108, 0xfc6007ff, 0x10000000000, 0x800000000, [13, 123, 124]⟩,
   ⟨"mtfsfi", 0xfc00010c, 0xfc7e0fff, 0x60400000, 0x800000000, [14, 44, 147]⟩,
   ⟨"mtfsfi", 0xfc00010c, 0xfc7f0fff, 0x23, 0x860400000, [14, 44]⟩,
   ⟨"mtfsfi.", 0xfc00010d, 0xfc7e0fff, 0x60400000, 0x800000000, [14, 44, 147]⟩,
   ⟨"mtfsfi.", 0xfc00010d, 0xfc7f0fff, 0x23, 0x860400000, [14, 44]⟩,
   ⟨"fnabs", 0xfc000110, 0xfc1f07ff, 0x23, 0x800004000, [52, 49]⟩]

/-- ppc-opc.c:7427-7566. -/
def main33 : List Opcode :=
  [⟨"fnabs.", 0xfc000111, 0xfc1f07ff, 0x23, 0x800004000, [52, 49]⟩,
   ⟨"fctiwu", 0xfc00011c, 0xfc1f07ff, 0x10000000, 0x800000000, [52, 49]⟩,
   ⟨"fctiwu.", 0xfc00011d, 0xfc1f07ff, 0x10000000, 0x800000000, [52, 49]⟩,
   ⟨"fctiwuz", 0xfc00011e, 0xfc1f07ff, 0x10000000, 0x800000000, [52, 49]⟩,
   ⟨"fctiwuz.", 0xfc00011f, 0xfc1f07ff, 0x10000000, 0x800000000, [52, 49]⟩,
   ⟨"ftsqrt", 0xfc000140, 0xfc7f07ff, 0x10000000, 0x800000000, [13, 49]⟩,
   ⟨"dtstexq", 0xfc000144, 0xfc0007ff, 0x400000, 0x800000000, [13, 48, 50]⟩,
   ⟨"xscmpexpqp", 0xfc000148, 0xfc6007ff, 0x10000000000, 0x800000000, [13, 123, 124]⟩,
   ⟨"dtstdcq", 0xfc000184, 0xfc0003ff, 0x400000, 0x800000000, [13, 48, 155]⟩,
   ⟨"dtstdgq", 0xfc0001c4, 0xfc0003ff, 0x400000, 0x800000000, [13, 48, 155]⟩,
   ⟨"drintnq", 0xfc0001c6, 0xfc2001ff, 0x400000, 0x800000000, [149, 53, 50, 148]⟩,
   ⟨"drintnq.", 0xfc0001c7, 0xfc2001ff, 0x400000, 0x800000000, [149, 53, 50, 148]⟩,
   ⟨"dctqpq", 0xfc000204, 0xfc2007ff, 0x400000, 0x800000000, [53, 49]⟩,
   ⟨"dctqpq.", 0xfc000205, 0xfc2007ff, 0x400000, 0x800000000, [53, 49]⟩,
   ⟨"fabs", 0xfc000210, 0xfc1f07ff, 0x23, 0x800004000, [52, 49]⟩,
   ⟨"fabs.", 0xfc000211, 0xfc1f07ff, 0x23, 0x800004000, [52, 49]⟩,
   ⟨"dctfixq", 0xfc000244, 0xfc0007ff, 0x400000, 0x800000000, [52, 50]⟩,
   ⟨"dctfixq.", 0xfc000245, 0xfc0007ff, 0x400000, 0x800000000, [52, 50]⟩,
   ⟨"ddedpdq", 0xfc000284, 0xfc2007ff, 0x400000, 0x800000000, [152, 53, 50]⟩,
   ⟨"ddedpdq.", 0xfc000285, 0xfc2007ff, 0x400000, 0x800000000, [152, 53, 50]⟩,
   ⟨"dxexq", 0xfc0002c4, 0xfc0007ff, 0x400000, 0x800000000, [52, 50]⟩,
   ⟨"dxexq.", 0xfc0002c5, 0xfc0007ff, 0x400000, 0x800000000, [52, 50]⟩,
   ⟨"xsmaddqp", 0xfc000308, 0xfc0007ff, 0x10000000000, 0x800000000, [126, 123, 124]⟩,
   ⟨"xsmaddqpo", 0xfc000309, 0xfc0007ff, 0x10000000000, 0x800000000, [126, 123, 124]⟩,
   ⟨"frin", 0xfc000310, 0xfc1f07ff, 0x100000, 0x800000000, [52, 49]⟩,
   ⟨"frin.", 0xfc000311, 0xfc1f07ff, 0x100000, 0x800000000, [52, 49]⟩,
   ⟨"xsmsubqp", 0xfc000348, 0xfc0007ff, 0x10000000000, 0x800000000, [126, 123, 124]⟩,
   ⟨"xsmsubqpo", 0xfc000349, 0xfc0007ff, 0x10000000000, 0x800000000, [126, 123, 124]⟩,
   ⟨"friz", 0xfc000350, 0xfc1f07ff, 0x100000, 0x800000000, [52, 49]⟩,
   ⟨"friz.", 0xfc000351, 0xfc1f07ff, 0x100000, 0x800000000, [52, 49]⟩,
   ⟨"xsnmaddqp", 0xfc000388, 0xfc0007ff, 0x10000000000, 0x800000000, [126, 123, 124]⟩,
   ⟨"xsnmaddqpo", 0xfc000389, 0xfc0007ff, 0x10000000000, 0x800000000, [126, 123, 124]⟩,
   ⟨"frip", 0xfc000390, 0xfc1f07ff, 0x100000, 0x800000000, [52, 49]⟩,
   ⟨"frip.", 0xfc000391, 0xfc1f07ff, 0x100000, 0x800000000, [52, 49]⟩,
   ⟨"xsnmsubqp", 0xfc0003c8, 0xfc0007ff, 0x10000000000, 0x800000000, [126, 123, 124]⟩,
   ⟨"xsnmsubqpo", 0xfc0003c9, 0xfc0007ff, 0x10000000000, 0x800000000, [126, 123, 124]⟩,
   ⟨"frim", 0xfc0003d0, 0xfc1f07ff, 0x100000, 0x800000000, [52, 49]⟩,
   ⟨"frim.", 0xfc0003d1, 0xfc1f07ff, 0x100000, 0x800000000, [52, 49]⟩,
   ⟨"dsubq", 0xfc000404, 0xfc2007ff, 0x400000, 0x800000000, [53, 48, 50]⟩,
   ⟨"dsubq.", 0xfc000405, 0xfc2007ff, 0x400000, 0x800000000, [53, 48, 50]⟩,
   ⟨"xssubqp", 0xfc000408, 0xfc0007ff, 0x10000000000, 0x800000000, [126, 123, 124]⟩,
   ⟨"xssubqpo", 0xfc000409, 0xfc0007ff, 0x10000000000, 0x800000000, [126, 123, 124]⟩,
   ⟨"ddivq", 0xfc000444, 0xfc2007ff, 0x400000, 0x800000000, [53, 48, 50]⟩,
   ⟨"ddivq.", 0xfc000445, 0xfc2007ff, 0x400000, 0x800000000, [53, 48, 50]⟩,
   ⟨"xsdivqp", 0xfc000448, 0xfc0007ff, 0x10000000000, 0x800000000, [126, 123, 124]⟩,
   ⟨"xsdivqpo", 0xfc000449, 0xfc0007ff, 0x10000000000, 0x800000000, [126, 123, 124]⟩,
   ⟨"mffs", 0xfc00048e, 0xfc1fffff, 0x23, 0x800004000, [52]⟩,
   ⟨"mffs.", 0xfc00048f, 0xfc1fffff, 0x23, 0x800004000, [52]⟩,
   ⟨"mffsce", 0xfc01048e, 0xfc1fffff, 0x10000000000, 0x800000000, [52]⟩,
   ⟨"mffscdrn", 0xfc14048e, 0xfc1f07ff, 0x10000000000, 0x800000000, [52, 49]⟩,
   ⟨"mffscdrni", 0xfc15048e, 0xfc1fc7ff, 0x10000000000, 0x800000000, [52, 142]⟩,
   ⟨"mffscrn", 0xfc16048e, 0xfc1f07ff, 0x10000000000, 0x800000000, [52, 49]⟩,
   ⟨"mffscrni", 0xfc17048e, 0xfc1fe7ff, 0x10000000000, 0x800000000, [52, 19]⟩,
   ⟨"mffsl", 0xfc18048e, 0xfc1fffff, 0x10000000000, 0x800000000, [52]⟩,
   ⟨"dcmpuq", 0xfc000504, 0xfc0007ff, 0x400000, 0x800000000, [13, 48, 50]⟩,
   ⟨"xscmpuqp", 0xfc000508, 0xfc6007ff, 0x10000000000, 0x800000000, [13, 123, 124]⟩,
   ⟨"dtstsfq", 0xfc000544, 0xfc0007ff, 0x400000, 0x800000000, [13, 47, 50]⟩,
   ⟨"dtstsfiq", 0xfc000546, 0xfc4007ff, 0x10000000000, 0x800000000, [13, 130, 50]⟩,
   ⟨"xststdcqp", 0xfc000588, 0xfc0007ff, 0x10000000000, 0x800000000, [13, 124, 36]⟩,
   ⟨"mtfsf", 0xfc00058e, 0xfc0007ff, 0x60400000, 0x800000000, [46, 49, 157, 147]⟩,
   ⟨"mtfsf", 0xfc00058e, 0xfc0007ff, 0x23, 0x860404000, [46, 49]⟩,
   ⟨"mtfsf.", 0xfc00058f, 0xfc0007ff, 0x60400000, 0x800000000, [46, 49, 157, 147]⟩,
   ⟨"mtfsf.", 0xfc00058f, 0xfc0007ff, 0x23, 0x860404000, [46, 49]⟩,
   ⟨"drdpq", 0xfc000604, 0xfc2007ff, 0x400000, 0x800000000, [53, 50]⟩,
   ⟨"drdpq.", 0xfc000605, 0xfc2007ff, 0x400000, 0x800000000, [53, 50]⟩,
   ⟨"dcffixq", 0xfc000644, 0xfc2007ff, 0x400000, 0x800000000, [53, 49]⟩,
   ⟨"dcffixq.", 0xfc000645, 0xfc2007ff, 0x400000, 0x800000000, [53, 49]⟩,
   ⟨"xsabsqp", 0xfc000648, 0xfc1f07ff, 0x10000000000, 0x800000000, [126, 124]⟩,
   ⟨"xsxexpqp", 0xfc020648, 0xfc1f07ff, 0x10000000000, 0x800000000, [126, 124]⟩,
   ⟨"xsnabsqp", 0xfc080648, 0xfc1f07ff, 0x10000000000, 0x800000000, [126, 124]⟩,
   ⟨"xsnegqp", 0xfc100648, 0xfc1f07ff, 0x10000000000, 0x800000000, [126, 124]⟩,
   ⟨"xsxsigqp", 0xfc120648, 0xfc1f07ff, 0x10000000000, 0x800000000, [126, 124]⟩,
   ⟨"xssqrtqp", 0xfc1b0648, 0xfc1f07ff, 0x10000000000, 0x800000000, [126, 124]⟩,
   ⟨"xssqrtqpo", 0xfc1b0649, 0xfc1f07ff, 0x10000000000, 0x800000000, [126, 124]⟩,
   ⟨"fctid", 0xfc00065c, 0xfc1f07ff, 0x88, 0x800000000, [52, 49]⟩,
   ⟨"fctid", 0xfc00065c, 0xfc1f07ff, 0x40000000, 0x800000000, [52, 49]⟩,
   ⟨"fctid.", 0xfc00065d, 0xfc1f07ff, 0x88, 0x800000000, [52, 49]⟩,
   ⟨"fctid.", 0xfc00065d, 0xfc1f07ff, 0x40000000, 0x800000000, [52, 49]⟩,
   ⟨"fctidz", 0xfc00065e, 0xfc1f07ff, 0x88, 0x800000000, [52, 49]⟩,
   ⟨"fctidz", 0xfc00065e, 0xfc1f07ff, 0x40000000, 0x800000000, [52, 49]⟩,
   ⟨"fctidz.", 0xfc00065f, 0xfc1f07ff, 0x88, 0x800000000, [52, 49]⟩,
   ⟨"fctidz.", 0xfc00065f, 0xfc1f07ff, 0x40000000, 0x800000000, [52, 49]⟩,
   ⟨"denbcdq", 0xfc000684, 0xfc2007ff, 0x400000, 0x800000000, [153, 53, 50]⟩,
   ⟨"denbcdq.", 0xfc000685, 0xfc2007ff, 0x400000, 0x800000000, [153, 53, 50]⟩,
   ⟨"xscvqpuwz", 0xfc010688, 0xfc1f07ff, 0x10000000000, 0x800000000, [126, 124]⟩,
   ⟨"xscvudqp", 0xfc020688, 0xfc1f07ff, 0x10000000000, 0x800000000, [126, 124]⟩,
   ⟨"xscvqpswz", 0xfc090688, 0xfc1f07ff, 0x10000000000, 0x800000000, [126, 124]⟩,
   ⟨"xscvsdqp", 0xfc0a0688, 0xfc1f07ff, 0x10000000000, 0x800000000, [126, 124]⟩,
   ⟨"xscvqpudz", 0xfc110688, 0xfc1f07ff, 0x10000000000, 0x800000000, [126, 124]⟩,
   ⟨"xscvqpdp", 0xfc140688, 0xfc1f07ff, 0x10000000000, 0x800000000, [126, 124]⟩,
   ⟨"xscvqpdpo", 0xfc140689, 0xfc1f07ff, 0x10000000000, 0x800000000, [126, 124]⟩,
   ⟨"xscvdpqp", 0xfc160688, 0xfc1f07ff, 0x10000000000, 0x800000000, [126, 124]⟩,
   ⟨"xscvqpsdz", 0xfc190688, 0xfc1f07ff, 0x10000000000, 0x800000000, [126, 124]⟩,
   ⟨"fmrgow", 0xfc00068c, 0xfc0007ff, 0x1000000000, 0x800000000, [52, 47, 49]⟩,
   ⟨"fcfid", 0xfc00069c, 0xfc1f07ff, 0x88, 0x800000000, [52, 49]⟩,
   ⟨"fcfid", 0xfc00069c, 0xfc1f07ff, 0x40000000, 0x800000000, [52, 49]⟩,
   ⟨"fcfid.", 0xfc00069d, 0xfc1f07ff, 0x88, 0x800000000, [52, 49]⟩,
   ⟨"fcfid.", 0xfc00069d, 0xfc1f07ff, 0x40000000, 0x800000000, [52, 49]⟩,
   ⟨"diexq", 0xfc0006c4, 0xfc2007ff, 0x400000, 0x800000000, [53, 47, 50]⟩,
   ⟨"diexq.", 0xfc0006c5, 0xfc2007ff, 0x400000, 0x800000000, [53, 47, 50]⟩]

/-- ppc-opc.c:7568-7579. -/
def main34 : List Opcode :=
  [⟨"xsiexpqp", 0xfc0006c8, 0xfc0007ff, 0x10000000000, 0x800000000, [126, 123, 124]⟩,
   ⟨"fctidu", 0xfc00075c, 0xfc1f07ff, 0x30000000, 0x800000000, [52, 49]⟩,
   ⟨"fctidu.", 0xfc00075d, 0xfc1f07ff, 0x30000000, 0x800000000, [52, 49]⟩,
   ⟨"fctiduz", 0xfc00075e, 0xfc1f07ff, 0x30000000, 0x800000000, [52, 49]⟩,
   ⟨"fctiduz.", 0xfc00075f, 0xfc1f07ff, 0x30000000, 0x800000000, [52, 49]⟩,
   ⟨"fmrgew", 0xfc00078c, 0xfc0007ff, 0x1000000000, 0x800000000, [52, 47, 49]⟩,
   ⟨"fcfidu", 0xfc00079c, 0xfc1f07ff, 0x30000000, 0x800000000, [52, 49]⟩,
   ⟨"fcfidu.", 0xfc00079d, 0xfc1f07ff, 0x30000000, 0x800000000, [52, 49]⟩]

/-- ppc-opc.c:3532-7580, `powerpc_opcodes_qt`. -/
def mainTable : List (List Opcode) := [main0, main1, main2, main3, main4, main5, main6, main7, main8, main9, main10, main11, main12, main13, main14, main15, main16, main17, main18, main19, main20, main21, main22, main23, main24, main25, main26, main27, main28, main29, main30, main31, main32, main33, main34]

/-- ppc-opc.c:7590-7691. -/
def vle0 : List Opcode :=
  [⟨"se_illegal", 0x00000000, 0x0000ffff, 0x800000000, 0x0, []⟩,
   ⟨"se_isync", 0x00000001, 0x0000ffff, 0x800000000, 0x0, []⟩,
   ⟨"se_sc", 0x00000002, 0x0000ffff, 0x800000000, 0x0, []⟩,
   ⟨"se_blr", 0x00000004, 0x0000ffff, 0x800000000, 0x0, []⟩,
   ⟨"se_blrl", 0x00000005, 0x0000ffff, 0x800000000, 0x0, []⟩,
   ⟨"se_bctr", 0x00000006, 0x0000ffff, 0x800000000, 0x0, []⟩,
   ⟨"se_bctrl", 0x00000007, 0x0000ffff, 0x800000000, 0x0, []⟩,
   ⟨"se_rfi", 0x00000008, 0x0000ffff, 0x800000000, 0x0, []⟩,
   ⟨"se_rfci", 0x00000009, 0x0000ffff, 0x800000000, 0x0, []⟩,
   ⟨"se_rfdi", 0x0000000a, 0x0000ffff, 0x800000000, 0x0, []⟩,
   ⟨"se_rfmci", 0x0000000b, 0x0000ffff, 0x800040000, 0x0, []⟩,
   ⟨"se_rfgi", 0x0000000c, 0x0000ffff, 0x800000000, 0x0, []⟩,
   ⟨"se_not", 0x00000020, 0x0000fff0, 0x800000000, 0x0, [90]⟩,
   ⟨"se_neg", 0x00000030, 0x0000fff0, 0x800000000, 0x0, [90]⟩,
   ⟨"se_mflr", 0x00000080, 0x0000fff0, 0x800000000, 0x0, [90]⟩,
   ⟨"se_mtlr", 0x00000090, 0x0000fff0, 0x800000000, 0x0, [90]⟩,
   ⟨"se_mfctr", 0x000000a0, 0x0000fff0, 0x800000000, 0x0, [90]⟩,
   ⟨"se_mtctr", 0x000000b0, 0x0000fff0, 0x800000000, 0x0, [90]⟩,
   ⟨"se_extzb", 0x000000c0, 0x0000fff0, 0x800000000, 0x0, [90]⟩,
   ⟨"se_extsb", 0x000000d0, 0x0000fff0, 0x800000000, 0x0, [90]⟩,
   ⟨"se_extzh", 0x000000e0, 0x0000fff0, 0x800000000, 0x0, [90]⟩,
   ⟨"se_extsh", 0x000000f0, 0x0000fff0, 0x800000000, 0x0, [90]⟩,
   ⟨"se_mr", 0x00000100, 0x0000ff00, 0x800000000, 0x0, [90, 92]⟩,
   ⟨"se_mtar", 0x00000200, 0x0000ff00, 0x800000000, 0x0, [91, 92]⟩,
   ⟨"se_mfar", 0x00000300, 0x0000ff00, 0x800000000, 0x0, [90, 93]⟩,
   ⟨"se_add", 0x00000400, 0x0000ff00, 0x800000000, 0x0, [90, 92]⟩,
   ⟨"se_mullw", 0x00000500, 0x0000ff00, 0x800000000, 0x0, [90, 92]⟩,
   ⟨"se_sub", 0x00000600, 0x0000ff00, 0x800000000, 0x0, [90, 92]⟩,
   ⟨"se_subf", 0x00000700, 0x0000ff00, 0x800000000, 0x0, [90, 92]⟩,
   ⟨"se_cmp", 0x00000c00, 0x0000ff00, 0x800000000, 0x0, [90, 92]⟩,
   ⟨"se_cmpl", 0x00000d00, 0x0000ff00, 0x800000000, 0x0, [90, 92]⟩,
   ⟨"se_cmph", 0x00000e00, 0x0000ff00, 0x800000000, 0x0, [90, 92]⟩,
   ⟨"se_cmphl", 0x00000f00, 0x0000ff00, 0x800000000, 0x0, [90, 92]⟩,
   ⟨"zvaddih", 0x10000200, 0xfc0007ff, 0x80000000000, 0x0, [86, 74, 99]⟩,
   ⟨"zvsubifh", 0x10000201, 0xfc0007ff, 0x80000000000, 0x0, [86, 74, 99]⟩,
   ⟨"zvaddh", 0x10000204, 0xfc0007ff, 0x80000000000, 0x0, [86, 74, 81]⟩,
   ⟨"zvsubfh", 0x10000205, 0xfc0007ff, 0x80000000000, 0x0, [86, 74, 81]⟩,
   ⟨"zvaddsubfh", 0x10000206, 0xfc0007ff, 0x80000000000, 0x0, [86, 74, 81]⟩,
   ⟨"zvsubfaddh", 0x10000207, 0xfc0007ff, 0x80000000000, 0x0, [86, 74, 81]⟩,
   ⟨"zvaddhx", 0x1000020c, 0xfc0007ff, 0x80000000000, 0x0, [86, 74, 81]⟩,
   ⟨"zvsubfhx", 0x1000020d, 0xfc0007ff, 0x80000000000, 0x0, [86, 74, 81]⟩,
   ⟨"zvaddsubfhx", 0x1000020e, 0xfc0007ff, 0x80000000000, 0x0, [86, 74, 81]⟩,
   ⟨"zvsubfaddhx", 0x1000020f, 0xfc0007ff, 0x80000000000, 0x0, [86, 74, 81]⟩,
   ⟨"zaddwus", 0x10000210, 0xfc0007ff, 0x80000000000, 0x0, [86, 74, 81]⟩,
   ⟨"zsubfwus", 0x10000211, 0xfc0007ff, 0x80000000000, 0x0, [86, 74, 81]⟩,
   ⟨"zaddwss", 0x10000212, 0xfc0007ff, 0x80000000000, 0x0, [86, 74, 81]⟩,
   ⟨"zsubfwss", 0x10000213, 0xfc0007ff, 0x80000000000, 0x0, [86, 74, 81]⟩,
   ⟨"zvaddhus", 0x10000214, 0xfc0007ff, 0x80000000000, 0x0, [86, 74, 81]⟩,
   ⟨"zvsubfhus", 0x10000215, 0xfc0007ff, 0x80000000000, 0x0, [86, 74, 81]⟩,
   ⟨"zvaddhss", 0x10000216, 0xfc0007ff, 0x80000000000, 0x0, [86, 74, 81]⟩,
   ⟨"zvsubfhss", 0x10000217, 0xfc0007ff, 0x80000000000, 0x0, [86, 74, 81]⟩,
   ⟨"zvaddsubfhss", 0x1000021a, 0xfc0007ff, 0x80000000000, 0x0, [86, 74, 81]⟩,
   ⟨"zvsubfaddhss", 0x1000021b, 0xfc0007ff, 0x80000000000, 0x0, [86, 74, 81]⟩,
   ⟨"zvaddhxss", 0x1000021c, 0xfc0007ff, 0x80000000000, 0x0, [86, 74, 81]⟩,
   ⟨"zvsubfhxss", 0x1000021d, 0xfc0007ff, 0x80000000000, 0x0, [86, 74, 81]⟩,
   ⟨"zvaddsubfhxss", 0x1000021e, 0xfc0007ff, 0x80000000000, 0x0, [86, 74, 81]⟩,
   ⟨"zvsubfaddhxss", 0x1000021f, 0xfc0007ff, 0x80000000000, 0x0, [86, 74, 81]⟩,
   ⟨"zaddheuw", 0x10000220, 0xfc0007ff, 0x80000000000, 0x0, [86, 74, 81]⟩,
   ⟨"zsubfheuw", 0x10000221, 0xfc0007ff, 0x80000000000, 0x0, [86, 74, 81]⟩,
   ⟨"zaddhesw", 0x10000222, 0xfc0007ff, 0x80000000000, 0x0, [86, 74, 81]⟩,
   ⟨"zsubfhesw", 0x10000223, 0xfc0007ff, 0x80000000000, 0x0, [86, 74, 81]⟩,
   ⟨"zaddhouw", 0x10000224, 0xfc0007ff, 0x80000000000, 0x0, [86, 74, 81]⟩,
   ⟨"zsubfhouw", 0x10000225, 0xfc0007ff, 0x80000000000, 0x0, [86, 74, 81]⟩,
   ⟨"zaddhosw", 0x10000226, 0xfc0007ff, 0x80000000000, 0x0, [86, 74, 81]⟩,
   ⟨"zsubfhosw", 0x10000227, 0xfc0007ff, 0x80000000000, 0x0, [86, 74, 81]⟩,
   ⟨"zvmergehih", 0x1000022c, 0xfc0007ff, 0x80000000000, 0x0, [86, 74, 81]⟩,
   ⟨"zvmergeloh", 0x1000022d, 0xfc0007ff, 0x80000000000, 0x0, [86, 74, 81]⟩,
   ⟨"zvmergehiloh", 0x1000022e, 0xfc0007ff, 0x80000000000, 0x0, [86, 74, 81]⟩,
   ⟨"zvmergelohih", 0x1000022f, 0xfc0007ff, 0x80000000000, 0x0, [86, 74, 81]⟩,
   ⟨"zvcmpgthu", 0x10000230, 0xfc0007ff, 0x80000000000, 0x0, [13, 74, 81]⟩,
   ⟨"zvcmpgths", 0x10000230, 0xfc0007ff, 0x80000000000, 0x0, [13, 74, 81]⟩,
   ⟨"zvcmplthu", 0x10000231, 0xfc0007ff, 0x80000000000, 0x0, [13, 74, 81]⟩,
   ⟨"zvcmplths", 0x10000231, 0xfc0007ff, 0x80000000000, 0x0, [13, 74, 81]⟩,
   ⟨"zvcmpeqh", 0x10000232, 0xfc0007ff, 0x80000000000, 0x0, [13, 74, 81]⟩,
   ⟨"zpkswgshfrs", 0x10000238, 0xfc0007ff, 0x80000000000, 0x0, [86, 74, 81]⟩,
   ⟨"zpkswgswfrs", 0x10000239, 0xfc0007ff, 0x80000000000, 0x0, [86, 74, 81]⟩,
   ⟨"zvpkshgwshfrs", 0x1000023a, 0xfc0007ff, 0x80000000000, 0x0, [86, 74, 81]⟩,
   ⟨"zvpkswshfrs", 0x1000023b, 0xfc0007ff, 0x80000000000, 0x0, [86, 74, 81]⟩,
   ⟨"zvpkswuhs", 0x1000023c, 0xfc0007ff, 0x80000000000, 0x0, [86, 74, 81]⟩,
   ⟨"zvpkswshs", 0x1000023d, 0xfc0007ff, 0x80000000000, 0x0, [86, 74, 81]⟩,
   ⟨"zvpkuwuhs", 0x1000023e, 0xfc0007ff, 0x80000000000, 0x0, [86, 74, 81]⟩,
   ⟨"zvsplatih", 0x1000023f, 0xfc00ffff, 0x80000000000, 0x0, [86, 127]⟩,
   ⟨"zvsplatfih", 0x10000a3f, 0xfc00ffff, 0x80000000000, 0x0, [86, 127]⟩,
   ⟨"zcntlsw", 0x10002a3f, 0xfc00ffff, 0x80000000000, 0x0, [86, 74]⟩,
   ⟨"zvcntlzh", 0x1000323f, 0xfc00ffff, 0x80000000000, 0x0, [86, 74]⟩,
   ⟨"zvcntlsh", 0x10003a3f, 0xfc00ffff, 0x80000000000, 0x0, [86, 74]⟩,
   ⟨"znegws", 0x10004a3f, 0xfc00ffff, 0x80000000000, 0x0, [86, 74]⟩,
   ⟨"zvnegh", 0x1000523f, 0xfc00ffff, 0x80000000000, 0x0, [86, 74]⟩,
   ⟨"zvneghs", 0x10005a3f, 0xfc00ffff, 0x80000000000, 0x0, [86, 74]⟩,
   ⟨"zvnegho", 0x1000623f, 0xfc00ffff, 0x80000000000, 0x0, [86, 74]⟩,
   ⟨"zvneghos", 0x10006a3f, 0xfc00ffff, 0x80000000000, 0x0, [86, 74]⟩,
   ⟨"zrndwh", 0x1000823f, 0xfc00ffff, 0x80000000000, 0x0, [86, 74]⟩,
   ⟨"zrndwhss", 0x10008a3f, 0xfc00ffff, 0x80000000000, 0x0, [86, 74]⟩,
   ⟨"zvabsh", 0x1000a23f, 0xfc00ffff, 0x80000000000, 0x0, [86, 74]⟩,
   ⟨"zvabshs", 0x1000aa3f, 0xfc00ffff, 0x80000000000, 0x0, [86, 74]⟩,
   ⟨"zabsw", 0x1000b23f, 0xfc00ffff, 0x80000000000, 0x0, [86, 74]⟩,
   ⟨"zabsws", 0x1000ba3f, 0xfc00ffff, 0x80000000000, 0x0, [86, 74]⟩,
   ⟨"zsatswuw", 0x1000c23f, 0xfc00ffff, 0x80000000000, 0x0, [86, 74]⟩,
   ⟨"zsatuwsw", 0x1000ca3f, 0xfc00ffff, 0x80000000000, 0x0, [86, 74]⟩,
   ⟨"zsatswuh", 0x1000d23f, 0xfc00ffff, 0x80000000000, 0x0, [86, 74]⟩]

/-- ppc-opc.c:7692-7791. -/
def vle1 : List Opcode :=
  [⟨"zsatswsh", 0x1000da3f, 0xfc00ffff, 0x80000000000, 0x0, [86, 74]⟩,
   ⟨"zvsatshuh", 0x1000e23f, 0xfc00ffff, 0x80000000000, 0x0, [86, 74]⟩,
   ⟨"zvsatuhsh", 0x1000ea3f, 0xfc00ffff, 0x80000000000, 0x0, [86, 74]⟩,
   ⟨"zsatuwuh", 0x1000f23f, 0xfc00ffff, 0x80000000000, 0x0, [86, 74]⟩,
   ⟨"zsatuwsh", 0x1000fa3f, 0xfc00ffff, 0x80000000000, 0x0, [86, 74]⟩,
   ⟨"zsatsduw", 0x10000260, 0xfc0007ff, 0x80000000000, 0x0, [86, 74, 81]⟩,
   ⟨"zsatsdsw", 0x10000261, 0xfc0007ff, 0x80000000000, 0x0, [86, 74, 81]⟩,
   ⟨"zsatuduw", 0x10000262, 0xfc0007ff, 0x80000000000, 0x0, [86, 74, 81]⟩,
   ⟨"zvselh", 0x10000264, 0xfc0007ff, 0x80000000000, 0x0, [86, 74, 81]⟩,
   ⟨"zxtrw", 0x10000264, 0xfc0007fc, 0x80000000000, 0x0, [86, 74, 81, 180]⟩,
   ⟨"zbrminc", 0x10000268, 0xfc0007ff, 0x80000000000, 0x0, [86, 74, 81]⟩,
   ⟨"zcircinc", 0x10000269, 0xfc0007ff, 0x80000000000, 0x0, [86, 74, 81]⟩,
   ⟨"zdivwsf", 0x1000026b, 0xfc0007ff, 0x80000000000, 0x0, [86, 74, 81]⟩,
   ⟨"zvsrhu", 0x10000270, 0xfc0007ff, 0x80000000000, 0x0, [86, 74, 81]⟩,
   ⟨"zvsrhs", 0x10000271, 0xfc0007ff, 0x80000000000, 0x0, [86, 74, 81]⟩,
   ⟨"zvsrhiu", 0x10000272, 0xfc0007ff, 0x80000000000, 0x0, [86, 74, 101]⟩,
   ⟨"zvsrhis", 0x10000273, 0xfc0007ff, 0x80000000000, 0x0, [86, 74, 101]⟩,
   ⟨"zvslh", 0x10000274, 0xfc0007ff, 0x80000000000, 0x0, [86, 74, 81]⟩,
   ⟨"zvrlh", 0x10000275, 0xfc0007ff, 0x80000000000, 0x0, [86, 74, 81]⟩,
   ⟨"zvslhi", 0x10000276, 0xfc0007ff, 0x80000000000, 0x0, [86, 74, 101]⟩,
   ⟨"zvrlhi", 0x10000277, 0xfc0007ff, 0x80000000000, 0x0, [86, 74, 101]⟩,
   ⟨"zvslhus", 0x10000278, 0xfc0007ff, 0x80000000000, 0x0, [86, 74, 81]⟩,
   ⟨"zvslhss", 0x10000279, 0xfc0007ff, 0x80000000000, 0x0, [86, 74, 81]⟩,
   ⟨"zvslhius", 0x1000027a, 0xfc0007ff, 0x80000000000, 0x0, [86, 74, 101]⟩,
   ⟨"zvslhiss", 0x1000027b, 0xfc0007ff, 0x80000000000, 0x0, [86, 74, 101]⟩,
   ⟨"zslwus", 0x1000027c, 0xfc0007ff, 0x80000000000, 0x0, [86, 74, 81]⟩,
   ⟨"zslwss", 0x1000027d, 0xfc0007ff, 0x80000000000, 0x0, [86, 74, 81]⟩,
   ⟨"zslwius", 0x1000027e, 0xfc0007ff, 0x80000000000, 0x0, [86, 74, 99]⟩,
   ⟨"zslwiss", 0x1000027f, 0xfc0007ff, 0x80000000000, 0x0, [86, 74, 99]⟩,
   ⟨"zaddwgui", 0x10000460, 0xfc0007ff, 0x80000000000, 0x0, [87, 74, 81]⟩,
   ⟨"zsubfwgui", 0x10000461, 0xfc0007ff, 0x80000000000, 0x0, [87, 74, 81]⟩,
   ⟨"zaddd", 0x10000462, 0xfc0007ff, 0x80000000000, 0x0, [87, 74, 81]⟩,
   ⟨"zsubfd", 0x10000463, 0xfc0007ff, 0x80000000000, 0x0, [87, 74, 81]⟩,
   ⟨"zvaddsubfw", 0x10000464, 0xfc0007ff, 0x80000000000, 0x0, [87, 74, 81]⟩,
   ⟨"zvsubfaddw", 0x10000465, 0xfc0007ff, 0x80000000000, 0x0, [87, 74, 81]⟩,
   ⟨"zvaddw", 0x10000466, 0xfc0007ff, 0x80000000000, 0x0, [87, 74, 81]⟩,
   ⟨"zvsubfw", 0x10000467, 0xfc0007ff, 0x80000000000, 0x0, [87, 74, 81]⟩,
   ⟨"zaddwgsi", 0x10000468, 0xfc0007ff, 0x80000000000, 0x0, [87, 74, 81]⟩,
   ⟨"zsubfwgsi", 0x10000469, 0xfc0007ff, 0x80000000000, 0x0, [87, 74, 81]⟩,
   ⟨"zadddss", 0x1000046a, 0xfc0007ff, 0x80000000000, 0x0, [87, 74, 81]⟩,
   ⟨"zsubfdss", 0x1000046b, 0xfc0007ff, 0x80000000000, 0x0, [87, 74, 81]⟩,
   ⟨"zvaddsubfwss", 0x1000046c, 0xfc0007ff, 0x80000000000, 0x0, [87, 74, 81]⟩,
   ⟨"zvsubfaddwss", 0x1000046d, 0xfc0007ff, 0x80000000000, 0x0, [87, 74, 81]⟩,
   ⟨"zvaddwss", 0x1000046e, 0xfc0007ff, 0x80000000000, 0x0, [86, 74, 81]⟩,
   ⟨"zvsubfwss", 0x1000046f, 0xfc0007ff, 0x80000000000, 0x0, [87, 74, 81]⟩,
   ⟨"zaddwgsf", 0x10000470, 0xfc0007ff, 0x80000000000, 0x0, [87, 74, 81]⟩,
   ⟨"zsubfwgsf", 0x10000471, 0xfc0007ff, 0x80000000000, 0x0, [87, 74, 81]⟩,
   ⟨"zadddus", 0x10000472, 0xfc0007ff, 0x80000000000, 0x0, [87, 74, 81]⟩,
   ⟨"zsubfdus", 0x10000473, 0xfc0007ff, 0x80000000000, 0x0, [87, 74, 81]⟩,
   ⟨"zvaddwus", 0x10000476, 0xfc0007ff, 0x80000000000, 0x0, [87, 74, 81]⟩,
   ⟨"zvsubfwus", 0x10000477, 0xfc0007ff, 0x80000000000, 0x0, [87, 74, 81]⟩,
   ⟨"zvunpkhgwsf", 0x10000478, 0xfc00ffff, 0x80000000000, 0x0, [87, 74]⟩,
   ⟨"zvunpkhsf", 0x10000c78, 0xfc00ffff, 0x80000000000, 0x0, [87, 74]⟩,
   ⟨"zvunpkhui", 0x10001478, 0xfc00ffff, 0x80000000000, 0x0, [87, 74]⟩,
   ⟨"zvunpkhsi", 0x10001c78, 0xfc00ffff, 0x80000000000, 0x0, [87, 74]⟩,
   ⟨"zunpkwgsf", 0x10002478, 0xfc00ffff, 0x80000000000, 0x0, [87, 74]⟩,
   ⟨"zvdotphgwasmf", 0x10000488, 0xfc0007ff, 0x80000000000, 0x0, [86, 74, 81]⟩,
   ⟨"zvdotphgwasmfr", 0x10000489, 0xfc0007ff, 0x80000000000, 0x0, [86, 74, 81]⟩,
   ⟨"zvdotphgwasmfaa", 0x1000048a, 0xfc0007ff, 0x80000000000, 0x0, [86, 74, 81]⟩,
   ⟨"zvdotphgwasmfraa", 0x1000048b, 0xfc0007ff, 0x80000000000, 0x0, [86, 74, 81]⟩,
   ⟨"zvdotphgwasmfan", 0x1000048c, 0xfc0007ff, 0x80000000000, 0x0, [86, 74, 81]⟩,
   ⟨"zvdotphgwasmfran", 0x1000048d, 0xfc0007ff, 0x80000000000, 0x0, [86, 74, 81]⟩,
   ⟨"zvmhulgwsmf", 0x10000490, 0xfc0007ff, 0x80000000000, 0x0, [87, 74, 81]⟩,
   ⟨"zvmhulgwsmfr", 0x10000491, 0xfc0007ff, 0x80000000000, 0x0, [87, 74, 81]⟩,
   ⟨"zvmhulgwsmfaa", 0x10000492, 0xfc0007ff, 0x80000000000, 0x0, [87, 74, 81]⟩,
   ⟨"zvmhulgwsmfraa", 0x10000493, 0xfc0007ff, 0x80000000000, 0x0, [87, 74, 81]⟩,
   ⟨"zvmhulgwsmfan", 0x10000494, 0xfc0007ff, 0x80000000000, 0x0, [87, 74, 81]⟩,
   ⟨"zvmhulgwsmfran", 0x10000495, 0xfc0007ff, 0x80000000000, 0x0, [87, 74, 81]⟩,
   ⟨"zvmhulgwsmfanp", 0x10000496, 0xfc0007ff, 0x80000000000, 0x0, [87, 74, 81]⟩,
   ⟨"zvmhulgwsmfranp", 0x10000497, 0xfc0007ff, 0x80000000000, 0x0, [87, 74, 81]⟩,
   ⟨"zmhegwsmf", 0x10000498, 0xfc0007ff, 0x80000000000, 0x0, [86, 74, 81]⟩,
   ⟨"zmhegwsmfr", 0x10000499, 0xfc0007ff, 0x80000000000, 0x0, [86, 74, 81]⟩,
   ⟨"zmhegwsmfaa", 0x1000049a, 0xfc0007ff, 0x80000000000, 0x0, [86, 74, 81]⟩,
   ⟨"zmhegwsmfraa", 0x1000049b, 0xfc0007ff, 0x80000000000, 0x0, [86, 74, 81]⟩,
   ⟨"zmhegwsmfan", 0x1000049c, 0xfc0007ff, 0x80000000000, 0x0, [86, 74, 81]⟩,
   ⟨"zmhegwsmfran", 0x1000049d, 0xfc0007ff, 0x80000000000, 0x0, [86, 74, 81]⟩,
   ⟨"zvdotphxgwasmf", 0x100004a8, 0xfc0007ff, 0x80000000000, 0x0, [86, 74, 81]⟩,
   ⟨"zvdotphxgwasmfr", 0x100004a9, 0xfc0007ff, 0x80000000000, 0x0, [86, 74, 81]⟩,
   ⟨"zvdotphxgwasmfaa", 0x100004aa, 0xfc0007ff, 0x80000000000, 0x0, [86, 74, 81]⟩,
   ⟨"zvdotphxgwasmfraa", 0x100004ab, 0xfc0007ff, 0x80000000000, 0x0, [86, 74, 81]⟩,
   ⟨"zvdotphxgwasmfan", 0x100004ac, 0xfc0007ff, 0x80000000000, 0x0, [86, 74, 81]⟩,
   ⟨"zvdotphxgwasmfran", 0x100004ad, 0xfc0007ff, 0x80000000000, 0x0, [86, 74, 81]⟩,
   ⟨"zvmhllgwsmf", 0x100004b0, 0xfc0007ff, 0x80000000000, 0x0, [87, 74, 81]⟩,
   ⟨"zvmhllgwsmfr", 0x100004b1, 0xfc0007ff, 0x80000000000, 0x0, [87, 74, 81]⟩,
   ⟨"zvmhllgwsmfaa", 0x100004b2, 0xfc0007ff, 0x80000000000, 0x0, [87, 74, 81]⟩,
   ⟨"zvmhllgwsmfraa", 0x100004b3, 0xfc0007ff, 0x80000000000, 0x0, [87, 74, 81]⟩,
   ⟨"zvmhllgwsmfan", 0x100004b4, 0xfc0007ff, 0x80000000000, 0x0, [87, 74, 81]⟩,
   ⟨"zvmhllgwsmfran", 0x100004b5, 0xfc0007ff, 0x80000000000, 0x0, [87, 74, 81]⟩,
   ⟨"zvmhllgwsmfanp", 0x100004b6, 0xfc0007ff, 0x80000000000, 0x0, [87, 74, 81]⟩,
   ⟨"zvmhllgwsmfranp", 0x100004b7, 0xfc0007ff, 0x80000000000, 0x0, [87, 74, 81]⟩,
   ⟨"zmheogwsmf", 0x100004b8, 0xfc0007ff, 0x80000000000, 0x0, [86, 74, 81]⟩,
   ⟨"zmheogwsmfr", 0x100004b9, 0xfc0007ff, 0x80000000000, 0x0, [86, 74, 81]⟩,
   ⟨"zmheogwsmfaa", 0x100004ba, 0xfc0007ff, 0x80000000000, 0x0, [86, 74, 81]⟩,
   ⟨"zmheogwsmfraa", 0x100004bb, 0xfc0007ff, 0x80000000000, 0x0, [86, 74, 81]⟩,
   ⟨"zmheogwsmfan", 0x100004bc, 0xfc0007ff, 0x80000000000, 0x0, [86, 74, 81]⟩,
   ⟨"zmheogwsmfran", 0x100004bd, 0xfc0007ff, 0x80000000000, 0x0, [86, 74, 81]⟩,
   ⟨"zvdotphgwssmf", 0x100004c8, 0xfc0007ff, 0x80000000000, 0x0, [86, 74, 81]⟩,
   ⟨"zvdotphgwssmfr", 0x100004c9, 0xfc0007ff, 0x80000000000, 0x0, [86, 74, 81]⟩,
   ⟨"zvdotphgwssmfaa", 0x100004ca, 0xfc0007ff, 0x80000000000, 0x0, [86, 74, 81]⟩,
   ⟨"zvdotphgwssmfraa", 0x100004cb, 0xfc0007ff, 0x80000000000, 0x0, [86, 74, 81]⟩]

/-- ppc-opc.c:7792-7891. -/
def vle2 : List Opcode :=
  [⟨"zvdotphgwssmfan", 0x100004cc, 0xfc0007ff, 0x80000000000, 0x0, [86, 74, 81]⟩,
   ⟨"zvdotphgwssmfran", 0x100004cd, 0xfc0007ff, 0x80000000000, 0x0, [86, 74, 81]⟩,
   ⟨"zvmhuugwsmf", 0x100004d0, 0xfc0007ff, 0x80000000000, 0x0, [87, 74, 81]⟩,
   ⟨"zvmhuugwsmfr", 0x100004d1, 0xfc0007ff, 0x80000000000, 0x0, [87, 74, 81]⟩,
   ⟨"zvmhuugwsmfaa", 0x100004d2, 0xfc0007ff, 0x80000000000, 0x0, [87, 74, 81]⟩,
   ⟨"zvmhuugwsmfraa", 0x100004d3, 0xfc0007ff, 0x80000000000, 0x0, [87, 74, 81]⟩,
   ⟨"zvmhuugwsmfan", 0x100004d4, 0xfc0007ff, 0x80000000000, 0x0, [87, 74, 81]⟩,
   ⟨"zvmhuugwsmfran", 0x100004d5, 0xfc0007ff, 0x80000000000, 0x0, [87, 74, 81]⟩,
   ⟨"zvmhuugwsmfanp", 0x100004d6, 0xfc0007ff, 0x80000000000, 0x0, [87, 74, 81]⟩,
   ⟨"zvmhuugwsmfranp", 0x100004d7, 0xfc0007ff, 0x80000000000, 0x0, [87, 74, 81]⟩,
   ⟨"zmhogwsmf", 0x100004d8, 0xfc0007ff, 0x80000000000, 0x0, [86, 74, 81]⟩,
   ⟨"zmhogwsmfr", 0x100004d9, 0xfc0007ff, 0x80000000000, 0x0, [86, 74, 81]⟩,
   ⟨"zmhogwsmfaa", 0x100004da, 0xfc0007ff, 0x80000000000, 0x0, [86, 74, 81]⟩,
   ⟨"zmhogwsmfraa", 0x100004db, 0xfc0007ff, 0x80000000000, 0x0, [86, 74, 81]⟩,
   ⟨"zmhogwsmfan", 0x100004dc, 0xfc0007ff, 0x80000000000, 0x0, [86, 74, 81]⟩,
   ⟨"zmhogwsmfran", 0x100004dd, 0xfc0007ff, 0x80000000000, 0x0, [86, 74, 81]⟩,
   ⟨"zvmhxlgwsmf", 0x100004f0, 0xfc0007ff, 0x80000000000, 0x0, [87, 74, 81]⟩,
   ⟨"zvmhxlgwsmfr", 0x100004f1, 0xfc0007ff, 0x80000000000, 0x0, [87, 74, 81]⟩,
   ⟨"zvmhxlgwsmfaa", 0x100004f2, 0xfc0007ff, 0x80000000000, 0x0, [87, 74, 81]⟩,
   ⟨"zvmhxlgwsmfraa", 0x100004f3, 0xfc0007ff, 0x80000000000, 0x0, [87, 74, 81]⟩,
   ⟨"zvmhxlgwsmfan", 0x100004f4, 0xfc0007ff, 0x80000000000, 0x0, [87, 74, 81]⟩,
   ⟨"zvmhxlgwsmfran", 0x100004f5, 0xfc0007ff, 0x80000000000, 0x0, [87, 74, 81]⟩,
   ⟨"zvmhxlgwsmfanp", 0x100004f6, 0xfc0007ff, 0x80000000000, 0x0, [87, 74, 81]⟩,
   ⟨"zvmhxlgwsmfranp", 0x100004f7, 0xfc0007ff, 0x80000000000, 0x0, [87, 74, 81]⟩,
   ⟨"zmhegui", 0x10000500, 0xfc0007ff, 0x80000000000, 0x0, [87, 74, 81]⟩,
   ⟨"zvdotphgaui", 0x10000501, 0xfc0007ff, 0x80000000000, 0x0, [87, 74, 81]⟩,
   ⟨"zmheguiaa", 0x10000502, 0xfc0007ff, 0x80000000000, 0x0, [87, 74, 81]⟩,
   ⟨"zvdotphgauiaa", 0x10000503, 0xfc0007ff, 0x80000000000, 0x0, [87, 74, 81]⟩,
   ⟨"zmheguian", 0x10000504, 0xfc0007ff, 0x80000000000, 0x0, [87, 74, 81]⟩,
   ⟨"zvdotphgauian", 0x10000505, 0xfc0007ff, 0x80000000000, 0x0, [87, 74, 81]⟩,
   ⟨"zmhegsi", 0x10000508, 0xfc0007ff, 0x80000000000, 0x0, [87, 74, 81]⟩,
   ⟨"zvdotphgasi", 0x10000509, 0xfc0007ff, 0x80000000000, 0x0, [87, 74, 81]⟩,
   ⟨"zmhegsiaa", 0x1000050a, 0xfc0007ff, 0x80000000000, 0x0, [87, 74, 81]⟩,
   ⟨"zvdotphgasiaa", 0x1000050b, 0xfc0007ff, 0x80000000000, 0x0, [87, 74, 81]⟩,
   ⟨"zmhegsian", 0x1000050c, 0xfc0007ff, 0x80000000000, 0x0, [87, 74, 81]⟩,
   ⟨"zvdotphgasian", 0x1000050d, 0xfc0007ff, 0x80000000000, 0x0, [87, 74, 81]⟩,
   ⟨"zmhegsui", 0x10000510, 0xfc0007ff, 0x80000000000, 0x0, [87, 74, 81]⟩,
   ⟨"zvdotphgasui", 0x10000511, 0xfc0007ff, 0x80000000000, 0x0, [87, 74, 81]⟩,
   ⟨"zmhegsuiaa", 0x10000512, 0xfc0007ff, 0x80000000000, 0x0, [87, 74, 81]⟩,
   ⟨"zvdotphgasuiaa", 0x10000513, 0xfc0007ff, 0x80000000000, 0x0, [87, 74, 81]⟩,
   ⟨"zmhegsuian", 0x10000514, 0xfc0007ff, 0x80000000000, 0x0, [87, 74, 81]⟩,
   ⟨"zvdotphgasuian", 0x10000515, 0xfc0007ff, 0x80000000000, 0x0, [87, 74, 81]⟩,
   ⟨"zmhegsmf", 0x10000518, 0xfc0007ff, 0x80000000000, 0x0, [87, 74, 81]⟩,
   ⟨"zvdotphgasmf", 0x10000519, 0xfc0007ff, 0x80000000000, 0x0, [87, 74, 81]⟩,
   ⟨"zmhegsmfaa", 0x1000051a, 0xfc0007ff, 0x80000000000, 0x0, [87, 74, 81]⟩,
   ⟨"zvdotphgasmfaa", 0x1000051b, 0xfc0007ff, 0x80000000000, 0x0, [87, 74, 81]⟩,
   ⟨"zmhegsmfan", 0x1000051c, 0xfc0007ff, 0x80000000000, 0x0, [87, 74, 81]⟩,
   ⟨"zvdotphgasmfan", 0x1000051d, 0xfc0007ff, 0x80000000000, 0x0, [87, 74, 81]⟩,
   ⟨"zmheogui", 0x10000520, 0xfc0007ff, 0x80000000000, 0x0, [87, 74, 81]⟩,
   ⟨"zvdotphxgaui", 0x10000521, 0xfc0007ff, 0x80000000000, 0x0, [87, 74, 81]⟩,
   ⟨"zmheoguiaa", 0x10000522, 0xfc0007ff, 0x80000000000, 0x0, [87, 74, 81]⟩,
   ⟨"zvdotphxgauiaa", 0x10000523, 0xfc0007ff, 0x80000000000, 0x0, [87, 74, 81]⟩,
   ⟨"zmheoguian", 0x10000524, 0xfc0007ff, 0x80000000000, 0x0, [87, 74, 81]⟩,
   ⟨"zvdotphxgauian", 0x10000525, 0xfc0007ff, 0x80000000000, 0x0, [87, 74, 81]⟩,
   ⟨"zmheogsi", 0x10000528, 0xfc0007ff, 0x80000000000, 0x0, [87, 74, 81]⟩,
   ⟨"zvdotphxgasi", 0x10000529, 0xfc0007ff, 0x80000000000, 0x0, [87, 74, 81]⟩,
   ⟨"zmheogsiaa", 0x1000052a, 0xfc0007ff, 0x80000000000, 0x0, [87, 74, 81]⟩,
   ⟨"zvdotphxgasiaa", 0x1000052b, 0xfc0007ff, 0x80000000000, 0x0, [87, 74, 81]⟩,
   ⟨"zmheogsian", 0x1000052c, 0xfc0007ff, 0x80000000000, 0x0, [87, 74, 81]⟩,
   ⟨"zvdotphxgasian", 0x1000052d, 0xfc0007ff, 0x80000000000, 0x0, [87, 74, 81]⟩,
   ⟨"zmheogsui", 0x10000530, 0xfc0007ff, 0x80000000000, 0x0, [87, 74, 81]⟩,
   ⟨"zvdotphxgasui", 0x10000531, 0xfc0007ff, 0x80000000000, 0x0, [87, 74, 81]⟩,
   ⟨"zmheogsuiaa", 0x10000532, 0xfc0007ff, 0x80000000000, 0x0, [87, 74, 81]⟩,
   ⟨"zvdotphxgasuiaa", 0x10000533, 0xfc0007ff, 0x80000000000, 0x0, [87, 74, 81]⟩,
   ⟨"zmheogsuian", 0x10000534, 0xfc0007ff, 0x80000000000, 0x0, [87, 74, 81]⟩,
   ⟨"zvdotphxgasuian", 0x10000535, 0xfc0007ff, 0x80000000000, 0x0, [87, 74, 81]⟩,
   ⟨"zmheogsmf", 0x10000538, 0xfc0007ff, 0x80000000000, 0x0, [87, 74, 81]⟩,
   ⟨"zvdotphxgasmf", 0x10000539, 0xfc0007ff, 0x80000000000, 0x0, [87, 74, 81]⟩,
   ⟨"zmheogsmfaa", 0x1000053a, 0xfc0007ff, 0x80000000000, 0x0, [87, 74, 81]⟩,
   ⟨"zvdotphxgasmfaa", 0x1000053b, 0xfc0007ff, 0x80000000000, 0x0, [87, 74, 81]⟩,
   ⟨"zmheogsmfan", 0x1000053c, 0xfc0007ff, 0x80000000000, 0x0, [87, 74, 81]⟩,
   ⟨"zvdotphxgasmfan", 0x1000053d, 0xfc0007ff, 0x80000000000, 0x0, [87, 74, 81]⟩,
   ⟨"zmhogui", 0x10000540, 0xfc0007ff, 0x80000000000, 0x0, [87, 74, 81]⟩,
   ⟨"zvdotphgsui", 0x10000541, 0xfc0007ff, 0x80000000000, 0x0, [87, 74, 81]⟩,
   ⟨"zmhoguiaa", 0x10000542, 0xfc0007ff, 0x80000000000, 0x0, [87, 74, 81]⟩,
   ⟨"zvdotphgsuiaa", 0x10000543, 0xfc0007ff, 0x80000000000, 0x0, [87, 74, 81]⟩,
   ⟨"zmhoguian", 0x10000544, 0xfc0007ff, 0x80000000000, 0x0, [87, 74, 81]⟩,
   ⟨"zvdotphgsuian", 0x10000545, 0xfc0007ff, 0x80000000000, 0x0, [87, 74, 81]⟩,
   ⟨"zmhogsi", 0x10000548, 0xfc0007ff, 0x80000000000, 0x0, [87, 74, 81]⟩,
   ⟨"zvdotphgssi", 0x10000549, 0xfc0007ff, 0x80000000000, 0x0, [87, 74, 81]⟩,
   ⟨"zmhogsiaa", 0x1000054a, 0xfc0007ff, 0x80000000000, 0x0, [87, 74, 81]⟩,
   ⟨"zvdotphgssiaa", 0x1000054b, 0xfc0007ff, 0x80000000000, 0x0, [87, 74, 81]⟩,
   ⟨"zmhogsian", 0x1000054c, 0xfc0007ff, 0x80000000000, 0x0, [87, 74, 81]⟩,
   ⟨"zvdotphgssian", 0x1000054d, 0xfc0007ff, 0x80000000000, 0x0, [87, 74, 81]⟩,
   ⟨"zmhogsui", 0x10000550, 0xfc0007ff, 0x80000000000, 0x0, [87, 74, 81]⟩,
   ⟨"zvdotphgssui", 0x10000551, 0xfc0007ff, 0x80000000000, 0x0, [87, 74, 81]⟩,
   ⟨"zmhogsuiaa", 0x10000552, 0xfc0007ff, 0x80000000000, 0x0, [87, 74, 81]⟩,
   ⟨"zvdotphgssuiaa", 0x10000553, 0xfc0007ff, 0x80000000000, 0x0, [87, 74, 81]⟩,
   ⟨"zmhogsuian", 0x10000554, 0xfc0007ff, 0x80000000000, 0x0, [87, 74, 81]⟩,
   ⟨"zvdotphgssuian", 0x10000555, 0xfc0007ff, 0x80000000000, 0x0, [87, 74, 81]⟩,
   ⟨"zmhogsmf", 0x10000558, 0xfc0007ff, 0x80000000000, 0x0, [87, 74, 81]⟩,
   ⟨"zvdotphgssmf", 0x10000559, 0xfc0007ff, 0x80000000000, 0x0, [87, 74, 81]⟩,
   ⟨"zmhogsmfaa", 0x1000055a, 0xfc0007ff, 0x80000000000, 0x0, [87, 74, 81]⟩,
   ⟨"zvdotphgssmfaa", 0x1000055b, 0xfc0007ff, 0x80000000000, 0x0, [87, 74, 81]⟩,
   ⟨"zmhogsmfan", 0x1000055c, 0xfc0007ff, 0x80000000000, 0x0, [87, 74, 81]⟩,
   ⟨"zvdotphgssmfan", 0x1000055d, 0xfc0007ff, 0x80000000000, 0x0, [87, 74, 81]⟩,
   ⟨"zmwgui", 0x10000560, 0xfc0007ff, 0x80000000000, 0x0, [87, 74, 81]⟩,
   ⟨"zmwguiaa", 0x10000562, 0xfc0007ff, 0x80000000000, 0x0, [87, 74, 81]⟩,
   ⟨"zmwguiaas", 0x10000563, 0xfc0007ff, 0x80000000000, 0x0, [87, 74, 81]⟩,
   ⟨"zmwguian", 0x10000564, 0xfc0007ff, 0x80000000000, 0x0, [87, 74, 81]⟩]

/-- ppc-opc.c:7892-7991. -/
def vle3 : List Opcode :=
  [⟨"zmwguians", 0x10000565, 0xfc0007ff, 0x80000000000, 0x0, [87, 74, 81]⟩,
   ⟨"zmwgsi", 0x10000568, 0xfc0007ff, 0x80000000000, 0x0, [87, 74, 81]⟩,
   ⟨"zmwgsiaa", 0x1000056a, 0xfc0007ff, 0x80000000000, 0x0, [87, 74, 81]⟩,
   ⟨"zmwgsiaas", 0x1000056b, 0xfc0007ff, 0x80000000000, 0x0, [87, 74, 81]⟩,
   ⟨"zmwgsian", 0x1000056c, 0xfc0007ff, 0x80000000000, 0x0, [87, 74, 81]⟩,
   ⟨"zmwgsians", 0x1000056d, 0xfc0007ff, 0x80000000000, 0x0, [87, 74, 81]⟩,
   ⟨"zmwgsui", 0x10000570, 0xfc0007ff, 0x80000000000, 0x0, [87, 74, 81]⟩,
   ⟨"zmwgsuiaa", 0x10000572, 0xfc0007ff, 0x80000000000, 0x0, [87, 74, 81]⟩,
   ⟨"zmwgsuiaas", 0x10000573, 0xfc0007ff, 0x80000000000, 0x0, [87, 74, 81]⟩,
   ⟨"zmwgsuian", 0x10000574, 0xfc0007ff, 0x80000000000, 0x0, [87, 74, 81]⟩,
   ⟨"zmwgsuians", 0x10000575, 0xfc0007ff, 0x80000000000, 0x0, [87, 74, 81]⟩,
   ⟨"zmwgsmf", 0x10000578, 0xfc0007ff, 0x80000000000, 0x0, [87, 74, 81]⟩,
   ⟨"zmwgsmfr", 0x10000579, 0xfc0007ff, 0x80000000000, 0x0, [87, 74, 81]⟩,
   ⟨"zmwgsmfaa", 0x1000057a, 0xfc0007ff, 0x80000000000, 0x0, [87, 74, 81]⟩,
   ⟨"zmwgsmfraa", 0x1000057b, 0xfc0007ff, 0x80000000000, 0x0, [87, 74, 81]⟩,
   ⟨"zmwgsmfan", 0x1000057c, 0xfc0007ff, 0x80000000000, 0x0, [87, 74, 81]⟩,
   ⟨"zmwgsmfran", 0x1000057d, 0xfc0007ff, 0x80000000000, 0x0, [87, 74, 81]⟩,
   ⟨"zvmhului", 0x10000580, 0xfc0007ff, 0x80000000000, 0x0, [87, 74, 81]⟩,
   ⟨"zvmhuluiaa", 0x10000582, 0xfc0007ff, 0x80000000000, 0x0, [87, 74, 81]⟩,
   ⟨"zvmhuluiaas", 0x10000583, 0xfc0007ff, 0x80000000000, 0x0, [87, 74, 81]⟩,
   ⟨"zvmhuluian", 0x10000584, 0xfc0007ff, 0x80000000000, 0x0, [87, 74, 81]⟩,
   ⟨"zvmhuluians", 0x10000585, 0xfc0007ff, 0x80000000000, 0x0, [87, 74, 81]⟩,
   ⟨"zvmhuluianp", 0x10000586, 0xfc0007ff, 0x80000000000, 0x0, [87, 74, 81]⟩,
   ⟨"zvmhuluianps", 0x10000587, 0xfc0007ff, 0x80000000000, 0x0, [87, 74, 81]⟩,
   ⟨"zvmhulsi", 0x10000588, 0xfc0007ff, 0x80000000000, 0x0, [87, 74, 81]⟩,
   ⟨"zvmhulsiaa", 0x1000058a, 0xfc0007ff, 0x80000000000, 0x0, [87, 74, 81]⟩,
   ⟨"zvmhulsiaas", 0x1000058b, 0xfc0007ff, 0x80000000000, 0x0, [87, 74, 81]⟩,
   ⟨"zvmhulsian", 0x1000058c, 0xfc0007ff, 0x80000000000, 0x0, [87, 74, 81]⟩,
   ⟨"zvmhulsians", 0x1000058d, 0xfc0007ff, 0x80000000000, 0x0, [87, 74, 81]⟩,
   ⟨"zvmhulsianp", 0x1000058e, 0xfc0007ff, 0x80000000000, 0x0, [87, 74, 81]⟩,
   ⟨"zvmhulsianps", 0x1000058f, 0xfc0007ff, 0x80000000000, 0x0, [87, 74, 81]⟩,
   ⟨"zvmhulsui", 0x10000590, 0xfc0007ff, 0x80000000000, 0x0, [87, 74, 81]⟩,
   ⟨"zvmhulsuiaa", 0x10000592, 0xfc0007ff, 0x80000000000, 0x0, [87, 74, 81]⟩,
   ⟨"zvmhulsuiaas", 0x10000593, 0xfc0007ff, 0x80000000000, 0x0, [87, 74, 81]⟩,
   ⟨"zvmhulsuian", 0x10000594, 0xfc0007ff, 0x80000000000, 0x0, [87, 74, 81]⟩,
   ⟨"zvmhulsuians", 0x10000595, 0xfc0007ff, 0x80000000000, 0x0, [87, 74, 81]⟩,
   ⟨"zvmhulsuianp", 0x10000596, 0xfc0007ff, 0x80000000000, 0x0, [87, 74, 81]⟩,
   ⟨"zvmhulsuianps", 0x10000597, 0xfc0007ff, 0x80000000000, 0x0, [87, 74, 81]⟩,
   ⟨"zvmhulsf", 0x10000598, 0xfc0007ff, 0x80000000000, 0x0, [87, 74, 81]⟩,
   ⟨"zvmhulsfr", 0x10000599, 0xfc0007ff, 0x80000000000, 0x0, [87, 74, 81]⟩,
   ⟨"zvmhulsfaas", 0x1000059a, 0xfc0007ff, 0x80000000000, 0x0, [87, 74, 81]⟩,
   ⟨"zvmhulsfraas", 0x1000059b, 0xfc0007ff, 0x80000000000, 0x0, [87, 74, 81]⟩,
   ⟨"zvmhulsfans", 0x1000059c, 0xfc0007ff, 0x80000000000, 0x0, [87, 74, 81]⟩,
   ⟨"zvmhulsfrans", 0x1000059d, 0xfc0007ff, 0x80000000000, 0x0, [87, 74, 81]⟩,
   ⟨"zvmhulsfanps", 0x1000059e, 0xfc0007ff, 0x80000000000, 0x0, [87, 74, 81]⟩,
   ⟨"zvmhulsfranps", 0x1000059f, 0xfc0007ff, 0x80000000000, 0x0, [87, 74, 81]⟩,
   ⟨"zvmhllui", 0x100005a0, 0xfc0007ff, 0x80000000000, 0x0, [87, 74, 81]⟩,
   ⟨"zvmhlluiaa", 0x100005a2, 0xfc0007ff, 0x80000000000, 0x0, [87, 74, 81]⟩,
   ⟨"zvmhlluiaas", 0x100005a3, 0xfc0007ff, 0x80000000000, 0x0, [87, 74, 81]⟩,
   ⟨"zvmhlluian", 0x100005a4, 0xfc0007ff, 0x80000000000, 0x0, [87, 74, 81]⟩,
   ⟨"zvmhlluians", 0x100005a5, 0xfc0007ff, 0x80000000000, 0x0, [87, 74, 81]⟩,
   ⟨"zvmhlluianp", 0x100005a6, 0xfc0007ff, 0x80000000000, 0x0, [87, 74, 81]⟩,
   ⟨"zvmhlluianps", 0x100005a7, 0xfc0007ff, 0x80000000000, 0x0, [87, 74, 81]⟩,
   ⟨"zvmhllsi", 0x100005a8, 0xfc0007ff, 0x80000000000, 0x0, [87, 74, 81]⟩,
   ⟨"zvmhllsiaa", 0x100005aa, 0xfc0007ff, 0x80000000000, 0x0, [87, 74, 81]⟩,
   ⟨"zvmhllsiaas", 0x100005ab, 0xfc0007ff, 0x80000000000, 0x0, [87, 74, 81]⟩,
   ⟨"zvmhllsian", 0x100005ac, 0xfc0007ff, 0x80000000000, 0x0, [87, 74, 81]⟩,
   ⟨"zvmhllsians", 0x100005ad, 0xfc0007ff, 0x80000000000, 0x0, [87, 74, 81]⟩,
   ⟨"zvmhllsianp", 0x100005ae, 0xfc0007ff, 0x80000000000, 0x0, [87, 74, 81]⟩,
   ⟨"zvmhllsianps", 0x100005af, 0xfc0007ff, 0x80000000000, 0x0, [87, 74, 81]⟩,
   ⟨"zvmhllsui", 0x100005b0, 0xfc0007ff, 0x80000000000, 0x0, [87, 74, 81]⟩,
   ⟨"zvmhllsuiaa", 0x100005b2, 0xfc0007ff, 0x80000000000, 0x0, [87, 74, 81]⟩,
   ⟨"zvmhllsuiaas", 0x100005b3, 0xfc0007ff, 0x80000000000, 0x0, [87, 74, 81]⟩,
   ⟨"zvmhllsuian", 0x100005b4, 0xfc0007ff, 0x80000000000, 0x0, [87, 74, 81]⟩,
   ⟨"zvmhllsuians", 0x100005b5, 0xfc0007ff, 0x80000000000, 0x0, [87, 74, 81]⟩,
   ⟨"zvmhllsuianp", 0x100005b6, 0xfc0007ff, 0x80000000000, 0x0, [87, 74, 81]⟩,
   ⟨"zvmhllsuianps", 0x100005b7, 0xfc0007ff, 0x80000000000, 0x0, [87, 74, 81]⟩,
   ⟨"zvmhllsf", 0x100005b8, 0xfc0007ff, 0x80000000000, 0x0, [87, 74, 81]⟩,
   ⟨"zvmhllsfr", 0x100005b9, 0xfc0007ff, 0x80000000000, 0x0, [87, 74, 81]⟩,
   ⟨"zvmhllsfaas", 0x100005ba, 0xfc0007ff, 0x80000000000, 0x0, [87, 74, 81]⟩,
   ⟨"zvmhllsfraas", 0x100005bb, 0xfc0007ff, 0x80000000000, 0x0, [87, 74, 81]⟩,
   ⟨"zvmhllsfans", 0x100005bc, 0xfc0007ff, 0x80000000000, 0x0, [87, 74, 81]⟩,
   ⟨"zvmhllsfrans", 0x100005bd, 0xfc0007ff, 0x80000000000, 0x0, [87, 74, 81]⟩,
   ⟨"zvmhllsfanps", 0x100005be, 0xfc0007ff, 0x80000000000, 0x0, [87, 74, 81]⟩,
   ⟨"zvmhllsfranps", 0x100005bf, 0xfc0007ff, 0x80000000000, 0x0, [87, 74, 81]⟩,
   ⟨"zvmhuuui", 0x100005c0, 0xfc0007ff, 0x80000000000, 0x0, [87, 74, 81]⟩,
   ⟨"zvmhuuuiaa", 0x100005c2, 0xfc0007ff, 0x80000000000, 0x0, [87, 74, 81]⟩,
   ⟨"zvmhuuuiaas", 0x100005c3, 0xfc0007ff, 0x80000000000, 0x0, [87, 74, 81]⟩,
   ⟨"zvmhuuuian", 0x100005c4, 0xfc0007ff, 0x80000000000, 0x0, [87, 74, 81]⟩,
   ⟨"zvmhuuuians", 0x100005c5, 0xfc0007ff, 0x80000000000, 0x0, [87, 74, 81]⟩,
   ⟨"zvmhuuuianp", 0x100005c6, 0xfc0007ff, 0x80000000000, 0x0, [87, 74, 81]⟩,
   ⟨"zvmhuuuianps", 0x100005c7, 0xfc0007ff, 0x80000000000, 0x0, [87, 74, 81]⟩,
   ⟨"zvmhuusi", 0x100005c8, 0xfc0007ff, 0x80000000000, 0x0, [87, 74, 81]⟩,
   ⟨"zvmhuusiaa", 0x100005ca, 0xfc0007ff, 0x80000000000, 0x0, [87, 74, 81]⟩,
   ⟨"zvmhuusiaas", 0x100005cb, 0xfc0007ff, 0x80000000000, 0x0, [87, 74, 81]⟩,
   ⟨"zvmhuusian", 0x100005cc, 0xfc0007ff, 0x80000000000, 0x0, [87, 74, 81]⟩,
   ⟨"zvmhuusians", 0x100005cd, 0xfc0007ff, 0x80000000000, 0x0, [87, 74, 81]⟩,
   ⟨"zvmhuusianp", 0x100005ce, 0xfc0007ff, 0x80000000000, 0x0, [87, 74, 81]⟩,
   ⟨"zvmhuusianps", 0x100005cf, 0xfc0007ff, 0x80000000000, 0x0, [87, 74, 81]⟩,
   ⟨"zvmhuusui", 0x100005d0, 0xfc0007ff, 0x80000000000, 0x0, [87, 74, 81]⟩,
   ⟨"zvmhuusuiaa", 0x100005d2, 0xfc0007ff, 0x80000000000, 0x0, [87, 74, 81]⟩,
   ⟨"zvmhuusuiaas", 0x100005d3, 0xfc0007ff, 0x80000000000, 0x0, [87, 74, 81]⟩,
   ⟨"zvmhuusuian", 0x100005d4, 0xfc0007ff, 0x80000000000, 0x0, [87, 74, 81]⟩,
   ⟨"zvmhuusuians", 0x100005d5, 0xfc0007ff, 0x80000000000, 0x0, [87, 74, 81]⟩,
   ⟨"zvmhuusuianp", 0x100005d6, 0xfc0007ff, 0x80000000000, 0x0, [87, 74, 81]⟩,
   ⟨"zvmhuusuianps", 0x100005d7, 0xfc0007ff, 0x80000000000, 0x0, [87, 74, 81]⟩,
   ⟨"zvmhuusf", 0x100005d8, 0xfc0007ff, 0x80000000000, 0x0, [87, 74, 81]⟩,
   ⟨"zvmhuusfr", 0x100005d9, 0xfc0007ff, 0x80000000000, 0x0, [87, 74, 81]⟩,
   ⟨"zvmhuusfaas", 0x100005da, 0xfc0007ff, 0x80000000000, 0x0, [87, 74, 81]⟩,
   ⟨"zvmhuusfraas", 0x100005db, 0xfc0007ff, 0x80000000000, 0x0, [87, 74, 81]⟩]

/-- ppc-opc.c:7992-8091. -/
def vle4 : List Opcode :=
  [⟨"zvmhuusfans", 0x100005dc, 0xfc0007ff, 0x80000000000, 0x0, [87, 74, 81]⟩,
   ⟨"zvmhuusfrans", 0x100005dd, 0xfc0007ff, 0x80000000000, 0x0, [87, 74, 81]⟩,
   ⟨"zvmhuusfanps", 0x100005de, 0xfc0007ff, 0x80000000000, 0x0, [87, 74, 81]⟩,
   ⟨"zvmhuusfranps", 0x100005df, 0xfc0007ff, 0x80000000000, 0x0, [87, 74, 81]⟩,
   ⟨"zvmhxlui", 0x100005e0, 0xfc0007ff, 0x80000000000, 0x0, [87, 74, 81]⟩,
   ⟨"zvmhxluiaa", 0x100005e2, 0xfc0007ff, 0x80000000000, 0x0, [87, 74, 81]⟩,
   ⟨"zvmhxluiaas", 0x100005e3, 0xfc0007ff, 0x80000000000, 0x0, [87, 74, 81]⟩,
   ⟨"zvmhxluian", 0x100005e4, 0xfc0007ff, 0x80000000000, 0x0, [87, 74, 81]⟩,
   ⟨"zvmhxluians", 0x100005e5, 0xfc0007ff, 0x80000000000, 0x0, [87, 74, 81]⟩,
   ⟨"zvmhxluianp", 0x100005e6, 0xfc0007ff, 0x80000000000, 0x0, [87, 74, 81]⟩,
   ⟨"zvmhxluianps", 0x100005e7, 0xfc0007ff, 0x80000000000, 0x0, [87, 74, 81]⟩,
   ⟨"zvmhxlsi", 0x100005e8, 0xfc0007ff, 0x80000000000, 0x0, [87, 74, 81]⟩,
   ⟨"zvmhxlsiaa", 0x100005ea, 0xfc0007ff, 0x80000000000, 0x0, [87, 74, 81]⟩,
   ⟨"zvmhxlsiaas", 0x100005eb, 0xfc0007ff, 0x80000000000, 0x0, [87, 74, 81]⟩,
   ⟨"zvmhxlsian", 0x100005ec, 0xfc0007ff, 0x80000000000, 0x0, [87, 74, 81]⟩,
   ⟨"zvmhxlsians", 0x100005ed, 0xfc0007ff, 0x80000000000, 0x0, [87, 74, 81]⟩,
   ⟨"zvmhxlsianp", 0x100005ee, 0xfc0007ff, 0x80000000000, 0x0, [87, 74, 81]⟩,
   ⟨"zvmhxlsianps", 0x100005ef, 0xfc0007ff, 0x80000000000, 0x0, [87, 74, 81]⟩,
   ⟨"zvmhxlsui", 0x100005f0, 0xfc0007ff, 0x80000000000, 0x0, [87, 74, 81]⟩,
   ⟨"zvmhxlsuiaa", 0x100005f2, 0xfc0007ff, 0x80000000000, 0x0, [87, 74, 81]⟩,
   ⟨"zvmhxlsuiaas", 0x100005f3, 0xfc0007ff, 0x80000000000, 0x0, [87, 74, 81]⟩,
   ⟨"zvmhxlsuian", 0x100005f4, 0xfc0007ff, 0x80000000000, 0x0, [87, 74, 81]⟩,
   ⟨"zvmhxlsuians", 0x100005f5, 0xfc0007ff, 0x80000000000, 0x0, [87, 74, 81]⟩,
   ⟨"zvmhxlsuianp", 0x100005f6, 0xfc0007ff, 0x80000000000, 0x0, [87, 74, 81]⟩,
   ⟨"zvmhxlsuianps", 0x100005f7, 0xfc0007ff, 0x80000000000, 0x0, [87, 74, 81]⟩,
   ⟨"zvmhxlsf", 0x100005f8, 0xfc0007ff, 0x80000000000, 0x0, [87, 74, 81]⟩,
   ⟨"zvmhxlsfr", 0x100005f9, 0xfc0007ff, 0x80000000000, 0x0, [87, 74, 81]⟩,
   ⟨"zvmhxlsfaas", 0x100005fa, 0xfc0007ff, 0x80000000000, 0x0, [87, 74, 81]⟩,
   ⟨"zvmhxlsfraas", 0x100005fb, 0xfc0007ff, 0x80000000000, 0x0, [87, 74, 81]⟩,
   ⟨"zvmhxlsfans", 0x100005fc, 0xfc0007ff, 0x80000000000, 0x0, [87, 74, 81]⟩,
   ⟨"zvmhxlsfrans", 0x100005fd, 0xfc0007ff, 0x80000000000, 0x0, [87, 74, 81]⟩,
   ⟨"zvmhxlsfanps", 0x100005fe, 0xfc0007ff, 0x80000000000, 0x0, [87, 74, 81]⟩,
   ⟨"zvmhxlsfranps", 0x100005ff, 0xfc0007ff, 0x80000000000, 0x0, [87, 74, 81]⟩,
   ⟨"zmheui", 0x10000600, 0xfc0007ff, 0x80000000000, 0x0, [86, 74, 81]⟩,
   ⟨"zmheuiaa", 0x10000602, 0xfc0007ff, 0x80000000000, 0x0, [86, 74, 81]⟩,
   ⟨"zmheuiaas", 0x10000603, 0xfc0007ff, 0x80000000000, 0x0, [86, 74, 81]⟩,
   ⟨"zmheuian", 0x10000604, 0xfc0007ff, 0x80000000000, 0x0, [86, 74, 81]⟩,
   ⟨"zmheuians", 0x10000605, 0xfc0007ff, 0x80000000000, 0x0, [86, 74, 81]⟩,
   ⟨"zmhesi", 0x10000608, 0xfc0007ff, 0x80000000000, 0x0, [86, 74, 81]⟩,
   ⟨"zmhesiaa", 0x1000060a, 0xfc0007ff, 0x80000000000, 0x0, [86, 74, 81]⟩,
   ⟨"zmhesiaas", 0x1000060b, 0xfc0007ff, 0x80000000000, 0x0, [86, 74, 81]⟩,
   ⟨"zmhesian", 0x1000060c, 0xfc0007ff, 0x80000000000, 0x0, [86, 74, 81]⟩,
   ⟨"zmhesians", 0x1000060d, 0xfc0007ff, 0x80000000000, 0x0, [86, 74, 81]⟩,
   ⟨"zmhesui", 0x10000610, 0xfc0007ff, 0x80000000000, 0x0, [86, 74, 81]⟩,
   ⟨"zmhesuiaa", 0x10000612, 0xfc0007ff, 0x80000000000, 0x0, [86, 74, 81]⟩,
   ⟨"zmhesuiaas", 0x10000613, 0xfc0007ff, 0x80000000000, 0x0, [86, 74, 81]⟩,
   ⟨"zmhesuian", 0x10000614, 0xfc0007ff, 0x80000000000, 0x0, [86, 74, 81]⟩,
   ⟨"zmhesuians", 0x10000615, 0xfc0007ff, 0x80000000000, 0x0, [86, 74, 81]⟩,
   ⟨"zmhesf", 0x10000618, 0xfc0007ff, 0x80000000000, 0x0, [86, 74, 81]⟩,
   ⟨"zmhesfr", 0x10000619, 0xfc0007ff, 0x80000000000, 0x0, [86, 74, 81]⟩,
   ⟨"zmhesfaas", 0x1000061a, 0xfc0007ff, 0x80000000000, 0x0, [86, 74, 81]⟩,
   ⟨"zmhesfraas", 0x1000061b, 0xfc0007ff, 0x80000000000, 0x0, [86, 74, 81]⟩,
   ⟨"zmhesfans", 0x1000061c, 0xfc0007ff, 0x80000000000, 0x0, [86, 74, 81]⟩,
   ⟨"zmhesfrans", 0x1000061d, 0xfc0007ff, 0x80000000000, 0x0, [86, 74, 81]⟩,
   ⟨"zmheoui", 0x10000620, 0xfc0007ff, 0x80000000000, 0x0, [86, 74, 81]⟩,
   ⟨"zmheouiaa", 0x10000622, 0xfc0007ff, 0x80000000000, 0x0, [86, 74, 81]⟩,
   ⟨"zmheouiaas", 0x10000623, 0xfc0007ff, 0x80000000000, 0x0, [86, 74, 81]⟩,
   ⟨"zmheouian", 0x10000624, 0xfc0007ff, 0x80000000000, 0x0, [86, 74, 81]⟩,
   ⟨"zmheouians", 0x10000625, 0xfc0007ff, 0x80000000000, 0x0, [86, 74, 81]⟩,
   ⟨"zmheosi", 0x10000628, 0xfc0007ff, 0x80000000000, 0x0, [86, 74, 81]⟩,
   ⟨"zmheosiaa", 0x1000062a, 0xfc0007ff, 0x80000000000, 0x0, [86, 74, 81]⟩,
   ⟨"zmheosiaas", 0x1000062b, 0xfc0007ff, 0x80000000000, 0x0, [86, 74, 81]⟩,
   ⟨"zmheosian", 0x1000062c, 0xfc0007ff, 0x80000000000, 0x0, [86, 74, 81]⟩,
   ⟨"zmheosians", 0x1000062d, 0xfc0007ff, 0x80000000000, 0x0, [86, 74, 81]⟩,
   ⟨"zmheosui", 0x10000630, 0xfc0007ff, 0x80000000000, 0x0, [86, 74, 81]⟩,
   ⟨"zmheosuiaa", 0x10000632, 0xfc0007ff, 0x80000000000, 0x0, [86, 74, 81]⟩,
   ⟨"zmheosuiaas", 0x10000633, 0xfc0007ff, 0x80000000000, 0x0, [86, 74, 81]⟩,
   ⟨"zmheosuian", 0x10000634, 0xfc0007ff, 0x80000000000, 0x0, [86, 74, 81]⟩,
   ⟨"zmheosuians", 0x10000635, 0xfc0007ff, 0x80000000000, 0x0, [86, 74, 81]⟩,
   ⟨"zmheosf", 0x10000638, 0xfc0007ff, 0x80000000000, 0x0, [86, 74, 81]⟩,
   ⟨"zmheosfr", 0x10000639, 0xfc0007ff, 0x80000000000, 0x0, [86, 74, 81]⟩,
   ⟨"zmheosfaas", 0x1000063a, 0xfc0007ff, 0x80000000000, 0x0, [86, 74, 81]⟩,
   ⟨"zmheosfraas", 0x1000063b, 0xfc0007ff, 0x80000000000, 0x0, [86, 74, 81]⟩,
   ⟨"zmheosfans", 0x1000063c, 0xfc0007ff, 0x80000000000, 0x0, [86, 74, 81]⟩,
   ⟨"zmheosfrans", 0x1000063d, 0xfc0007ff, 0x80000000000, 0x0, [86, 74, 81]⟩,
   ⟨"zmhoui", 0x10000640, 0xfc0007ff, 0x80000000000, 0x0, [86, 74, 81]⟩,
   ⟨"zmhouiaa", 0x10000642, 0xfc0007ff, 0x80000000000, 0x0, [86, 74, 81]⟩,
   ⟨"zmhouiaas", 0x10000643, 0xfc0007ff, 0x80000000000, 0x0, [86, 74, 81]⟩,
   ⟨"zmhouian", 0x10000644, 0xfc0007ff, 0x80000000000, 0x0, [86, 74, 81]⟩,
   ⟨"zmhouians", 0x10000645, 0xfc0007ff, 0x80000000000, 0x0, [86, 74, 81]⟩,
   ⟨"zmhosi", 0x10000648, 0xfc0007ff, 0x80000000000, 0x0, [86, 74, 81]⟩,
   ⟨"zmhosiaa", 0x1000064a, 0xfc0007ff, 0x80000000000, 0x0, [86, 74, 81]⟩,
   ⟨"zmhosiaas", 0x1000064b, 0xfc0007ff, 0x80000000000, 0x0, [86, 74, 81]⟩,
   ⟨"zmhosian", 0x1000064c, 0xfc0007ff, 0x80000000000, 0x0, [86, 74, 81]⟩,
   ⟨"zmhosians", 0x1000064d, 0xfc0007ff, 0x80000000000, 0x0, [86, 74, 81]⟩,
   ⟨"zmhosui", 0x10000650, 0xfc0007ff, 0x80000000000, 0x0, [86, 74, 81]⟩,
   ⟨"zmhosuiaa", 0x10000652, 0xfc0007ff, 0x80000000000, 0x0, [86, 74, 81]⟩,
   ⟨"zmhosuiaas", 0x10000653, 0xfc0007ff, 0x80000000000, 0x0, [86, 74, 81]⟩,
   ⟨"zmhosuian", 0x10000654, 0xfc0007ff, 0x80000000000, 0x0, [86, 74, 81]⟩,
   ⟨"zmhosuians", 0x10000655, 0xfc0007ff, 0x80000000000, 0x0, [86, 74, 81]⟩,
   ⟨"zmhosf", 0x10000658, 0xfc0007ff, 0x80000000000, 0x0, [86, 74, 81]⟩,
   ⟨"zmhosfr", 0x10000659, 0xfc0007ff, 0x80000000000, 0x0, [86, 74, 81]⟩,
   ⟨"zmhosfaas", 0x1000065a, 0xfc0007ff, 0x80000000000, 0x0, [86, 74, 81]⟩,
   ⟨"zmhosfraas", 0x1000065b, 0xfc0007ff, 0x80000000000, 0x0, [86, 74, 81]⟩,
   ⟨"zmhosfans", 0x1000065c, 0xfc0007ff, 0x80000000000, 0x0, [86, 74, 81]⟩,
   ⟨"zmhosfrans", 0x1000065d, 0xfc0007ff, 0x80000000000, 0x0, [86, 74, 81]⟩,
   ⟨"zvmhuih", 0x10000660, 0xfc0007ff, 0x80000000000, 0x0, [86, 74, 81]⟩,
   ⟨"zvmhuihs", 0x10000661, 0xfc0007ff, 0x80000000000, 0x0, [86, 74, 81]⟩,
   ⟨"zvmhuiaah", 0x10000662, 0xfc0007ff, 0x80000000000, 0x0, [86, 74, 81]⟩,
   ⟨"zvmhuiaahs", 0x10000663, 0xfc0007ff, 0x80000000000, 0x0, [86, 74, 81]⟩]

/-- ppc-opc.c:8092-8191. -/
def vle5 : List Opcode :=
  [⟨"zvmhuianh", 0x10000664, 0xfc0007ff, 0x80000000000, 0x0, [86, 74, 81]⟩,
   ⟨"zvmhuianhs", 0x10000665, 0xfc0007ff, 0x80000000000, 0x0, [86, 74, 81]⟩,
   ⟨"zvmhsihs", 0x10000669, 0xfc0007ff, 0x80000000000, 0x0, [86, 74, 81]⟩,
   ⟨"zvmhsiaahs", 0x1000066b, 0xfc0007ff, 0x80000000000, 0x0, [86, 74, 81]⟩,
   ⟨"zvmhsianhs", 0x1000066d, 0xfc0007ff, 0x80000000000, 0x0, [86, 74, 81]⟩,
   ⟨"zvmhsuihs", 0x10000671, 0xfc0007ff, 0x80000000000, 0x0, [86, 74, 81]⟩,
   ⟨"zvmhsuiaahs", 0x10000673, 0xfc0007ff, 0x80000000000, 0x0, [86, 74, 81]⟩,
   ⟨"zvmhsuianhs", 0x10000675, 0xfc0007ff, 0x80000000000, 0x0, [86, 74, 81]⟩,
   ⟨"zvmhsfh", 0x10000678, 0xfc0007ff, 0x80000000000, 0x0, [86, 74, 81]⟩,
   ⟨"zvmhsfrh", 0x10000679, 0xfc0007ff, 0x80000000000, 0x0, [86, 74, 81]⟩,
   ⟨"zvmhsfaahs", 0x1000067a, 0xfc0007ff, 0x80000000000, 0x0, [86, 74, 81]⟩,
   ⟨"zvmhsfraahs", 0x1000067b, 0xfc0007ff, 0x80000000000, 0x0, [86, 74, 81]⟩,
   ⟨"zvmhsfanhs", 0x1000067c, 0xfc0007ff, 0x80000000000, 0x0, [86, 74, 81]⟩,
   ⟨"zvmhsfranhs", 0x1000067d, 0xfc0007ff, 0x80000000000, 0x0, [86, 74, 81]⟩,
   ⟨"zvdotphaui", 0x10000680, 0xfc0007ff, 0x80000000000, 0x0, [86, 74, 81]⟩,
   ⟨"zvdotphauis", 0x10000681, 0xfc0007ff, 0x80000000000, 0x0, [86, 74, 81]⟩,
   ⟨"zvdotphauiaa", 0x10000682, 0xfc0007ff, 0x80000000000, 0x0, [86, 74, 81]⟩,
   ⟨"zvdotphauiaas", 0x10000683, 0xfc0007ff, 0x80000000000, 0x0, [86, 74, 81]⟩,
   ⟨"zvdotphauian", 0x10000684, 0xfc0007ff, 0x80000000000, 0x0, [86, 74, 81]⟩,
   ⟨"zvdotphauians", 0x10000685, 0xfc0007ff, 0x80000000000, 0x0, [86, 74, 81]⟩,
   ⟨"zvdotphasi", 0x10000688, 0xfc0007ff, 0x80000000000, 0x0, [86, 74, 81]⟩,
   ⟨"zvdotphasis", 0x10000689, 0xfc0007ff, 0x80000000000, 0x0, [86, 74, 81]⟩,
   ⟨"zvdotphasiaa", 0x1000068a, 0xfc0007ff, 0x80000000000, 0x0, [86, 74, 81]⟩,
   ⟨"zvdotphasiaas", 0x1000068b, 0xfc0007ff, 0x80000000000, 0x0, [86, 74, 81]⟩,
   ⟨"zvdotphasian", 0x1000068c, 0xfc0007ff, 0x80000000000, 0x0, [86, 74, 81]⟩,
   ⟨"zvdotphasians", 0x1000068d, 0xfc0007ff, 0x80000000000, 0x0, [86, 74, 81]⟩,
   ⟨"zvdotphasui", 0x10000690, 0xfc0007ff, 0x80000000000, 0x0, [86, 74, 81]⟩,
   ⟨"zvdotphasuis", 0x10000691, 0xfc0007ff, 0x80000000000, 0x0, [86, 74, 81]⟩,
   ⟨"zvdotphasuiaa", 0x10000692, 0xfc0007ff, 0x80000000000, 0x0, [86, 74, 81]⟩,
   ⟨"zvdotphasuiaas", 0x10000693, 0xfc0007ff, 0x80000000000, 0x0, [86, 74, 81]⟩,
   ⟨"zvdotphasuian", 0x10000694, 0xfc0007ff, 0x80000000000, 0x0, [86, 74, 81]⟩,
   ⟨"zvdotphasuians", 0x10000695, 0xfc0007ff, 0x80000000000, 0x0, [86, 74, 81]⟩,
   ⟨"zvdotphasfs", 0x10000698, 0xfc0007ff, 0x80000000000, 0x0, [86, 74, 81]⟩,
   ⟨"zvdotphasfrs", 0x10000699, 0xfc0007ff, 0x80000000000, 0x0, [86, 74, 81]⟩,
   ⟨"zvdotphasfaas", 0x1000069a, 0xfc0007ff, 0x80000000000, 0x0, [86, 74, 81]⟩,
   ⟨"zvdotphasfraas", 0x1000069b, 0xfc0007ff, 0x80000000000, 0x0, [86, 74, 81]⟩,
   ⟨"zvdotphasfans", 0x1000069c, 0xfc0007ff, 0x80000000000, 0x0, [86, 74, 81]⟩,
   ⟨"zvdotphasfrans", 0x1000069d, 0xfc0007ff, 0x80000000000, 0x0, [86, 74, 81]⟩,
   ⟨"zvdotphxaui", 0x100006a0, 0xfc0007ff, 0x80000000000, 0x0, [86, 74, 81]⟩,
   ⟨"zvdotphxauis", 0x100006a1, 0xfc0007ff, 0x80000000000, 0x0, [86, 74, 81]⟩,
   ⟨"zvdotphxauiaa", 0x100006a2, 0xfc0007ff, 0x80000000000, 0x0, [86, 74, 81]⟩,
   ⟨"zvdotphxauiaas", 0x100006a3, 0xfc0007ff, 0x80000000000, 0x0, [86, 74, 81]⟩,
   ⟨"zvdotphxauian", 0x100006a4, 0xfc0007ff, 0x80000000000, 0x0, [86, 74, 81]⟩,
   ⟨"zvdotphxauians", 0x100006a5, 0xfc0007ff, 0x80000000000, 0x0, [86, 74, 81]⟩,
   ⟨"zvdotphxasi", 0x100006a8, 0xfc0007ff, 0x80000000000, 0x0, [86, 74, 81]⟩,
   ⟨"zvdotphxasis", 0x100006a9, 0xfc0007ff, 0x80000000000, 0x0, [86, 74, 81]⟩,
   ⟨"zvdotphxasiaa", 0x100006aa, 0xfc0007ff, 0x80000000000, 0x0, [86, 74, 81]⟩,
   ⟨"zvdotphxasiaas", 0x100006ab, 0xfc0007ff, 0x80000000000, 0x0, [86, 74, 81]⟩,
   ⟨"zvdotphxasian", 0x100006ac, 0xfc0007ff, 0x80000000000, 0x0, [86, 74, 81]⟩,
   ⟨"zvdotphxasians", 0x100006ad, 0xfc0007ff, 0x80000000000, 0x0, [86, 74, 81]⟩,
   ⟨"zvdotphxasui", 0x100006b0, 0xfc0007ff, 0x80000000000, 0x0, [86, 74, 81]⟩,
   ⟨"zvdotphxasuis", 0x100006b1, 0xfc0007ff, 0x80000000000, 0x0, [86, 74, 81]⟩,
   ⟨"zvdotphxasuiaa", 0x100006b2, 0xfc0007ff, 0x80000000000, 0x0, [86, 74, 81]⟩,
   ⟨"zvdotphxasuiaas", 0x100006b3, 0xfc0007ff, 0x80000000000, 0x0, [86, 74, 81]⟩,
   ⟨"zvdotphxasuian", 0x100006b4, 0xfc0007ff, 0x80000000000, 0x0, [86, 74, 81]⟩,
   ⟨"zvdotphxasuians", 0x100006b5, 0xfc0007ff, 0x80000000000, 0x0, [86, 74, 81]⟩,
   ⟨"zvdotphxasfs", 0x100006b8, 0xfc0007ff, 0x80000000000, 0x0, [86, 74, 81]⟩,
   ⟨"zvdotphxasfrs", 0x100006b9, 0xfc0007ff, 0x80000000000, 0x0, [86, 74, 81]⟩,
   ⟨"zvdotphxasfaas", 0x100006ba, 0xfc0007ff, 0x80000000000, 0x0, [86, 74, 81]⟩,
   ⟨"zvdotphxasfraas", 0x100006bb, 0xfc0007ff, 0x80000000000, 0x0, [86, 74, 81]⟩,
   ⟨"zvdotphxasfans", 0x100006bc, 0xfc0007ff, 0x80000000000, 0x0, [86, 74, 81]⟩,
   ⟨"zvdotphxasfrans", 0x100006bd, 0xfc0007ff, 0x80000000000, 0x0, [86, 74, 81]⟩,
   ⟨"zvdotphsui", 0x100006c0, 0xfc0007ff, 0x80000000000, 0x0, [86, 74, 81]⟩,
   ⟨"zvdotphsuis", 0x100006c1, 0xfc0007ff, 0x80000000000, 0x0, [86, 74, 81]⟩,
   ⟨"zvdotphsuiaa", 0x100006c2, 0xfc0007ff, 0x80000000000, 0x0, [86, 74, 81]⟩,
   ⟨"zvdotphsuiaas", 0x100006c3, 0xfc0007ff, 0x80000000000, 0x0, [86, 74, 81]⟩,
   ⟨"zvdotphsuian", 0x100006c4, 0xfc0007ff, 0x80000000000, 0x0, [86, 74, 81]⟩,
   ⟨"zvdotphsuians", 0x100006c5, 0xfc0007ff, 0x80000000000, 0x0, [86, 74, 81]⟩,
   ⟨"zvdotphssi", 0x100006c8, 0xfc0007ff, 0x80000000000, 0x0, [86, 74, 81]⟩,
   ⟨"zvdotphssis", 0x100006c9, 0xfc0007ff, 0x80000000000, 0x0, [86, 74, 81]⟩,
   ⟨"zvdotphssiaa", 0x100006ca, 0xfc0007ff, 0x80000000000, 0x0, [86, 74, 81]⟩,
   ⟨"zvdotphssiaas", 0x100006cb, 0xfc0007ff, 0x80000000000, 0x0, [86, 74, 81]⟩,
   ⟨"zvdotphssian", 0x100006cc, 0xfc0007ff, 0x80000000000, 0x0, [86, 74, 81]⟩,
   ⟨"zvdotphssians", 0x100006cd, 0xfc0007ff, 0x80000000000, 0x0, [86, 74, 81]⟩,
   ⟨"zvdotphssui", 0x100006d0, 0xfc0007ff, 0x80000000000, 0x0, [86, 74, 81]⟩,
   ⟨"zvdotphssuis", 0x100006d1, 0xfc0007ff, 0x80000000000, 0x0, [86, 74, 81]⟩,
   ⟨"zvdotphssuiaa", 0x100006d2, 0xfc0007ff, 0x80000000000, 0x0, [86, 74, 81]⟩,
   ⟨"zvdotphssuiaas", 0x100006d3, 0xfc0007ff, 0x80000000000, 0x0, [86, 74, 81]⟩,
   ⟨"zvdotphssuian", 0x100006d4, 0xfc0007ff, 0x80000000000, 0x0, [86, 74, 81]⟩,
   ⟨"zvdotphssuians", 0x100006d5, 0xfc0007ff, 0x80000000000, 0x0, [86, 74, 81]⟩,
   ⟨"zvdotphssfs", 0x100006d8, 0xfc0007ff, 0x80000000000, 0x0, [86, 74, 81]⟩,
   ⟨"zvdotphssfrs", 0x100006d9, 0xfc0007ff, 0x80000000000, 0x0, [86, 74, 81]⟩,
   ⟨"zvdotphssfaas", 0x100006da, 0xfc0007ff, 0x80000000000, 0x0, [86, 74, 81]⟩,
   ⟨"zvdotphssfraas", 0x100006db, 0xfc0007ff, 0x80000000000, 0x0, [86, 74, 81]⟩,
   ⟨"zvdotphssfans", 0x100006dc, 0xfc0007ff, 0x80000000000, 0x0, [86, 74, 81]⟩,
   ⟨"zvdotphssfrans", 0x100006dd, 0xfc0007ff, 0x80000000000, 0x0, [86, 74, 81]⟩,
   ⟨"zmwluis", 0x100006e1, 0xfc0007ff, 0x80000000000, 0x0, [86, 74, 81]⟩,
   ⟨"zmwluiaa", 0x100006e2, 0xfc0007ff, 0x80000000000, 0x0, [86, 74, 81]⟩,
   ⟨"zmwluiaas", 0x100006e3, 0xfc0007ff, 0x80000000000, 0x0, [86, 74, 81]⟩,
   ⟨"zmwluian", 0x100006e4, 0xfc0007ff, 0x80000000000, 0x0, [86, 74, 81]⟩,
   ⟨"zmwluians", 0x100006e5, 0xfc0007ff, 0x80000000000, 0x0, [86, 74, 81]⟩,
   ⟨"zmwlsis", 0x100006e9, 0xfc0007ff, 0x80000000000, 0x0, [86, 74, 81]⟩,
   ⟨"zmwlsiaas", 0x100006eb, 0xfc0007ff, 0x80000000000, 0x0, [86, 74, 81]⟩,
   ⟨"zmwlsians", 0x100006ed, 0xfc0007ff, 0x80000000000, 0x0, [86, 74, 81]⟩,
   ⟨"zmwlsuis", 0x100006f1, 0xfc0007ff, 0x80000000000, 0x0, [86, 74, 81]⟩,
   ⟨"zmwlsuiaas", 0x100006f3, 0xfc0007ff, 0x80000000000, 0x0, [86, 74, 81]⟩,
   ⟨"zmwlsuians", 0x100006f5, 0xfc0007ff, 0x80000000000, 0x0, [86, 74, 81]⟩,
   ⟨"zmwsf", 0x100006f8, 0xfc0007ff, 0x80000000000, 0x0, [86, 74, 81]⟩,
   ⟨"zmwsfr", 0x100006f9, 0xfc0007ff, 0x80000000000, 0x0, [86, 74, 81]⟩,
   ⟨"zmwsfaas", 0x100006fa, 0xfc0007ff, 0x80000000000, 0x0, [86, 74, 81]⟩]

/-- ppc-opc.c:8192-8291. -/
def vle6 : List Opcode :=
  [⟨"zmwsfraas", 0x100006fb, 0xfc0007ff, 0x80000000000, 0x0, [86, 74, 81]⟩,
   ⟨"zmwsfans", 0x100006fc, 0xfc0007ff, 0x80000000000, 0x0, [86, 74, 81]⟩,
   ⟨"zmwsfrans", 0x100006fd, 0xfc0007ff, 0x80000000000, 0x0, [86, 74, 81]⟩,
   ⟨"zlddx", 0x10000300, 0xfc0007ff, 0x80000000000, 0x0, [87, 74, 81]⟩,
   ⟨"zldd", 0x10000301, 0xfc0007ff, 0x80000000000, 0x0, [87, 140, 74]⟩,
   ⟨"zldwx", 0x10000302, 0xfc0007ff, 0x80000000000, 0x0, [87, 74, 81]⟩,
   ⟨"zldw", 0x10000303, 0xfc0007ff, 0x80000000000, 0x0, [87, 140, 74]⟩,
   ⟨"zldhx", 0x10000304, 0xfc0007ff, 0x80000000000, 0x0, [87, 74, 81]⟩,
   ⟨"zldh", 0x10000305, 0xfc0007ff, 0x80000000000, 0x0, [87, 140, 74]⟩,
   ⟨"zlwgsfdx", 0x10000308, 0xfc0007ff, 0x80000000000, 0x0, [87, 74, 81]⟩,
   ⟨"zlwgsfd", 0x10000309, 0xfc0007ff, 0x80000000000, 0x0, [87, 138, 74]⟩,
   ⟨"zlwwosdx", 0x1000030a, 0xfc0007ff, 0x80000000000, 0x0, [87, 74, 81]⟩,
   ⟨"zlwwosd", 0x1000030b, 0xfc0007ff, 0x80000000000, 0x0, [87, 138, 74]⟩,
   ⟨"zlwhsplatwdx", 0x1000030c, 0xfc0007ff, 0x80000000000, 0x0, [87, 74, 81]⟩,
   ⟨"zlwhsplatwd", 0x1000030d, 0xfc0007ff, 0x80000000000, 0x0, [87, 138, 74]⟩,
   ⟨"zlwhsplatdx", 0x1000030e, 0xfc0007ff, 0x80000000000, 0x0, [87, 74, 81]⟩,
   ⟨"zlwhsplatd", 0x1000030f, 0xfc0007ff, 0x80000000000, 0x0, [87, 138, 74]⟩,
   ⟨"zlwhgwsfdx", 0x10000310, 0xfc0007ff, 0x80000000000, 0x0, [87, 74, 81]⟩,
   ⟨"zlwhgwsfd", 0x10000311, 0xfc0007ff, 0x80000000000, 0x0, [87, 138, 74]⟩,
   ⟨"zlwhedx", 0x10000312, 0xfc0007ff, 0x80000000000, 0x0, [87, 74, 81]⟩,
   ⟨"zlwhed", 0x10000313, 0xfc0007ff, 0x80000000000, 0x0, [87, 138, 74]⟩,
   ⟨"zlwhosdx", 0x10000314, 0xfc0007ff, 0x80000000000, 0x0, [87, 74, 81]⟩,
   ⟨"zlwhosd", 0x10000315, 0xfc0007ff, 0x80000000000, 0x0, [87, 138, 74]⟩,
   ⟨"zlwhoudx", 0x10000316, 0xfc0007ff, 0x80000000000, 0x0, [87, 74, 81]⟩,
   ⟨"zlwhoud", 0x10000317, 0xfc0007ff, 0x80000000000, 0x0, [87, 138, 74]⟩,
   ⟨"zlwhx", 0x10000318, 0xfc0007ff, 0x80000000000, 0x0, [86, 74, 81]⟩,
   ⟨"zlwh", 0x10000319, 0xfc0007ff, 0x80000000000, 0x0, [86, 138, 74]⟩,
   ⟨"zlwwx", 0x1000031a, 0xfc0007ff, 0x80000000000, 0x0, [86, 74, 81]⟩,
   ⟨"zlww", 0x1000031b, 0xfc0007ff, 0x80000000000, 0x0, [86, 138, 74]⟩,
   ⟨"zlhgwsfx", 0x1000031c, 0xfc0007ff, 0x80000000000, 0x0, [86, 74, 81]⟩,
   ⟨"zlhgwsf", 0x1000031d, 0xfc0007ff, 0x80000000000, 0x0, [86, 136, 74]⟩,
   ⟨"zlhhsplatx", 0x1000031e, 0xfc0007ff, 0x80000000000, 0x0, [86, 74, 81]⟩,
   ⟨"zlhhsplat", 0x1000031f, 0xfc0007ff, 0x80000000000, 0x0, [86, 136, 74]⟩,
   ⟨"zstddx", 0x10000320, 0xfc0007ff, 0x80000000000, 0x0, [87, 74, 81]⟩,
   ⟨"zstdd", 0x10000321, 0xfc0007ff, 0x80000000000, 0x0, [87, 140, 74]⟩,
   ⟨"zstdwx", 0x10000322, 0xfc0007ff, 0x80000000000, 0x0, [87, 74, 81]⟩,
   ⟨"zstdw", 0x10000323, 0xfc0007ff, 0x80000000000, 0x0, [87, 140, 74]⟩,
   ⟨"zstdhx", 0x10000324, 0xfc0007ff, 0x80000000000, 0x0, [87, 74, 81]⟩,
   ⟨"zstdh", 0x10000325, 0xfc0007ff, 0x80000000000, 0x0, [87, 140, 74]⟩,
   ⟨"zstwhedx", 0x10000328, 0xfc0007ff, 0x80000000000, 0x0, [87, 74, 81]⟩,
   ⟨"zstwhed", 0x10000329, 0xfc0007ff, 0x80000000000, 0x0, [87, 138, 74]⟩,
   ⟨"zstwhodx", 0x1000032a, 0xfc0007ff, 0x80000000000, 0x0, [87, 74, 81]⟩,
   ⟨"zstwhod", 0x1000032b, 0xfc0007ff, 0x80000000000, 0x0, [87, 138, 74]⟩,
   ⟨"zlhhex", 0x10000330, 0xfc0007ff, 0x80000000000, 0x0, [86, 74, 81]⟩,
   ⟨"zlhhe", 0x10000331, 0xfc0007ff, 0x80000000000, 0x0, [86, 136, 74]⟩,
   ⟨"zlhhosx", 0x10000332, 0xfc0007ff, 0x80000000000, 0x0, [86, 74, 81]⟩,
   ⟨"zlhhos", 0x10000333, 0xfc0007ff, 0x80000000000, 0x0, [86, 136, 74]⟩,
   ⟨"zlhhoux", 0x10000334, 0xfc0007ff, 0x80000000000, 0x0, [86, 74, 81]⟩,
   ⟨"zlhhou", 0x10000335, 0xfc0007ff, 0x80000000000, 0x0, [86, 136, 74]⟩,
   ⟨"zsthex", 0x10000338, 0xfc0007ff, 0x80000000000, 0x0, [86, 74, 81]⟩,
   ⟨"zsthe", 0x10000339, 0xfc0007ff, 0x80000000000, 0x0, [86, 136, 74]⟩,
   ⟨"zsthox", 0x1000033a, 0xfc0007ff, 0x80000000000, 0x0, [86, 74, 81]⟩,
   ⟨"zstho", 0x1000033b, 0xfc0007ff, 0x80000000000, 0x0, [86, 136, 74]⟩,
   ⟨"zstwhx", 0x1000033c, 0xfc0007ff, 0x80000000000, 0x0, [86, 74, 81]⟩,
   ⟨"zstwh", 0x1000033d, 0xfc0007ff, 0x80000000000, 0x0, [86, 138, 74]⟩,
   ⟨"zstwwx", 0x1000033e, 0xfc0007ff, 0x80000000000, 0x0, [86, 74, 81]⟩,
   ⟨"zstww", 0x1000033f, 0xfc0007ff, 0x80000000000, 0x0, [86, 138, 74]⟩,
   ⟨"zlddmx", 0x10000340, 0xfc0007ff, 0x80000000000, 0x0, [87, 74, 81]⟩,
   ⟨"zlddu", 0x10000341, 0xfc0007ff, 0x80000000000, 0x0, [87, 141, 74]⟩,
   ⟨"zldwmx", 0x10000342, 0xfc0007ff, 0x80000000000, 0x0, [87, 74, 81]⟩,
   ⟨"zldwu", 0x10000343, 0xfc0007ff, 0x80000000000, 0x0, [87, 141, 74]⟩,
   ⟨"zldhmx", 0x10000344, 0xfc0007ff, 0x80000000000, 0x0, [87, 74, 81]⟩,
   ⟨"zldhu", 0x10000345, 0xfc0007ff, 0x80000000000, 0x0, [87, 141, 74]⟩,
   ⟨"zlwgsfdmx", 0x10000348, 0xfc0007ff, 0x80000000000, 0x0, [87, 74, 81]⟩,
   ⟨"zlwgsfdu", 0x10000349, 0xfc0007ff, 0x80000000000, 0x0, [87, 139, 74]⟩,
   ⟨"zlwwosdmx", 0x1000034a, 0xfc0007ff, 0x80000000000, 0x0, [87, 74, 81]⟩,
   ⟨"zlwwosdu", 0x1000034b, 0xfc0007ff, 0x80000000000, 0x0, [87, 139, 74]⟩,
   ⟨"zlwhsplatwdmx", 0x1000034c, 0xfc0007ff, 0x80000000000, 0x0, [87, 74, 81]⟩,
   ⟨"zlwhsplatwdu", 0x1000034d, 0xfc0007ff, 0x80000000000, 0x0, [87, 139, 74]⟩,
   ⟨"zlwhsplatdmx", 0x1000034e, 0xfc0007ff, 0x80000000000, 0x0, [87, 74, 81]⟩,
   ⟨"zlwhsplatdu", 0x1000034f, 0xfc0007ff, 0x80000000000, 0x0, [87, 139, 74]⟩,
   ⟨"zlwhgwsfdmx", 0x10000350, 0xfc0007ff, 0x80000000000, 0x0, [87, 74, 81]⟩,
   ⟨"zlwhgwsfdu", 0x10000351, 0xfc0007ff, 0x80000000000, 0x0, [87, 139, 74]⟩,
   ⟨"zlwhedmx", 0x10000352, 0xfc0007ff, 0x80000000000, 0x0, [87, 74, 81]⟩,
   ⟨"zlwhedu", 0x10000353, 0xfc0007ff, 0x80000000000, 0x0, [87, 139, 74]⟩,
   ⟨"zlwhosdmx", 0x10000354, 0xfc0007ff, 0x80000000000, 0x0, [87, 74, 81]⟩,
   ⟨"zlwhosdu", 0x10000355, 0xfc0007ff, 0x80000000000, 0x0, [87, 139, 74]⟩,
   ⟨"zlwhoudmx", 0x10000356, 0xfc0007ff, 0x80000000000, 0x0, [87, 74, 81]⟩,
   ⟨"zlwhoudu", 0x10000357, 0xfc0007ff, 0x80000000000, 0x0, [87, 139, 74]⟩,
   ⟨"zlwhmx", 0x10000358, 0xfc0007ff, 0x80000000000, 0x0, [86, 74, 81]⟩,
   ⟨"zlwhu", 0x10000359, 0xfc0007ff, 0x80000000000, 0x0, [86, 139, 74]⟩,
   ⟨"zlwwmx", 0x1000035a, 0xfc0007ff, 0x80000000000, 0x0, [86, 74, 81]⟩,
   ⟨"zlwwu", 0x1000035b, 0xfc0007ff, 0x80000000000, 0x0, [86, 139, 74]⟩,
   ⟨"zlhgwsfmx", 0x1000035c, 0xfc0007ff, 0x80000000000, 0x0, [86, 74, 81]⟩,
   ⟨"zlhgwsfu", 0x1000035d, 0xfc0007ff, 0x80000000000, 0x0, [86, 137, 74]⟩,
   ⟨"zlhhsplatmx", 0x1000035e, 0xfc0007ff, 0x80000000000, 0x0, [86, 74, 81]⟩,
   ⟨"zlhhsplatu", 0x1000035f, 0xfc0007ff, 0x80000000000, 0x0, [86, 137, 74]⟩,
   ⟨"zstddmx", 0x10000360, 0xfc0007ff, 0x80000000000, 0x0, [87, 74, 81]⟩,
   ⟨"zstddu", 0x10000361, 0xfc0007ff, 0x80000000000, 0x0, [86, 141, 74]⟩,
   ⟨"zstdwmx", 0x10000362, 0xfc0007ff, 0x80000000000, 0x0, [87, 74, 81]⟩,
   ⟨"zstdwu", 0x10000363, 0xfc0007ff, 0x80000000000, 0x0, [87, 141, 74]⟩,
   ⟨"zstdhmx", 0x10000364, 0xfc0007ff, 0x80000000000, 0x0, [87, 74, 81]⟩,
   ⟨"zstdhu", 0x10000365, 0xfc0007ff, 0x80000000000, 0x0, [87, 141, 74]⟩,
   ⟨"zstwhedmx", 0x10000368, 0xfc0007ff, 0x80000000000, 0x0, [87, 74, 81]⟩,
   ⟨"zstwhedu", 0x10000369, 0xfc0007ff, 0x80000000000, 0x0, [87, 139, 74]⟩,
   ⟨"zstwhodmx", 0x1000036a, 0xfc0007ff, 0x80000000000, 0x0, [87, 74, 81]⟩,
   ⟨"zstwhodu", 0x1000036b, 0xfc0007ff, 0x80000000000, 0x0, [87, 139, 74]⟩,
   ⟨"zlhhemx", 0x10000370, 0xfc0007ff, 0x80000000000, 0x0, [86, 74, 81]⟩,
   ⟨"zlhheu", 0x10000371, 0xfc0007ff, 0x80000000000, 0x0, [86, 137, 74]⟩,
   ⟨"zlhhosmx", 0x10000372, 0xfc0007ff, 0x80000000000, 0x0, [86, 74, 81]⟩]

/-- ppc-opc.c:8292-8398. -/
def vle7 : List Opcode :=
  [⟨"zlhhosu", 0x10000373, 0xfc0007ff, 0x80000000000, 0x0, [86, 137, 74]⟩,
   ⟨"zlhhoumx", 0x10000374, 0xfc0007ff, 0x80000000000, 0x0, [86, 74, 81]⟩,
   ⟨"zlhhouu", 0x10000375, 0xfc0007ff, 0x80000000000, 0x0, [86, 137, 74]⟩,
   ⟨"zsthemx", 0x10000378, 0xfc0007ff, 0x80000000000, 0x0, [86, 74, 81]⟩,
   ⟨"zstheu", 0x10000379, 0xfc0007ff, 0x80000000000, 0x0, [86, 137, 74]⟩,
   ⟨"zsthomx", 0x1000037a, 0xfc0007ff, 0x80000000000, 0x0, [86, 74, 81]⟩,
   ⟨"zsthou", 0x1000037b, 0xfc0007ff, 0x80000000000, 0x0, [86, 137, 74]⟩,
   ⟨"zstwhmx", 0x1000037c, 0xfc0007ff, 0x80000000000, 0x0, [86, 74, 81]⟩,
   ⟨"zstwhu", 0x1000037d, 0xfc0007ff, 0x80000000000, 0x0, [86, 139, 74]⟩,
   ⟨"zstwwmx", 0x1000037e, 0xfc0007ff, 0x80000000000, 0x0, [86, 74, 81]⟩,
   ⟨"zstwwu", 0x1000037f, 0xfc0007ff, 0x80000000000, 0x0, [86, 139, 74]⟩,
   ⟨"e_cmpi", 0x1800a800, 0xff80f800, 0x800000000, 0x0, [30, 74, 94]⟩,
   ⟨"e_cmpwi", 0x1800a800, 0xff80f800, 0x800000000, 0x0, [30, 74, 94]⟩,
   ⟨"e_cmpli", 0x1880a800, 0xff80f800, 0x800000000, 0x0, [30, 74, 94]⟩,
   ⟨"e_cmplwi", 0x1880a800, 0xff80f800, 0x800000000, 0x0, [30, 74, 94]⟩,
   ⟨"e_addi", 0x18008000, 0xfc00f800, 0x800000000, 0x0, [86, 74, 94]⟩,
   ⟨"e_subi", 0x18008000, 0xfc00f800, 0x800000000, 0x0, [86, 74, 95]⟩,
   ⟨"e_addi.", 0x18008800, 0xfc00f800, 0x800000000, 0x0, [86, 74, 94]⟩,
   ⟨"e_addic", 0x18009000, 0xfc00f800, 0x800000000, 0x0, [86, 74, 94]⟩,
   ⟨"e_subic", 0x18009000, 0xfc00f800, 0x800000000, 0x0, [86, 74, 95]⟩,
   ⟨"e_addic.", 0x18009800, 0xfc00f800, 0x800000000, 0x0, [86, 74, 94]⟩,
   ⟨"e_subic.", 0x18009800, 0xfc00f800, 0x800000000, 0x0, [86, 74, 95]⟩,
   ⟨"e_mulli", 0x1800a000, 0xfc00f800, 0x800000000, 0x0, [86, 74, 94]⟩,
   ⟨"e_subfic", 0x1800b000, 0xfc00f800, 0x800000000, 0x0, [86, 74, 94]⟩,
   ⟨"e_subfic.", 0x1800b800, 0xfc00f800, 0x800000000, 0x0, [86, 74, 94]⟩,
   ⟨"e_andi", 0x1800c000, 0xfc00f800, 0x800000000, 0x0, [74, 86, 94]⟩,
   ⟨"e_andi.", 0x1800c800, 0xfc00f800, 0x800000000, 0x0, [74, 86, 94]⟩,
   ⟨"e_nop", 0x1800d000, 0xffffffff, 0x800000000, 0x0, []⟩,
   ⟨"e_ori", 0x1800d000, 0xfc00f800, 0x800000000, 0x0, [74, 86, 94]⟩,
   ⟨"e_ori.", 0x1800d800, 0xfc00f800, 0x800000000, 0x0, [74, 86, 94]⟩,
   ⟨"e_xori", 0x1800e000, 0xfc00f800, 0x800000000, 0x0, [74, 86, 94]⟩,
   ⟨"e_xori.", 0x1800e800, 0xfc00f800, 0x800000000, 0x0, [74, 86, 94]⟩,
   ⟨"e_lbzu", 0x18000000, 0xfc00ff00, 0x800000000, 0x0, [86, 35, 75]⟩,
   ⟨"e_lhau", 0x18000300, 0xfc00ff00, 0x800000000, 0x0, [86, 35, 75]⟩,
   ⟨"e_lhzu", 0x18000100, 0xfc00ff00, 0x800000000, 0x0, [86, 35, 75]⟩,
   ⟨"e_lmw", 0x18000800, 0xfc00ff00, 0x800000000, 0x0, [86, 35, 75]⟩,
   ⟨"e_lwzu", 0x18000200, 0xfc00ff00, 0x800000000, 0x0, [86, 35, 75]⟩,
   ⟨"e_stbu", 0x18000400, 0xfc00ff00, 0x800000000, 0x0, [86, 35, 75]⟩,
   ⟨"e_sthu", 0x18000500, 0xfc00ff00, 0x800000000, 0x0, [86, 35, 75]⟩,
   ⟨"e_stwu", 0x18000600, 0xfc00ff00, 0x800000000, 0x0, [86, 35, 75]⟩,
   ⟨"e_stmw", 0x18000900, 0xfc00ff00, 0x800000000, 0x0, [86, 35, 75]⟩,
   ⟨"e_lmvgprw", 0x18001000, 0xffe0ff00, 0x800000000, 0x0, [35, 75]⟩,
   ⟨"e_ldmvgprw", 0x18001000, 0xffe0ff00, 0x800000000, 0x0, [35, 75]⟩,
   ⟨"e_stmvgprw", 0x18001100, 0xffe0ff00, 0x800000000, 0x0, [35, 75]⟩,
   ⟨"e_lmvsprw", 0x18201000, 0xffe0ff00, 0x800000000, 0x0, [35, 75]⟩,
   ⟨"e_ldmvsprw", 0x18201000, 0xffe0ff00, 0x800000000, 0x0, [35, 75]⟩,
   ⟨"e_stmvsprw", 0x18201100, 0xffe0ff00, 0x800000000, 0x0, [35, 75]⟩,
   ⟨"e_lmvsrrw", 0x18801000, 0xffe0ff00, 0x800000000, 0x0, [35, 75]⟩,
   ⟨"e_ldmvsrrw", 0x18801000, 0xffe0ff00, 0x800000000, 0x0, [35, 75]⟩,
   ⟨"e_stmvsrrw", 0x18801100, 0xffe0ff00, 0x800000000, 0x0, [35, 75]⟩,
   ⟨"e_lmvcsrrw", 0x18a01000, 0xffe0ff00, 0x800000000, 0x0, [35, 75]⟩,
   ⟨"e_ldmvcsrrw", 0x18a01000, 0xffe0ff00, 0x800000000, 0x0, [35, 75]⟩,
   ⟨"e_stmvcsrrw", 0x18a01100, 0xffe0ff00, 0x800000000, 0x0, [35, 75]⟩,
   ⟨"e_lmvdsrrw", 0x18c01000, 0xffe0ff00, 0x800000000, 0x0, [35, 75]⟩,
   ⟨"e_ldmvdsrrw", 0x18c01000, 0xffe0ff00, 0x800000000, 0x0, [35, 75]⟩,
   ⟨"e_stmvdsrrw", 0x18c01100, 0xffe0ff00, 0x800000000, 0x0, [35, 75]⟩,
   ⟨"e_lmvmcsrrw", 0x18e01000, 0xffe0ff00, 0x800000000, 0x0, [35, 75]⟩,
   ⟨"e_stmvmcsrrw", 0x18e01100, 0xffe0ff00, 0x800000000, 0x0, [35, 75]⟩,
   ⟨"e_add16i", 0x1c000000, 0xfc000000, 0x800000000, 0x0, [86, 74, 105]⟩,
   ⟨"e_la", 0x1c000000, 0xfc000000, 0x800000000, 0x0, [86, 34, 75]⟩,
   ⟨"e_sub16i", 0x1c000000, 0xfc000000, 0x800000000, 0x0, [86, 74, 72]⟩,
   ⟨"se_addi", 0x00002000, 0x0000fe00, 0x800000000, 0x0, [90, 121]⟩,
   ⟨"se_cmpli", 0x00002200, 0x0000fe00, 0x800000000, 0x0, [90, 121]⟩,
   ⟨"se_subi", 0x00002400, 0x0000fe00, 0x800000000, 0x0, [90, 121]⟩,
   ⟨"se_subi.", 0x00002600, 0x0000fe00, 0x800000000, 0x0, [90, 121]⟩,
   ⟨"se_cmpi", 0x00002a00, 0x0000fe00, 0x800000000, 0x0, [90, 120]⟩,
   ⟨"se_bmaski", 0x00002c00, 0x0000fe00, 0x800000000, 0x0, [90, 120]⟩,
   ⟨"se_andi", 0x00002e00, 0x0000fe00, 0x800000000, 0x0, [90, 120]⟩,
   ⟨"e_lbz", 0x30000000, 0xfc000000, 0x800000000, 0x0, [86, 34, 75]⟩,
   ⟨"e_stb", 0x34000000, 0xfc000000, 0x800000000, 0x0, [86, 34, 75]⟩,
   ⟨"e_lha", 0x38000000, 0xfc000000, 0x800000000, 0x0, [86, 34, 75]⟩,
   ⟨"se_srw", 0x00004000, 0x0000ff00, 0x800000000, 0x0, [90, 92]⟩,
   ⟨"se_sraw", 0x00004100, 0x0000ff00, 0x800000000, 0x0, [90, 92]⟩,
   ⟨"se_slw", 0x00004200, 0x0000ff00, 0x800000000, 0x0, [90, 92]⟩,
   ⟨"se_nop", 0x00004400, 0x0000ffff, 0x800000000, 0x0, []⟩,
   ⟨"se_or", 0x00004400, 0x0000ff00, 0x800000000, 0x0, [90, 92]⟩,
   ⟨"se_andc", 0x00004500, 0x0000ff00, 0x800000000, 0x0, [90, 92]⟩,
   ⟨"se_and", 0x00004600, 0x0000ff00, 0x800000000, 0x0, [90, 92]⟩,
   ⟨"se_and.", 0x00004700, 0x0000ff00, 0x800000000, 0x0, [90, 92]⟩,
   ⟨"se_li", 0x00004800, 0x0000f800, 0x800000000, 0x0, [90, 122]⟩,
   ⟨"e_lwz", 0x50000000, 0xfc000000, 0x800000000, 0x0, [86, 34, 75]⟩,
   ⟨"e_stw", 0x54000000, 0xfc000000, 0x800000000, 0x0, [86, 34, 75]⟩,
   ⟨"e_lhz", 0x58000000, 0xfc000000, 0x800000000, 0x0, [86, 34, 75]⟩,
   ⟨"e_sth", 0x5c000000, 0xfc000000, 0x800000000, 0x0, [86, 34, 75]⟩,
   ⟨"se_bclri", 0x00006000, 0x0000fe00, 0x800000000, 0x0, [90, 120]⟩,
   ⟨"se_bgeni", 0x00006200, 0x0000fe00, 0x800000000, 0x0, [90, 120]⟩,
   ⟨"se_bseti", 0x00006400, 0x0000fe00, 0x800000000, 0x0, [90, 120]⟩,
   ⟨"se_btsti", 0x00006600, 0x0000fe00, 0x800000000, 0x0, [90, 120]⟩,
   ⟨"se_srwi", 0x00006800, 0x0000fe00, 0x800000000, 0x0, [90, 120]⟩,
   ⟨"se_srawi", 0x00006a00, 0x0000fe00, 0x800000000, 0x0, [90, 120]⟩,
   ⟨"se_slwi", 0x00006c00, 0x0000fe00, 0x800000000, 0x0, [90, 120]⟩,
   ⟨"e_lis", 0x7000e000, 0xfc00f800, 0x800000000, 0x0, [86, 167]⟩,
   ⟨"e_and2is.", 0x7000e800, 0xfc00f800, 0x800000000, 0x0, [86, 167]⟩,
   ⟨"e_or2is", 0x7000d000, 0xfc00f800, 0x800000000, 0x0, [86, 167]⟩,
   ⟨"e_and2i.", 0x7000c800, 0xfc00f800, 0x800000000, 0x0, [86, 167]⟩,
   ⟨"e_or2i", 0x7000c000, 0xfc00f800, 0x800000000, 0x0, [86, 167]⟩,
   ⟨"e_cmphl16i", 0x7000b800, 0xfc00f800, 0x800000000, 0x0, [74, 166]⟩,
   ⟨"e_cmph16i", 0x7000b000, 0xfc00f800, 0x800000000, 0x0, [74, 164]⟩,
   ⟨"e_cmpl16i", 0x7000a800, 0xfc00f800, 0x800000000, 0x0, [74, 166]⟩,
   ⟨"e_mull2i", 0x7000a000, 0xfc00f800, 0x800000000, 0x0, [74, 164]⟩]

/-- ppc-opc.c:8399-8507. -/
def vle8 : List Opcode :=
  [⟨"e_cmp16i", 0x70009800, 0xfc00f800, 0x800000000, 0x0, [74, 164]⟩,
   ⟨"e_sub2is", 0x70009000, 0xfc00f800, 0x800000000, 0x0, [74, 165]⟩,
   ⟨"e_add2is", 0x70009000, 0xfc00f800, 0x800000000, 0x0, [74, 164]⟩,
   ⟨"e_sub2i.", 0x70008800, 0xfc00f800, 0x800000000, 0x0, [74, 165]⟩,
   ⟨"e_add2i.", 0x70008800, 0xfc00f800, 0x800000000, 0x0, [74, 164]⟩,
   ⟨"e_li", 0x70000000, 0xfc008000, 0x800000000, 0x0, [86, 56]⟩,
   ⟨"e_rlwimi", 0x74000000, 0xfc000001, 0x800000000, 0x0, [74, 86, 99, 29, 66]⟩,
   ⟨"e_rlwinm", 0x74000001, 0xfc000001, 0x800000000, 0x0, [74, 86, 99, 67, 66]⟩,
   ⟨"e_b", 0x78000000, 0xfe000001, 0x800000000, 0x0, [27]⟩,
   ⟨"e_bl", 0x78000001, 0xfe000001, 0x800000000, 0x0, [27]⟩,
   ⟨"e_bdnz", 0x7a200000, 0xfff00001, 0x800000000, 0x0, [26]⟩,
   ⟨"e_bdnzl", 0x7a200001, 0xfff00001, 0x800000000, 0x0, [26]⟩,
   ⟨"e_bdz", 0x7a300000, 0xfff00001, 0x800000000, 0x0, [26]⟩,
   ⟨"e_bdzl", 0x7a300001, 0xfff00001, 0x800000000, 0x0, [26]⟩,
   ⟨"e_bge", 0x7a000000, 0xfff30001, 0x800000000, 0x0, [32, 26]⟩,
   ⟨"e_bgel", 0x7a000001, 0xfff30001, 0x800000000, 0x0, [32, 26]⟩,
   ⟨"e_bnl", 0x7a000000, 0xfff30001, 0x800000000, 0x0, [32, 26]⟩,
   ⟨"e_bnll", 0x7a000001, 0xfff30001, 0x800000000, 0x0, [32, 26]⟩,
   ⟨"e_blt", 0x7a100000, 0xfff30001, 0x800000000, 0x0, [32, 26]⟩,
   ⟨"e_bltl", 0x7a100001, 0xfff30001, 0x800000000, 0x0, [32, 26]⟩,
   ⟨"e_bgt", 0x7a110000, 0xfff30001, 0x800000000, 0x0, [32, 26]⟩,
   ⟨"e_bgtl", 0x7a110001, 0xfff30001, 0x800000000, 0x0, [32, 26]⟩,
   ⟨"e_ble", 0x7a010000, 0xfff30001, 0x800000000, 0x0, [32, 26]⟩,
   ⟨"e_blel", 0x7a010001, 0xfff30001, 0x800000000, 0x0, [32, 26]⟩,
   ⟨"e_bng", 0x7a010000, 0xfff30001, 0x800000000, 0x0, [32, 26]⟩,
   ⟨"e_bngl", 0x7a010001, 0xfff30001, 0x800000000, 0x0, [32, 26]⟩,
   ⟨"e_bne", 0x7a020000, 0xfff30001, 0x800000000, 0x0, [32, 26]⟩,
   ⟨"e_bnel", 0x7a020001, 0xfff30001, 0x800000000, 0x0, [32, 26]⟩,
   ⟨"e_beq", 0x7a120000, 0xfff30001, 0x800000000, 0x0, [32, 26]⟩,
   ⟨"e_beql", 0x7a120001, 0xfff30001, 0x800000000, 0x0, [32, 26]⟩,
   ⟨"e_bso", 0x7a130000, 0xfff30001, 0x800000000, 0x0, [32, 26]⟩,
   ⟨"e_bsol", 0x7a130001, 0xfff30001, 0x800000000, 0x0, [32, 26]⟩,
   ⟨"e_bun", 0x7a130000, 0xfff30001, 0x800000000, 0x0, [32, 26]⟩,
   ⟨"e_bunl", 0x7a130001, 0xfff30001, 0x800000000, 0x0, [32, 26]⟩,
   ⟨"e_bns", 0x7a030000, 0xfff30001, 0x800000000, 0x0, [32, 26]⟩,
   ⟨"e_bnsl", 0x7a030001, 0xfff30001, 0x800000000, 0x0, [32, 26]⟩,
   ⟨"e_bnu", 0x7a030000, 0xfff30001, 0x800000000, 0x0, [32, 26]⟩,
   ⟨"e_bnul", 0x7a030001, 0xfff30001, 0x800000000, 0x0, [32, 26]⟩,
   ⟨"e_bc", 0x7a000000, 0xffc00001, 0x800000000, 0x0, [24, 23, 26]⟩,
   ⟨"e_bcl", 0x7a000001, 0xffc00001, 0x800000000, 0x0, [24, 23, 26]⟩,
   ⟨"e_bf", 0x7a000000, 0xfff00001, 0x800000000, 0x0, [23, 26]⟩,
   ⟨"e_bfl", 0x7a000001, 0xfff00001, 0x800000000, 0x0, [23, 26]⟩,
   ⟨"e_bt", 0x7a100000, 0xfff00001, 0x800000000, 0x0, [23, 26]⟩,
   ⟨"e_btl", 0x7a100001, 0xfff00001, 0x800000000, 0x0, [23, 26]⟩,
   ⟨"e_cmph", 0x7c00001c, 0xfc0007ff, 0x800000000, 0x0, [13, 74, 81]⟩,
   ⟨"e_sc", 0x7c000048, 0xffff07ff, 0x800000000, 0x0, [104]⟩,
   ⟨"e_cmphl", 0x7c00005c, 0xfc0007ff, 0x800000000, 0x0, [13, 74, 81]⟩,
   ⟨"e_crandc", 0x7c000102, 0xfc0007ff, 0x800000000, 0x0, [21, 1, 3]⟩,
   ⟨"e_crnand", 0x7c0001c2, 0xfc0007ff, 0x800000000, 0x0, [21, 1, 3]⟩,
   ⟨"e_crnot", 0x7c000042, 0xfc0007ff, 0x800000000, 0x0, [21, 4]⟩,
   ⟨"e_crnor", 0x7c000042, 0xfc0007ff, 0x800000000, 0x0, [21, 1, 3]⟩,
   ⟨"e_crclr", 0x7c000182, 0xfc0007ff, 0x800000000, 0x0, [2]⟩,
   ⟨"e_crxor", 0x7c000182, 0xfc0007ff, 0x800000000, 0x0, [21, 1, 3]⟩,
   ⟨"e_mcrf", 0x7c000020, 0xfc0007ff, 0x800000000, 0x0, [13, 28]⟩,
   ⟨"e_slwi", 0x7c000070, 0xfc0007ff, 0x800000000, 0x0, [74, 86, 99]⟩,
   ⟨"e_slwi.", 0x7c000071, 0xfc0007ff, 0x800000000, 0x0, [74, 86, 99]⟩,
   ⟨"e_crand", 0x7c000202, 0xfc0007ff, 0x800000000, 0x0, [21, 1, 3]⟩,
   ⟨"e_rlw", 0x7c000230, 0xfc0007ff, 0x800000000, 0x0, [74, 86, 81]⟩,
   ⟨"e_rlw.", 0x7c000231, 0xfc0007ff, 0x800000000, 0x0, [74, 86, 81]⟩,
   ⟨"e_crset", 0x7c000242, 0xfc0007ff, 0x800000000, 0x0, [2]⟩,
   ⟨"e_creqv", 0x7c000242, 0xfc0007ff, 0x800000000, 0x0, [21, 1, 3]⟩,
   ⟨"e_rlwi", 0x7c000270, 0xfc0007ff, 0x800000000, 0x0, [74, 86, 99]⟩,
   ⟨"e_rlwi.", 0x7c000271, 0xfc0007ff, 0x800000000, 0x0, [74, 86, 99]⟩,
   ⟨"e_crorc", 0x7c000342, 0xfc0007ff, 0x800000000, 0x0, [21, 1, 3]⟩,
   ⟨"e_crmove", 0x7c000382, 0xfc0007ff, 0x800000000, 0x0, [21, 4]⟩,
   ⟨"e_cror", 0x7c000382, 0xfc0007ff, 0x800000000, 0x0, [21, 1, 3]⟩,
   ⟨"mtmas1", 0x7c119ba6, 0xfc1fffff, 0x800000000, 0x0, [86]⟩,
   ⟨"e_srwi", 0x7c000470, 0xfc0007ff, 0x800000000, 0x0, [74, 86, 99]⟩,
   ⟨"e_srwi.", 0x7c000471, 0xfc0007ff, 0x800000000, 0x0, [74, 86, 99]⟩,
   ⟨"se_lbz", 0x00008000, 0x0000f000, 0x800000000, 0x0, [92, 96, 90]⟩,
   ⟨"se_stb", 0x00009000, 0x0000f000, 0x800000000, 0x0, [92, 96, 90]⟩,
   ⟨"se_lhz", 0x0000a000, 0x0000f000, 0x800000000, 0x0, [92, 97, 90]⟩,
   ⟨"se_sth", 0x0000b000, 0x0000f000, 0x800000000, 0x0, [92, 97, 90]⟩,
   ⟨"se_lwz", 0x0000c000, 0x0000f000, 0x800000000, 0x0, [92, 98, 90]⟩,
   ⟨"se_stw", 0x0000d000, 0x0000f000, 0x800000000, 0x0, [92, 98, 90]⟩,
   ⟨"se_bge", 0x0000e000, 0x0000ff00, 0x800000000, 0x0, [25]⟩,
   ⟨"se_bnl", 0x0000e000, 0x0000ff00, 0x800000000, 0x0, [25]⟩,
   ⟨"se_ble", 0x0000e100, 0x0000ff00, 0x800000000, 0x0, [25]⟩,
   ⟨"se_bng", 0x0000e100, 0x0000ff00, 0x800000000, 0x0, [25]⟩,
   ⟨"se_bne", 0x0000e200, 0x0000ff00, 0x800000000, 0x0, [25]⟩,
   ⟨"se_bns", 0x0000e300, 0x0000ff00, 0x800000000, 0x0, [25]⟩,
   ⟨"se_bnu", 0x0000e300, 0x0000ff00, 0x800000000, 0x0, [25]⟩,
   ⟨"se_bf", 0x0000e000, 0x0000fc00, 0x800000000, 0x0, [22, 25]⟩,
   ⟨"se_blt", 0x0000e400, 0x0000ff00, 0x800000000, 0x0, [25]⟩,
   ⟨"se_bgt", 0x0000e500, 0x0000ff00, 0x800000000, 0x0, [25]⟩,
   ⟨"se_beq", 0x0000e600, 0x0000ff00, 0x800000000, 0x0, [25]⟩,
   ⟨"se_bso", 0x0000e700, 0x0000ff00, 0x800000000, 0x0, [25]⟩,
   ⟨"se_bun", 0x0000e700, 0x0000ff00, 0x800000000, 0x0, [25]⟩,
   ⟨"se_bt", 0x0000e400, 0x0000fc00, 0x800000000, 0x0, [22, 25]⟩,
   ⟨"se_bc", 0x0000e000, 0x0000f800, 0x800000000, 0x0, [143, 22, 25]⟩,
   ⟨"se_b", 0x0000e800, 0x0000ff00, 0x800000000, 0x0, [25]⟩,
   ⟨"se_bl", 0x0000e900, 0x0000ff00, 0x800000000, 0x0, [25]⟩]

/-- ppc-opc.c:7589-8508, `vle_opcodes_qt`. -/
def vleTable : List (List Opcode) := [vle0, vle1, vle2, vle3, vle4, vle5, vle6, vle7, vle8]

/-- ppc-opc.c:8615-8714. -/
def spe20 : List Opcode :=
  [⟨"evdotpwcssi", 0x10000080, 0xfc0007ff, 0x100000000000, 0x0, [86, 74, 81]⟩,
   ⟨"evdotpwcsmi", 0x10000081, 0xfc0007ff, 0x100000000000, 0x0, [86, 74, 81]⟩,
   ⟨"evdotpwcssfr", 0x10000082, 0xfc0007ff, 0x100000000000, 0x0, [86, 74, 81]⟩,
   ⟨"evdotpwcssf", 0x10000083, 0xfc0007ff, 0x100000000000, 0x0, [86, 74, 81]⟩,
   ⟨"evdotpwgasmf", 0x10000088, 0xfc0007ff, 0x100000000000, 0x0, [86, 74, 81]⟩,
   ⟨"evdotpwxgasmf", 0x10000089, 0xfc0007ff, 0x100000000000, 0x0, [86, 74, 81]⟩,
   ⟨"evdotpwgasmfr", 0x1000008a, 0xfc0007ff, 0x100000000000, 0x0, [86, 74, 81]⟩,
   ⟨"evdotpwxgasmfr", 0x1000008b, 0xfc0007ff, 0x100000000000, 0x0, [86, 74, 81]⟩,
   ⟨"evdotpwgssmf", 0x1000008c, 0xfc0007ff, 0x100000000000, 0x0, [86, 74, 81]⟩,
   ⟨"evdotpwxgssmf", 0x1000008d, 0xfc0007ff, 0x100000000000, 0x0, [86, 74, 81]⟩,
   ⟨"evdotpwgssmfr", 0x1000008e, 0xfc0007ff, 0x100000000000, 0x0, [86, 74, 81]⟩,
   ⟨"evdotpwxgssmfr", 0x1000008f, 0xfc0007ff, 0x100000000000, 0x0, [86, 74, 81]⟩,
   ⟨"evdotpwcssiaaw3", 0x10000090, 0xfc0007ff, 0x100000000000, 0x0, [86, 74, 81]⟩,
   ⟨"evdotpwcsmiaaw3", 0x10000091, 0xfc0007ff, 0x100000000000, 0x0, [86, 74, 81]⟩,
   ⟨"evdotpwcssfraaw3", 0x10000092, 0xfc0007ff, 0x100000000000, 0x0, [86, 74, 81]⟩,
   ⟨"evdotpwcssfaaw3", 0x10000093, 0xfc0007ff, 0x100000000000, 0x0, [86, 74, 81]⟩,
   ⟨"evdotpwgasmfaa3", 0x10000098, 0xfc0007ff, 0x100000000000, 0x0, [86, 74, 81]⟩,
   ⟨"evdotpwxgasmfaa3", 0x10000099, 0xfc0007ff, 0x100000000000, 0x0, [86, 74, 81]⟩,
   ⟨"evdotpwgasmfraa3", 0x1000009a, 0xfc0007ff, 0x100000000000, 0x0, [86, 74, 81]⟩,
   ⟨"evdotpwxgasmfraa3", 0x1000009b, 0xfc0007ff, 0x100000000000, 0x0, [86, 74, 81]⟩,
   ⟨"evdotpwgssmfaa3", 0x1000009c, 0xfc0007ff, 0x100000000000, 0x0, [86, 74, 81]⟩,
   ⟨"evdotpwxgssmfaa3", 0x1000009d, 0xfc0007ff, 0x100000000000, 0x0, [86, 74, 81]⟩,
   ⟨"evdotpwgssmfraa3", 0x1000009e, 0xfc0007ff, 0x100000000000, 0x0, [86, 74, 81]⟩,
   ⟨"evdotpwxgssmfraa3", 0x1000009f, 0xfc0007ff, 0x100000000000, 0x0, [86, 74, 81]⟩,
   ⟨"evdotpwcssia", 0x100000a0, 0xfc0007ff, 0x100000000000, 0x0, [86, 74, 81]⟩,
   ⟨"evdotpwcsmia", 0x100000a1, 0xfc0007ff, 0x100000000000, 0x0, [86, 74, 81]⟩,
   ⟨"evdotpwcssfra", 0x100000a2, 0xfc0007ff, 0x100000000000, 0x0, [86, 74, 81]⟩,
   ⟨"evdotpwcssfa", 0x100000a3, 0xfc0007ff, 0x100000000000, 0x0, [86, 74, 81]⟩,
   ⟨"evdotpwgasmfa", 0x100000a8, 0xfc0007ff, 0x100000000000, 0x0, [86, 74, 81]⟩,
   ⟨"evdotpwxgasmfa", 0x100000a9, 0xfc0007ff, 0x100000000000, 0x0, [86, 74, 81]⟩,
   ⟨"evdotpwgasmfra", 0x100000aa, 0xfc0007ff, 0x100000000000, 0x0, [86, 74, 81]⟩,
   ⟨"evdotpwxgasmfra", 0x100000ab, 0xfc0007ff, 0x100000000000, 0x0, [86, 74, 81]⟩,
   ⟨"evdotpwgssmfa", 0x100000ac, 0xfc0007ff, 0x100000000000, 0x0, [86, 74, 81]⟩,
   ⟨"evdotpwxgssmfa", 0x100000ad, 0xfc0007ff, 0x100000000000, 0x0, [86, 74, 81]⟩,
   ⟨"evdotpwgssmfra", 0x100000ae, 0xfc0007ff, 0x100000000000, 0x0, [86, 74, 81]⟩,
   ⟨"evdotpwxgssmfra", 0x100000af, 0xfc0007ff, 0x100000000000, 0x0, [86, 74, 81]⟩,
   ⟨"evdotpwcssiaaw", 0x100000b0, 0xfc0007ff, 0x100000000000, 0x0, [86, 74, 81]⟩,
   ⟨"evdotpwcsmiaaw", 0x100000b1, 0xfc0007ff, 0x100000000000, 0x0, [86, 74, 81]⟩,
   ⟨"evdotpwcssfraaw", 0x100000b2, 0xfc0007ff, 0x100000000000, 0x0, [86, 74, 81]⟩,
   ⟨"evdotpwcssfaaw", 0x100000b3, 0xfc0007ff, 0x100000000000, 0x0, [86, 74, 81]⟩,
   ⟨"evdotpwgasmfaa", 0x100000b8, 0xfc0007ff, 0x100000000000, 0x0, [86, 74, 81]⟩,
   ⟨"evdotpwxgasmfaa", 0x100000b9, 0xfc0007ff, 0x100000000000, 0x0, [86, 74, 81]⟩,
   ⟨"evdotpwgasmfraa", 0x100000ba, 0xfc0007ff, 0x100000000000, 0x0, [86, 74, 81]⟩,
   ⟨"evdotpwxgasmfraa", 0x100000bb, 0xfc0007ff, 0x100000000000, 0x0, [86, 74, 81]⟩,
   ⟨"evdotpwgssmfaa", 0x100000bc, 0xfc0007ff, 0x100000000000, 0x0, [86, 74, 81]⟩,
   ⟨"evdotpwxgssmfaa", 0x100000bd, 0xfc0007ff, 0x100000000000, 0x0, [86, 74, 81]⟩,
   ⟨"evdotpwgssmfraa", 0x100000be, 0xfc0007ff, 0x100000000000, 0x0, [86, 74, 81]⟩,
   ⟨"evdotpwxgssmfraa", 0x100000bf, 0xfc0007ff, 0x100000000000, 0x0, [86, 74, 81]⟩,
   ⟨"evdotphihcssi", 0x10000100, 0xfc0007ff, 0x100000000000, 0x0, [86, 74, 81]⟩,
   ⟨"evdotplohcssi", 0x10000101, 0xfc0007ff, 0x100000000000, 0x0, [86, 74, 81]⟩,
   ⟨"evdotphihcssf", 0x10000102, 0xfc0007ff, 0x100000000000, 0x0, [86, 74, 81]⟩,
   ⟨"evdotplohcssf", 0x10000103, 0xfc0007ff, 0x100000000000, 0x0, [86, 74, 81]⟩,
   ⟨"evdotphihcsmi", 0x10000108, 0xfc0007ff, 0x100000000000, 0x0, [86, 74, 81]⟩,
   ⟨"evdotplohcsmi", 0x10000109, 0xfc0007ff, 0x100000000000, 0x0, [86, 74, 81]⟩,
   ⟨"evdotphihcssfr", 0x1000010a, 0xfc0007ff, 0x100000000000, 0x0, [86, 74, 81]⟩,
   ⟨"evdotplohcssfr", 0x1000010b, 0xfc0007ff, 0x100000000000, 0x0, [86, 74, 81]⟩,
   ⟨"evdotphihcssiaaw3", 0x10000110, 0xfc0007ff, 0x100000000000, 0x0, [86, 74, 81]⟩,
   ⟨"evdotplohcssiaaw3", 0x10000111, 0xfc0007ff, 0x100000000000, 0x0, [86, 74, 81]⟩,
   ⟨"evdotphihcssfaaw3", 0x10000112, 0xfc0007ff, 0x100000000000, 0x0, [86, 74, 81]⟩,
   ⟨"evdotplohcssfaaw3", 0x10000113, 0xfc0007ff, 0x100000000000, 0x0, [86, 74, 81]⟩,
   ⟨"evdotphihcsmiaaw3", 0x10000118, 0xfc0007ff, 0x100000000000, 0x0, [86, 74, 81]⟩,
   ⟨"evdotplohcsmiaaw3", 0x10000119, 0xfc0007ff, 0x100000000000, 0x0, [86, 74, 81]⟩,
   ⟨"evdotphihcssfraaw3", 0x1000011a, 0xfc0007ff, 0x100000000000, 0x0, [86, 74, 81]⟩,
   ⟨"evdotplohcssfraaw3", 0x1000011b, 0xfc0007ff, 0x100000000000, 0x0, [86, 74, 81]⟩,
   ⟨"evdotphihcssia", 0x10000120, 0xfc0007ff, 0x100000000000, 0x0, [86, 74, 81]⟩,
   ⟨"evdotplohcssia", 0x10000121, 0xfc0007ff, 0x100000000000, 0x0, [86, 74, 81]⟩,
   ⟨"evdotphihcssfa", 0x10000122, 0xfc0007ff, 0x100000000000, 0x0, [86, 74, 81]⟩,
   ⟨"evdotplohcssfa", 0x10000123, 0xfc0007ff, 0x100000000000, 0x0, [86, 74, 81]⟩,
   ⟨"evdotphihcsmia", 0x10000128, 0xfc0007ff, 0x100000000000, 0x0, [86, 74, 81]⟩,
   ⟨"evdotplohcsmia", 0x10000129, 0xfc0007ff, 0x100000000000, 0x0, [86, 74, 81]⟩,
   ⟨"evdotphihcssfra", 0x1000012a, 0xfc0007ff, 0x100000000000, 0x0, [86, 74, 81]⟩,
   ⟨"evdotplohcssfra", 0x1000012b, 0xfc0007ff, 0x100000000000, 0x0, [86, 74, 81]⟩,
   ⟨"evdotphihcssiaaw", 0x10000130, 0xfc0007ff, 0x100000000000, 0x0, [86, 74, 81]⟩,
   ⟨"evdotplohcssiaaw", 0x10000131, 0xfc0007ff, 0x100000000000, 0x0, [86, 74, 81]⟩,
   ⟨"evdotphihcssfaaw", 0x10000132, 0xfc0007ff, 0x100000000000, 0x0, [86, 74, 81]⟩,
   ⟨"evdotplohcssfaaw", 0x10000133, 0xfc0007ff, 0x100000000000, 0x0, [86, 74, 81]⟩,
   ⟨"evdotphihcsmiaaw", 0x10000138, 0xfc0007ff, 0x100000000000, 0x0, [86, 74, 81]⟩,
   ⟨"evdotplohcsmiaaw", 0x10000139, 0xfc0007ff, 0x100000000000, 0x0, [86, 74, 81]⟩,
   ⟨"evdotphihcssfraaw", 0x1000013a, 0xfc0007ff, 0x100000000000, 0x0, [86, 74, 81]⟩,
   ⟨"evdotplohcssfraaw", 0x1000013b, 0xfc0007ff, 0x100000000000, 0x0, [86, 74, 81]⟩,
   ⟨"evdotphausi", 0x10000140, 0xfc0007ff, 0x100000000000, 0x0, [86, 74, 81]⟩,
   ⟨"evdotphassi", 0x10000141, 0xfc0007ff, 0x100000000000, 0x0, [86, 74, 81]⟩,
   ⟨"evdotphasusi", 0x10000142, 0xfc0007ff, 0x100000000000, 0x0, [86, 74, 81]⟩,
   ⟨"evdotphassf", 0x10000143, 0xfc0007ff, 0x100000000000, 0x0, [86, 74, 81]⟩,
   ⟨"evdotphsssf", 0x10000147, 0xfc0007ff, 0x100000000000, 0x0, [86, 74, 81]⟩,
   ⟨"evdotphaumi", 0x10000148, 0xfc0007ff, 0x100000000000, 0x0, [86, 74, 81]⟩,
   ⟨"evdotphasmi", 0x10000149, 0xfc0007ff, 0x100000000000, 0x0, [86, 74, 81]⟩,
   ⟨"evdotphasumi", 0x1000014a, 0xfc0007ff, 0x100000000000, 0x0, [86, 74, 81]⟩,
   ⟨"evdotphassfr", 0x1000014b, 0xfc0007ff, 0x100000000000, 0x0, [86, 74, 81]⟩,
   ⟨"evdotphssmi", 0x1000014d, 0xfc0007ff, 0x100000000000, 0x0, [86, 74, 81]⟩,
   ⟨"evdotphsssfr", 0x1000014f, 0xfc0007ff, 0x100000000000, 0x0, [86, 74, 81]⟩,
   ⟨"evdotphausiaaw3", 0x10000150, 0xfc0007ff, 0x100000000000, 0x0, [86, 74, 81]⟩,
   ⟨"evdotphassiaaw3", 0x10000151, 0xfc0007ff, 0x100000000000, 0x0, [86, 74, 81]⟩,
   ⟨"evdotphasusiaaw3", 0x10000152, 0xfc0007ff, 0x100000000000, 0x0, [86, 74, 81]⟩,
   ⟨"evdotphassfaaw3", 0x10000153, 0xfc0007ff, 0x100000000000, 0x0, [86, 74, 81]⟩,
   ⟨"evdotphsssiaaw3", 0x10000155, 0xfc0007ff, 0x100000000000, 0x0, [86, 74, 81]⟩,
   ⟨"evdotphsssfaaw3", 0x10000157, 0xfc0007ff, 0x100000000000, 0x0, [86, 74, 81]⟩,
   ⟨"evdotphaumiaaw3", 0x10000158, 0xfc0007ff, 0x100000000000, 0x0, [86, 74, 81]⟩,
   ⟨"evdotphasmiaaw3", 0x10000159, 0xfc0007ff, 0x100000000000, 0x0, [86, 74, 81]⟩,
   ⟨"evdotphasumiaaw3", 0x1000015a, 0xfc0007ff, 0x100000000000, 0x0, [86, 74, 81]⟩]

/-- ppc-opc.c:8715-8814. -/
def spe21 : List Opcode :=
  [⟨"evdotphassfraaw3", 0x1000015b, 0xfc0007ff, 0x100000000000, 0x0, [86, 74, 81]⟩,
   ⟨"evdotphssmiaaw3", 0x1000015d, 0xfc0007ff, 0x100000000000, 0x0, [86, 74, 81]⟩,
   ⟨"evdotphsssfraaw3", 0x1000015f, 0xfc0007ff, 0x100000000000, 0x0, [86, 74, 81]⟩,
   ⟨"evdotphausia", 0x10000160, 0xfc0007ff, 0x100000000000, 0x0, [86, 74, 81]⟩,
   ⟨"evdotphassia", 0x10000161, 0xfc0007ff, 0x100000000000, 0x0, [86, 74, 81]⟩,
   ⟨"evdotphasusia", 0x10000162, 0xfc0007ff, 0x100000000000, 0x0, [86, 74, 81]⟩,
   ⟨"evdotphassfa", 0x10000163, 0xfc0007ff, 0x100000000000, 0x0, [86, 74, 81]⟩,
   ⟨"evdotphsssfa", 0x10000167, 0xfc0007ff, 0x100000000000, 0x0, [86, 74, 81]⟩,
   ⟨"evdotphaumia", 0x10000168, 0xfc0007ff, 0x100000000000, 0x0, [86, 74, 81]⟩,
   ⟨"evdotphasmia", 0x10000169, 0xfc0007ff, 0x100000000000, 0x0, [86, 74, 81]⟩,
   ⟨"evdotphasumia", 0x1000016a, 0xfc0007ff, 0x100000000000, 0x0, [86, 74, 81]⟩,
   ⟨"evdotphassfra", 0x1000016b, 0xfc0007ff, 0x100000000000, 0x0, [86, 74, 81]⟩,
   ⟨"evdotphssmia", 0x1000016d, 0xfc0007ff, 0x100000000000, 0x0, [86, 74, 81]⟩,
   ⟨"evdotphsssfra", 0x1000016f, 0xfc0007ff, 0x100000000000, 0x0, [86, 74, 81]⟩,
   ⟨"evdotphausiaaw", 0x10000170, 0xfc0007ff, 0x100000000000, 0x0, [86, 74, 81]⟩,
   ⟨"evdotphassiaaw", 0x10000171, 0xfc0007ff, 0x100000000000, 0x0, [86, 74, 81]⟩,
   ⟨"evdotphasusiaaw", 0x10000172, 0xfc0007ff, 0x100000000000, 0x0, [86, 74, 81]⟩,
   ⟨"evdotphassfaaw", 0x10000173, 0xfc0007ff, 0x100000000000, 0x0, [86, 74, 81]⟩,
   ⟨"evdotphsssiaaw", 0x10000175, 0xfc0007ff, 0x100000000000, 0x0, [86, 74, 81]⟩,
   ⟨"evdotphsssfaaw", 0x10000177, 0xfc0007ff, 0x100000000000, 0x0, [86, 74, 81]⟩,
   ⟨"evdotphaumiaaw", 0x10000178, 0xfc0007ff, 0x100000000000, 0x0, [86, 74, 81]⟩,
   ⟨"evdotphasmiaaw", 0x10000179, 0xfc0007ff, 0x100000000000, 0x0, [86, 74, 81]⟩,
   ⟨"evdotphasumiaaw", 0x1000017a, 0xfc0007ff, 0x100000000000, 0x0, [86, 74, 81]⟩,
   ⟨"evdotphassfraaw", 0x1000017b, 0xfc0007ff, 0x100000000000, 0x0, [86, 74, 81]⟩,
   ⟨"evdotphssmiaaw", 0x1000017d, 0xfc0007ff, 0x100000000000, 0x0, [86, 74, 81]⟩,
   ⟨"evdotphsssfraaw", 0x1000017f, 0xfc0007ff, 0x100000000000, 0x0, [86, 74, 81]⟩,
   ⟨"evdotp4hgaumi", 0x10000180, 0xfc0007ff, 0x100000000000, 0x0, [86, 74, 81]⟩,
   ⟨"evdotp4hgasmi", 0x10000181, 0xfc0007ff, 0x100000000000, 0x0, [86, 74, 81]⟩,
   ⟨"evdotp4hgasumi", 0x10000182, 0xfc0007ff, 0x100000000000, 0x0, [86, 74, 81]⟩,
   ⟨"evdotp4hgasmf", 0x10000183, 0xfc0007ff, 0x100000000000, 0x0, [86, 74, 81]⟩,
   ⟨"evdotp4hgssmi", 0x10000184, 0xfc0007ff, 0x100000000000, 0x0, [86, 74, 81]⟩,
   ⟨"evdotp4hgssmf", 0x10000185, 0xfc0007ff, 0x100000000000, 0x0, [86, 74, 81]⟩,
   ⟨"evdotp4hxgasmi", 0x10000186, 0xfc0007ff, 0x100000000000, 0x0, [86, 74, 81]⟩,
   ⟨"evdotp4hxgasmf", 0x10000187, 0xfc0007ff, 0x100000000000, 0x0, [86, 74, 81]⟩,
   ⟨"evdotpbaumi", 0x10000188, 0xfc0007ff, 0x100000000000, 0x0, [86, 74, 81]⟩,
   ⟨"evdotpbasmi", 0x10000189, 0xfc0007ff, 0x100000000000, 0x0, [86, 74, 81]⟩,
   ⟨"evdotpbasumi", 0x1000018a, 0xfc0007ff, 0x100000000000, 0x0, [86, 74, 81]⟩,
   ⟨"evdotp4hxgssmi", 0x1000018e, 0xfc0007ff, 0x100000000000, 0x0, [86, 74, 81]⟩,
   ⟨"evdotp4hxgssmf", 0x1000018f, 0xfc0007ff, 0x100000000000, 0x0, [86, 74, 81]⟩,
   ⟨"evdotp4hgaumiaa3", 0x10000190, 0xfc0007ff, 0x100000000000, 0x0, [86, 74, 81]⟩,
   ⟨"evdotp4hgasmiaa3", 0x10000191, 0xfc0007ff, 0x100000000000, 0x0, [86, 74, 81]⟩,
   ⟨"evdotp4hgasumiaa3", 0x10000192, 0xfc0007ff, 0x100000000000, 0x0, [86, 74, 81]⟩,
   ⟨"evdotp4hgasmfaa3", 0x10000193, 0xfc0007ff, 0x100000000000, 0x0, [86, 74, 81]⟩,
   ⟨"evdotp4hgssmiaa3", 0x10000194, 0xfc0007ff, 0x100000000000, 0x0, [86, 74, 81]⟩,
   ⟨"evdotp4hgssmfaa3", 0x10000195, 0xfc0007ff, 0x100000000000, 0x0, [86, 74, 81]⟩,
   ⟨"evdotp4hxgasmiaa3", 0x10000196, 0xfc0007ff, 0x100000000000, 0x0, [86, 74, 81]⟩,
   ⟨"evdotp4hxgasmfaa3", 0x10000197, 0xfc0007ff, 0x100000000000, 0x0, [86, 74, 81]⟩,
   ⟨"evdotpbaumiaaw3", 0x10000198, 0xfc0007ff, 0x100000000000, 0x0, [86, 74, 81]⟩,
   ⟨"evdotpbasmiaaw3", 0x10000199, 0xfc0007ff, 0x100000000000, 0x0, [86, 74, 81]⟩,
   ⟨"evdotpbasumiaaw3", 0x1000019a, 0xfc0007ff, 0x100000000000, 0x0, [86, 74, 81]⟩,
   ⟨"evdotp4hxgssmiaa3", 0x1000019e, 0xfc0007ff, 0x100000000000, 0x0, [86, 74, 81]⟩,
   ⟨"evdotp4hxgssmfaa3", 0x1000019f, 0xfc0007ff, 0x100000000000, 0x0, [86, 74, 81]⟩,
   ⟨"evdotp4hgaumia", 0x100001a0, 0xfc0007ff, 0x100000000000, 0x0, [86, 74, 81]⟩,
   ⟨"evdotp4hgasmia", 0x100001a1, 0xfc0007ff, 0x100000000000, 0x0, [86, 74, 81]⟩,
   ⟨"evdotp4hgasumia", 0x100001a2, 0xfc0007ff, 0x100000000000, 0x0, [86, 74, 81]⟩,
   ⟨"evdotp4hgasmfa", 0x100001a3, 0xfc0007ff, 0x100000000000, 0x0, [86, 74, 81]⟩,
   ⟨"evdotp4hgssmia", 0x100001a4, 0xfc0007ff, 0x100000000000, 0x0, [86, 74, 81]⟩,
   ⟨"evdotp4hgssmfa", 0x100001a5, 0xfc0007ff, 0x100000000000, 0x0, [86, 74, 81]⟩,
   ⟨"evdotp4hxgasmia", 0x100001a6, 0xfc0007ff, 0x100000000000, 0x0, [86, 74, 81]⟩,
   ⟨"evdotp4hxgasmfa", 0x100001a7, 0xfc0007ff, 0x100000000000, 0x0, [86, 74, 81]⟩,
   ⟨"evdotpbaumia", 0x100001a8, 0xfc0007ff, 0x100000000000, 0x0, [86, 74, 81]⟩,
   ⟨"evdotpbasmia", 0x100001a9, 0xfc0007ff, 0x100000000000, 0x0, [86, 74, 81]⟩,
   ⟨"evdotpbasumia", 0x100001aa, 0xfc0007ff, 0x100000000000, 0x0, [86, 74, 81]⟩,
   ⟨"evdotp4hxgssmia", 0x100001ae, 0xfc0007ff, 0x100000000000, 0x0, [86, 74, 81]⟩,
   ⟨"evdotp4hxgssmfa", 0x100001af, 0xfc0007ff, 0x100000000000, 0x0, [86, 74, 81]⟩,
   ⟨"evdotp4hgaumiaa", 0x100001b0, 0xfc0007ff, 0x100000000000, 0x0, [86, 74, 81]⟩,
   ⟨"evdotp4hgasmiaa", 0x100001b1, 0xfc0007ff, 0x100000000000, 0x0, [86, 74, 81]⟩,
   ⟨"evdotp4hgasumiaa", 0x100001b2, 0xfc0007ff, 0x100000000000, 0x0, [86, 74, 81]⟩,
   ⟨"evdotp4hgasmfaa", 0x100001b3, 0xfc0007ff, 0x100000000000, 0x0, [86, 74, 81]⟩,
   ⟨"evdotp4hgssmiaa", 0x100001b4, 0xfc0007ff, 0x100000000000, 0x0, [86, 74, 81]⟩,
   ⟨"evdotp4hgssmfaa", 0x100001b5, 0xfc0007ff, 0x100000000000, 0x0, [86, 74, 81]⟩,
   ⟨"evdotp4hxgasmiaa", 0x100001b6, 0xfc0007ff, 0x100000000000, 0x0, [86, 74, 81]⟩,
   ⟨"evdotp4hxgasmfaa", 0x100001b7, 0xfc0007ff, 0x100000000000, 0x0, [86, 74, 81]⟩,
   ⟨"evdotpbaumiaaw", 0x100001b8, 0xfc0007ff, 0x100000000000, 0x0, [86, 74, 81]⟩,
   ⟨"evdotpbasmiaaw", 0x100001b9, 0xfc0007ff, 0x100000000000, 0x0, [86, 74, 81]⟩,
   ⟨"evdotpbasumiaaw", 0x100001ba, 0xfc0007ff, 0x100000000000, 0x0, [86, 74, 81]⟩,
   ⟨"evdotp4hxgssmiaa", 0x100001be, 0xfc0007ff, 0x100000000000, 0x0, [86, 74, 81]⟩,
   ⟨"evdotp4hxgssmfaa", 0x100001bf, 0xfc0007ff, 0x100000000000, 0x0, [86, 74, 81]⟩,
   ⟨"evdotpwausi", 0x100001c0, 0xfc0007ff, 0x100000000000, 0x0, [86, 74, 81]⟩,
   ⟨"evdotpwassi", 0x100001c1, 0xfc0007ff, 0x100000000000, 0x0, [86, 74, 81]⟩,
   ⟨"evdotpwasusi", 0x100001c2, 0xfc0007ff, 0x100000000000, 0x0, [86, 74, 81]⟩,
   ⟨"evdotpwaumi", 0x100001c8, 0xfc0007ff, 0x100000000000, 0x0, [86, 74, 81]⟩,
   ⟨"evdotpwasmi", 0x100001c9, 0xfc0007ff, 0x100000000000, 0x0, [86, 74, 81]⟩,
   ⟨"evdotpwasumi", 0x100001ca, 0xfc0007ff, 0x100000000000, 0x0, [86, 74, 81]⟩,
   ⟨"evdotpwssmi", 0x100001cd, 0xfc0007ff, 0x100000000000, 0x0, [86, 74, 81]⟩,
   ⟨"evdotpwausiaa3", 0x100001d0, 0xfc0007ff, 0x100000000000, 0x0, [86, 74, 81]⟩,
   ⟨"evdotpwassiaa3", 0x100001d1, 0xfc0007ff, 0x100000000000, 0x0, [86, 74, 81]⟩,
   ⟨"evdotpwasusiaa3", 0x100001d2, 0xfc0007ff, 0x100000000000, 0x0, [86, 74, 81]⟩,
   ⟨"evdotpwsssiaa3", 0x100001d5, 0xfc0007ff, 0x100000000000, 0x0, [86, 74, 81]⟩,
   ⟨"evdotpwaumiaa3", 0x100001d8, 0xfc0007ff, 0x100000000000, 0x0, [86, 74, 81]⟩,
   ⟨"evdotpwasmiaa3", 0x100001d9, 0xfc0007ff, 0x100000000000, 0x0, [86, 74, 81]⟩,
   ⟨"evdotpwasumiaa3", 0x100001da, 0xfc0007ff, 0x100000000000, 0x0, [86, 74, 81]⟩,
   ⟨"evdotpwssmiaa3", 0x100001dd, 0xfc0007ff, 0x100000000000, 0x0, [86, 74, 81]⟩,
   ⟨"evdotpwausia", 0x100001e0, 0xfc0007ff, 0x100000000000, 0x0, [86, 74, 81]⟩,
   ⟨"evdotpwassia", 0x100001e1, 0xfc0007ff, 0x100000000000, 0x0, [86, 74, 81]⟩,
   ⟨"evdotpwasusia", 0x100001e2, 0xfc0007ff, 0x100000000000, 0x0, [86, 74, 81]⟩,
   ⟨"evdotpwaumia", 0x100001e8, 0xfc0007ff, 0x100000000000, 0x0, [86, 74, 81]⟩,
   ⟨"evdotpwasmia", 0x100001e9, 0xfc0007ff, 0x100000000000, 0x0, [86, 74, 81]⟩,
   ⟨"evdotpwasumia", 0x100001ea, 0xfc0007ff, 0x100000000000, 0x0, [86, 74, 81]⟩,
   ⟨"evdotpwssmia", 0x100001ed, 0xfc0007ff, 0x100000000000, 0x0, [86, 74, 81]⟩]

/-- ppc-opc.c:8815-8914. -/
def spe22 : List Opcode :=
  [⟨"evdotpwausiaa", 0x100001f0, 0xfc0007ff, 0x100000000000, 0x0, [86, 74, 81]⟩,
   ⟨"evdotpwassiaa", 0x100001f1, 0xfc0007ff, 0x100000000000, 0x0, [86, 74, 81]⟩,
   ⟨"evdotpwasusiaa", 0x100001f2, 0xfc0007ff, 0x100000000000, 0x0, [86, 74, 81]⟩,
   ⟨"evdotpwsssiaa", 0x100001f5, 0xfc0007ff, 0x100000000000, 0x0, [86, 74, 81]⟩,
   ⟨"evdotpwaumiaa", 0x100001f8, 0xfc0007ff, 0x100000000000, 0x0, [86, 74, 81]⟩,
   ⟨"evdotpwasmiaa", 0x100001f9, 0xfc0007ff, 0x100000000000, 0x0, [86, 74, 81]⟩,
   ⟨"evdotpwasumiaa", 0x100001fa, 0xfc0007ff, 0x100000000000, 0x0, [86, 74, 81]⟩,
   ⟨"evdotpwssmiaa", 0x100001fd, 0xfc0007ff, 0x100000000000, 0x0, [86, 74, 81]⟩,
   ⟨"evaddib", 0x10000203, 0xfc0007ff, 0x100000000000, 0x0, [86, 81, 128]⟩,
   ⟨"evaddih", 0x10000201, 0xfc0007ff, 0x100000000000, 0x0, [86, 81, 128]⟩,
   ⟨"evsubifh", 0x10000205, 0xfc0007ff, 0x100000000000, 0x0, [86, 128, 81]⟩,
   ⟨"evsubifb", 0x10000207, 0xfc0007ff, 0x100000000000, 0x0, [86, 128, 81]⟩,
   ⟨"evabsb", 0x10001208, 0xfc00ffff, 0x100000000000, 0x0, [86, 74]⟩,
   ⟨"evabsh", 0x10002208, 0xfc00ffff, 0x100000000000, 0x0, [86, 74]⟩,
   ⟨"evabsd", 0x10003208, 0xfc00ffff, 0x100000000000, 0x0, [86, 74]⟩,
   ⟨"evabss", 0x10004208, 0xfc00ffff, 0x100000000000, 0x0, [86, 74]⟩,
   ⟨"evabsbs", 0x10005208, 0xfc00ffff, 0x100000000000, 0x0, [86, 74]⟩,
   ⟨"evabshs", 0x10006208, 0xfc00ffff, 0x100000000000, 0x0, [86, 74]⟩,
   ⟨"evabsds", 0x10007208, 0xfc00ffff, 0x100000000000, 0x0, [86, 74]⟩,
   ⟨"evnegwo", 0x10000a09, 0xfc00ffff, 0x100000000000, 0x0, [86, 74]⟩,
   ⟨"evnegb", 0x10001209, 0xfc00ffff, 0x100000000000, 0x0, [86, 74]⟩,
   ⟨"evnegbo", 0x10001a09, 0xfc00ffff, 0x100000000000, 0x0, [86, 74]⟩,
   ⟨"evnegh", 0x10002209, 0xfc00ffff, 0x100000000000, 0x0, [86, 74]⟩,
   ⟨"evnegho", 0x10002a09, 0xfc00ffff, 0x100000000000, 0x0, [86, 74]⟩,
   ⟨"evnegd", 0x10003209, 0xfc00ffff, 0x100000000000, 0x0, [86, 74]⟩,
   ⟨"evnegs", 0x10004209, 0xfc00ffff, 0x100000000000, 0x0, [86, 74]⟩,
   ⟨"evnegwos", 0x10004a09, 0xfc00ffff, 0x100000000000, 0x0, [86, 74]⟩,
   ⟨"evnegbs", 0x10005209, 0xfc00ffff, 0x100000000000, 0x0, [86, 74]⟩,
   ⟨"evnegbos", 0x10005a09, 0xfc00ffff, 0x100000000000, 0x0, [86, 74]⟩,
   ⟨"evneghs", 0x10006209, 0xfc00ffff, 0x100000000000, 0x0, [86, 74]⟩,
   ⟨"evneghos", 0x10006a09, 0xfc00ffff, 0x100000000000, 0x0, [86, 74]⟩,
   ⟨"evnegds", 0x10007209, 0xfc00ffff, 0x100000000000, 0x0, [86, 74]⟩,
   ⟨"evextzb", 0x10000a0a, 0xfc00ffff, 0x100000000000, 0x0, [86, 74]⟩,
   ⟨"evextsbh", 0x1000220a, 0xfc00ffff, 0x100000000000, 0x0, [86, 74]⟩,
   ⟨"evextsw", 0x1000320b, 0xfc00ffff, 0x100000000000, 0x0, [86, 74]⟩,
   ⟨"evrndwh", 0x1000020c, 0xfc00ffff, 0x100000000000, 0x0, [86, 74]⟩,
   ⟨"evrndhb", 0x1000220c, 0xfc00ffff, 0x100000000000, 0x0, [86, 74]⟩,
   ⟨"evrnddw", 0x1000320c, 0xfc00ffff, 0x100000000000, 0x0, [86, 74]⟩,
   ⟨"evrndwhus", 0x1000420c, 0xfc00ffff, 0x100000000000, 0x0, [86, 74]⟩,
   ⟨"evrndwhss", 0x10004a0c, 0xfc00ffff, 0x100000000000, 0x0, [86, 74]⟩,
   ⟨"evrndhbus", 0x1000620c, 0xfc00ffff, 0x100000000000, 0x0, [86, 74]⟩,
   ⟨"evrndhbss", 0x10006a0c, 0xfc00ffff, 0x100000000000, 0x0, [86, 74]⟩,
   ⟨"evrnddwus", 0x1000720c, 0xfc00ffff, 0x100000000000, 0x0, [86, 74]⟩,
   ⟨"evrnddwss", 0x10007a0c, 0xfc00ffff, 0x100000000000, 0x0, [86, 74]⟩,
   ⟨"evrndwnh", 0x1000820c, 0xfc00ffff, 0x100000000000, 0x0, [86, 74]⟩,
   ⟨"evrndhnb", 0x1000a20c, 0xfc00ffff, 0x100000000000, 0x0, [86, 74]⟩,
   ⟨"evrnddnw", 0x1000b20c, 0xfc00ffff, 0x100000000000, 0x0, [86, 74]⟩,
   ⟨"evrndwnhus", 0x1000c20c, 0xfc00ffff, 0x100000000000, 0x0, [86, 74]⟩,
   ⟨"evrndwnhss", 0x1000ca0c, 0xfc00ffff, 0x100000000000, 0x0, [86, 74]⟩,
   ⟨"evrndhnbus", 0x1000e20c, 0xfc00ffff, 0x100000000000, 0x0, [86, 74]⟩,
   ⟨"evrndhnbss", 0x1000ea0c, 0xfc00ffff, 0x100000000000, 0x0, [86, 74]⟩,
   ⟨"evrnddnwus", 0x1000f20c, 0xfc00ffff, 0x100000000000, 0x0, [86, 74]⟩,
   ⟨"evrnddnwss", 0x1000fa0c, 0xfc00ffff, 0x100000000000, 0x0, [86, 74]⟩,
   ⟨"evcntlzh", 0x1000220d, 0xfc00ffff, 0x100000000000, 0x0, [86, 74]⟩,
   ⟨"evcntlsh", 0x1000220e, 0xfc00ffff, 0x100000000000, 0x0, [86, 74]⟩,
   ⟨"evpopcntb", 0x1000d20e, 0xfc00ffff, 0x100000000000, 0x0, [86, 74]⟩,
   ⟨"circinc", 0x10000210, 0xfc0007ff, 0x100000000000, 0x0, [86, 74, 81]⟩,
   ⟨"evunpkhibui", 0x1000021c, 0xfc00ffff, 0x100000000000, 0x0, [86, 74]⟩,
   ⟨"evunpkhibsi", 0x10000a1c, 0xfc00ffff, 0x100000000000, 0x0, [86, 74]⟩,
   ⟨"evunpkhihui", 0x1000121c, 0xfc00ffff, 0x100000000000, 0x0, [86, 74]⟩,
   ⟨"evunpkhihsi", 0x10001a1c, 0xfc00ffff, 0x100000000000, 0x0, [86, 74]⟩,
   ⟨"evunpklobui", 0x1000221c, 0xfc00ffff, 0x100000000000, 0x0, [86, 74]⟩,
   ⟨"evunpklobsi", 0x10002a1c, 0xfc00ffff, 0x100000000000, 0x0, [86, 74]⟩,
   ⟨"evunpklohui", 0x1000321c, 0xfc00ffff, 0x100000000000, 0x0, [86, 74]⟩,
   ⟨"evunpklohsi", 0x10003a1c, 0xfc00ffff, 0x100000000000, 0x0, [86, 74]⟩,
   ⟨"evunpklohf", 0x1000421c, 0xfc00ffff, 0x100000000000, 0x0, [86, 74]⟩,
   ⟨"evunpkhihf", 0x10004a1c, 0xfc00ffff, 0x100000000000, 0x0, [86, 74]⟩,
   ⟨"evunpklowgsf", 0x1000621c, 0xfc00ffff, 0x100000000000, 0x0, [86, 74]⟩,
   ⟨"evunpkhiwgsf", 0x10006a1c, 0xfc00ffff, 0x100000000000, 0x0, [86, 74]⟩,
   ⟨"evsatsduw", 0x1000821c, 0xfc00ffff, 0x100000000000, 0x0, [86, 74]⟩,
   ⟨"evsatsdsw", 0x10008a1c, 0xfc00ffff, 0x100000000000, 0x0, [86, 74]⟩,
   ⟨"evsatshub", 0x1000921c, 0xfc00ffff, 0x100000000000, 0x0, [86, 74]⟩,
   ⟨"evsatshsb", 0x10009a1c, 0xfc00ffff, 0x100000000000, 0x0, [86, 74]⟩,
   ⟨"evsatuwuh", 0x1000a21c, 0xfc00ffff, 0x100000000000, 0x0, [86, 74]⟩,
   ⟨"evsatswsh", 0x1000aa1c, 0xfc00ffff, 0x100000000000, 0x0, [86, 74]⟩,
   ⟨"evsatswuh", 0x1000b21c, 0xfc00ffff, 0x100000000000, 0x0, [86, 74]⟩,
   ⟨"evsatuhub", 0x1000ba1c, 0xfc00ffff, 0x100000000000, 0x0, [86, 74]⟩,
   ⟨"evsatuduw", 0x1000c21c, 0xfc00ffff, 0x100000000000, 0x0, [86, 74]⟩,
   ⟨"evsatuwsw", 0x1000ca1c, 0xfc00ffff, 0x100000000000, 0x0, [86, 74]⟩,
   ⟨"evsatshuh", 0x1000d21c, 0xfc00ffff, 0x100000000000, 0x0, [86, 74]⟩,
   ⟨"evsatuhsh", 0x1000da1c, 0xfc00ffff, 0x100000000000, 0x0, [86, 74]⟩,
   ⟨"evsatswuw", 0x1000e21c, 0xfc00ffff, 0x100000000000, 0x0, [86, 74]⟩,
   ⟨"evsatswgsdf", 0x1000ea1c, 0xfc00ffff, 0x100000000000, 0x0, [86, 74]⟩,
   ⟨"evsatsbub", 0x1000f21c, 0xfc00ffff, 0x100000000000, 0x0, [86, 74]⟩,
   ⟨"evsatubsb", 0x1000fa1c, 0xfc00ffff, 0x100000000000, 0x0, [86, 74]⟩,
   ⟨"evmaxhpuw", 0x1000021d, 0xfc00ffff, 0x100000000000, 0x0, [86, 74]⟩,
   ⟨"evmaxhpsw", 0x10000a1d, 0xfc00ffff, 0x100000000000, 0x0, [86, 74]⟩,
   ⟨"evmaxbpuh", 0x1000221d, 0xfc00ffff, 0x100000000000, 0x0, [86, 74]⟩,
   ⟨"evmaxbpsh", 0x10002a1d, 0xfc00ffff, 0x100000000000, 0x0, [86, 74]⟩,
   ⟨"evmaxwpud", 0x1000321d, 0xfc00ffff, 0x100000000000, 0x0, [86, 74]⟩,
   ⟨"evmaxwpsd", 0x10003a1d, 0xfc00ffff, 0x100000000000, 0x0, [86, 74]⟩,
   ⟨"evminhpuw", 0x1000421d, 0xfc00ffff, 0x100000000000, 0x0, [86, 74]⟩,
   ⟨"evminhpsw", 0x10004a1d, 0xfc00ffff, 0x100000000000, 0x0, [86, 74]⟩,
   ⟨"evminbpuh", 0x1000621d, 0xfc00ffff, 0x100000000000, 0x0, [86, 74]⟩,
   ⟨"evminbpsh", 0x10006a1d, 0xfc00ffff, 0x100000000000, 0x0, [86, 74]⟩,
   ⟨"evminwpud", 0x1000721d, 0xfc00ffff, 0x100000000000, 0x0, [86, 74]⟩,
   ⟨"evminwpsd", 0x10007a1d, 0xfc00ffff, 0x100000000000, 0x0, [86, 74]⟩,
   ⟨"evmaxmagws", 0x1000021f, 0xfc0007ff, 0x100000000000, 0x0, [86, 74, 81]⟩,
   ⟨"evsl", 0x10000225, 0xfc0007ff, 0x100000000000, 0x0, [86, 74, 81]⟩,
   ⟨"evsli", 0x10000227, 0xfc0007ff, 0x100000000000, 0x0, [86, 74, 99]⟩]

/-- ppc-opc.c:8915-9014. -/
def spe23 : List Opcode :=
  [⟨"evsplatie", 0x10000a29, 0xfc00ffff, 0x100000000000, 0x0, [86, 127]⟩,
   ⟨"evsplatib", 0x10001229, 0xfc00ffff, 0x100000000000, 0x0, [86, 127]⟩,
   ⟨"evsplatibe", 0x10001a29, 0xfc00ffff, 0x100000000000, 0x0, [86, 127]⟩,
   ⟨"evsplatih", 0x10002229, 0xfc00ffff, 0x100000000000, 0x0, [86, 127]⟩,
   ⟨"evsplatihe", 0x10002a29, 0xfc00ffff, 0x100000000000, 0x0, [86, 127]⟩,
   ⟨"evsplatid", 0x10003229, 0xfc00ffff, 0x100000000000, 0x0, [86, 127]⟩,
   ⟨"evsplatia", 0x10008229, 0xfc00ffff, 0x100000000000, 0x0, [86, 127]⟩,
   ⟨"evsplatiea", 0x10008a29, 0xfc00ffff, 0x100000000000, 0x0, [86, 127]⟩,
   ⟨"evsplatiba", 0x10009229, 0xfc00ffff, 0x100000000000, 0x0, [86, 127]⟩,
   ⟨"evsplatibea", 0x10009a29, 0xfc00ffff, 0x100000000000, 0x0, [86, 127]⟩,
   ⟨"evsplatiha", 0x1000a229, 0xfc00ffff, 0x100000000000, 0x0, [86, 127]⟩,
   ⟨"evsplatihea", 0x1000aa29, 0xfc00ffff, 0x100000000000, 0x0, [86, 127]⟩,
   ⟨"evsplatida", 0x1000b229, 0xfc00ffff, 0x100000000000, 0x0, [86, 127]⟩,
   ⟨"evsplatfio", 0x10000a2b, 0xfc00ffff, 0x100000000000, 0x0, [86, 127]⟩,
   ⟨"evsplatfib", 0x1000122b, 0xfc00ffff, 0x100000000000, 0x0, [86, 127]⟩,
   ⟨"evsplatfibo", 0x10001a2b, 0xfc00ffff, 0x100000000000, 0x0, [86, 127]⟩,
   ⟨"evsplatfih", 0x1000222b, 0xfc00ffff, 0x100000000000, 0x0, [86, 127]⟩,
   ⟨"evsplatfiho", 0x10002a2b, 0xfc00ffff, 0x100000000000, 0x0, [86, 127]⟩,
   ⟨"evsplatfid", 0x1000322b, 0xfc00ffff, 0x100000000000, 0x0, [86, 127]⟩,
   ⟨"evsplatfia", 0x1000822b, 0xfc00ffff, 0x100000000000, 0x0, [86, 127]⟩,
   ⟨"evsplatfioa", 0x10008a2b, 0xfc00ffff, 0x100000000000, 0x0, [86, 127]⟩,
   ⟨"evsplatfiba", 0x1000922b, 0xfc00ffff, 0x100000000000, 0x0, [86, 127]⟩,
   ⟨"evsplatfiboa", 0x10009a2b, 0xfc00ffff, 0x100000000000, 0x0, [86, 127]⟩,
   ⟨"evsplatfiha", 0x1000a22b, 0xfc00ffff, 0x100000000000, 0x0, [86, 127]⟩,
   ⟨"evsplatfihoa", 0x1000aa2b, 0xfc00ffff, 0x100000000000, 0x0, [86, 127]⟩,
   ⟨"evsplatfida", 0x1000b22b, 0xfc00ffff, 0x100000000000, 0x0, [86, 127]⟩,
   ⟨"evcmpgtdu", 0x10200230, 0xfc6007ff, 0x100000000000, 0x0, [13, 74, 81]⟩,
   ⟨"evcmpgtds", 0x10200231, 0xfc6007ff, 0x100000000000, 0x0, [13, 74, 81]⟩,
   ⟨"evcmpltdu", 0x10200232, 0xfc6007ff, 0x100000000000, 0x0, [13, 74, 81]⟩,
   ⟨"evcmpltds", 0x10200233, 0xfc6007ff, 0x100000000000, 0x0, [13, 74, 81]⟩,
   ⟨"evcmpeqd", 0x10200234, 0xfc6007ff, 0x100000000000, 0x0, [13, 74, 81]⟩,
   ⟨"evswapbhilo", 0x10000238, 0xfc0007ff, 0x100000000000, 0x0, [86, 74, 81]⟩,
   ⟨"evswapblohi", 0x10000239, 0xfc0007ff, 0x100000000000, 0x0, [86, 74, 81]⟩,
   ⟨"evswaphhilo", 0x1000023a, 0xfc0007ff, 0x100000000000, 0x0, [86, 74, 81]⟩,
   ⟨"evswaphlohi", 0x1000023b, 0xfc0007ff, 0x100000000000, 0x0, [86, 74, 81]⟩,
   ⟨"evswaphe", 0x1000023c, 0xfc0007ff, 0x100000000000, 0x0, [86, 74, 81]⟩,
   ⟨"evswaphhi", 0x1000023d, 0xfc0007ff, 0x100000000000, 0x0, [86, 74, 81]⟩,
   ⟨"evswaphlo", 0x1000023e, 0xfc0007ff, 0x100000000000, 0x0, [86, 74, 81]⟩,
   ⟨"evswapho", 0x1000023f, 0xfc0007ff, 0x100000000000, 0x0, [86, 74, 81]⟩,
   ⟨"evinsb", 0x10000248, 0xfc0007fe, 0x100000000000, 0x0, [86, 74, 183, 182]⟩,
   ⟨"evxtrb", 0x1000024a, 0xfc0007fe, 0x100000000000, 0x0, [86, 74, 183, 182]⟩,
   ⟨"evsplath", 0x1000024c, 0xfc009fff, 0x100000000000, 0x0, [86, 74, 184]⟩,
   ⟨"evsplatb", 0x1000124c, 0xfc001fff, 0x100000000000, 0x0, [86, 74, 182]⟩,
   ⟨"evinsh", 0x1000024d, 0xfc0087ff, 0x100000000000, 0x0, [86, 74, 19, 184]⟩,
   ⟨"evclrbe", 0x1000024e, 0xfc0087ff, 0x100000000000, 0x0, [86, 74, 131]⟩,
   ⟨"evclrbo", 0x1000824e, 0xfc0087ff, 0x100000000000, 0x0, [86, 74, 131]⟩,
   ⟨"evclrh", 0x1000824f, 0xfc0087ff, 0x100000000000, 0x0, [86, 74, 131]⟩,
   ⟨"evxtrh", 0x1000024f, 0xfc0087ff, 0x100000000000, 0x0, [86, 74, 19, 184]⟩,
   ⟨"evselbitm0", 0x10000250, 0xfc0007ff, 0x100000000000, 0x0, [86, 74, 81]⟩,
   ⟨"evselbitm1", 0x10000251, 0xfc0007ff, 0x100000000000, 0x0, [86, 74, 81]⟩,
   ⟨"evselbit", 0x10000252, 0xfc0007ff, 0x100000000000, 0x0, [86, 74, 81]⟩,
   ⟨"evperm", 0x10000254, 0xfc0007ff, 0x100000000000, 0x0, [86, 74, 81]⟩,
   ⟨"evperm2", 0x10000255, 0xfc0007ff, 0x100000000000, 0x0, [86, 74, 81]⟩,
   ⟨"evperm3", 0x10000256, 0xfc0007ff, 0x100000000000, 0x0, [86, 74, 81]⟩,
   ⟨"evxtrd", 0x10000258, 0xfc0007f8, 0x100000000000, 0x0, [86, 74, 81, 181]⟩,
   ⟨"evsrbu", 0x10000260, 0xfc0007ff, 0x100000000000, 0x0, [86, 74, 81]⟩,
   ⟨"evsrbs", 0x10000261, 0xfc0007ff, 0x100000000000, 0x0, [86, 74, 81]⟩,
   ⟨"evsrbiu", 0x10000262, 0xfc0007ff, 0x100000000000, 0x0, [86, 74, 100]⟩,
   ⟨"evsrbis", 0x10000263, 0xfc0007ff, 0x100000000000, 0x0, [86, 74, 100]⟩,
   ⟨"evslb", 0x10000264, 0xfc0007ff, 0x100000000000, 0x0, [86, 74, 81]⟩,
   ⟨"evrlb", 0x10000265, 0xfc0007ff, 0x100000000000, 0x0, [86, 74, 81]⟩,
   ⟨"evslbi", 0x10000266, 0xfc0007ff, 0x100000000000, 0x0, [86, 74, 100]⟩,
   ⟨"evrlbi", 0x10000267, 0xfc0007ff, 0x100000000000, 0x0, [86, 74, 100]⟩,
   ⟨"evsrhu", 0x10000268, 0xfc0007ff, 0x100000000000, 0x0, [86, 74, 81]⟩,
   ⟨"evsrhs", 0x10000269, 0xfc0007ff, 0x100000000000, 0x0, [86, 74, 81]⟩,
   ⟨"evsrhiu", 0x1000026a, 0xfc0007ff, 0x100000000000, 0x0, [86, 74, 101]⟩,
   ⟨"evsrhis", 0x1000026b, 0xfc0007ff, 0x100000000000, 0x0, [86, 74, 101]⟩,
   ⟨"evslh", 0x1000026c, 0xfc0007ff, 0x100000000000, 0x0, [86, 74, 81]⟩,
   ⟨"evrlh", 0x1000026d, 0xfc0007ff, 0x100000000000, 0x0, [86, 74, 81]⟩,
   ⟨"evslhi", 0x1000026e, 0xfc0007ff, 0x100000000000, 0x0, [86, 74, 101]⟩,
   ⟨"evrlhi", 0x1000026f, 0xfc0007ff, 0x100000000000, 0x0, [86, 74, 101]⟩,
   ⟨"evsru", 0x10000270, 0xfc0007ff, 0x100000000000, 0x0, [86, 74, 81]⟩,
   ⟨"evsrs", 0x10000271, 0xfc0007ff, 0x100000000000, 0x0, [86, 74, 81]⟩,
   ⟨"evsriu", 0x10000272, 0xfc0007ff, 0x100000000000, 0x0, [86, 74, 99]⟩,
   ⟨"evsris", 0x10000273, 0xfc0007ff, 0x100000000000, 0x0, [86, 74, 99]⟩,
   ⟨"evlvsl", 0x10000274, 0xfc0007ff, 0x100000000000, 0x0, [86, 74, 81]⟩,
   ⟨"evlvsr", 0x10000275, 0xfc0007ff, 0x100000000000, 0x0, [86, 74, 81]⟩,
   ⟨"evsroiu", 0x10000277, 0xfc00c7ff, 0x100000000000, 0x0, [86, 74, 142]⟩,
   ⟨"evsrois", 0x10004277, 0xfc00c7ff, 0x100000000000, 0x0, [86, 74, 142]⟩,
   ⟨"evsloi", 0x10008277, 0xfc00c7ff, 0x100000000000, 0x0, [86, 74, 142]⟩,
   ⟨"evldbx", 0x10000306, 0xfc0007ff, 0x100000000000, 0x0, [86, 74, 81]⟩,
   ⟨"evldb", 0x10000307, 0xfc0007ff, 0x100000000000, 0x0, [86, 140, 74]⟩,
   ⟨"evlhhsplathx", 0x1000030a, 0xfc0007ff, 0x100000000000, 0x0, [86, 74, 81]⟩,
   ⟨"evlhhsplath", 0x1000030b, 0xfc0007ff, 0x100000000000, 0x0, [86, 136, 74]⟩,
   ⟨"evlwbsplatwx", 0x10000312, 0xfc0007ff, 0x100000000000, 0x0, [86, 74, 81]⟩,
   ⟨"evlwbsplatw", 0x10000313, 0xfc0007ff, 0x100000000000, 0x0, [86, 138, 74]⟩,
   ⟨"evlwhsplatwx", 0x1000031a, 0xfc0007ff, 0x100000000000, 0x0, [86, 74, 81]⟩,
   ⟨"evlwhsplatw", 0x1000031b, 0xfc0007ff, 0x100000000000, 0x0, [86, 138, 74]⟩,
   ⟨"evlbbsplatbx", 0x1000031e, 0xfc0007ff, 0x100000000000, 0x0, [86, 74, 81]⟩,
   ⟨"evlbbsplatb", 0x1000031f, 0xfc0007ff, 0x100000000000, 0x0, [86, 134, 74]⟩,
   ⟨"evstdbx", 0x10000326, 0xfc0007ff, 0x100000000000, 0x0, [86, 74, 81]⟩,
   ⟨"evstdb", 0x10000327, 0xfc0007ff, 0x100000000000, 0x0, [86, 140, 74]⟩,
   ⟨"evlwbex", 0x1000032a, 0xfc0007ff, 0x100000000000, 0x0, [86, 74, 81]⟩,
   ⟨"evlwbe", 0x1000032b, 0xfc0007ff, 0x100000000000, 0x0, [86, 138, 74]⟩,
   ⟨"evlwboux", 0x1000032c, 0xfc0007ff, 0x100000000000, 0x0, [86, 74, 81]⟩,
   ⟨"evlwbou", 0x1000032d, 0xfc0007ff, 0x100000000000, 0x0, [86, 138, 74]⟩,
   ⟨"evlwbosx", 0x1000032e, 0xfc0007ff, 0x100000000000, 0x0, [86, 74, 81]⟩,
   ⟨"evlwbos", 0x1000032f, 0xfc0007ff, 0x100000000000, 0x0, [86, 138, 74]⟩,
   ⟨"evstwbex", 0x10000332, 0xfc0007ff, 0x100000000000, 0x0, [86, 74, 81]⟩,
   ⟨"evstwbe", 0x10000333, 0xfc0007ff, 0x100000000000, 0x0, [86, 138, 74]⟩]

/-- ppc-opc.c:9015-9114. -/
def spe24 : List Opcode :=
  [⟨"evstwbox", 0x10000336, 0xfc0007ff, 0x100000000000, 0x0, [86, 74, 81]⟩,
   ⟨"evstwbo", 0x10000337, 0xfc0007ff, 0x100000000000, 0x0, [86, 138, 74]⟩,
   ⟨"evstwbx", 0x1000033a, 0xfc0007ff, 0x100000000000, 0x0, [86, 74, 81]⟩,
   ⟨"evstwb", 0x1000033b, 0xfc0007ff, 0x100000000000, 0x0, [86, 138, 74]⟩,
   ⟨"evsthbx", 0x1000033e, 0xfc0007ff, 0x100000000000, 0x0, [86, 74, 81]⟩,
   ⟨"evsthb", 0x1000033f, 0xfc0007ff, 0x100000000000, 0x0, [86, 136, 74]⟩,
   ⟨"evlddmx", 0x10000340, 0xfc0007ff, 0x100000000000, 0x0, [86, 74, 81]⟩,
   ⟨"evlddu", 0x10000341, 0xfc0007ff, 0x100000000000, 0x0, [86, 141, 74]⟩,
   ⟨"evldwmx", 0x10000342, 0xfc0007ff, 0x100000000000, 0x0, [86, 74, 81]⟩,
   ⟨"evldwu", 0x10000343, 0xfc0007ff, 0x100000000000, 0x0, [86, 141, 74]⟩,
   ⟨"evldhmx", 0x10000344, 0xfc0007ff, 0x100000000000, 0x0, [86, 74, 81]⟩,
   ⟨"evldhu", 0x10000345, 0xfc0007ff, 0x100000000000, 0x0, [86, 141, 74]⟩,
   ⟨"evldbmx", 0x10000346, 0xfc0007ff, 0x100000000000, 0x0, [86, 74, 81]⟩,
   ⟨"evldbu", 0x10000347, 0xfc0007ff, 0x100000000000, 0x0, [86, 141, 74]⟩,
   ⟨"evlhhesplatmx", 0x10000348, 0xfc0007ff, 0x100000000000, 0x0, [86, 74, 81]⟩,
   ⟨"evlhhesplatu", 0x10000349, 0xfc0007ff, 0x100000000000, 0x0, [86, 137, 74]⟩,
   ⟨"evlhhsplathmx", 0x1000034a, 0xfc0007ff, 0x100000000000, 0x0, [86, 74, 81]⟩,
   ⟨"evlhhsplathu", 0x1000034b, 0xfc0007ff, 0x100000000000, 0x0, [86, 137, 74]⟩,
   ⟨"evlhhousplatmx", 0x1000034c, 0xfc0007ff, 0x100000000000, 0x0, [86, 74, 81]⟩,
   ⟨"evlhhousplatu", 0x1000034d, 0xfc0007ff, 0x100000000000, 0x0, [86, 137, 74]⟩,
   ⟨"evlhhossplatmx", 0x1000034e, 0xfc0007ff, 0x100000000000, 0x0, [86, 74, 81]⟩,
   ⟨"evlhhossplatu", 0x1000034f, 0xfc0007ff, 0x100000000000, 0x0, [86, 137, 74]⟩,
   ⟨"evlwhemx", 0x10000350, 0xfc0007ff, 0x100000000000, 0x0, [86, 74, 81]⟩,
   ⟨"evlwheu", 0x10000351, 0xfc0007ff, 0x100000000000, 0x0, [86, 139, 74]⟩,
   ⟨"evlwbsplatwmx", 0x10000352, 0xfc0007ff, 0x100000000000, 0x0, [86, 74, 81]⟩,
   ⟨"evlwbsplatwu", 0x10000353, 0xfc0007ff, 0x100000000000, 0x0, [86, 139, 74]⟩,
   ⟨"evlwhoumx", 0x10000354, 0xfc0007ff, 0x100000000000, 0x0, [86, 74, 81]⟩,
   ⟨"evlwhouu", 0x10000355, 0xfc0007ff, 0x100000000000, 0x0, [86, 139, 74]⟩,
   ⟨"evlwhosmx", 0x10000356, 0xfc0007ff, 0x100000000000, 0x0, [86, 74, 81]⟩,
   ⟨"evlwhosu", 0x10000357, 0xfc0007ff, 0x100000000000, 0x0, [86, 139, 74]⟩,
   ⟨"evlwwsplatmx", 0x10000358, 0xfc0007ff, 0x100000000000, 0x0, [86, 74, 81]⟩,
   ⟨"evlwwsplatu", 0x10000359, 0xfc0007ff, 0x100000000000, 0x0, [86, 139, 74]⟩,
   ⟨"evlwhsplatwmx", 0x1000035a, 0xfc0007ff, 0x100000000000, 0x0, [86, 74, 81]⟩,
   ⟨"evlwhsplatwu", 0x1000035b, 0xfc0007ff, 0x100000000000, 0x0, [86, 139, 74]⟩,
   ⟨"evlwhsplatmx", 0x1000035c, 0xfc0007ff, 0x100000000000, 0x0, [86, 74, 81]⟩,
   ⟨"evlwhsplatu", 0x1000035d, 0xfc0007ff, 0x100000000000, 0x0, [86, 139, 74]⟩,
   ⟨"evlbbsplatbmx", 0x1000035e, 0xfc0007ff, 0x100000000000, 0x0, [86, 74, 81]⟩,
   ⟨"evlbbsplatbu", 0x1000035f, 0xfc0007ff, 0x100000000000, 0x0, [86, 135, 74]⟩,
   ⟨"evstddmx", 0x10000360, 0xfc0007ff, 0x100000000000, 0x0, [86, 74, 81]⟩,
   ⟨"evstddu", 0x10000361, 0xfc0007ff, 0x100000000000, 0x0, [86, 141, 74]⟩,
   ⟨"evstdwmx", 0x10000362, 0xfc0007ff, 0x100000000000, 0x0, [86, 74, 81]⟩,
   ⟨"evstdwu", 0x10000363, 0xfc0007ff, 0x100000000000, 0x0, [86, 141, 74]⟩,
   ⟨"evstdhmx", 0x10000364, 0xfc0007ff, 0x100000000000, 0x0, [86, 74, 81]⟩,
   ⟨"evstdhu", 0x10000365, 0xfc0007ff, 0x100000000000, 0x0, [86, 141, 74]⟩,
   ⟨"evstdbmx", 0x10000366, 0xfc0007ff, 0x100000000000, 0x0, [86, 74, 81]⟩,
   ⟨"evstdbu", 0x10000367, 0xfc0007ff, 0x100000000000, 0x0, [86, 141, 74]⟩,
   ⟨"evlwbemx", 0x1000036a, 0xfc0007ff, 0x100000000000, 0x0, [86, 74, 81]⟩,
   ⟨"evlwbeu", 0x1000036b, 0xfc0007ff, 0x100000000000, 0x0, [86, 139, 74]⟩,
   ⟨"evlwboumx", 0x1000036c, 0xfc0007ff, 0x100000000000, 0x0, [86, 74, 81]⟩,
   ⟨"evlwbouu", 0x1000036d, 0xfc0007ff, 0x100000000000, 0x0, [86, 139, 74]⟩,
   ⟨"evlwbosmx", 0x1000036e, 0xfc0007ff, 0x100000000000, 0x0, [86, 74, 81]⟩,
   ⟨"evlwbosu", 0x1000036f, 0xfc0007ff, 0x100000000000, 0x0, [86, 139, 74]⟩,
   ⟨"evstwhemx", 0x10000370, 0xfc0007ff, 0x100000000000, 0x0, [86, 74, 81]⟩,
   ⟨"evstwheu", 0x10000371, 0xfc0007ff, 0x100000000000, 0x0, [86, 139, 74]⟩,
   ⟨"evstwbemx", 0x10000372, 0xfc0007ff, 0x100000000000, 0x0, [86, 74, 81]⟩,
   ⟨"evstwbeu", 0x10000373, 0xfc0007ff, 0x100000000000, 0x0, [86, 139, 74]⟩,
   ⟨"evstwhomx", 0x10000374, 0xfc0007ff, 0x100000000000, 0x0, [86, 74, 81]⟩,
   ⟨"evstwhou", 0x10000375, 0xfc0007ff, 0x100000000000, 0x0, [86, 139, 74]⟩,
   ⟨"evstwbomx", 0x10000376, 0xfc0007ff, 0x100000000000, 0x0, [86, 74, 81]⟩,
   ⟨"evstwbou", 0x10000377, 0xfc0007ff, 0x100000000000, 0x0, [86, 139, 74]⟩,
   ⟨"evstwwemx", 0x10000378, 0xfc0007ff, 0x100000000000, 0x0, [86, 74, 81]⟩,
   ⟨"evstwweu", 0x10000379, 0xfc0007ff, 0x100000000000, 0x0, [86, 139, 74]⟩,
   ⟨"evstwbmx", 0x1000037a, 0xfc0007ff, 0x100000000000, 0x0, [86, 74, 81]⟩,
   ⟨"evstwbu", 0x1000037b, 0xfc0007ff, 0x100000000000, 0x0, [86, 139, 74]⟩,
   ⟨"evstwwomx", 0x1000037c, 0xfc0007ff, 0x100000000000, 0x0, [86, 74, 81]⟩,
   ⟨"evstwwou", 0x1000037d, 0xfc0007ff, 0x100000000000, 0x0, [86, 139, 74]⟩,
   ⟨"evsthbmx", 0x1000037e, 0xfc0007ff, 0x100000000000, 0x0, [86, 74, 81]⟩,
   ⟨"evsthbu", 0x1000037f, 0xfc0007ff, 0x100000000000, 0x0, [86, 137, 74]⟩,
   ⟨"evmhusi", 0x10000400, 0xfc0007ff, 0x100000000000, 0x0, [86, 74, 81]⟩,
   ⟨"evmhssi", 0x10000401, 0xfc0007ff, 0x100000000000, 0x0, [86, 74, 81]⟩,
   ⟨"evmhsusi", 0x10000402, 0xfc0007ff, 0x100000000000, 0x0, [86, 74, 81]⟩,
   ⟨"evmhssf", 0x10000404, 0xfc0007ff, 0x100000000000, 0x0, [86, 74, 81]⟩,
   ⟨"evmhumi", 0x10000405, 0xfc0007ff, 0x100000000000, 0x0, [86, 74, 81]⟩,
   ⟨"evmhssfr", 0x10000406, 0xfc0007ff, 0x100000000000, 0x0, [86, 74, 81]⟩,
   ⟨"evmhesumi", 0x1000040a, 0xfc0007ff, 0x100000000000, 0x0, [86, 74, 81]⟩,
   ⟨"evmhosumi", 0x1000040e, 0xfc0007ff, 0x100000000000, 0x0, [86, 74, 81]⟩,
   ⟨"evmbeumi", 0x10000418, 0xfc0007ff, 0x100000000000, 0x0, [86, 74, 81]⟩,
   ⟨"evmbesmi", 0x10000419, 0xfc0007ff, 0x100000000000, 0x0, [86, 74, 81]⟩,
   ⟨"evmbesumi", 0x1000041a, 0xfc0007ff, 0x100000000000, 0x0, [86, 74, 81]⟩,
   ⟨"evmboumi", 0x1000041c, 0xfc0007ff, 0x100000000000, 0x0, [86, 74, 81]⟩,
   ⟨"evmbosmi", 0x1000041d, 0xfc0007ff, 0x100000000000, 0x0, [86, 74, 81]⟩,
   ⟨"evmbosumi", 0x1000041e, 0xfc0007ff, 0x100000000000, 0x0, [86, 74, 81]⟩,
   ⟨"evmhesumia", 0x1000042a, 0xfc0007ff, 0x100000000000, 0x0, [86, 74, 81]⟩,
   ⟨"evmhosumia", 0x1000042e, 0xfc0007ff, 0x100000000000, 0x0, [86, 74, 81]⟩,
   ⟨"evmbeumia", 0x10000438, 0xfc0007ff, 0x100000000000, 0x0, [86, 74, 81]⟩,
   ⟨"evmbesmia", 0x10000439, 0xfc0007ff, 0x100000000000, 0x0, [86, 74, 81]⟩,
   ⟨"evmbesumia", 0x1000043a, 0xfc0007ff, 0x100000000000, 0x0, [86, 74, 81]⟩,
   ⟨"evmboumia", 0x1000043c, 0xfc0007ff, 0x100000000000, 0x0, [86, 74, 81]⟩,
   ⟨"evmbosmia", 0x1000043d, 0xfc0007ff, 0x100000000000, 0x0, [86, 74, 81]⟩,
   ⟨"evmbosumia", 0x1000043e, 0xfc0007ff, 0x100000000000, 0x0, [86, 74, 81]⟩,
   ⟨"evmwusiw", 0x10000440, 0xfc0007ff, 0x100000000000, 0x0, [86, 74, 81]⟩,
   ⟨"evmwssiw", 0x10000441, 0xfc0007ff, 0x100000000000, 0x0, [86, 74, 81]⟩,
   ⟨"evmwhssfr", 0x10000446, 0xfc0007ff, 0x100000000000, 0x0, [86, 74, 81]⟩,
   ⟨"evmwehgsmfr", 0x10000456, 0xfc0007ff, 0x100000000000, 0x0, [86, 74, 81]⟩,
   ⟨"evmwehgsmf", 0x10000457, 0xfc0007ff, 0x100000000000, 0x0, [86, 74, 81]⟩,
   ⟨"evmwohgsmfr", 0x1000045e, 0xfc0007ff, 0x100000000000, 0x0, [86, 74, 81]⟩,
   ⟨"evmwohgsmf", 0x1000045f, 0xfc0007ff, 0x100000000000, 0x0, [86, 74, 81]⟩,
   ⟨"evmwhssfra", 0x10000466, 0xfc0007ff, 0x100000000000, 0x0, [86, 74, 81]⟩,
   ⟨"evmwehgsmfra", 0x10000476, 0xfc0007ff, 0x100000000000, 0x0, [86, 74, 81]⟩,
   ⟨"evmwehgsmfa", 0x10000477, 0xfc0007ff, 0x100000000000, 0x0, [86, 74, 81]⟩]

/-- ppc-opc.c:9115-9214. -/
def spe25 : List Opcode :=
  [⟨"evmwohgsmfra", 0x1000047e, 0xfc0007ff, 0x100000000000, 0x0, [86, 74, 81]⟩,
   ⟨"evmwohgsmfa", 0x1000047f, 0xfc0007ff, 0x100000000000, 0x0, [86, 74, 81]⟩,
   ⟨"evaddusiaa", 0x10000480, 0xfc00ffff, 0x100000000000, 0x0, [86, 74]⟩,
   ⟨"evaddssiaa", 0x10000481, 0xfc00ffff, 0x100000000000, 0x0, [86, 74]⟩,
   ⟨"evsubfusiaa", 0x10000482, 0xfc00ffff, 0x100000000000, 0x0, [86, 74]⟩,
   ⟨"evsubfssiaa", 0x10000483, 0xfc00ffff, 0x100000000000, 0x0, [86, 74]⟩,
   ⟨"evaddsmiaa", 0x10000484, 0xfc00ffff, 0x100000000000, 0x0, [86, 74]⟩,
   ⟨"evsubfsmiaa", 0x10000486, 0xfc00ffff, 0x100000000000, 0x0, [86, 74]⟩,
   ⟨"evaddh", 0x10000488, 0xfc0007ff, 0x100000000000, 0x0, [86, 74, 81]⟩,
   ⟨"evaddhss", 0x10000489, 0xfc0007ff, 0x100000000000, 0x0, [86, 74, 81]⟩,
   ⟨"evsubfh", 0x1000048a, 0xfc0007ff, 0x100000000000, 0x0, [86, 74, 81]⟩,
   ⟨"evsubfhss", 0x1000048b, 0xfc0007ff, 0x100000000000, 0x0, [86, 74, 81]⟩,
   ⟨"evaddhx", 0x1000048c, 0xfc0007ff, 0x100000000000, 0x0, [86, 74, 81]⟩,
   ⟨"evaddhxss", 0x1000048d, 0xfc0007ff, 0x100000000000, 0x0, [86, 74, 81]⟩,
   ⟨"evsubfhx", 0x1000048e, 0xfc0007ff, 0x100000000000, 0x0, [86, 74, 81]⟩,
   ⟨"evsubfhxss", 0x1000048f, 0xfc0007ff, 0x100000000000, 0x0, [86, 74, 81]⟩,
   ⟨"evaddd", 0x10000490, 0xfc0007ff, 0x100000000000, 0x0, [86, 74, 81]⟩,
   ⟨"evadddss", 0x10000491, 0xfc0007ff, 0x100000000000, 0x0, [86, 74, 81]⟩,
   ⟨"evsubfd", 0x10000492, 0xfc0007ff, 0x100000000000, 0x0, [86, 74, 81]⟩,
   ⟨"evsubfdss", 0x10000493, 0xfc0007ff, 0x100000000000, 0x0, [86, 74, 81]⟩,
   ⟨"evaddb", 0x10000494, 0xfc0007ff, 0x100000000000, 0x0, [86, 74, 81]⟩,
   ⟨"evaddbss", 0x10000495, 0xfc0007ff, 0x100000000000, 0x0, [86, 74, 81]⟩,
   ⟨"evsubfb", 0x10000496, 0xfc0007ff, 0x100000000000, 0x0, [86, 74, 81]⟩,
   ⟨"evsubfbss", 0x10000497, 0xfc0007ff, 0x100000000000, 0x0, [86, 74, 81]⟩,
   ⟨"evaddsubfh", 0x10000498, 0xfc0007ff, 0x100000000000, 0x0, [86, 74, 81]⟩,
   ⟨"evaddsubfhss", 0x10000499, 0xfc0007ff, 0x100000000000, 0x0, [86, 74, 81]⟩,
   ⟨"evsubfaddh", 0x1000049a, 0xfc0007ff, 0x100000000000, 0x0, [86, 74, 81]⟩,
   ⟨"evsubfaddhss", 0x1000049b, 0xfc0007ff, 0x100000000000, 0x0, [86, 74, 81]⟩,
   ⟨"evaddsubfhx", 0x1000049c, 0xfc0007ff, 0x100000000000, 0x0, [86, 74, 81]⟩,
   ⟨"evaddsubfhxss", 0x1000049d, 0xfc0007ff, 0x100000000000, 0x0, [86, 74, 81]⟩,
   ⟨"evsubfaddhx", 0x1000049e, 0xfc0007ff, 0x100000000000, 0x0, [86, 74, 81]⟩,
   ⟨"evsubfaddhxss", 0x1000049f, 0xfc0007ff, 0x100000000000, 0x0, [86, 74, 81]⟩,
   ⟨"evadddus", 0x100004a0, 0xfc0007ff, 0x100000000000, 0x0, [86, 74, 81]⟩,
   ⟨"evaddbus", 0x100004a1, 0xfc0007ff, 0x100000000000, 0x0, [86, 74, 81]⟩,
   ⟨"evsubfdus", 0x100004a2, 0xfc0007ff, 0x100000000000, 0x0, [86, 74, 81]⟩,
   ⟨"evsubfbus", 0x100004a3, 0xfc0007ff, 0x100000000000, 0x0, [86, 74, 81]⟩,
   ⟨"evaddwus", 0x100004a4, 0xfc0007ff, 0x100000000000, 0x0, [86, 74, 81]⟩,
   ⟨"evaddwxus", 0x100004a5, 0xfc0007ff, 0x100000000000, 0x0, [86, 74, 81]⟩,
   ⟨"evsubfwus", 0x100004a6, 0xfc0007ff, 0x100000000000, 0x0, [86, 74, 81]⟩,
   ⟨"evsubfwxus", 0x100004a7, 0xfc0007ff, 0x100000000000, 0x0, [86, 74, 81]⟩,
   ⟨"evadd2subf2h", 0x100004a8, 0xfc0007ff, 0x100000000000, 0x0, [86, 74, 81]⟩,
   ⟨"evadd2subf2hss", 0x100004a9, 0xfc0007ff, 0x100000000000, 0x0, [86, 74, 81]⟩,
   ⟨"evsubf2add2h", 0x100004aa, 0xfc0007ff, 0x100000000000, 0x0, [86, 74, 81]⟩,
   ⟨"evsubf2add2hss", 0x100004ab, 0xfc0007ff, 0x100000000000, 0x0, [86, 74, 81]⟩,
   ⟨"evaddhus", 0x100004ac, 0xfc0007ff, 0x100000000000, 0x0, [86, 74, 81]⟩,
   ⟨"evaddhxus", 0x100004ad, 0xfc0007ff, 0x100000000000, 0x0, [86, 74, 81]⟩,
   ⟨"evsubfhus", 0x100004ae, 0xfc0007ff, 0x100000000000, 0x0, [86, 74, 81]⟩,
   ⟨"evsubfhxus", 0x100004af, 0xfc0007ff, 0x100000000000, 0x0, [86, 74, 81]⟩,
   ⟨"evaddwss", 0x100004b1, 0xfc0007ff, 0x100000000000, 0x0, [86, 74, 81]⟩,
   ⟨"evsubfwss", 0x100004b3, 0xfc0007ff, 0x100000000000, 0x0, [86, 74, 81]⟩,
   ⟨"evaddwx", 0x100004b4, 0xfc0007ff, 0x100000000000, 0x0, [86, 74, 81]⟩,
   ⟨"evaddwxss", 0x100004b5, 0xfc0007ff, 0x100000000000, 0x0, [86, 74, 81]⟩,
   ⟨"evsubfwx", 0x100004b6, 0xfc0007ff, 0x100000000000, 0x0, [86, 74, 81]⟩,
   ⟨"evsubfwxss", 0x100004b7, 0xfc0007ff, 0x100000000000, 0x0, [86, 74, 81]⟩,
   ⟨"evaddsubfw", 0x100004b8, 0xfc0007ff, 0x100000000000, 0x0, [86, 74, 81]⟩,
   ⟨"evaddsubfwss", 0x100004b9, 0xfc0007ff, 0x100000000000, 0x0, [86, 74, 81]⟩,
   ⟨"evsubfaddw", 0x100004ba, 0xfc0007ff, 0x100000000000, 0x0, [86, 74, 81]⟩,
   ⟨"evsubfaddwss", 0x100004bb, 0xfc0007ff, 0x100000000000, 0x0, [86, 74, 81]⟩,
   ⟨"evaddsubfwx", 0x100004bc, 0xfc0007ff, 0x100000000000, 0x0, [86, 74, 81]⟩,
   ⟨"evaddsubfwxss", 0x100004bd, 0xfc0007ff, 0x100000000000, 0x0, [86, 74, 81]⟩,
   ⟨"evsubfaddwx", 0x100004be, 0xfc0007ff, 0x100000000000, 0x0, [86, 74, 81]⟩,
   ⟨"evsubfaddwxss", 0x100004bf, 0xfc0007ff, 0x100000000000, 0x0, [86, 74, 81]⟩,
   ⟨"evmar", 0x10000cc4, 0xfc000fff, 0x100000000000, 0x0, [86]⟩,
   ⟨"evsumwu", 0x100004c5, 0xfc00ffff, 0x100000000000, 0x0, [86, 74]⟩,
   ⟨"evsumws", 0x10000cc5, 0xfc00ffff, 0x100000000000, 0x0, [86, 74]⟩,
   ⟨"evsum4bu", 0x100014c5, 0xfc00ffff, 0x100000000000, 0x0, [86, 74]⟩,
   ⟨"evsum4bs", 0x10001cc5, 0xfc00ffff, 0x100000000000, 0x0, [86, 74]⟩,
   ⟨"evsum2hu", 0x100024c5, 0xfc00ffff, 0x100000000000, 0x0, [86, 74]⟩,
   ⟨"evsum2hs", 0x10002cc5, 0xfc00ffff, 0x100000000000, 0x0, [86, 74]⟩,
   ⟨"evdiff2his", 0x100034c5, 0xfc00ffff, 0x100000000000, 0x0, [86, 74]⟩,
   ⟨"evsum2his", 0x10003cc5, 0xfc00ffff, 0x100000000000, 0x0, [86, 74]⟩,
   ⟨"evsumwua", 0x100084c5, 0xfc00ffff, 0x100000000000, 0x0, [86, 74]⟩,
   ⟨"evsumwsa", 0x10008cc5, 0xfc00ffff, 0x100000000000, 0x0, [86, 74]⟩,
   ⟨"evsum4bua", 0x100094c5, 0xfc00ffff, 0x100000000000, 0x0, [86, 74]⟩,
   ⟨"evsum4bsa", 0x10009cc5, 0xfc00ffff, 0x100000000000, 0x0, [86, 74]⟩,
   ⟨"evsum2hua", 0x1000a4c5, 0xfc00ffff, 0x100000000000, 0x0, [86, 74]⟩,
   ⟨"evsum2hsa", 0x1000acc5, 0xfc00ffff, 0x100000000000, 0x0, [86, 74]⟩,
   ⟨"evdiff2hisa", 0x1000b4c5, 0xfc00ffff, 0x100000000000, 0x0, [86, 74]⟩,
   ⟨"evsum2hisa", 0x1000bcc5, 0xfc00ffff, 0x100000000000, 0x0, [86, 74]⟩,
   ⟨"evsumwuaa", 0x1000c4c5, 0xfc00ffff, 0x100000000000, 0x0, [86, 74]⟩,
   ⟨"evsumwsaa", 0x1000ccc5, 0xfc00ffff, 0x100000000000, 0x0, [86, 74]⟩,
   ⟨"evsum4buaaw", 0x1000d4c5, 0xfc00ffff, 0x100000000000, 0x0, [86, 74]⟩,
   ⟨"evsum4bsaaw", 0x1000dcc5, 0xfc00ffff, 0x100000000000, 0x0, [86, 74]⟩,
   ⟨"evsum2huaaw", 0x1000e4c5, 0xfc00ffff, 0x100000000000, 0x0, [86, 74]⟩,
   ⟨"evsum2hsaaw", 0x1000ecc5, 0xfc00ffff, 0x100000000000, 0x0, [86, 74]⟩,
   ⟨"evdiff2hisaaw", 0x1000f4c5, 0xfc00ffff, 0x100000000000, 0x0, [86, 74]⟩,
   ⟨"evsum2hisaaw", 0x1000fcc5, 0xfc00ffff, 0x100000000000, 0x0, [86, 74]⟩,
   ⟨"evdivwsf", 0x100004cc, 0xfc0007ff, 0x100000000000, 0x0, [86, 74, 81]⟩,
   ⟨"evdivwuf", 0x100004cd, 0xfc0007ff, 0x100000000000, 0x0, [86, 74, 81]⟩,
   ⟨"evdivs", 0x100004ce, 0xfc0007ff, 0x100000000000, 0x0, [86, 74, 81]⟩,
   ⟨"evdivu", 0x100004cf, 0xfc0007ff, 0x100000000000, 0x0, [86, 74, 81]⟩,
   ⟨"evaddwegsi", 0x100004d0, 0xfc0007ff, 0x100000000000, 0x0, [86, 74, 81]⟩,
   ⟨"evaddwegsf", 0x100004d1, 0xfc0007ff, 0x100000000000, 0x0, [86, 74, 81]⟩,
   ⟨"evsubfwegsi", 0x100004d2, 0xfc0007ff, 0x100000000000, 0x0, [86, 74, 81]⟩,
   ⟨"evsubfwegsf", 0x100004d3, 0xfc0007ff, 0x100000000000, 0x0, [86, 74, 81]⟩,
   ⟨"evaddwogsi", 0x100004d4, 0xfc0007ff, 0x100000000000, 0x0, [86, 74, 81]⟩,
   ⟨"evaddwogsf", 0x100004d5, 0xfc0007ff, 0x100000000000, 0x0, [86, 74, 81]⟩,
   ⟨"evsubfwogsi", 0x100004d6, 0xfc0007ff, 0x100000000000, 0x0, [86, 74, 81]⟩,
   ⟨"evsubfwogsf", 0x100004d7, 0xfc0007ff, 0x100000000000, 0x0, [86, 74, 81]⟩,
   ⟨"evaddhhiuw", 0x100004d8, 0xfc0007ff, 0x100000000000, 0x0, [86, 74, 81]⟩]

/-- ppc-opc.c:9215-9314. -/
def spe26 : List Opcode :=
  [⟨"evaddhhisw", 0x100004d9, 0xfc0007ff, 0x100000000000, 0x0, [86, 74, 81]⟩,
   ⟨"evsubfhhiuw", 0x100004da, 0xfc0007ff, 0x100000000000, 0x0, [86, 74, 81]⟩,
   ⟨"evsubfhhisw", 0x100004db, 0xfc0007ff, 0x100000000000, 0x0, [86, 74, 81]⟩,
   ⟨"evaddhlouw", 0x100004dc, 0xfc0007ff, 0x100000000000, 0x0, [86, 74, 81]⟩,
   ⟨"evaddhlosw", 0x100004dd, 0xfc0007ff, 0x100000000000, 0x0, [86, 74, 81]⟩,
   ⟨"evsubfhlouw", 0x100004de, 0xfc0007ff, 0x100000000000, 0x0, [86, 74, 81]⟩,
   ⟨"evsubfhlosw", 0x100004df, 0xfc0007ff, 0x100000000000, 0x0, [86, 74, 81]⟩,
   ⟨"evmhesusiaaw", 0x10000502, 0xfc0007ff, 0x100000000000, 0x0, [86, 74, 81]⟩,
   ⟨"evmhosusiaaw", 0x10000506, 0xfc0007ff, 0x100000000000, 0x0, [86, 74, 81]⟩,
   ⟨"evmhesumiaaw", 0x1000050a, 0xfc0007ff, 0x100000000000, 0x0, [86, 74, 81]⟩,
   ⟨"evmhosumiaaw", 0x1000050e, 0xfc0007ff, 0x100000000000, 0x0, [86, 74, 81]⟩,
   ⟨"evmbeusiaah", 0x10000510, 0xfc0007ff, 0x100000000000, 0x0, [86, 74, 81]⟩,
   ⟨"evmbessiaah", 0x10000511, 0xfc0007ff, 0x100000000000, 0x0, [86, 74, 81]⟩,
   ⟨"evmbesusiaah", 0x10000512, 0xfc0007ff, 0x100000000000, 0x0, [86, 74, 81]⟩,
   ⟨"evmbousiaah", 0x10000514, 0xfc0007ff, 0x100000000000, 0x0, [86, 74, 81]⟩,
   ⟨"evmbossiaah", 0x10000515, 0xfc0007ff, 0x100000000000, 0x0, [86, 74, 81]⟩,
   ⟨"evmbosusiaah", 0x10000516, 0xfc0007ff, 0x100000000000, 0x0, [86, 74, 81]⟩,
   ⟨"evmbeumiaah", 0x10000518, 0xfc0007ff, 0x100000000000, 0x0, [86, 74, 81]⟩,
   ⟨"evmbesmiaah", 0x10000519, 0xfc0007ff, 0x100000000000, 0x0, [86, 74, 81]⟩,
   ⟨"evmbesumiaah", 0x1000051a, 0xfc0007ff, 0x100000000000, 0x0, [86, 74, 81]⟩,
   ⟨"evmboumiaah", 0x1000051c, 0xfc0007ff, 0x100000000000, 0x0, [86, 74, 81]⟩,
   ⟨"evmbosmiaah", 0x1000051d, 0xfc0007ff, 0x100000000000, 0x0, [86, 74, 81]⟩,
   ⟨"evmbosumiaah", 0x1000051e, 0xfc0007ff, 0x100000000000, 0x0, [86, 74, 81]⟩,
   ⟨"evmwlusiaaw3", 0x10000542, 0xfc0007ff, 0x100000000000, 0x0, [86, 74, 81]⟩,
   ⟨"evmwlssiaaw3", 0x10000543, 0xfc0007ff, 0x100000000000, 0x0, [86, 74, 81]⟩,
   ⟨"evmwhssfraaw3", 0x10000544, 0xfc0007ff, 0x100000000000, 0x0, [86, 74, 81]⟩,
   ⟨"evmwhssfaaw3", 0x10000545, 0xfc0007ff, 0x100000000000, 0x0, [86, 74, 81]⟩,
   ⟨"evmwhssfraaw", 0x10000546, 0xfc0007ff, 0x100000000000, 0x0, [86, 74, 81]⟩,
   ⟨"evmwhssfaaw", 0x10000547, 0xfc0007ff, 0x100000000000, 0x0, [86, 74, 81]⟩,
   ⟨"evmwlumiaaw3", 0x1000054a, 0xfc0007ff, 0x100000000000, 0x0, [86, 74, 81]⟩,
   ⟨"evmwlsmiaaw3", 0x1000054b, 0xfc0007ff, 0x100000000000, 0x0, [86, 74, 81]⟩,
   ⟨"evmwusiaa", 0x10000550, 0xfc0007ff, 0x100000000000, 0x0, [86, 74, 81]⟩,
   ⟨"evmwssiaa", 0x10000551, 0xfc0007ff, 0x100000000000, 0x0, [86, 74, 81]⟩,
   ⟨"evmwehgsmfraa", 0x10000556, 0xfc0007ff, 0x100000000000, 0x0, [86, 74, 81]⟩,
   ⟨"evmwehgsmfaa", 0x10000557, 0xfc0007ff, 0x100000000000, 0x0, [86, 74, 81]⟩,
   ⟨"evmwohgsmfraa", 0x1000055e, 0xfc0007ff, 0x100000000000, 0x0, [86, 74, 81]⟩,
   ⟨"evmwohgsmfaa", 0x1000055f, 0xfc0007ff, 0x100000000000, 0x0, [86, 74, 81]⟩,
   ⟨"evmhesusianw", 0x10000582, 0xfc0007ff, 0x100000000000, 0x0, [86, 74, 81]⟩,
   ⟨"evmhosusianw", 0x10000586, 0xfc0007ff, 0x100000000000, 0x0, [86, 74, 81]⟩,
   ⟨"evmhesumianw", 0x1000058a, 0xfc0007ff, 0x100000000000, 0x0, [86, 74, 81]⟩,
   ⟨"evmhosumianw", 0x1000058e, 0xfc0007ff, 0x100000000000, 0x0, [86, 74, 81]⟩,
   ⟨"evmbeusianh", 0x10000590, 0xfc0007ff, 0x100000000000, 0x0, [86, 74, 81]⟩,
   ⟨"evmbessianh", 0x10000591, 0xfc0007ff, 0x100000000000, 0x0, [86, 74, 81]⟩,
   ⟨"evmbesusianh", 0x10000592, 0xfc0007ff, 0x100000000000, 0x0, [86, 74, 81]⟩,
   ⟨"evmbousianh", 0x10000594, 0xfc0007ff, 0x100000000000, 0x0, [86, 74, 81]⟩,
   ⟨"evmbossianh", 0x10000595, 0xfc0007ff, 0x100000000000, 0x0, [86, 74, 81]⟩,
   ⟨"evmbosusianh", 0x10000596, 0xfc0007ff, 0x100000000000, 0x0, [86, 74, 81]⟩,
   ⟨"evmbeumianh", 0x10000598, 0xfc0007ff, 0x100000000000, 0x0, [86, 74, 81]⟩,
   ⟨"evmbesmianh", 0x10000599, 0xfc0007ff, 0x100000000000, 0x0, [86, 74, 81]⟩,
   ⟨"evmbesumianh", 0x1000059a, 0xfc0007ff, 0x100000000000, 0x0, [86, 74, 81]⟩,
   ⟨"evmboumianh", 0x1000059c, 0xfc0007ff, 0x100000000000, 0x0, [86, 74, 81]⟩,
   ⟨"evmbosmianh", 0x1000059d, 0xfc0007ff, 0x100000000000, 0x0, [86, 74, 81]⟩,
   ⟨"evmbosumianh", 0x1000059e, 0xfc0007ff, 0x100000000000, 0x0, [86, 74, 81]⟩,
   ⟨"evmwlusianw3", 0x100005c2, 0xfc0007ff, 0x100000000000, 0x0, [86, 74, 81]⟩,
   ⟨"evmwlssianw3", 0x100005c3, 0xfc0007ff, 0x100000000000, 0x0, [86, 74, 81]⟩,
   ⟨"evmwhssfranw3", 0x100005c4, 0xfc0007ff, 0x100000000000, 0x0, [86, 74, 81]⟩,
   ⟨"evmwhssfanw3", 0x100005c5, 0xfc0007ff, 0x100000000000, 0x0, [86, 74, 81]⟩,
   ⟨"evmwhssfranw", 0x100005c6, 0xfc0007ff, 0x100000000000, 0x0, [86, 74, 81]⟩,
   ⟨"evmwhssfanw", 0x100005c7, 0xfc0007ff, 0x100000000000, 0x0, [86, 74, 81]⟩,
   ⟨"evmwlumianw3", 0x100005ca, 0xfc0007ff, 0x100000000000, 0x0, [86, 74, 81]⟩,
   ⟨"evmwlsmianw3", 0x100005cb, 0xfc0007ff, 0x100000000000, 0x0, [86, 74, 81]⟩,
   ⟨"evmwusian", 0x100005d0, 0xfc0007ff, 0x100000000000, 0x0, [86, 74, 81]⟩,
   ⟨"evmwssian", 0x100005d1, 0xfc0007ff, 0x100000000000, 0x0, [86, 74, 81]⟩,
   ⟨"evmwehgsmfran", 0x100005d6, 0xfc0007ff, 0x100000000000, 0x0, [86, 74, 81]⟩,
   ⟨"evmwehgsmfan", 0x100005d7, 0xfc0007ff, 0x100000000000, 0x0, [86, 74, 81]⟩,
   ⟨"evmwohgsmfran", 0x100005de, 0xfc0007ff, 0x100000000000, 0x0, [86, 74, 81]⟩,
   ⟨"evmwohgsmfan", 0x100005df, 0xfc0007ff, 0x100000000000, 0x0, [86, 74, 81]⟩,
   ⟨"evseteqb", 0x10000600, 0xfc0007ff, 0x100000000000, 0x0, [86, 74, 81]⟩,
   ⟨"evseteqb.", 0x10000601, 0xfc0007ff, 0x100000000000, 0x0, [86, 74, 81]⟩,
   ⟨"evseteqh", 0x10000602, 0xfc0007ff, 0x100000000000, 0x0, [86, 74, 81]⟩,
   ⟨"evseteqh.", 0x10000603, 0xfc0007ff, 0x100000000000, 0x0, [86, 74, 81]⟩,
   ⟨"evseteqw", 0x10000604, 0xfc0007ff, 0x100000000000, 0x0, [86, 74, 81]⟩,
   ⟨"evseteqw.", 0x10000605, 0xfc0007ff, 0x100000000000, 0x0, [86, 74, 81]⟩,
   ⟨"evsetgthu", 0x10000608, 0xfc0007ff, 0x100000000000, 0x0, [86, 74, 81]⟩,
   ⟨"evsetgthu.", 0x10000609, 0xfc0007ff, 0x100000000000, 0x0, [86, 74, 81]⟩,
   ⟨"evsetgths", 0x1000060a, 0xfc0007ff, 0x100000000000, 0x0, [86, 74, 81]⟩,
   ⟨"evsetgths.", 0x1000060b, 0xfc0007ff, 0x100000000000, 0x0, [86, 74, 81]⟩,
   ⟨"evsetgtwu", 0x1000060c, 0xfc0007ff, 0x100000000000, 0x0, [86, 74, 81]⟩,
   ⟨"evsetgtwu.", 0x1000060d, 0xfc0007ff, 0x100000000000, 0x0, [86, 74, 81]⟩,
   ⟨"evsetgtws", 0x1000060e, 0xfc0007ff, 0x100000000000, 0x0, [86, 74, 81]⟩,
   ⟨"evsetgtws.", 0x1000060f, 0xfc0007ff, 0x100000000000, 0x0, [86, 74, 81]⟩,
   ⟨"evsetgtbu", 0x10000610, 0xfc0007ff, 0x100000000000, 0x0, [86, 74, 81]⟩,
   ⟨"evsetgtbu.", 0x10000611, 0xfc0007ff, 0x100000000000, 0x0, [86, 74, 81]⟩,
   ⟨"evsetgtbs", 0x10000612, 0xfc0007ff, 0x100000000000, 0x0, [86, 74, 81]⟩,
   ⟨"evsetgtbs.", 0x10000613, 0xfc0007ff, 0x100000000000, 0x0, [86, 74, 81]⟩,
   ⟨"evsetltbu", 0x10000614, 0xfc0007ff, 0x100000000000, 0x0, [86, 74, 81]⟩,
   ⟨"evsetltbu.", 0x10000615, 0xfc0007ff, 0x100000000000, 0x0, [86, 74, 81]⟩,
   ⟨"evsetltbs", 0x10000616, 0xfc0007ff, 0x100000000000, 0x0, [86, 74, 81]⟩,
   ⟨"evsetltbs.", 0x10000617, 0xfc0007ff, 0x100000000000, 0x0, [86, 74, 81]⟩,
   ⟨"evsetlthu", 0x10000618, 0xfc0007ff, 0x100000000000, 0x0, [86, 74, 81]⟩,
   ⟨"evsetlthu.", 0x10000619, 0xfc0007ff, 0x100000000000, 0x0, [86, 74, 81]⟩,
   ⟨"evsetlths", 0x1000061a, 0xfc0007ff, 0x100000000000, 0x0, [86, 74, 81]⟩,
   ⟨"evsetlths.", 0x1000061b, 0xfc0007ff, 0x100000000000, 0x0, [86, 74, 81]⟩,
   ⟨"evsetltwu", 0x1000061c, 0xfc0007ff, 0x100000000000, 0x0, [86, 74, 81]⟩,
   ⟨"evsetltwu.", 0x1000061d, 0xfc0007ff, 0x100000000000, 0x0, [86, 74, 81]⟩,
   ⟨"evsetltws", 0x1000061e, 0xfc0007ff, 0x100000000000, 0x0, [86, 74, 81]⟩,
   ⟨"evsetltws.", 0x1000061f, 0xfc0007ff, 0x100000000000, 0x0, [86, 74, 81]⟩,
   ⟨"evsaduw", 0x10000620, 0xfc0007ff, 0x100000000000, 0x0, [86, 74, 81]⟩,
   ⟨"evsadsw", 0x10000621, 0xfc0007ff, 0x100000000000, 0x0, [86, 74, 81]⟩,
   ⟨"evsad4ub", 0x10000622, 0xfc0007ff, 0x100000000000, 0x0, [86, 74, 81]⟩]

/-- ppc-opc.c:9315-9398. -/
def spe27 : List Opcode :=
  [⟨"evsad4sb", 0x10000623, 0xfc0007ff, 0x100000000000, 0x0, [86, 74, 81]⟩,
   ⟨"evsad2uh", 0x10000624, 0xfc0007ff, 0x100000000000, 0x0, [86, 74, 81]⟩,
   ⟨"evsad2sh", 0x10000625, 0xfc0007ff, 0x100000000000, 0x0, [86, 74, 81]⟩,
   ⟨"evsaduwa", 0x10000628, 0xfc0007ff, 0x100000000000, 0x0, [86, 74, 81]⟩,
   ⟨"evsadswa", 0x10000629, 0xfc0007ff, 0x100000000000, 0x0, [86, 74, 81]⟩,
   ⟨"evsad4uba", 0x1000062a, 0xfc0007ff, 0x100000000000, 0x0, [86, 74, 81]⟩,
   ⟨"evsad4sba", 0x1000062b, 0xfc0007ff, 0x100000000000, 0x0, [86, 74, 81]⟩,
   ⟨"evsad2uha", 0x1000062c, 0xfc0007ff, 0x100000000000, 0x0, [86, 74, 81]⟩,
   ⟨"evsad2sha", 0x1000062d, 0xfc0007ff, 0x100000000000, 0x0, [86, 74, 81]⟩,
   ⟨"evabsdifuw", 0x10000630, 0xfc0007ff, 0x100000000000, 0x0, [86, 74, 81]⟩,
   ⟨"evabsdifsw", 0x10000631, 0xfc0007ff, 0x100000000000, 0x0, [86, 74, 81]⟩,
   ⟨"evabsdifub", 0x10000632, 0xfc0007ff, 0x100000000000, 0x0, [86, 74, 81]⟩,
   ⟨"evabsdifsb", 0x10000633, 0xfc0007ff, 0x100000000000, 0x0, [86, 74, 81]⟩,
   ⟨"evabsdifuh", 0x10000634, 0xfc0007ff, 0x100000000000, 0x0, [86, 74, 81]⟩,
   ⟨"evabsdifsh", 0x10000635, 0xfc0007ff, 0x100000000000, 0x0, [86, 74, 81]⟩,
   ⟨"evsaduwaa", 0x10000638, 0xfc0007ff, 0x100000000000, 0x0, [86, 74, 81]⟩,
   ⟨"evsadswaa", 0x10000639, 0xfc0007ff, 0x100000000000, 0x0, [86, 74, 81]⟩,
   ⟨"evsad4ubaaw", 0x1000063a, 0xfc0007ff, 0x100000000000, 0x0, [86, 74, 81]⟩,
   ⟨"evsad4sbaaw", 0x1000063b, 0xfc0007ff, 0x100000000000, 0x0, [86, 74, 81]⟩,
   ⟨"evsad2uhaaw", 0x1000063c, 0xfc0007ff, 0x100000000000, 0x0, [86, 74, 81]⟩,
   ⟨"evsad2shaaw", 0x1000063d, 0xfc0007ff, 0x100000000000, 0x0, [86, 74, 81]⟩,
   ⟨"evpkshubs", 0x10000640, 0xfc0007ff, 0x100000000000, 0x0, [86, 74, 81]⟩,
   ⟨"evpkshsbs", 0x10000641, 0xfc0007ff, 0x100000000000, 0x0, [86, 74, 81]⟩,
   ⟨"evpkswuhs", 0x10000642, 0xfc0007ff, 0x100000000000, 0x0, [86, 74, 81]⟩,
   ⟨"evpkswshs", 0x10000643, 0xfc0007ff, 0x100000000000, 0x0, [86, 74, 81]⟩,
   ⟨"evpkuhubs", 0x10000644, 0xfc0007ff, 0x100000000000, 0x0, [86, 74, 81]⟩,
   ⟨"evpkuwuhs", 0x10000645, 0xfc0007ff, 0x100000000000, 0x0, [86, 74, 81]⟩,
   ⟨"evpkswshilvs", 0x10000646, 0xfc0007ff, 0x100000000000, 0x0, [86, 74, 81]⟩,
   ⟨"evpkswgshefrs", 0x10000647, 0xfc0007ff, 0x100000000000, 0x0, [86, 74, 81]⟩,
   ⟨"evpkswshfrs", 0x10000648, 0xfc0007ff, 0x100000000000, 0x0, [86, 74, 81]⟩,
   ⟨"evpkswshilvfrs", 0x10000649, 0xfc0007ff, 0x100000000000, 0x0, [86, 74, 81]⟩,
   ⟨"evpksdswfrs", 0x1000064a, 0xfc0007ff, 0x100000000000, 0x0, [86, 74, 81]⟩,
   ⟨"evpksdshefrs", 0x1000064b, 0xfc0007ff, 0x100000000000, 0x0, [86, 74, 81]⟩,
   ⟨"evpkuduws", 0x1000064c, 0xfc0007ff, 0x100000000000, 0x0, [86, 74, 81]⟩,
   ⟨"evpksdsws", 0x1000064d, 0xfc0007ff, 0x100000000000, 0x0, [86, 74, 81]⟩,
   ⟨"evpkswgswfrs", 0x1000064e, 0xfc0007ff, 0x100000000000, 0x0, [86, 74, 81]⟩,
   ⟨"evilveh", 0x10000650, 0xfc0007ff, 0x100000000000, 0x0, [86, 74, 81]⟩,
   ⟨"evilveoh", 0x10000651, 0xfc0007ff, 0x100000000000, 0x0, [86, 74, 81]⟩,
   ⟨"evilvhih", 0x10000652, 0xfc0007ff, 0x100000000000, 0x0, [86, 74, 81]⟩,
   ⟨"evilvhiloh", 0x10000653, 0xfc0007ff, 0x100000000000, 0x0, [86, 74, 81]⟩,
   ⟨"evilvloh", 0x10000654, 0xfc0007ff, 0x100000000000, 0x0, [86, 74, 81]⟩,
   ⟨"evilvlohih", 0x10000655, 0xfc0007ff, 0x100000000000, 0x0, [86, 74, 81]⟩,
   ⟨"evilvoeh", 0x10000656, 0xfc0007ff, 0x100000000000, 0x0, [86, 74, 81]⟩,
   ⟨"evilvoh", 0x10000657, 0xfc0007ff, 0x100000000000, 0x0, [86, 74, 81]⟩,
   ⟨"evdlveb", 0x10000658, 0xfc0007ff, 0x100000000000, 0x0, [86, 74, 81]⟩,
   ⟨"evdlveh", 0x10000659, 0xfc0007ff, 0x100000000000, 0x0, [86, 74, 81]⟩,
   ⟨"evdlveob", 0x1000065a, 0xfc0007ff, 0x100000000000, 0x0, [86, 74, 81]⟩,
   ⟨"evdlveoh", 0x1000065b, 0xfc0007ff, 0x100000000000, 0x0, [86, 74, 81]⟩,
   ⟨"evdlvob", 0x1000065c, 0xfc0007ff, 0x100000000000, 0x0, [86, 74, 81]⟩,
   ⟨"evdlvoh", 0x1000065d, 0xfc0007ff, 0x100000000000, 0x0, [86, 74, 81]⟩,
   ⟨"evdlvoeb", 0x1000065e, 0xfc0007ff, 0x100000000000, 0x0, [86, 74, 81]⟩,
   ⟨"evdlvoeh", 0x1000065f, 0xfc0007ff, 0x100000000000, 0x0, [86, 74, 81]⟩,
   ⟨"evmaxbu", 0x10000660, 0xfc0007ff, 0x100000000000, 0x0, [86, 74, 81]⟩,
   ⟨"evmaxbs", 0x10000661, 0xfc0007ff, 0x100000000000, 0x0, [86, 74, 81]⟩,
   ⟨"evmaxhu", 0x10000662, 0xfc0007ff, 0x100000000000, 0x0, [86, 74, 81]⟩,
   ⟨"evmaxhs", 0x10000663, 0xfc0007ff, 0x100000000000, 0x0, [86, 74, 81]⟩,
   ⟨"evmaxwu", 0x10000664, 0xfc0007ff, 0x100000000000, 0x0, [86, 74, 81]⟩,
   ⟨"evmaxws", 0x10000665, 0xfc0007ff, 0x100000000000, 0x0, [86, 74, 81]⟩,
   ⟨"evmaxdu", 0x10000666, 0xfc0007ff, 0x100000000000, 0x0, [86, 74, 81]⟩,
   ⟨"evmaxds", 0x10000667, 0xfc0007ff, 0x100000000000, 0x0, [86, 74, 81]⟩,
   ⟨"evminbu", 0x10000668, 0xfc0007ff, 0x100000000000, 0x0, [86, 74, 81]⟩,
   ⟨"evminbs", 0x10000669, 0xfc0007ff, 0x100000000000, 0x0, [86, 74, 81]⟩,
   ⟨"evminhu", 0x1000066a, 0xfc0007ff, 0x100000000000, 0x0, [86, 74, 81]⟩,
   ⟨"evminhs", 0x1000066b, 0xfc0007ff, 0x100000000000, 0x0, [86, 74, 81]⟩,
   ⟨"evminwu", 0x1000066c, 0xfc0007ff, 0x100000000000, 0x0, [86, 74, 81]⟩,
   ⟨"evminws", 0x1000066d, 0xfc0007ff, 0x100000000000, 0x0, [86, 74, 81]⟩,
   ⟨"evmindu", 0x1000066e, 0xfc0007ff, 0x100000000000, 0x0, [86, 74, 81]⟩,
   ⟨"evminds", 0x1000066f, 0xfc0007ff, 0x100000000000, 0x0, [86, 74, 81]⟩,
   ⟨"evavgwu", 0x10000670, 0xfc0007ff, 0x100000000000, 0x0, [86, 74, 81]⟩,
   ⟨"evavgws", 0x10000671, 0xfc0007ff, 0x100000000000, 0x0, [86, 74, 81]⟩,
   ⟨"evavgbu", 0x10000672, 0xfc0007ff, 0x100000000000, 0x0, [86, 74, 81]⟩,
   ⟨"evavgbs", 0x10000673, 0xfc0007ff, 0x100000000000, 0x0, [86, 74, 81]⟩,
   ⟨"evavghu", 0x10000674, 0xfc0007ff, 0x100000000000, 0x0, [86, 74, 81]⟩,
   ⟨"evavghs", 0x10000675, 0xfc0007ff, 0x100000000000, 0x0, [86, 74, 81]⟩,
   ⟨"evavgdu", 0x10000676, 0xfc0007ff, 0x100000000000, 0x0, [86, 74, 81]⟩,
   ⟨"evavgds", 0x10000677, 0xfc0007ff, 0x100000000000, 0x0, [86, 74, 81]⟩,
   ⟨"evavgwur", 0x10000678, 0xfc0007ff, 0x100000000000, 0x0, [86, 74, 81]⟩,
   ⟨"evavgwsr", 0x10000679, 0xfc0007ff, 0x100000000000, 0x0, [86, 74, 81]⟩,
   ⟨"evavgbur", 0x1000067a, 0xfc0007ff, 0x100000000000, 0x0, [86, 74, 81]⟩,
   ⟨"evavgbsr", 0x1000067b, 0xfc0007ff, 0x100000000000, 0x0, [86, 74, 81]⟩,
   ⟨"evavghur", 0x1000067c, 0xfc0007ff, 0x100000000000, 0x0, [86, 74, 81]⟩,
   ⟨"evavghsr", 0x1000067d, 0xfc0007ff, 0x100000000000, 0x0, [86, 74, 81]⟩,
   ⟨"evavgdur", 0x1000067e, 0xfc0007ff, 0x100000000000, 0x0, [86, 74, 81]⟩,
   ⟨"evavgdsr", 0x1000067f, 0xfc0007ff, 0x100000000000, 0x0, [86, 74, 81]⟩]

/-- ppc-opc.c:8614-9399, `spe2_opcodes_qt`. -/
def spe2Table : List (List Opcode) := [spe20, spe21, spe22, spe23, spe24, spe25, spe26, spe27]

end Opc
