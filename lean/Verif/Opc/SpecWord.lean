import Verif.Opc.Spec
import Verif.Opc.Entry

/-! The bits of an instruction that an entry of the opcode tables leaves open. -/
namespace Opc

/-- The bits of an instruction of 32 bits that are neither fixed by the entry nor part of an operand. -/
def Opcode.open (e : Opcode) : W := e.args.foldl (fun w o => w &&& ~~~bits o.field) (0xffffffff#64 &&& ~~~BitVec.ofNat 64 e.mask)

/-- The instructions with bits of no account: bits that the architecture reserves, the hints of branches without `+` or `-`, operands that are not used. -/
def openBits : List (Nat × List String) := [
    (0x3fff800, ["attn", "bblels", "bbelr"]),
    (0x1, ["psq_lx", "psq_stx", "psq_lux", "psq_stux", "isel"]),
    (0xf800, ["evabs", "evneg", "evextsb", "evextsh", "evrndw", "evcntlzw", "evcntlsw", "evsplati", "evsplatfi", "evfsabs", "evfsnabs", "evfsneg",
    "efsabs", "efsnabs", "efsneg", "efdabs", "efdnabs", "efdneg", "evaddusiaaw", "evaddssiaaw", "evsubfusiaaw", "evsubfssiaaw", "evmra",
    "evaddumiaaw", "evaddsmiaaw", "evsubfumiaaw", "evsubfsmiaaw", "mfdcrx", "mfdcrx.", "mfapidi", "mfdcrux", "mtdcrx", "mtdcrx.", "mtdcrux"]),
    (0x600000, ["evcmpgtu", "evcmpgts", "evcmpltu", "evcmplts", "evcmpeq", "evfscmpgt", "evfscmplt", "evfscmpeq", "evfststgt", "evfststlt",
    "evfststeq", "efscmpgt", "efscmplt", "efscmpeq", "efststgt", "efststlt", "efststeq", "efdcmpgt", "efdcmplt", "efdcmpeq", "efdtstgt", "efdtstlt",
    "efdtsteq", "cmpli", "cmpi", "bge", "bnl", "bgel", "bnll", "bgea", "bnla", "bgela", "bnlla", "ble", "bng", "blel", "bngl", "blea", "bnga",
    "blela", "bngla", "bne", "bnel", "bnea", "bnela", "bns", "bnu", "bnsl", "bnul", "bnsa", "bnua", "bnsla", "bnula", "blt", "bltl", "blta", "bltla",
    "bgt", "bgtl", "bgta", "bgtla", "beq", "beql", "beqa", "beqla", "bso", "bun", "bsol", "bunl", "bsoa", "buna", "bsola", "bunla", "bf", "bbf",
    "bfl", "bbfl", "bfa", "bbfa", "bfla", "bbfla", "bt", "bbt", "btl", "bbtl", "bta", "bbta", "btla", "bbtla", "dcmpo", "dtstex", "dtstdc", "dtstdg",
    "dcmpu", "dtstsf", "zvcmpgthu", "zvcmpgths", "zvcmplthu", "zvcmplths", "zvcmpeqh", "e_cmph", "e_cmphl"]),
    (0x1f0000, ["evfscfui", "evfscfsi", "evfscfuf", "evfscfsf", "evfsctui", "evfsctsi", "evfsctuf", "evfsctsf", "evfsctuiz", "evfsctsiz", "efscfd",
    "efscfui", "efscfsi", "efscfuf", "efscfsf", "efsctui", "efsctsi", "efsctuf", "efsctsf", "efsctuiz", "efsctsiz", "efdcfuid", "efdcfsid",
    "efdctuidz", "efdctsidz", "efdcfs", "efdcfuf", "efdcfsf", "efdctui", "efdctsi", "efdctuf", "efdctsf", "dctdp", "dctdp.", "dctfix", "dctfix.",
    "dxex", "dxex.", "drsp", "drsp.", "dctqpq", "dctqpq.", "dcffixq", "dcffixq."]),
    (0x400000, ["cmplwi", "cmpldi", "cmpli", "cmpwi", "cmpdi", "cmpi", "bge-", "bge+", "bnl-", "bnl+", "bgel-", "bgel+", "bnll-", "bnll+", "bgea-",
    "bgea+", "bnla-", "bnla+", "bgela-", "bgela+", "bnlla-", "bnlla+", "ble-", "ble+", "bng-", "bng+", "blel-", "blel+", "bngl-", "bngl+", "blea-",
    "blea+", "bnga-", "bnga+", "blela-", "blela+", "bngla-", "bngla+", "bne-", "bne+", "bnel-", "bnel+", "bnea-", "bnea+", "bnela-", "bnela+", "bns-",
    "bns+", "bnu-", "bnu+", "bnsl-", "bnsl+", "bnul-", "bnul+", "bnsa-", "bnsa+", "bnua-", "bnua+", "bnsla-", "bnsla+", "bnula-", "bnula+", "blt-",
    "blt+", "bltl-", "bltl+", "blta-", "blta+", "bltla-", "bltla+", "bgt-", "bgt+", "bgtl-", "bgtl+", "bgta-", "bgta+", "bgtla-", "bgtla+", "beq-",
    "beq+", "beql-", "beql+", "beqa-", "beqa+", "beqla-", "beqla+", "bso-", "bso+", "bun-", "bun+", "bsol-", "bsol+", "bunl-", "bunl+", "bsoa-",
    "bsoa+", "buna-", "buna+", "bsola-", "bsola+", "bunla-", "bunla+", "bf-", "bf+", "bfl-", "bfl+", "bfa-", "bfa+", "bfla-", "bfla+", "bt-", "bt+",
    "btl-", "btl+", "bta-", "bta+", "btla-", "btla+"]),
    (0x1000000, ["bdnz-", "bdnz+", "bdnzl-", "bdnzl+", "bdnza-", "bdnza+", "bdnzla-", "bdnzla+", "bdz-", "bdz+", "bdzl-", "bdzl+", "bdza-", "bdza+",
    "bdzla-", "bdzla+"]),
    (0x1200000, ["bdnz", "bdn", "bdnzl", "bdnl", "bdnza", "bdna", "bdnzla", "bdnla", "bdz", "bdzl", "bdza", "bdzla"]),
    (0x200000, ["bdnzf", "bdnzfl", "bdnzfa", "bdnzfla", "bdzf", "bdzfl", "bdzfa", "bdzfla", "bdnzt", "bdnztl", "bdnzta", "bdnztla", "bdzt", "bdztl",
    "bdzta", "bdztla"]),
    (0xf01c, ["scv", "sc"]),
    (0x1ff800, ["tlbilxlpid", "tlbilxpid", "mbar"]),
    (0x3800000, ["tlbilx", "wclrall", "wclr"]),
    (0x3000000, ["eratilx"]),
    (0xc000, ["eratre", "eratwe"]),
    (0x7ff800, ["wchkall"]),
    (0x3e00000, ["dcbtst", "dcbt"]),
    (0x1800001, ["dst", "dstst", "dstt", "dststt"]),
    (0x19ff801, ["dss"]),
    (0x1fff801, ["dssall"]),
    (0xf, ["lq"]),
    (0x3, ["lfdp", "stfdp"]),
    (0x1e0000, ["drintx", "drintx.", "drintn", "drintn.", "xsrqpi", "xsrqpix", "xsrqpxp"]),
    (0x70000, ["ddedpd", "ddedpd."]),
    (0xf0000, ["denbcd", "denbcd.", "e_bdnz", "e_bdnzl", "e_bdz", "e_bdzl"]),
    (0x10800, ["daddq", "daddq.", "dquaq", "dquaq.", "dmulq", "dmulq.", "dsubq", "dsubq.", "ddivq", "ddivq."]),
    (0x800, ["drrndq", "drrndq.", "dquaiq", "dquaiq.", "dtstsfiq", "diexq", "diexq."]),
    (0x10000, ["dscliq", "dscliq.", "dscriq", "dscriq."]),
    (0x1e0800, ["drintxq", "drintxq.", "drintnq", "drintnq."]),
    (0x610800, ["dcmpoq", "dtstexq", "dcmpuq"]),
    (0x610000, ["dtstdcq", "dtstdgq"]),
    (0x1f0800, ["dctfixq", "dctfixq.", "dxexq", "dxexq.", "drdpq", "drdpq."]),
    (0x70800, ["ddedpdq", "ddedpdq."]),
    (0x600800, ["dtstsfq"]),
    (0x2010000, ["mtfsf", "mtfsf."]),
    (0xf0800, ["denbcdq", "denbcdq."]),
    (0x63f800, ["e_mcrf"]),
    (0x1ff000, ["evmar"])]

/-- Does the operand of a recognised word come back (C108)?  Not the numbers 20 to 23 of the register of `mfsprg`, not one
condition register of `mtcrf` when the dialect has Power4, and not an immediate of all zeros or ones that is shifted. -/
def Operand.Kept (o : Operand) (insn dialect : W) : Prop :=
  match o.name with
  | "SPRG" => ¬(part insn 8 1 = 0 ∧ part insn 18 3 = 5)
  | "FXM" | "FXM4" => ¬(part insn 20 1 = 0 ∧ part insn 1 10 ≠ 19 ∧ single (part insn 12 8) ∧ has dialect 0x800#64)
  | "SCLSCI8" | "SCLSCI8N" => part insn 8 2 = 0 ∨ part insn 0 8 ≠ if part insn 10 1 = 1 then 255 else 0
  | _ => True

/-- No error message: legal branch options, and for `lswi` no register of the address among those loaded. -/
def Operand.Quiet (o : Operand) (insn dialect : W) : Prop :=
  match o.name with
  | "BO" => boOk dialect (part insn 21 5) ∧ boCounter insn (part insn 21 5)
  | "BOE" => boOk dialect (part insn 21 5 / 2 * 2) ∧ boCounter insn (part insn 21 5)
  | "NBI" => ∀ k : Nat, 4 * (k : Int) < (if part insn 11 5 = 0 then 32 else part insn 11 5) → (part insn 21 5 + k) % 32 ≠ part insn 16 5
  | _ => True

end Opc
