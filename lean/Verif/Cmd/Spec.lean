import Verif.Cmd.Model

/-! # Specification vocabulary for command lines -/

namespace CmdSpec
open Cmd (Arg Start Tracer Lister Job Bbv Text)

/-- How an option is written: its letter, and its argument if it has one. -/
structure Face where
  letter : Char
  value : Option Arg

/-- A word that is not taken for an option. -/
def Operand (w : Arg) : Prop := w.head? ≠ some '-' ∨ w = ['-']

/-- Options written in one word: letters, and behind them the argument of the last one, which may also be the next word. -/
inductive Word {σ} (face : σ → Face) : List σ → List Char → List Arg → Prop
  | nil : Word face [] [] []
  | flag {s ss cs ex} : (face s).value = none → Word face ss cs ex → Word face (s :: ss) ((face s).letter :: cs) ex
  | attached {s v} : (face s).value = some v → v ≠ [] → Word face [s] ((face s).letter :: v) []
  | separate {s v} : (face s).value = some v → Word face [s] [(face s).letter] [v]

/-- A command line: options and operands, in this order.  `first`: everything from the first operand on is operands; otherwise options may
come behind operands. -/
inductive Line {σ} (face : σ → Face) (first : Bool) : List σ → List Arg → List Arg → Prop
  | nil : Line face first [] [] []
  | dashes (ops) : Line face first [] ops (['-', '-'] :: ops)
  | stop {w} (ops) : first = true → Operand w → Line face first [] (w :: ops) (w :: ops)
  | operand {w ss ops as} : first = false → Operand w → Line face first ss ops as → Line face first ss (w :: ops) (w :: as)
  | word {g cs ex ss ops as} : Word face g cs ex → cs ≠ [] → Line face first ss ops as → Line face first (g ++ ss) ops (('-' :: cs) :: (ex ++ as))

/-- A number in decimal. -/
def decimal (n : Nat) : Arg := Nat.toDigits 10 n

/-- The last of the options that say something about a setting. -/
def last {σ α} (f : σ → Option α) (ss : List σ) : Option α := (ss.filterMap f).getLast?

/-- The options of ptracer. -/
inductive TracerOpt where
  | ascii (f : Arg)
  | qtrace (f : Arg)
  | checkpoint (d : Arg)
  | pid (n : Nat)
  | insns (n : Nat)
  | skip (n : Nat)
  | xlate
  | regs
  deriving DecidableEq

/-- ... as its usage message has them. -/
def TracerOpt.face : TracerOpt → Face
  | .ascii f => ⟨'a', some f⟩
  | .qtrace f => ⟨'q', some f⟩
  | .checkpoint d => ⟨'c', some d⟩
  | .pid n => ⟨'p', some (decimal n)⟩
  | .insns n => ⟨'n', some (decimal n)⟩
  | .skip n => ⟨'s', some (decimal n)⟩
  | .xlate => ⟨'x', none⟩
  | .regs => ⟨'r', none⟩

/-- The numbers are those of processes and of counters. -/
def TracerOpt.Ok : TracerOpt → Prop
  | .pid n => n < 2 ^ 31
  | .insns n => n < 2 ^ 63
  | .skip n => n < 2 ^ 63
  | _ => True

/-- What the options say about each setting. -/
def TracerOpt.asAscii : TracerOpt → Option Arg
  | .ascii f => some f
  | _ => none
def TracerOpt.asQtrace : TracerOpt → Option Arg
  | .qtrace f => some f
  | _ => none
def TracerOpt.asCheckpoint : TracerOpt → Option Arg
  | .checkpoint d => some d
  | _ => none
def TracerOpt.asPid : TracerOpt → Option Nat
  | .pid n => some n
  | _ => none
def TracerOpt.asInsns : TracerOpt → Option Nat
  | .insns n => some n
  | _ => none
def TracerOpt.asSkip : TracerOpt → Option Nat
  | .skip n => some n
  | _ => none

/-- The settings that the options ask for. -/
def tracerWants (ss : List TracerOpt) : Tracer where
  ascii := last TracerOpt.asAscii ss
  qtrace := last TracerOpt.asQtrace ss
  checkpoint := last TracerOpt.asCheckpoint ss
  pid := ((last TracerOpt.asPid ss).getD 0 : Nat)
  left := BitVec.ofNat 64 ((last TracerOpt.asInsns ss).getD (2 ^ 64 - 1))
  skip := BitVec.ofNat 64 ((last TracerOpt.asSkip ss).getD 0)
  regs := ss.any (· == .regs)
  xlate := ss.any (· == .xlate)

/-- The options of qtdis. -/
inductive ListerOpt where
  | elf (f : Arg)
  | dump (n : Nat)
  | raw
  | verbose
  | qtbuild
  | stats
  | mix
  | blocks
  deriving DecidableEq

def ListerOpt.face : ListerOpt → Face
  | .elf f => ⟨'e', some f⟩
  | .dump n => ⟨'d', some (decimal n)⟩
  | .raw => ⟨'r', none⟩
  | .verbose => ⟨'v', none⟩
  | .qtbuild => ⟨'b', none⟩
  | .stats => ⟨'s', none⟩
  | .mix => ⟨'i', none⟩
  | .blocks => ⟨'c', none⟩

def ListerOpt.Ok : ListerOpt → Prop
  | .dump n => n < 2 ^ 31
  | _ => True

def ListerOpt.asElf : ListerOpt → Option Arg
  | .elf f => some f
  | _ => none
def ListerOpt.asDump : ListerOpt → Option Nat
  | .dump n => some n
  | _ => none

/-- The settings that the options ask for: the symbols of all files, in this order. -/
def listerWants (ss : List ListerOpt) : Lister where
  elf := ss.filterMap ListerOpt.asElf
  qtbuild := ss.any (· == .qtbuild)
  dump := ((last ListerOpt.asDump ss).getD 0 : Nat)
  raw := ss.any (· == .raw)
  stats := ss.any (· == .stats)
  mix := ss.any (· == .mix)
  blocks := ss.any (· == .blocks)
  verbose := BitVec.ofNat 32 (ss.countP (· == .verbose))

/-- The options of htmdecode. -/
inductive DecoderOpt where
  | out (f : Arg)
  | debug
  | detail
  | stats
  | mix
  | blocks
  deriving DecidableEq

def DecoderOpt.face : DecoderOpt → Face
  | .out f => ⟨'o', some f⟩
  | .debug => ⟨'D', none⟩
  | .detail => ⟨'d', none⟩
  | .stats => ⟨'s', none⟩
  | .mix => ⟨'i', none⟩
  | .blocks => ⟨'b', none⟩

def DecoderOpt.asOut : DecoderOpt → Option Arg
  | .out f => some f
  | _ => none

/-- The options of qtrace-bbv. -/
inductive BbvOpt where
  | dimensions (n : Nat)
  | k (n : Nat)
  | period (n : Nat)
  | verbose
  deriving DecidableEq

def BbvOpt.face : BbvOpt → Face
  | .dimensions n => ⟨'d', some (decimal n)⟩
  | .k n => ⟨'k', some (decimal n)⟩
  | .period n => ⟨'p', some (decimal n)⟩
  | .verbose => ⟨'v', none⟩

def BbvOpt.Ok : BbvOpt → Prop
  | .dimensions n => n < 2 ^ 32
  | .k n => n < 2 ^ 32
  | .period n => n < 2 ^ 64
  | .verbose => True

def BbvOpt.asDimensions : BbvOpt → Option Nat
  | .dimensions n => some n
  | _ => none
def BbvOpt.asK : BbvOpt → Option Nat
  | .k n => some n
  | _ => none
def BbvOpt.asPeriod : BbvOpt → Option Nat
  | .period n => some n
  | _ => none

/-- The settings that the options ask for. -/
def bbvWants (ss : List BbvOpt) : Bbv where
  dimensions := BitVec.ofNat 32 ((last BbvOpt.asDimensions ss).getD 127)
  k := BitVec.ofNat 32 ((last BbvOpt.asK ss).getD 0)
  period := BitVec.ofNat 64 ((last BbvOpt.asPeriod ss).getD 10000000)
  verbose := BitVec.ofNat 32 (ss.countP (· == .verbose))

end CmdSpec
