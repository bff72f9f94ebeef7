import Verif.Qt.Writer
/-! Model of calls of the writer (qtlib/qtwriter.c) that end in a failed assertion. -/
namespace Qt

/-- What a call has done when an assertion of it fails: the size of the mapping (252-262), and the bytes stored by then. Those of the header are at 129-139,
in front of its assertions (143-156); those of a record come behind its assertions (302-350, 372). -/
def aborting (s : WState) (r : Record) : Nat × Bytes :=
  (if s.out.length + BUFFER > s.mapped then s.mapped + BUFFER else s.mapped,
   s.out ++ if s.headerWritten then [] else be32 0 ++ be16 0x0001 ++ be16 (0x0002 ||| bitIf (r.radixInsn.nrPtes != 0) 0x0001))

end Qt
