import Verif.Bbv.Matrix
/-!
Model of the basic-block vectors of qtrace-bbv/qtrace-bbv.c.  The hash table is a list of objects (see `Htable.Map.refines`); the order
in which it is walked is given by a function.
-/
namespace Bbv

/-- qtrace-bbv.c:39-43. -/
structure Obj where
  addr : BitVec 64
  count : BitVec 64
  id : BitVec 32
deriving Repr, DecidableEq

/-- What `parse_qtrace` uses of a record of the trace. -/
structure Rec where
  addr : BitVec 64
  branch : Bool
deriving Repr, DecidableEq

/-- The environment: the allocator, the order of a walk over the hash table and the option `-p`. -/
structure Env where
  heap : Heap
  walk : List Obj → List Obj
  period : BitVec 64

/-- qtrace-bbv.c:62-70, 203-205. -/
structure St where
  table : List Obj
  nextId : BitVec 32
  matrix : Matrix
  interval : BitVec 64
  ea : BitVec 64
  size : BitVec 32
  insns : BitVec 64
deriving Repr, DecidableEq

/-- qtrace-bbv.c:94: the object found by its address. -/
def bump (addr : BitVec 64) (val : BitVec 32) : List Obj → List Obj
  | [] => []
  | o :: l => if o.addr = addr then { o with count := o.count + val.setWidth 64 } :: l else o :: bump addr val l

/-- qtrace-bbv.c:88-109 `add_basic_block`, if there is memory for objects. -/
def addBlock (addr : BitVec 64) (val : BitVec 32) (s : St) : St :=
  if s.table.any (fun o => o.addr == addr) then { s with table := bump addr val s.table }
  else { s with table := s.table ++ [{ addr := addr, count := val.setWidth 64, id := s.nextId }], nextId := s.nextId + 1 }

/-- qtrace-bbv.c:124-125. -/
def storeCount (interval : BitVec 64) (m : Matrix) (o : Obj) : Except Stop Matrix :=
  if o.count ≠ 0 then m.store interval (o.id.setWidth 64) o.count else .ok m

/-- qtrace-bbv.c:116-118. -/
def growCols (h : Heap) (nextId : BitVec 32) (m : Matrix) : Except Stop Matrix :=
  if nextId.setWidth 64 ≥ m.cols then m.resize h m.rows (m.cols * 2) else .ok m

/-- qtrace-bbv.c:120-121. -/
def growRows (h : Heap) (interval : BitVec 64) (m : Matrix) : Except Stop Matrix :=
  if interval ≥ m.rows then m.resize h (m.rows * 2) m.cols else .ok m

/-- qtrace-bbv.c:111-130 `reset_basic_block_vector`. -/
def reset (e : Env) (s : St) : Except Stop St :=
  match growCols e.heap s.nextId s.matrix with
  | .error x => .error x
  | .ok m =>
    match growRows e.heap s.interval m with
    | .error x => .error x
    | .ok m =>
      match (e.walk s.table).foldlM (storeCount s.interval) m with
      | .error x => .error x
      | .ok m => .ok { s with matrix := m, table := s.table.map fun o => { o with count := 0 }, interval := s.interval + 1 }

/-- qtrace-bbv.c:215-226: the record becomes part of a block, and a branch ends the block. -/
def block (s : St) (r : Rec) : St :=
  let s := if s.ea = 0xffffffffffffffff then { s with ea := r.addr } else s
  let s := { s with size := s.size + 1 }
  if r.branch then { addBlock s.ea s.size s with size := 0, ea := 0xffffffffffffffff } else s

/-- qtrace-bbv.c:229-233. -/
def tick (e : Env) (s : St) : Except Stop St :=
  let s := { s with insns := s.insns + 1 }
  if s.insns ≥ e.period then
    match reset e s with
    | .error x => .error x
    | .ok s => .ok { s with insns := 0 }
  else .ok s

/-- qtrace-bbv.c:214-234: one record. -/
def record (e : Env) (s : St) (r : Rec) : Except Stop St := tick e (block s r)

/-- qtrace-bbv.c:78-86 `initialize` and the initial values; the constants are 1000 and 10000 (lines 34, 35). -/
def start (e : Env) (rows cols : BitVec 64) : Except Stop St :=
  match Matrix.create e.heap true rows cols with
  | .error x => .error x
  | .ok m => .ok { table := [], nextId := 0, matrix := m, interval := 0, ea := 0xffffffffffffffff, size := 0, insns := 0 }

/-- qtrace-bbv.c:199-237 `parse_qtrace` for the records of a trace. -/
def parse (e : Env) (recs : List Rec) : Except Stop St :=
  match start e 1000 10000 with
  | .error x => .error x
  | .ok s => recs.foldlM (record e) s

/-- qtrace-bbv.c:173: the matrix that is clustered. -/
def vectors (e : Env) (s : St) : Except Stop Matrix := s.matrix.resize e.heap s.interval ((s.nextId + 1).setWidth 64)

end Bbv
