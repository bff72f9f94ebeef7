import Verif.Bbv.Verbose
/-!
Model of qtrace-bbv when memory is lacking: every allocation has an answer of its own.  The text that was printed before the program ends is kept.
-/
namespace Bbv

/-- The answers while a record is processed: `malloc` of an object (qtrace-bbv.c:96), the addition to the hash table (line 107, which grows the table sometimes), and the
two allocations of `matrix_resize` (lines 117, 120) by their sizes. -/
structure Luck where
  object : Bool
  insert : Bool
  cols : BitVec 64 → Bool
  rows : BitVec 64 → Bool

/-- The answers for `do_one_pam`: the three allocations of `pam_initialise` (pam.c:128, 138, 148) and that of `print_medoids` (pam.c:232). -/
structure PamLuck where
  pam : Bool
  points : Bool
  medoids : Bool
  table : Bool

/-- All other answers: `initialize` (a matrix and the hash table), the last `matrix_resize`, the two matrices of `random_projection`, and `do_one_pam` for each number of medoids. -/
structure Lucks where
  startDesc : Bool
  startData : BitVec 64 → Bool
  startTable : Bool
  last : BitVec 64 → Bool
  leftDesc : Bool
  leftData : BitVec 64 → Bool
  rightDesc : Bool
  rightData : BitVec 64 → Bool
  pam : Nat → PamLuck

/-- qtrace-bbv.c:88-109 `add_basic_block`: whether the addition to the table succeeds is not looked at. -/
def addBlockM (l : Luck) (addr : BitVec 64) (val : BitVec 32) (s : St) : Except Stop St :=
  if s.table.any (fun o => o.addr == addr) then .ok { s with table := bump addr val s.table }
  else if l.object = false then .error .exit
  else if l.insert = false then .ok { s with nextId := s.nextId + 1 }
  else .ok { s with table := s.table ++ [{ addr := addr, count := val.setWidth 64, id := s.nextId }], nextId := s.nextId + 1 }

/-- qtrace-bbv.c:215-226. -/
def blockM (l : Luck) (s : St) (r : Rec) : Except Stop St :=
  let s := if s.ea = 0xffffffffffffffff then { s with ea := r.addr } else s
  let s := { s with size := s.size + 1 }
  if r.branch then
    match addBlockM l s.ea s.size s with
    | .error x => .error x
    | .ok s => .ok { s with size := 0, ea := 0xffffffffffffffff }
  else .ok s

/-- qtrace-bbv.c:111-130 `reset_basic_block_vector`. -/
def resetM (e : Env) (l : Luck) (s : St) : Except Stop St :=
  match growCols { e.heap with grants := l.cols } s.nextId s.matrix with
  | .error x => .error x
  | .ok m =>
    match growRows { e.heap with grants := l.rows } s.interval m with
    | .error x => .error x
    | .ok m =>
      match (e.walk s.table).foldlM (storeCount s.interval) m with
      | .error x => .error x
      | .ok m => .ok { s with matrix := m, table := s.table.map fun o => { o with count := 0 }, interval := s.interval + 1 }

/-- qtrace-bbv.c:229-233. -/
def tickM (e : Env) (l : Luck) (s : St) : Except Stop St :=
  let s := { s with insns := s.insns + 1 }
  if s.insns ≥ e.period then
    match resetM e l s with
    | .error x => .error x
    | .ok s => .ok { s with insns := 0 }
  else .ok s

/-- qtrace-bbv.c:214-234: one record. -/
def recordM (e : Env) (l : Luck) (s : St) (r : Rec) : Except Stop St :=
  match blockM l s r with
  | .error x => .error x
  | .ok s => tickM e l s

/-- qtrace-bbv.c:214-234: all records, with what `-v` (`v`) prints. -/
def recordsM (v : Bool) (e : Env) : St → List (Rec × Luck) → List Char × Except Stop St
  | s, [] => ([], .ok s)
  | s, (r, l) :: rest =>
    match recordM e l s r with
    | .error x => (if v then blockText s r else [], .error x)
    | .ok s' => ((if v then blockText s r else []) ++ (recordsM v e s' rest).1, (recordsM v e s' rest).2)

/-- qtrace-bbv.c:78-86 `initialize`. -/
def startM (e : Env) (l : Lucks) (rows cols : BitVec 64) : Except Stop St :=
  match Matrix.create { e.heap with grants := l.startData } l.startDesc rows cols with
  | .error x => .error x
  | .ok m =>
    if l.startTable = false then .error .exit
    else .ok { table := [], nextId := 0, matrix := m, interval := 0, ea := 0xffffffffffffffff, size := 0, insns := 0 }

/-- qtrace-bbv.c:199-237 `parse_qtrace`. -/
def parseM (v : Bool) (e : Env) (l : Lucks) (recs : List (Rec × Luck)) : List Char × Except Stop St :=
  match startM e l 1000 10000 with
  | .error x => ([], .error x)
  | .ok s => recordsM v e s recs

/-- qtrace-bbv.c:132-163 `do_one_pam`: its cost.  A failure of `print_medoids` is not looked at. -/
def onePamM (v : Bool) (l : PamLuck) (period : BitVec 64) (points : List Row) (k : Nat) : List Char × Except Ending (BitVec 64) :=
  if l.pam = false ∨ l.points = false ∨ l.medoids = false then (head k, .error .exit)
  else
    match initialise points k with
    | none => (head k, .error .undefined)
    | some none => (head k, .error .exit)
    | some (some p) =>
      match iterateV (p.cost.toNat + 1) p with
      | (costs, none) => (head k ++ (if v then (costs.map costText).flatten else []), .error .undefined)
      | (costs, some none) => (head k ++ (if v then (costs.map costText).flatten else []), .error .loops)
      | (costs, some (some p)) =>
        if l.table = false then
          (head k ++ ((if v then (costs.map costText).flatten else []) ++ foot { k := k, cost := p.cost, lines := [] }), .ok p.cost)
        else
          match weights p with
          | none => (head k ++ (if v then (costs.map costText).flatten else []), .error .undefined)
          | some ws => (head k ++ ((if v then (costs.map costText).flatten else []) ++ foot { k := k, cost := p.cost, lines := ws.map (line period) }), .ok p.cost)

/-- qtrace-bbv.c:190-193. -/
def sweepM (v : Bool) (l : Nat → PamLuck) (period : BitVec 64) (points : List Row) : Nat → Nat → List Char × Ending
  | 0, _ => ([], .done)
  | n + 1, k =>
    match onePamM v (l k) period points k with
    | (t, .error e) => (t, e)
    | (t, .ok c) => if c = 0 then (t, .done) else (t ++ (sweepM v l period points n (k + 1)).1, (sweepM v l period points n (k + 1)).2)

/-- qtrace-bbv.c:185-194. -/
def clusteringsM (v : Bool) (l : Nat → PamLuck) (period : BitVec 64) (points : List Row) (k : BitVec 32) : List Char × Ending :=
  if k ≠ 0 then
    match onePamM v (l k.toNat) period points k.toNat with
    | (t, .error e) => (t, e)
    | (t, .ok _) => (t, .done)
  else sweepM v l period points 32 1

/-- pam.c:200-217 `random_projection`. -/
def projectionM (h : Heap) (l : Lucks) (coin : Nat → Bool) (a : Matrix) (dims : BitVec 64) : Except Stop Matrix :=
  match Matrix.create { h with grants := l.leftData } l.leftDesc a.cols dims with
  | .error e => .error e
  | .ok b =>
    match Matrix.create { h with grants := l.rightData } l.rightDesc a.rows dims with
    | .error e => .error e
    | .ok c =>
      match randomOnes coin b with
      | .error e => .error e
      | .ok b =>
        match multiply false false c a b with
        | .error e => .error e
        | .ok (c, _) => .ok c

/-- qtrace-bbv.c:175-178. -/
def reducedM (h : Heap) (l : Lucks) (coin : Nat → Bool) (m : Matrix) (dims : BitVec 32) : Except Stop Matrix :=
  if dims ≠ 0 then projectionM h l coin m (dims.setWidth 64) else .ok m

/-- qtrace-bbv.c:165-197 `do_pam`. -/
def doPamM (v : Bool) (e : Env) (l : Lucks) (s : St) (coin : Nat → Bool) (dims k : BitVec 32) : List Char × Ending :=
  match s.matrix.resize { e.heap with grants := l.last } s.interval ((s.nextId + 1).setWidth 64) with
  | .error x => ([], x.ending)
  | .ok m =>
    match reducedM e.heap l coin m dims with
    | .error x => ([], x.ending)
    | .ok b =>
      if v then
        match b.print with
        | .error x => ("Matrix:".toList ++ ['\n'], x.ending)
        | .ok t => ("Matrix:".toList ++ '\n' :: (t ++ (clusteringsM v l.pam e.period (rowsOf b) k).1), (clusteringsM v l.pam e.period (rowsOf b) k).2)
      else clusteringsM v l.pam e.period (rowsOf b) k

/-- qtrace-bbv.c:287-288: `main` after the options. -/
def summariseM (v : Bool) (e : Env) (l : Lucks) (recs : List (Rec × Luck)) (coin : Nat → Bool) (dims k : BitVec 32) : List Char × Ending :=
  match parseM v e l recs with
  | (t, .error x) => (t, x.ending)
  | (t, .ok s) => (t ++ (doPamM v e l s coin dims k).1, (doPamM v e l s coin dims k).2)

end Bbv
