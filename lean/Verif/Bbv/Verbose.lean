import Verif.Bbv.Output
/-!
Model of what `qtrace-bbv -v` prints, with the lines that only this option adds.  The text before the program stops is kept with the way in which it stops.
-/
namespace Bbv

/-- `printf("%lx", v)`. -/
def lx (v : BitVec 64) : List Char := Nat.toDigits 16 v.toNat

/-- `printf("%d", v)` for an unsigned word of 32 bits: it is shown as a signed number. -/
def d32 (v : BitVec 32) : List Char := if v.toInt < 0 then '-' :: Nat.toDigits 10 (-v.toInt).toNat else Nat.toDigits 10 v.toInt.toNat

/-- qtrace-bbv.c:215-223: what is printed for a record; the address is that of line 216, and the size is counted in line 218. -/
def blockText (s : St) (r : Rec) : List Char :=
  if r.branch then "BB 0x".toList ++ (lx (if s.ea = 0xffffffffffffffff then r.addr else s.ea) ++ (" length ".toList ++ (d32 (s.size + 1) ++ ['\n']))) else []

/-- qtrace-bbv.c:214-234. -/
def recordsV (e : Env) : St → List Rec → List Char × Except Stop St
  | s, [] => ([], .ok s)
  | s, r :: l =>
    match record e s r with
    | .error x => (blockText s r, .error x)
    | .ok s' => (blockText s r ++ (recordsV e s' l).1, (recordsV e s' l).2)

/-- qtrace-bbv.c:199-237 `parse_qtrace`. -/
def parseV (e : Env) (recs : List Rec) : List Char × Except Stop St :=
  match start e 1000 10000 with
  | .error x => ([], .error x)
  | .ok s => recordsV e s recs

/-- qtrace-bbv.c:145-148: the costs that are printed, and what `iterate` gives. -/
def iterateV : Nat → Pam → List (BitVec 64) × Option (Option Pam)
  | 0, _ => ([], some none)
  | n + 1, p =>
    match iteration p with
    | none => ([], none)
    | some (p, true) => (p.cost :: (iterateV n p).1, (iterateV n p).2)
    | some (p, false) => ([], some (some p))

/-- qtrace-bbv.c:137. -/
def head (k : Nat) : List Char := "Testing K=".toList ++ (ld (BitVec.ofNat 64 k) ++ ['\n'])

/-- qtrace-bbv.c:147. -/
def costText (c : BitVec 64) : List Char := ld c ++ ['\n']

/-- qtrace-bbv.c:150, 152, 154 and pam.c:230, 253-254. -/
def foot (r : Report) : List Char := "Cost: ".toList ++ (ld r.cost ++ '\n' :: ("Medoids:".toList ++ '\n' :: ((r.lines.map Line.text).flatten ++ ['\n'])))

/-- qtrace-bbv.c:132-163 `do_one_pam`. -/
def onePamV (period : BitVec 64) (points : List Row) (k : Nat) : List Char × Except Ending Report :=
  match initialise points k with
  | none => (head k, .error .undefined)
  | some none => (head k, .error .exit)
  | some (some p) =>
    match iterateV (p.cost.toNat + 1) p with
    | (costs, none) => (head k ++ (costs.map costText).flatten, .error .undefined)
    | (costs, some none) => (head k ++ (costs.map costText).flatten, .error .loops)
    | (costs, some (some p)) =>
      match weights p with
      | none => (head k ++ (costs.map costText).flatten, .error .undefined)
      | some ws =>
        (head k ++ ((costs.map costText).flatten ++ foot { k := k, cost := p.cost, lines := ws.map (line period) }), .ok { k := k, cost := p.cost, lines := ws.map (line period) })

/-- qtrace-bbv.c:190-193. -/
def sweepV (period : BitVec 64) (points : List Row) : Nat → Nat → List Char × Ending
  | 0, _ => ([], .done)
  | n + 1, k =>
    match onePamV period points k with
    | (t, .error e) => (t, e)
    | (t, .ok r) => if r.cost = 0 then (t, .done) else (t ++ (sweepV period points n (k + 1)).1, (sweepV period points n (k + 1)).2)

/-- qtrace-bbv.c:185-194. -/
def clusteringsV (period : BitVec 64) (points : List Row) (k : BitVec 32) : List Char × Ending :=
  if k ≠ 0 then
    match onePamV period points k.toNat with
    | (t, .error e) => (t, e)
    | (t, .ok _) => (t, .done)
  else sweepV period points 32 1

/-- qtrace-bbv.c:165-197 `do_pam`. -/
def doPamV (e : Env) (s : St) (coin : Nat → Bool) (dims k : BitVec 32) : List Char × Ending :=
  match vectors e s with
  | .error x => ([], x.ending)
  | .ok m =>
    match reduced e.heap coin m dims with
    | .error x => ([], x.ending)
    | .ok b =>
      match b.print with
      | .error x => ("Matrix:".toList ++ ['\n'], x.ending)
      | .ok t => ("Matrix:".toList ++ '\n' :: (t ++ (clusteringsV e.period (rowsOf b) k).1), (clusteringsV e.period (rowsOf b) k).2)

/-- qtrace-bbv.c:287-288: `main` after the options, with `-v`. -/
def summariseV (e : Env) (recs : List Rec) (coin : Nat → Bool) (dims k : BitVec 32) : List Char × Ending :=
  match parseV e recs with
  | (t, .error x) => (t, x.ending)
  | (t, .ok s) => (t ++ (doPamV e s coin dims k).1, (doPamV e s coin dims k).2)

end Bbv
