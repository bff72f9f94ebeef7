import Verif.Bbv.Matrix
/-!
Model of the self-test of qtrace-bbv/matrix.c (`MATRIX_TEST`).
-/
namespace Bbv

/-- How the test can end before its end: in a call, or with the assertion of a line of matrix.c. -/
inductive TestStop where
  | stop (s : Stop)
  | assertion (line : Nat)
deriving Repr, DecidableEq

/-- A call made by the test. -/
def run {α : Type} : Except Stop α → Except TestStop α
  | .error e => .error (.stop e)
  | .ok a => .ok a

/-- `assert(call == want)`, where the call also changes a matrix. -/
def expect {α : Type} (line : Nat) (want : Bool) : Except Stop (α × Bool) → Except TestStop α
  | .error e => .error (.stop e)
  | .ok (a, b) => if b = want then .ok a else .error (.assertion line)

/-- `assert(condition)`. -/
def require (line : Nat) (b : Bool) : Except TestStop Unit := if b then .ok () else .error (.assertion line)

/-- matrix.c:171: the entry gets the next number of `random()`. -/
def randomEntry (src : Nat → BitVec 64) (row : BitVec 64) (s : Matrix × Nat) (col : BitVec 64) : Except Stop (Matrix × Nat) :=
  match s.1.store row col (src s.2) with
  | .error e => .error e
  | .ok m => .ok (m, s.2 + 1)

/-- matrix.c:165-174 `matrix_random`.  `src` are the results of `random()`, `n` how many of them are used up. -/
def Matrix.random (src : Nat → BitVec 64) (n : Nat) (m : Matrix) : Except Stop (Matrix × Nat) :=
  loop m.rows (m, n) fun s row => loop m.cols s (randomEntry src row)

/-- matrix.c:212. -/
def ROWA : BitVec 64 := 128
/-- matrix.c:213. -/
def COLA : BitVec 64 := 32
/-- matrix.c:214. -/
def COLB : BitVec 64 := 8

/-- matrix.c:227-228: ones on the diagonal. -/
def diagonal (m : Matrix) : Except Stop Matrix := loop ROWA m fun m row => m.store row row 1

/-- matrix.c:216-237 `identity_multiplication`. -/
def identityTest (h : Heap) (src : Nat → BitVec 64) (n : Nat) : Except TestStop Nat := do
  let a ← run (Matrix.create h true ROWA ROWA)
  let b ← run (Matrix.create h true ROWA ROWA)
  let c ← run (Matrix.create h true ROWA ROWA)
  let i ← run (Matrix.create h true ROWA ROWA)
  let i ← run (diagonal i)
  let s ← run (a.random src n)
  let b ← expect 233 true (multiply false false b s.1 i)
  let c ← expect 234 true (multiply false false c i s.1)
  let e ← run (b.compare c)
  require 236 e
  .ok s.2

/-- matrix.c:239-261 `associative_multiplication`.  The test does not compare the two results. -/
def associativeTest (h : Heap) (src : Nat → BitVec 64) (n : Nat) : Except TestStop Unit := do
  let a ← run (Matrix.create h true ROWA ROWA)
  let b ← run (Matrix.create h true ROWA ROWA)
  let c ← run (Matrix.create h true ROWA ROWA)
  let r1a ← run (Matrix.create h true ROWA ROWA)
  let r2a ← run (Matrix.create h true ROWA ROWA)
  let r1 ← run (Matrix.create h true ROWA ROWA)
  let r2 ← run (Matrix.create h true ROWA ROWA)
  let a ← run (a.random src n)
  let b ← run (b.random src a.2)
  let c ← run (c.random src b.2)
  let r1a ← expect 256 true (multiply false false r1a a.1 b.1)
  let _ ← expect 257 true (multiply false false r1 r1a c.1)
  let r2a ← expect 259 true (multiply false false r2a b.1 c.1)
  let _ ← expect 260 true (multiply false false r2 a.1 r2a)
  .ok ()

/-- matrix.c:273-277. -/
def pattern (m : Matrix) : Except Stop Matrix :=
  loop ROWA m fun m row => loop COLA m fun m col => m.store row col ((row <<< 16) + col)

/-- matrix.c:263-311 `main`.  The calls of `matrix_destroy` do nothing else than to give memory back. -/
def selftest (h : Heap) (src : Nat → BitVec 64) : Except TestStop Unit := do
  let a ← run (Matrix.create h true ROWA COLA)
  let aa ← run (Matrix.create h true ROWA COLA)
  let b ← run (Matrix.create h true COLA COLB)
  let c ← run (Matrix.create h true ROWA COLB)
  let a ← run (pattern a)
  let c ← expect 279 true (multiply false false c a b)
  let c ← expect 280 false (multiply false false c a a)
  let aa ← expect 282 true (aa.copy a)
  let a ← run (a.resize h (ROWA + 1000) (COLA + 0))
  require 285 (a.rows == ROWA + 1000)
  require 286 (a.cols == COLA + 0)
  let a ← run (a.resize h (ROWA + 1000) (COLA + 1000))
  require 289 (a.rows == ROWA + 1000)
  require 290 (a.cols == COLA + 1000)
  let a ← run (a.resize h (ROWA + 2000) (COLA + 2000))
  require 293 (a.rows == ROWA + 2000)
  require 294 (a.cols == COLA + 2000)
  let a ← run (a.resize h ROWA COLA)
  let e ← run (a.compare aa)
  require 298 e
  let _ ← expect 300 false (a.copy c)
  let n ← identityTest h src 0
  associativeTest h src n

end Bbv
