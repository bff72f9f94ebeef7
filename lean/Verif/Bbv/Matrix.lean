/-!
Model of qtrace-bbv/matrix.c.  A matrix is its dimensions, which are 64 bit numbers, and the memory its entries are in.  Sizes and
positions are computed in 64 bits, as in the code.
-/
namespace Bbv

/-- How a call can end other than by returning: `exit(1)` after a failed allocation, or an access outside the memory of a
matrix, which is undefined. -/
inductive Stop where
  | exit
  | bounds
deriving Repr, DecidableEq

/-- matrix.h:7-11.  `data` is the memory `m->data` points to, in words. -/
structure Matrix where
  rows : BitVec 64
  cols : BitVec 64
  data : List (BitVec 64)
deriving Repr, DecidableEq

/-- The allocator: whether a request succeeds (including requests for no memory, where the C library decides), and what new memory
contains. -/
structure Heap where
  grants : BitVec 64 → Bool
  junk : BitVec 64

/-- `rows*cols*sizeof(uint64_t)`, lines 28, 29, 50, 56, 87, 93. -/
def size (rows cols : BitVec 64) : BitVec 64 := rows * cols * 8

/-- Memory of the given size in bytes after `memset(.., 0, size)`. -/
def zeroed (size : BitVec 64) : List (BitVec 64) := List.replicate (size.toNat / 8) 0

/-- matrix.c:15-18 `matrix_entry`: the position. -/
def Matrix.entry (m : Matrix) (row col : BitVec 64) : Nat := (row * m.cols + col).toNat

/-- `*matrix_entry(m, row, col)`. -/
def Matrix.load (m : Matrix) (row col : BitVec 64) : Except Stop (BitVec 64) :=
  match m.data[m.entry row col]? with
  | some v => .ok v
  | none => .error .bounds

/-- `*matrix_entry(m, row, col) = v`. -/
def Matrix.store (m : Matrix) (row col v : BitVec 64) : Except Stop Matrix :=
  if m.entry row col < m.data.length then .ok { m with data := m.data.set (m.entry row col) v } else .error .bounds

/-- `for (i = 0; i < n; i++)` with a body that changes a matrix. -/
def loop {α : Type} (n : BitVec 64) (s : α) (body : α → BitVec 64 → Except Stop α) : Except Stop α :=
  (List.range n.toNat).foldlM (fun s i => body s (BitVec.ofNat 64 i)) s

/-- matrix.c:9-13 `min`. -/
def least (x y : BitVec 64) : BitVec 64 := if x < y then x else y

/-- matrix.c:26-48: only the number of rows changes.  `realloc` keeps what fits, and what is new is cleared. -/
def Matrix.resizeRows (h : Heap) (m : Matrix) (rows : BitVec 64) : Except Stop Matrix :=
  let old := size m.rows m.cols
  let new := size rows m.cols
  if h.grants new = false then .error .exit
  else
    let kept := m.data.take (new.toNat / 8) ++ List.replicate (new.toNat / 8 - m.data.length) h.junk
    let data := if new > old then kept.take (old.toNat / 8) ++ List.replicate ((new - old).toNat / 8) 0 else kept
    .ok { rows := rows, cols := m.cols, data := data }

/-- matrix.c:63, 127: `*matrix_entry(n, row, col) = *matrix_entry(m, row, col)`. -/
def transfer (m : Matrix) (row : BitVec 64) (n : Matrix) (col : BitVec 64) : Except Stop Matrix :=
  match m.load row col with
  | .error e => .error e
  | .ok v => n.store row col v

/-- matrix.c:20-73 `matrix_resize`. -/
def Matrix.resize (h : Heap) (m : Matrix) (rows cols : BitVec 64) : Except Stop Matrix :=
  if cols = m.cols then m.resizeRows h rows
  else if h.grants (size rows cols) = false then .error .exit
  else
    loop (least m.rows rows) { rows := rows, cols := cols, data := zeroed (size rows cols) } fun n row =>
      loop (least m.cols cols) n (transfer m row)

/-- matrix.c:75-99 `matrix_create`.  The allocation of the descriptor is `desc`. -/
def Matrix.create (h : Heap) (desc : Bool) (rows cols : BitVec 64) : Except Stop Matrix :=
  if desc = false then .error .exit
  else if h.grants (size rows cols) = false then .error .exit
  else .ok { rows := rows, cols := cols, data := zeroed (size rows cols) }

/-- matrix.c:109-112: the columns of a row from `col` on, `n` of them. -/
def Matrix.compareCols (a b : Matrix) (row : BitVec 64) : Nat → Nat → Except Stop Bool
  | 0, _ => .ok true
  | n + 1, col =>
    match a.load row (BitVec.ofNat 64 col), b.load row (BitVec.ofNat 64 col) with
    | .ok v, .ok w => if v ≠ w then .ok false else a.compareCols b row n (col + 1)
    | _, _ => .error .bounds

/-- matrix.c:108-115: the rows from `row` on, `n` of them. -/
def Matrix.compareRows (a b : Matrix) : Nat → Nat → Except Stop Bool
  | 0, _ => .ok true
  | n + 1, row =>
    match a.compareCols b (BitVec.ofNat 64 row) a.cols.toNat 0 with
    | .error e => .error e
    | .ok false => .ok false
    | .ok true => a.compareRows b n (row + 1)

/-- matrix.c:101-116 `matrix_compare`. -/
def Matrix.compare (a b : Matrix) : Except Stop Bool :=
  if a.rows ≠ b.rows ∨ a.cols ≠ b.cols then .ok false else a.compareRows b a.rows.toNat 0

/-- matrix.c:118-131 `matrix_copy`, from `b` to `a`: the new `a` and the return value. -/
def Matrix.copy (a b : Matrix) : Except Stop (Matrix × Bool) :=
  if a.rows ≠ b.rows ∨ a.cols ≠ b.cols then .ok (a, false)
  else
    match (loop a.rows a fun n row => loop a.cols n (transfer b row)) with
    | .error e => .error e
    | .ok a => .ok (a, true)

/-- matrix.c:200-202. -/
def addProduct (a b : Matrix) (row col : BitVec 64) (c : Matrix) (x : BitVec 64) : Except Stop Matrix :=
  match a.load row x, b.load x col, c.load row col with
  | .ok v, .ok w, .ok u => c.store row col (u + v * w)
  | _, _, _ => .error .bounds

/-- matrix.c:197-203. -/
def dot (a b : Matrix) (row : BitVec 64) (c : Matrix) (col : BitVec 64) : Except Stop Matrix :=
  match c.store row col 0 with
  | .error e => .error e
  | .ok c => loop a.cols c (addProduct a b row col)

/-- matrix.c:176-208 `matrix_multiply`: the new `c` and the return value.  `ac` and `bc` tell whether `c` is the same matrix as `a`
or `b`. -/
def multiply (ac bc : Bool) (c a b : Matrix) : Except Stop (Matrix × Bool) :=
  if a.cols ≠ b.rows then .ok (c, false)
  else if a.rows ≠ c.rows then .ok (c, false)
  else if b.cols ≠ c.cols then .ok (c, false)
  else if ac || bc then .ok (c, false)
  else
    match (loop a.rows c fun c row => loop b.cols c (dot a b row)) with
    | .error e => .error e
    | .ok c => .ok (c, true)

end Bbv
