import Verif.Model.Num

/-
Shapes of tensors. The other files compute with the values of tensors and have their shapes in the types; here the operations of TensorFlow act on
shapes alone and fail where TensorFlow raises. All failures are `Err.invalidArgument`.
-/
namespace OpenNTN

/-- The shape of a tensor, `tf.shape`. -/
abbrev Shape := List ℕ

namespace Shape

/-- Two dimensions meet in an elementwise operation. -/
def dim (a b : ℕ) : Except Err ℕ :=
  if a = b then .ok a else if a = 1 then .ok b else if b = 1 then .ok a else .error .invalidArgument

/-- Broadcasting of shapes that are listed from the last axis to the first. -/
def zipRev : Shape → Shape → Except Err Shape
  | [], t => .ok t
  | s, [] => .ok s
  | a :: s, b :: t => do
    let d ← dim a b
    let r ← zipRev s t
    .ok (d :: r)

/-- Elementwise operation with two operands. -/
def bcast (s t : Shape) : Except Err Shape := do
  let r ← zipRev s.reverse t.reverse
  .ok r.reverse

/-- `tf.where(c, x, y)`. -/
def choose (c x y : Shape) : Except Err Shape := do
  let r ← bcast x y
  bcast c r

/-- An axis of a tensor with rank `n`; negative numbers count from the end. -/
def axisOf (n : ℕ) (axis : ℤ) : Except Err ℕ :=
  if 0 ≤ axis then (if axis < n then .ok axis.toNat else .error .invalidArgument)
  else if 0 ≤ axis + n then .ok (axis + n).toNat else .error .invalidArgument

/-- `tf.shape(x)[i]`, `x.shape[i]`. -/
def size (s : Shape) (i : ℕ) : Except Err ℕ :=
  match s[i]? with
  | some d => .ok d
  | none => .error .invalidArgument

/-- `tf.expand_dims`. -/
def expandDims (s : Shape) (axis : ℤ) : Except Err Shape := do
  let i ← axisOf (s.length + 1) axis
  .ok (s.insertIdx i 1)

/-- `tf.squeeze(x, axis)`. -/
def squeeze (s : Shape) (axis : ℤ) : Except Err Shape := do
  let i ← axisOf s.length axis
  let d ← size s i
  if d = 1 then .ok (s.eraseIdx i) else .error .invalidArgument

/-- `tf.squeeze(x)`. -/
def squeezeAll (s : Shape) : Shape := s.filter fun d => d ≠ 1

/-- `tf.transpose(x, perm)`. -/
def transpose (s : Shape) (perm : List ℕ) : Except Err Shape :=
  if perm.isPerm (List.range s.length) then .ok (perm.map fun i => s.getD i 0) else .error .invalidArgument

/-- `tf.linalg.matrix_transpose`. -/
def transposeLast (s : Shape) : Except Err Shape :=
  match s.reverse with
  | a :: b :: r => .ok (b :: a :: r).reverse
  | _ => .error .invalidArgument

/-- `tf.matmul`. -/
def matmul (s t : Shape) : Except Err Shape :=
  match s.reverse, t.reverse with
  | b :: a :: s, d :: c :: t =>
    if b = c then do
      let r ← zipRev s t
      .ok (d :: a :: r).reverse
    else .error .invalidArgument
  | _, _ => .error .invalidArgument

/-- `tf.reduce_sum` and its like over one axis. -/
def reduce (s : Shape) (axis : ℤ) : Except Err Shape := do
  let i ← axisOf s.length axis
  .ok (s.eraseIdx i)

/-- The same with `keepdims=True`. -/
def reduceKeep (s : Shape) (axis : ℤ) : Except Err Shape := do
  let i ← axisOf s.length axis
  .ok (s.set i 1)

/-- `tf.tile`. -/
def tile (s : Shape) (m : List ℕ) : Except Err Shape :=
  if s.length = m.length then .ok (List.zipWith (· * ·) s m) else .error .invalidArgument

/-- `tf.stack`. -/
def stack (s : Shape) (rest : List Shape) (axis : ℤ) : Except Err Shape := do
  let i ← axisOf (s.length + 1) axis
  if rest.all (· == s) then .ok (s.insertIdx i (rest.length + 1)) else .error .invalidArgument

/-- `tf.concat` of two tensors. -/
def concat (s t : Shape) (axis : ℤ) : Except Err Shape := do
  let i ← axisOf s.length axis
  let a ← size s i
  let b ← size t i
  if s.set i 0 = t.set i 0 then .ok (s.set i (a + b)) else .error .invalidArgument

/-- `tf.gather(params, indices, axis=axis)`. The values of the indices are taken to be in range. -/
def gather (s : Shape) (ind : Shape) (axis : ℕ) : Except Err Shape :=
  if axis < s.length then .ok (s.take axis ++ ind ++ s.drop (axis + 1)) else .error .invalidArgument

/-- `tf.gather(params, indices, axis=n, batch_dims=n)`. -/
def gatherBatch (s : Shape) (ind : Shape) (n : ℕ) : Except Err Shape :=
  if n < s.length ∧ n ≤ ind.length ∧ s.take n = ind.take n then .ok (s.take n ++ ind.drop n ++ s.drop (n + 1)) else .error .invalidArgument

/-- `x[..., i, ...]` with the number `i` at an axis. -/
def pick (s : Shape) (axis : ℤ) (i : ℕ) : Except Err Shape := do
  let j ← axisOf s.length axis
  let d ← size s j
  if i < d then .ok (s.eraseIdx j) else .error .invalidArgument

/-- `x[..., :k, ...]` with `:k` at an axis. -/
def upTo (s : Shape) (axis : ℤ) (k : ℕ) : Except Err Shape := do
  let j ← axisOf s.length axis
  let d ← size s j
  .ok (s.set j (min k d))

/-- `x[..., k:, ...]` with `k:` at an axis. -/
def fromOn (s : Shape) (axis : ℤ) (k : ℕ) : Except Err Shape := do
  let j ← axisOf s.length axis
  let d ← size s j
  .ok (s.set j (d - k))

/-- `tf.reshape(x, shape)` without `-1`. -/
def reshape (s t : Shape) : Except Err Shape := if s.prod = t.prod then .ok t else .error .invalidArgument

/-- `tf.reshape(x, shape)` with a last dimension `-1`; `t` are the other dimensions. -/
def reshapeLast (s t : Shape) : Except Err Shape :=
  if t.prod ≠ 0 ∧ s.prod % t.prod = 0 then .ok (t ++ [s.prod / t.prod]) else .error .invalidArgument

/-- `tf.broadcast_to`. -/
def broadcastTo (s t : Shape) : Except Err Shape := do
  let r ← bcast s t
  if r = t then .ok t else .error .invalidArgument

/-- `tf.fill(dims, value)`. -/
def fill (dims value : Shape) : Except Err Shape := if value = [] then .ok dims else .error .invalidArgument

/-- `tf.linalg.cholesky`. -/
def cholesky (s : Shape) : Except Err Shape :=
  match s.reverse with
  | a :: b :: _ => if a = b then .ok s else .error .invalidArgument
  | _ => .error .invalidArgument

/-- A tensor as condition of a Python `if`. -/
def truth (s : Shape) : Except Err Unit := if s.prod = 1 then .ok () else .error .invalidArgument

end Shape
end OpenNTN
