import Verif.Model.Rounding
import Verif.Model.TopoGen

/-
The centre point of the dropped UTs, evaluated operation by operation in the order of the code.
-/
namespace OpenNTN

/-- `tf.math.sqrt` with rounding; the root of a negative number is not a number. -/
noncomputable def Arith.sqrt (A : Arith) (x : ℝ) : Except Err ℝ := if x < 0 then .error .notANumber else .ok (A.rnd (Real.sqrt x))

/-- `deg_2_rad` of Sionna as used in utils.py 585: multiplication by the constant `PI/180.0`, a Python float converted to a tensor. -/
noncomputable def Arith.deg2rad (A : Arith) (x : ℝ) : ℝ := A.rnd (A.rnd x * A.rnd (A.py (A.py Real.pi / 180)))

/-- `tf.random.uniform(minval, maxval)` from a unit draw: TensorFlow computes `rnd * (maxval - minval) + minval`. -/
noncomputable def Arith.uniformIn (A : Arith) (lo hi u : ℝ) : ℝ := A.rnd (A.rnd (u * A.rnd (hi - lo)) + lo)

/-- `drop_uts_in_sector`, utils.py 585-588. A square is taken as a product. The parentheses of line 588 follow Python: `(a**2 - h**2) - x**2`. -/
noncomputable def Arith.dropCentre (A : Arith) (bsHeight elevation u : ℝ) : Except Err (ℝ × ℝ) :=
  let s := A.sin (A.deg2rad elevation)
  let h := A.rnd bsHeight
  if s = 0 then .error .notANumber else do
  let actual := A.rnd (h / s)
  let dist ← A.sqrt (A.rnd (A.rnd (actual * actual) - A.rnd (h * h)))
  let xBase := A.uniformIn 0 dist u
  let yBase ← A.sqrt (A.rnd (A.rnd (A.rnd (actual * actual) - A.rnd (h * h)) - A.rnd (xBase * xBase)))
  .ok (xBase, yBase)

end OpenNTN
