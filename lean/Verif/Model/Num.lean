import Mathlib.Analysis.SpecialFunctions.Pow.Real
import Mathlib.Analysis.SpecialFunctions.Log.Base
import Mathlib.Algebra.Order.Floor.Ring

/-
Numeric primitives used by the model. Floating point numbers are modelled by exact reals.
-/
namespace OpenNTN

open Classical

/-- Kinds of exceptions that the modelled code can raise. -/
inductive Err where
  /-- `assert` failed -/
  | assertion
  /-- dictionary lookup failed -/
  | keyError
  /-- file not found -/
  | fileNotFound
  /-- TensorFlow rejected the operands (shape/rank/argument) -/
  | invalidArgument
  /-- index out of range -/
  | indexError
  /-- wrong number of arguments / missing argument -/
  | typeError
  /-- undefined name or local variable referenced before assignment -/
  | nameError
  /-- attribute not set -/
  | attributeError
  /-- the result is not a number (division `0/0`, root of a negative number, Cholesky of a non positive definite matrix) -/
  | notANumber
deriving DecidableEq, Repr

/-- Python's built-in `round(x)` on a float: nearest integer, ties to even
(used at system_level_scenario.py 368, 374, 381, 754; dense_urban_scenario.py 130; utils.py 1769). -/
noncomputable def pyRound (x : ℝ) : ℤ :=
  if x - ⌊x⌋ < 1 / 2 then ⌊x⌋
  else if 1 / 2 < x - ⌊x⌋ then ⌊x⌋ + 1
  else if ⌊x⌋ % 2 = 0 then ⌊x⌋ else ⌊x⌋ + 1

/-- `log10` of sionna.phy.utils / `math.log10`. -/
noncomputable def log10 (x : ℝ) : ℝ := Real.log x / Real.log 10

/-- `tf.math.pow(10., x)`. -/
noncomputable def pow10 (x : ℝ) : ℝ := (10 : ℝ) ^ x

/-- `tf.math.pow(10., x)` where `x` may be `-inf` (`⊥`): IEEE `pow(10,-inf) = 0`. -/
noncomputable def pow10X : WithBot ℝ → ℝ
  | ⊥ => 0
  | (x : ℝ) => pow10 x

/-- `tf.math.mod(x, m)` for `m > 0` (floor-mod, result has the sign of `m`). -/
noncomputable def fmod (x m : ℝ) : ℝ := x - m * ⌊x / m⌋

/-- utils.py 486-500 `wrap_angle_0_360`. -/
noncomputable def wrapAngle0_360 (angle : ℝ) : ℝ := fmod angle 360

/-- utils.py 454-468 `deg_2_rad`. -/
noncomputable def deg2rad (x : ℝ) : ℝ := x * (Real.pi / 180)

/-- utils.py 470-484 `rad_2_deg`. -/
noncomputable def rad2deg (x : ℝ) : ℝ := x * (180 / Real.pi)

/-- utils.py 502-535 `sample_bernoulli`, one element: `z` is the uniform draw of line 533. -/
noncomputable def sampleBernoulli (z p : ℝ) : Bool := decide (z < p)

/-- `sionna.phy.constants.SPEED_OF_LIGHT` (imported at system_level_scenario.py, utils.py, antenna.py). -/
noncomputable def speedOfLight : ℝ := 299792458

end OpenNTN
