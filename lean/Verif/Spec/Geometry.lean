import Mathlib.Analysis.SpecialFunctions.Trigonometric.Basic
import Mathlib.Analysis.Real.Sqrt

/-
Independent specification of directions and planar distances.
-/
namespace OpenNTN.Spec

/-- Unit vector with zenith angle `th` and azimuth angle `ph`, both in degrees. -/
noncomputable def direction (th ph : ℝ) : ℝ × ℝ × ℝ :=
  (Real.sin (th * Real.pi / 180) * Real.cos (ph * Real.pi / 180),
   Real.sin (th * Real.pi / 180) * Real.sin (ph * Real.pi / 180), Real.cos (th * Real.pi / 180))

/-- `v` is the unit vector that points from `p` to `q`. -/
def PointsFromTo (p q v : ℝ × ℝ × ℝ) : Prop :=
  v.1 ^ 2 + v.2.1 ^ 2 + v.2.2 ^ 2 = 1 ∧ ∃ r : ℝ, 0 < r ∧ q = (p.1 + r * v.1, p.2.1 + r * v.2.1, p.2.2 + r * v.2.2)

end OpenNTN.Spec
