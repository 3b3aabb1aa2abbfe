import Verif.Spec.Rounding

/-
Independent specification of what is assumed about the library for the drop of the UTs in single precision.
-/
namespace OpenNTN.Spec

/-- The sine of the library does not exceed one on the first quadrant. -/
def SinAtMostOne (sin : ℝ → ℝ) : Prop := ∀ x, 0 ≤ x → x ≤ 1.6 → sin x ≤ 1

/-- The unit draws of TensorFlow in single precision: multiples of `2⁻²³` in `[0, 1)`. -/
def UnitDraw (u : ℝ) : Prop := ∃ k : ℕ, k < 2 ^ 23 ∧ u = k / 2 ^ 23

/-- A point at planar distance `d`, up to `tol`. -/
def NearDistance (p : ℝ × ℝ) (d tol : ℝ) : Prop := |Real.sqrt (p.1 ^ 2 + p.2 ^ 2) - d| ≤ tol

end OpenNTN.Spec
