import Mathlib.MeasureTheory.Integral.IntervalIntegral.Basic
import Mathlib.Analysis.SpecialFunctions.Trigonometric.Basic

/- Vocabulary for fading statistics. -/
namespace OpenNTN.Spec

/-- Bessel function of the first kind of order zero, by Bessel's integral. -/
noncomputable def besselJ0 (x : ℝ) : ℝ := (1 / Real.pi) * ∫ t in (0 : ℝ)..Real.pi, Real.cos (x * Real.sin t)

end OpenNTN.Spec
