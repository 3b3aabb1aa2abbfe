import Mathlib.Analysis.SpecialFunctions.Complex.Circle
import Mathlib.LinearAlgebra.Span.Basic

/-
Spectrum of a function of time that is a finite sum of oscillations.
-/
namespace OpenNTN.Spec

/-- The oscillation `e^(iωt)`. -/
noncomputable def oscillation (ω : ℝ) : ℝ → ℂ := fun t => Complex.exp (Complex.I * ((ω * t : ℝ) : ℂ))

/-- The function is a finite sum of oscillations with angular frequencies at most `width` away from `centre`. -/
def BandLimited (centre width : ℝ) (f : ℝ → ℂ) : Prop := f ∈ Submodule.span ℂ (oscillation '' {ω | |ω - centre| ≤ width})

end OpenNTN.Spec
