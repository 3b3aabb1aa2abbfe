import Mathlib.Probability.Distributions.Gaussian.Real
import Mathlib.Probability.HasLaw
import Mathlib.Probability.Independence.Integration
import Mathlib.MeasureTheory.Constructions.BorelSpace.Complex

/-
What "independent standard normal draws" means, independently of the model.
-/
namespace OpenNTN.Spec

open MeasureTheory ProbabilityTheory

/-- A finite family of independent standard normal random variables. -/
structure StandardNormal {K Ω : Type*} [MeasurableSpace Ω] (P : Measure Ω) (s : K → Ω → ℝ) : Prop where
  law : ∀ k, HasLaw (s k) (gaussianReal 0 1) P
  indep : iIndepFun s P

/-- The law of a circular complex normal variable of power `S`: real and imaginary part are independent normal of variance `S/2`. -/
noncomputable def circularNormal (S : ℝ) : Measure ℂ :=
  ((gaussianReal 0 (S / 2).toNNReal).prod (gaussianReal 0 (S / 2).toNNReal)).map fun p => ⟨p.1, p.2⟩

end OpenNTN.Spec
