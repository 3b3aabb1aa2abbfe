import Mathlib.Data.Real.Sqrt
import Mathlib.Algebra.BigOperators.Group.List.Basic

/-
Delay spread of a power delay profile: root mean square deviation of the delay from its mean, both weighted with the power (TR 38.901, section 7.7.3;
Molisch, Wireless Communications, section 6.5.3).
-/
namespace OpenNTN.Spec

/-- Mean excess delay of a profile with powers `p` and delays `τ`. -/
noncomputable def averageDelay (p τ : List ℝ) : ℝ := (List.zipWith (fun q s => q * s) p τ).sum / p.sum

/-- Root mean square delay spread of a profile with powers `p` and delays `τ`. -/
noncomputable def rmsDelaySpread (p τ : List ℝ) : ℝ :=
  Real.sqrt ((List.zipWith (fun q s => q * (s - averageDelay p τ) ^ 2) p τ).sum / p.sum)

/-- `x` agrees with `s` up to the relative error `ε`. -/
def RelativelyWithin (ε s x : ℝ) : Prop := |x - s| ≤ ε * s

/-- Largest relative deviation between the delay spread in the name of a profile and that of its rounded table values: one hundredth of a percent for
the profiles of TR 38.811, four tenths of a percent for those of TS 38.101-4, whose delays are rounded to 5 ns. -/
noncomputable def profileRounding (model : String) : ℝ := if model ∈ ["A", "B", "C", "D"] then 1e-4 else 4e-3

end OpenNTN.Spec
