import Mathlib.Analysis.SpecialFunctions.Exp
import Mathlib.Analysis.Real.Sqrt
import Mathlib.Data.Fintype.Defs

/-
Independent specification of the state of a UT and of spatial correlation (TR 38.901, 7.5, step 4 and docstring of lsp.py).
-/
namespace OpenNTN.Spec

inductive UtState where
  | los
  | nlos
  | indoor
  deriving DecidableEq

instance : Fintype UtState := ⟨{.los, .nlos, .indoor}, fun s => by cases s <;> simp⟩

/-- An indoor UT is in state indoor whatever its link, the others are told apart by their link. -/
def utState (los indoor : Bool) : UtState := if indoor then .indoor else if los then .los else .nlos

/-- Correlation of two UTs: exponential in the planar distance within a state, none across states. -/
noncomputable def spatialCorr {ι : Type} (st : ι → UtState) (D : UtState → ℝ) (x y : ι → ℝ) (m n : ι) : ℝ :=
  if st m = st n then Real.exp (-(Real.sqrt ((x m - x n) ^ 2 + (y m - y n) ^ 2) / D (st m))) else 0

end OpenNTN.Spec
