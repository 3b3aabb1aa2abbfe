import Mathlib.Data.Real.Basic
import Mathlib.Order.WithBot

/-
Independent specification of admissible configurations, parameter rows and parameter files.
Nothing here refers to the model.
-/
namespace OpenNTN.Spec

/-- Documented carrier bands: S band 1.9-4 GHz, Ka band 19-40 GHz. -/
def SBand (fc : ℝ) : Prop := 1900000000 ≤ fc ∧ fc ≤ 4000000000
def KaBand (fc : ℝ) : Prop := 19000000000 ≤ fc ∧ fc ≤ 40000000000

/-- The documented configurations, for arrays given by the carrier frequency they were built for
(`none`: not a panel array). -/
def Admissible (direction : String) (fc elevation : ℝ) (utCarrier bsCarrier : Option ℝ) : Prop :=
  (direction = "uplink" ∨ direction = "downlink") ∧ (SBand fc ∨ KaBand fc) ∧
  utCarrier = some fc ∧ bsCarrier = some fc ∧ 10 ≤ elevation ∧ elevation ≤ 90

/-- `row` is the table row for elevation `e`: a multiple of ten between 10 and 90, nearest to `e`, ties going to the even
multiple of ten. -/
def IsNearestRow (e : ℝ) (row : ℤ) : Prop :=
  ∃ k : ℤ, row = 10 * k ∧ 1 ≤ k ∧ k ≤ 9 ∧ |(row : ℝ) - e| ≤ 5 ∧ (|(row : ℝ) - e| = 5 → Even k)

/-- Name of a parameter file put together from its parts. -/
def fileName (scenario : String) (los sBand uplink : Bool) : String :=
  scenario ++ (if los then "_LOS_" else "_NLOS_") ++ (if sBand then "S" else "Ka") ++ "_band_" ++
    (if uplink then "UL" else "DL") ++ ".json"

end OpenNTN.Spec
