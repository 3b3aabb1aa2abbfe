import Mathlib.Data.Real.Basic

/- Cases of the link budgets of TR 38.821, Table 6.1.3.3-1, that test/Link_Budget_test.py refers to. -/
namespace OpenNTN.Spec

/-- Carrier frequency in GHz, altitude in m, elevation in degree and free space path loss in dB. -/
structure BudgetCase where
  frequency : ℝ
  altitude : ℝ
  elevation : ℝ
  loss : ℝ

/-- GEO at 12.5 degree, LEO at 600 km and at 1200 km at 30 degree; S band, Ka band downlink and uplink. -/
noncomputable def budgetCases : List BudgetCase :=
  [⟨2, 35786000, 12.5, 190.6⟩, ⟨20, 35786000, 12.5, 210.6⟩, ⟨30, 35786000, 12.5, 214.1⟩,
    ⟨2, 600000, 30, 159.1⟩, ⟨20, 600000, 30, 179.1⟩, ⟨30, 600000, 30, 182.6⟩,
    ⟨2, 1200000, 30, 164.5⟩, ⟨20, 1200000, 30, 184.5⟩, ⟨30, 1200000, 30, 188.0⟩]

end OpenNTN.Spec
