import Verif.Model.O2i
import Verif.Props.Geometry
import Verif.Props.Pathloss
import Verif.Props.Orbit

namespace OpenNTN

/-! ### C102: penetration loss -/

/-- Loss of an external wall in dB, TR 38.901 (7.4-2): 5 dB plus the loss of a mixture of materials `(share, loss in dB)`. -/
noncomputable def Spec.wallLoss (materials : List (ℝ × ℝ)) : ℝ :=
  5 - 10 * (Real.log (materials.map fun m => m.1 * (10 : ℝ) ^ (-m.2 / 10)).sum / Real.log 10)

/-- Standard multi-pane glass, IRR glass and concrete, in dB at `f` GHz: TR 38.901 Table 7.4.3-1. -/
noncomputable def Spec.glass (f : ℝ) : ℝ := 2 + 0.2 * f
noncomputable def Spec.irrGlass (f : ℝ) : ℝ := 23 + 0.3 * f
noncomputable def Spec.concrete (f : ℝ) : ℝ := 5 + 4 * f

/-- TR 38.901 Table 7.4.3-2. -/
noncomputable def Spec.lowLossWall (f : ℝ) : ℝ := Spec.wallLoss [(0.3, Spec.glass f), (0.7, Spec.concrete f)]
noncomputable def Spec.highLossWall (f : ℝ) : ℝ := Spec.wallLoss [(0.7, Spec.irrGlass f), (0.3, Spec.concrete f)]

theorem ten_pow_mono {x y : ℝ} (h : x < y) : (10 : ℝ) ^ x < (10 : ℝ) ^ y := Real.rpow_lt_rpow_of_exponent_lt (by norm_num) h

theorem ten_pow_pos (x : ℝ) : 0 < (10 : ℝ) ^ x := Real.rpow_pos_of_pos (by norm_num) x

theorem wallLoss_lt {a b : List (ℝ × ℝ)} (hb : 0 < (b.map fun m => m.1 * (10 : ℝ) ^ (-m.2 / 10)).sum)
    (h : (b.map fun m => m.1 * (10 : ℝ) ^ (-m.2 / 10)).sum < (a.map fun m => m.1 * (10 : ℝ) ^ (-m.2 / 10)).sum) : Spec.wallLoss a < Spec.wallLoss b := by
  unfold Spec.wallLoss
  have h10 : 0 < Real.log 10 := Real.log_pos (by norm_num)
  have := div_lt_div_of_pos_right (Real.log_lt_log hb h) h10
  linarith

/-- C102. Indoors, the penetration loss is wall loss plus half a dB per metre plus a normal term of deviation 4.4 respectively 6.5 dB, with the walls
of TR 38.901; an outdoor UT, whose indoor distance is zero (C25), has none. Wall losses exceed 5 dB, grow with the frequency and are larger in the
high-loss model. -/
theorem C102_penetration :
    (∀ fc d z, o2iLowLoss fc true d z = Spec.lowLossWall (fc / 1e9) + d / 2 + 4.4 * z) ∧
    (∀ fc d z, o2iHighLoss fc true d z = Spec.highLossWall (fc / 1e9) + d / 2 + 6.5 * z) ∧
    (∀ fc z, o2iLowLoss fc false 0 z = 0 ∧ o2iHighLoss fc false 0 z = 0) ∧
    (∀ f, 0 ≤ f → 5 < Spec.lowLossWall f ∧ Spec.lowLossWall f < Spec.highLossWall f) ∧
    ∀ f f', f < f' → Spec.lowLossWall f < Spec.lowLossWall f' ∧ Spec.highLossWall f < Spec.highLossWall f' := by
  refine ⟨fun fc d z => ?_, fun fc d z => ?_, fun fc z => ?_, fun f hf => ⟨?_, ?_⟩, fun f f' h => ⟨?_, ?_⟩⟩
  · simp [o2iLowLoss, Spec.lowLossWall, Spec.wallLoss, Spec.glass, Spec.concrete, log10, pow10]; ring
  · simp [o2iHighLoss, Spec.highLossWall, Spec.wallLoss, Spec.irrGlass, Spec.concrete, log10, pow10]; ring
  · constructor
    · simp [o2iLowLoss]
    · simp [o2iHighLoss]
  · have h10 : 0 < Real.log 10 := Real.log_pos (by norm_num)
    unfold Spec.lowLossWall Spec.wallLoss
    have a := ten_pow_mono (show -Spec.glass f / 10 < 0 by unfold Spec.glass; linarith)
    have b := ten_pow_mono (show -Spec.concrete f / 10 < 0 by unfold Spec.concrete; linarith)
    rw [Real.rpow_zero] at a b
    have a0 := ten_pow_pos (-Spec.glass f / 10)
    have b0 := ten_pow_pos (-Spec.concrete f / 10)
    simp only [List.map_cons, List.map_nil, List.sum_cons, List.sum_nil, add_zero]
    have := div_neg_of_neg_of_pos (Real.log_neg (show 0 < 0.3 * (10 : ℝ) ^ (-Spec.glass f / 10) + 0.7 * (10 : ℝ) ^ (-Spec.concrete f / 10) by positivity)
      (by linarith)) h10
    linarith
  · have a0 := ten_pow_pos (-Spec.irrGlass f / 10)
    have b0 := ten_pow_pos (-Spec.concrete f / 10)
    refine wallLoss_lt (by simp only [List.map_cons, List.map_nil, List.sum_cons, List.sum_nil, add_zero]; positivity) ?_
    simp only [List.map_cons, List.map_nil, List.sum_cons, List.sum_nil, add_zero]
    have key : 10 * (10 : ℝ) ^ (-Spec.irrGlass f / 10) ≤ (10 : ℝ) ^ (-Spec.glass f / 10) := by
      rw [show (10 : ℝ) * 10 ^ (-Spec.irrGlass f / 10) = (10 : ℝ) ^ (1 + -Spec.irrGlass f / 10) by rw [Real.rpow_add (by norm_num), Real.rpow_one]]
      exact Real.rpow_le_rpow_of_exponent_le (by norm_num) (by unfold Spec.irrGlass Spec.glass; linarith)
    nlinarith
  · have a := ten_pow_mono (show -Spec.glass f' / 10 < -Spec.glass f / 10 by unfold Spec.glass; linarith)
    have b := ten_pow_mono (show -Spec.concrete f' / 10 < -Spec.concrete f / 10 by unfold Spec.concrete; linarith)
    have a0 := ten_pow_pos (-Spec.glass f' / 10)
    have b0 := ten_pow_pos (-Spec.concrete f' / 10)
    refine wallLoss_lt ?_ ?_ <;> simp only [List.map_cons, List.map_nil, List.sum_cons, List.sum_nil, add_zero]
    · positivity
    · nlinarith
  · have a := ten_pow_mono (show -Spec.irrGlass f' / 10 < -Spec.irrGlass f / 10 by unfold Spec.irrGlass; linarith)
    have b := ten_pow_mono (show -Spec.concrete f' / 10 < -Spec.concrete f / 10 by unfold Spec.concrete; linarith)
    have a0 := ten_pow_pos (-Spec.irrGlass f' / 10)
    have b0 := ten_pow_pos (-Spec.concrete f' / 10)
    refine wallLoss_lt ?_ ?_ <;> simp only [List.map_cons, List.map_nil, List.sum_cons, List.sum_nil, add_zero]
    · positivity
    · nlinarith

example : (0 : ℝ) ≤ 2 ∧ (2 : ℝ) < 20 := by norm_num

/-! ### C103: Doppler helper -/

/-- The full claim of C103: the helper returns the largest Doppler shift in Hz at the given altitude and elevation, i.e. the largest range rate in units
of the speed of light times the carrier frequency. -/
def C103_statement : Prop :=
  ∀ h el fc : ℝ, 600000 ≤ h → 10 ≤ el → el ≤ 90 → 0 < fc → ∃ f, computeStalliteDoppler h el fc = some f ∧
    IsGreatest {y | ∃ x, Spec.PossibleRangeRate 6371000 h (el / 180 * Real.pi) (satelliteSpeed h) x ∧ y = x / 299792458 * fc} f

/-- C103, what holds: the largest shift exists, and it is the expression computed by the function; the function, however, returns nothing. -/
theorem C103_helper_partial (h el fc : ℝ) (hh : 600000 ≤ h) (h1 : 10 ≤ el) (h2 : el ≤ 90) (hf : 0 < fc) :
    IsGreatest {y | ∃ x, Spec.PossibleRangeRate 6371000 h (el / 180 * Real.pi) (satelliteSpeed h) x ∧ y = x / 299792458 * fc}
      (satelliteSpeed h / 299792458 * (6371000 / (6371000 + h) * Real.cos (el * Real.pi / 180)) * fc) ∧
    computeStalliteDoppler h el fc = none := by
  have hpi := Real.pi_pos
  have hv : 0 ≤ satelliteSpeed h := Real.sqrt_nonneg _
  have hc : 0 ≤ Real.cos (el / 180 * Real.pi) := Real.cos_nonneg_of_mem_Icc ⟨by nlinarith, by nlinarith⟩
  rw [show el * Real.pi / 180 = el / 180 * Real.pi by ring]
  refine ⟨⟨⟨_, rangeRate_possible (by norm_num) (by linarith) hv 0, ?_⟩, ?_⟩, rfl⟩
  · rw [Real.cos_zero]; ring
  · rintro y ⟨x, hx, rfl⟩
    have := (le_abs_self x).trans (rangeRate_le (by norm_num) (by linarith) hc hx)
    rw [show satelliteSpeed h / 299792458 * (6371000 / (6371000 + h) * Real.cos (el / 180 * Real.pi)) * fc =
      satelliteSpeed h * (6371000 / (6371000 + h)) * Real.cos (el / 180 * Real.pi) / 299792458 * fc by ring]
    gcongr

example : (600000 : ℝ) ≤ 1200000 ∧ (10 : ℝ) ≤ 50 ∧ (50 : ℝ) ≤ 90 ∧ (0 : ℝ) < 2e9 := by norm_num

/-- C103 fails: nothing is returned. -/
theorem C103_violated : ¬ C103_statement := by
  intro H
  obtain ⟨f, hf, -⟩ := H 600000 50 2e9 (by norm_num) (by norm_num) (by norm_num) (by norm_num)
  exact absurd hf (by simp [computeStalliteDoppler])

end OpenNTN
