import Verif.Model.Scenario
import Verif.Spec.Config
import Mathlib.Tactic.Linarith
import Mathlib.Tactic.NormNum
import Mathlib.Tactic.IntervalCases
import Mathlib.Algebra.Order.Floor.Ring
import Mathlib.Data.Fintype.Prod

namespace OpenNTN

/-- The 24 parameter files by what they are for. -/
def tableOf : ScenarioClass → (los sBand uplink : Bool) → ParamFile
  | .denseUrban, true, true, true => fileDenseUrbanLOSSbandUL
  | .denseUrban, true, true, false => fileDenseUrbanLOSSbandDL
  | .denseUrban, true, false, true => fileDenseUrbanLOSKabandUL
  | .denseUrban, true, false, false => fileDenseUrbanLOSKabandDL
  | .denseUrban, false, true, true => fileDenseUrbanNLOSSbandUL
  | .denseUrban, false, true, false => fileDenseUrbanNLOSSbandDL
  | .denseUrban, false, false, true => fileDenseUrbanNLOSKabandUL
  | .denseUrban, false, false, false => fileDenseUrbanNLOSKabandDL
  | .urban, true, true, true => fileUrbanLOSSbandUL
  | .urban, true, true, false => fileUrbanLOSSbandDL
  | .urban, true, false, true => fileUrbanLOSKabandUL
  | .urban, true, false, false => fileUrbanLOSKabandDL
  | .urban, false, true, true => fileUrbanNLOSSbandUL
  | .urban, false, true, false => fileUrbanNLOSSbandDL
  | .urban, false, false, true => fileUrbanNLOSKabandUL
  | .urban, false, false, false => fileUrbanNLOSKabandDL
  | .subUrban, true, true, true => fileSubUrbanLOSSbandUL
  | .subUrban, true, true, false => fileSubUrbanLOSSbandDL
  | .subUrban, true, false, true => fileSubUrbanLOSKabandUL
  | .subUrban, true, false, false => fileSubUrbanLOSKabandDL
  | .subUrban, false, true, true => fileSubUrbanNLOSSbandUL
  | .subUrban, false, true, false => fileSubUrbanNLOSSbandDL
  | .subUrban, false, false, true => fileSubUrbanNLOSKabandUL
  | .subUrban, false, false, false => fileSubUrbanNLOSKabandDL

/-- Scenario part of the file names. -/
def scenarioPrefix : ScenarioClass → String
  | .denseUrban => "Dense_Urban"
  | .urban => "Urban"
  | .subUrban => "Sub_Urban"

theorem readParamFile_fileName (cls : ScenarioClass) (los sBand uplink : Bool) :
    readParamFile (Spec.fileName (scenarioPrefix cls) los sBand uplink) = some (tableOf cls los sBand uplink) := by
  cases cls <;> cases los <;> cases sBand <;> cases uplink <;> rfl

theorem carrierOk_iff (fc : ℝ) : carrierOk fc ↔ (Spec.SBand fc ∨ Spec.KaBand fc) := by
  unfold carrierOk Spec.SBand Spec.KaBand
  norm_num
  tauto

theorem lowBand_iff (fc : ℝ) (h : carrierOk fc) : (fc ≥ 1.5e9 ∧ fc ≤ 4e9) ↔ Spec.SBand fc := by
  rw [carrierOk_iff] at h
  unfold Spec.SBand Spec.KaBand at *
  rw [show (1.5e9 : ℝ) = 1500000000 by norm_num, show (4e9 : ℝ) = 4000000000 by norm_num]
  constructor
  · rintro ⟨h1, h2⟩
    rcases h with h | h
    · exact h
    · exfalso; linarith [h.1]
  · rintro ⟨h1, h2⟩
    exact ⟨by linarith, h2⟩

open Classical in
theorem losFile_eq (cls : ScenarioClass) (d : String) (fc : ℝ) (h : carrierOk fc) :
    losFile cls d fc = .ok (Spec.fileName (scenarioPrefix cls) true (decide (Spec.SBand fc)) (decide (d = "uplink"))) := by
  have hb := lowBand_iff fc h
  by_cases hS : Spec.SBand fc <;> by_cases hd : d = "uplink" <;> cases cls <;>
    simp only [losFile, denseUrbanLosFile, urbanLosFile, subUrbanLosFile, h, hb, hS, hd, not_true, if_true, if_false,
      decide_true, decide_false] <;> rfl

open Classical in
theorem nlosFile_eq (cls : ScenarioClass) (d : String) (fc : ℝ) (h : carrierOk fc) :
    nlosFile cls d fc = .ok (Spec.fileName (scenarioPrefix cls) false (decide (Spec.SBand fc)) (decide (d = "uplink"))) := by
  have hb := lowBand_iff fc h
  by_cases hS : Spec.SBand fc <;> by_cases hd : d = "uplink" <;> cases cls <;>
    simp only [nlosFile, denseUrbanNlosFile, urbanNlosFile, subUrbanNlosFile, h, hb, hS, hd, not_true, if_true, if_false,
      decide_true, decide_false] <;> rfl

/-- What a successful construction yields. -/
structure Built (cls : ScenarioClass) (a : ScenarioArgs) (c : Config) : Prop where
  cls_eq : c.cls = cls
  fc_eq : c.carrierFrequency = a.carrierFrequency
  lambda_eq : c.lambda0 = speedOfLight / a.carrierFrequency
  dir_eq : c.direction = a.direction
  el_eq : c.elevationAngle = a.elevationAngle
  pl_eq : c.enablePathloss = a.enablePathloss
  sf_eq : c.enableShadowFading = a.enableShadowFading
  dop_eq : c.dopplerInit = a.dopplerEnabled
  dir_ok : a.direction = "uplink" ∨ a.direction = "downlink"
  fc_ok : Spec.SBand a.carrierFrequency ∨ Spec.KaBand a.carrierFrequency
  ut_ok : a.utArray = .panel (speedOfLight / a.carrierFrequency)
  bs_ok : a.bsArray = .panel (speedOfLight / a.carrierFrequency)
  el_lo : 10 ≤ a.elevationAngle
  el_hi : a.elevationAngle ≤ 90
  los_eq : ∃ s u : Bool, (s = true ↔ Spec.SBand a.carrierFrequency) ∧ (u = true ↔ a.direction = "uplink") ∧
    c.paramsLos = tableOf cls true s u ∧ c.paramsNlos = tableOf cls false s u

open Classical in
theorem mkScenario_spec (cls : ScenarioClass) (a : ScenarioArgs) :
    (∃ c, mkScenario cls a = .ok c ∧ Built cls a c) ∨
    (mkScenario cls a = .error .assertion ∧
      ¬ ((a.direction = "uplink" ∨ a.direction = "downlink") ∧
        (Spec.SBand a.carrierFrequency ∨ Spec.KaBand a.carrierFrequency) ∧
        a.utArray = .panel (speedOfLight / a.carrierFrequency) ∧
        a.bsArray = .panel (speedOfLight / a.carrierFrequency) ∧
        10 ≤ a.elevationAngle ∧ a.elevationAngle ≤ 90)) := by
  unfold mkScenario
  by_cases hd : (a.direction = "uplink" ∨ a.direction = "downlink")
  swap
  · right; simp only [hd, not_false_eq_true, if_true, false_and, and_self]
  by_cases hf : carrierOk a.carrierFrequency
  swap
  · right
    rw [← carrierOk_iff]
    simp only [hd, hf, not_true, not_false_eq_true, if_true, if_false, false_and, and_false, and_self]
  have hf' := (carrierOk_iff _).1 hf
  simp only [hd, hf, not_true, if_false]
  rcases hu : a.utArray with ul | _
  swap
  · right; simp
  rcases hb : a.bsArray with bl | _
  swap
  · right; simp
  by_cases hl : ul = bl ∧ bl = speedOfLight / a.carrierFrequency
  swap
  · refine Or.inr ⟨by simp only [hl, not_false_eq_true, if_true], ?_⟩
    rintro ⟨-, -, h1, h2, -⟩
    apply hl
    injection h1 with h1
    injection h2 with h2
    exact ⟨h1.trans h2.symm, h2⟩
  by_cases he : a.elevationAngle ≥ 10 ∧ a.elevationAngle ≤ 90
  swap
  · refine Or.inr ⟨by simp only [hl, he, not_true, not_false_eq_true, if_true, if_false, and_self], ?_⟩
    rintro ⟨-, -, -, -, h1, h2⟩
    exact he ⟨h1, h2⟩
  left
  simp only [hl, he, not_true, if_false, and_self, losFile_eq cls _ _ hf, nlosFile_eq cls _ _ hf, openParamFile,
    readParamFile_fileName]
  refine ⟨_, rfl, ?_⟩
  exact {
    cls_eq := rfl, fc_eq := rfl, lambda_eq := rfl, dir_eq := rfl, el_eq := rfl, pl_eq := rfl, sf_eq := rfl
    dop_eq := rfl, dir_ok := hd, fc_ok := hf', ut_ok := by rw [hu, hl.1, hl.2], bs_ok := by rw [hb, hl.2]
    el_lo := he.1, el_hi := he.2
    los_eq := ⟨decide (Spec.SBand a.carrierFrequency), decide (a.direction = "uplink"), by simp, by simp, rfl, rfl⟩ }

theorem mkScenario_built {cls : ScenarioClass} {a : ScenarioArgs} {c : Config} (h : mkScenario cls a = .ok c) :
    Built cls a c := by
  rcases mkScenario_spec cls a with ⟨c', h', hb⟩ | ⟨h', -⟩
  · rw [h] at h'; injection h' with h'; subst h'; exact hb
  · rw [h] at h'; exact absurd h' (by simp)

/-- Python rounding: within one half, ties to even. -/
theorem pyRound_spec (x : ℝ) : |(pyRound x : ℝ) - x| ≤ 1 / 2 ∧ (|(pyRound x : ℝ) - x| = 1 / 2 → Even (pyRound x)) := by
  have h0 := Int.floor_le x
  have h1 := Int.lt_floor_add_one x
  unfold pyRound
  split_ifs with ha hb hc
  · have : |(⌊x⌋ : ℝ) - x| = x - ⌊x⌋ := by rw [abs_sub_comm, abs_of_nonneg (by linarith)]
    rw [this]
    exact ⟨by linarith, fun h => by linarith⟩
  · have : |((⌊x⌋ + 1 : ℤ) : ℝ) - x| = ⌊x⌋ + 1 - x := by push_cast; rw [abs_of_nonneg (by linarith)]
    rw [this]
    exact ⟨by linarith, fun h => by linarith⟩
  · refine ⟨?_, fun _ => Int.even_iff.2 hc⟩
    rw [abs_sub_comm, abs_of_nonneg (by linarith)]; linarith
  · refine ⟨?_, fun _ => ?_⟩
    · push_cast
      rw [abs_of_nonneg (by linarith)]; linarith
    · rw [Int.even_iff]; omega

theorem angleKey_nearest (c : Config) (h1 : 10 ≤ c.elevationAngle) (h2 : c.elevationAngle ≤ 90) :
    Spec.IsNearestRow c.elevationAngle c.angleKey := by
  obtain ⟨ha, hb⟩ := pyRound_spec (c.elevationAngle / 10)
  set k := pyRound (c.elevationAngle / 10) with hk
  have habs : |((k * 10 : ℤ) : ℝ) - c.elevationAngle| = 10 * |(k : ℝ) - c.elevationAngle / 10| := by
    rw [← abs_of_pos (show (0 : ℝ) < 10 by norm_num), ← abs_mul, abs_of_pos (show (0 : ℝ) < 10 by norm_num)]
    congr 1; push_cast; ring
  have hlt := abs_le.1 ha
  refine ⟨k, by unfold Config.angleKey; rw [← hk]; ring, ?_, ?_, ?_, ?_⟩
  · have : (0 : ℝ) < k := by linarith [hlt.1]
    have : (0 : ℤ) < k := by exact_mod_cast this
    omega
  · have : (k : ℝ) < 10 := by linarith [hlt.2]
    have : k < 10 := by exact_mod_cast this
    omega
  · unfold Config.angleKey; rw [← hk, habs]; linarith
  · unfold Config.angleKey; rw [← hk, habs]
    intro h; exact hb (by linarith)

theorem angleKey_mem (c : Config) (h1 : 10 ≤ c.elevationAngle) (h2 : c.elevationAngle ≤ 90) :
    c.angleKey ∈ ([10, 20, 30, 40, 50, 60, 70, 80, 90] : List ℤ) := by
  obtain ⟨k, hk, k1, k9, -⟩ := angleKey_nearest c h1 h2
  rw [hk]
  interval_cases k <;> simp

/-- Everything needed to lift a finite table check to all configurations. -/
theorem built_table {cls : ScenarioClass} {a : ScenarioArgs} {c : Config} (h : mkScenario cls a = .ok c) :
    ∃ s u : Bool, ∃ k ∈ ([10, 20, 30, 40, 50, 60, 70, 80, 90] : List ℤ), c.angleKey = k ∧
      (s = true ↔ Spec.SBand a.carrierFrequency) ∧ (u = true ↔ a.direction = "uplink") ∧
      c.paramsLos = tableOf cls true s u ∧ c.paramsNlos = tableOf cls false s u := by
  have hb := mkScenario_built h
  obtain ⟨s, u, h1, h2, h3, h4⟩ := hb.los_eq
  exact ⟨s, u, c.angleKey, angleKey_mem c (hb.el_eq ▸ hb.el_lo) (hb.el_eq ▸ hb.el_hi), rfl, h1, h2, h3, h4⟩

end OpenNTN
