import Verif.Props.Itu
import Verif.Spec.LinkBudget
import Mathlib.Analysis.Real.Pi.Bounds
import Mathlib.Analysis.SpecialFunctions.Trigonometric.Bounds

/-
Losses against the link budgets of TR 38.821, and their dependence on the elevation.
-/
namespace OpenNTN

open Real

variable {cls : ScenarioClass} {a : ScenarioArgs} {c : Config}

/-! ### C118: link budgets -/

theorem log10_lower {x : ℝ} {n : ℕ} (hx : 0 < x) (h : (10 : ℝ) ^ n < x ^ 200) : (n : ℝ) / 10 < 20 * log10 x := by
  have h10 : 0 < Real.log 10 := Real.log_pos (by norm_num)
  have := Real.log_lt_log (by positivity) h
  rw [Real.log_pow, Real.log_pow] at this
  unfold log10
  rw [← mul_div_assoc, lt_div_iff₀ h10]
  push_cast at this
  linarith

theorem log10_upper {x : ℝ} {n : ℕ} (hx : 0 < x) (h : x ^ 200 < (10 : ℝ) ^ n) : 20 * log10 x < (n : ℝ) / 10 := by
  have h10 : 0 < Real.log 10 := Real.log_pos (by norm_num)
  have := Real.log_lt_log (by positivity) h
  rw [Real.log_pow, Real.log_pow] at this
  unfold log10
  rw [← mul_div_assoc, div_lt_iff₀ h10]
  push_cast at this
  linarith

/-- Bounds of the slant range from bounds of the sine of the elevation. -/
theorem slant_bounds {el h lo hi slo shi : ℝ} (h10 : 10 ≤ el) (h90 : el ≤ 90) (hh : 0 < h) (h1 : slo ≤ sin (el * π / 180))
    (h2 : sin (el * π / 180) ≤ shi) (hs : 0 ≤ slo) (hlo : 0 ≤ lo) (hhi : 0 ≤ hi) (e1 : lo ^ 2 + 2 * 6371000 * lo * shi ≤ h ^ 2 + 2 * 6371000 * h)
    (e2 : h ^ 2 + 2 * 6371000 * h ≤ hi ^ 2 + 2 * 6371000 * hi * slo) : lo ≤ distance3d el h ∧ distance3d el h ≤ hi := by
  obtain ⟨hd, e, -⟩ := C21_slant_range h10 h90 hh
  set d := distance3d el h
  set s := sin (el * π / 180)
  constructor
  · by_contra hc
    push Not at hc
    have : d * s ≤ lo * shi := mul_le_mul hc.le h2 (by linarith) hlo
    nlinarith
  · by_contra hc
    push Not at hc
    have : hi * slo ≤ d * s := mul_le_mul hc.le h1 hs hd
    nlinarith

theorem sin_geo : (0.2156 : ℝ) ≤ sin (12.5 * π / 180) ∧ sin (12.5 * π / 180) ≤ 0.2182 := by
  have h1 := Real.pi_gt_d4
  have h2 := Real.pi_lt_d4
  have hx1 : (0.21815 : ℝ) < 12.5 * π / 180 := by linarith
  have hx2 : 12.5 * π / 180 < (0.2182 : ℝ) := by linarith
  have h3 := Real.sin_gt_sub_cube (x := 12.5 * π / 180) (by linarith)
  have h4 := Real.sin_lt (x := 12.5 * π / 180) (by linarith)
  refine ⟨?_, by linarith⟩
  have : (12.5 * π / 180) ^ 3 ≤ (0.2182 : ℝ) ^ 3 := pow_le_pow_left₀ (by linarith) hx2.le 3
  linarith

theorem sin_leo : sin (30 * π / 180) = 0.5 := by
  rw [show (30 : ℝ) * π / 180 = π / 6 by ring, Real.sin_pi_div_six]; norm_num

/-- Free space path loss from bounds of the distance. -/
theorem loss_bounds {f d lo hi v : ℝ} {n m p : ℕ} (h1 : lo ≤ d) (h2 : d ≤ hi) (hf : 0 < f) (hlo : 0 < lo)
    (e1 : (10 : ℝ) ^ n < (f * lo / 10 ^ p) ^ 200) (e2 : (f * hi / 10 ^ p) ^ 200 < (10 : ℝ) ^ m) (b1 : v - 0.1 ≤ (32.45 + 20 * p) + (n : ℝ) / 10)
    (b2 : (32.45 + 20 * p) + (m : ℝ) / 10 ≤ v + 0.1) : |freeSpaceLoss (f * 10 ^ 9) d - v| < 0.1 := by
  have hd : 0 < d := by linarith
  have hx : freeSpaceLoss (f * 10 ^ 9) d = (32.45 + 20 * p) + 20 * log10 (f * d / 10 ^ p) := by
    unfold freeSpaceLoss log10
    rw [mul_div_assoc f, div_self (by positivity), mul_one, Real.log_div (by positivity) (by positivity), Real.log_mul hf.ne' hd.ne', Real.log_pow]
    have h10 : Real.log 10 ≠ 0 := (Real.log_pos (by norm_num)).ne'
    field_simp
    push_cast
    ring
  have l1 : (f * lo / 10 ^ p) ^ 200 ≤ (f * d / 10 ^ p) ^ 200 := by gcongr
  have l2 : (f * d / 10 ^ p) ^ 200 ≤ (f * hi / 10 ^ p) ^ 200 := by gcongr
  have g1 := log10_lower (x := f * d / 10 ^ p) (by positivity) (e1.trans_le l1)
  have g2 := log10_upper (x := f * d / 10 ^ p) (by positivity) (l2.trans_lt e2)
  rw [hx, abs_lt]
  constructor <;> linarith

/-- C118. In the cases of the link budgets of TR 38.821 the basic path loss of a LoS link without shadow fading is the free space path loss
of the table, up to 0.1 dB, and the scintillation loss in S band is the 2.2 dB of the table. -/
theorem C118_link_budget (h : mkScenario cls a = .ok c) (b : Spec.BudgetCase) (hb : b ∈ Spec.budgetCases) (hf : a.carrierFrequency = b.frequency * 10 ^ 9)
    (hel : a.elevationAngle = b.elevation) (at' : Atmosphere) :
    (∀ zn, ∃ L, basicLoss c true (distance3d c.elevationAngle b.altitude) 0 zn = .ok L ∧ |L - b.loss| < 0.1) ∧
    (b.frequency = 2 → scintLoss (c.carrierFrequency / 10 ^ 9) c.elevationAngle at' = .ok (some 2.2)) := by
  have hbu := mkScenario_built h
  constructor
  · intro zn
    obtain ⟨σl, σn, cl, -, -, -, -, -, -, hl⟩ := basicLoss_ok h
    refine ⟨_, hl true _ 0 zn, ?_⟩
    rw [if_pos rfl, zero_mul, add_zero, hbu.fc_eq, hbu.el_eq, hf, hel]
    obtain ⟨s1, s2⟩ := sin_geo
    have geo := slant_bounds (el := 12.5) (h := 35786000) (lo := 40300000) (hi := 40330000) (by norm_num) (by norm_num) (by norm_num) s1 s2 (by norm_num)
      (by norm_num) (by norm_num) (by norm_num) (by norm_num)
    have leo := slant_bounds (el := 30) (h := 600000) (lo := 1075000) (hi := 1075100) (by norm_num) (by norm_num) (by norm_num) sin_leo.ge sin_leo.le
      (by norm_num) (by norm_num) (by norm_num) (by norm_num) (by norm_num)
    have leo2 := slant_bounds (el := 30) (h := 1200000) (lo := 1998800) (hi := 1998900) (by norm_num) (by norm_num) (by norm_num) sin_leo.ge sin_leo.le
      (by norm_num) (by norm_num) (by norm_num) (by norm_num) (by norm_num)
    simp only [Spec.budgetCases, List.mem_cons, List.not_mem_nil, or_false] at hb
    rcases hb with rfl | rfl | rfl | rfl | rfl | rfl | rfl | rfl | rfl
    · exact loss_bounds (n := 181) (m := 182) (p := 7) geo.1 geo.2 (by norm_num) (by norm_num) (by norm_num) (by norm_num) (by norm_num) (by norm_num)
    · exact loss_bounds (n := 181) (m := 182) (p := 8) geo.1 geo.2 (by norm_num) (by norm_num) (by norm_num) (by norm_num) (by norm_num) (by norm_num)
    · exact loss_bounds (n := 16) (m := 17) (p := 9) geo.1 geo.2 (by norm_num) (by norm_num) (by norm_num) (by norm_num) (by norm_num) (by norm_num)
    · exact loss_bounds (n := 66) (m := 67) (p := 6) leo.1 leo.2 (by norm_num) (by norm_num) (by norm_num) (by norm_num) (by norm_num) (by norm_num)
    · exact loss_bounds (n := 66) (m := 67) (p := 7) leo.1 leo.2 (by norm_num) (by norm_num) (by norm_num) (by norm_num) (by norm_num) (by norm_num)
    · exact loss_bounds (n := 101) (m := 102) (p := 7) leo.1 leo.2 (by norm_num) (by norm_num) (by norm_num) (by norm_num) (by norm_num) (by norm_num)
    · exact loss_bounds (n := 120) (m := 121) (p := 6) leo2.1 leo2.2 (by norm_num) (by norm_num) (by norm_num) (by norm_num) (by norm_num) (by norm_num)
    · exact loss_bounds (n := 120) (m := 121) (p := 7) leo2.1 leo2.2 (by norm_num) (by norm_num) (by norm_num) (by norm_num) (by norm_num) (by norm_num)
    · exact loss_bounds (n := 155) (m := 156) (p := 7) leo2.1 leo2.2 (by norm_num) (by norm_num) (by norm_num) (by norm_num) (by norm_num) (by norm_num)
  · intro h2
    have hs2 : Real.sqrt 2 ≠ 0 := by positivity
    rw [hbu.fc_eq, hf, h2, mul_div_assoc, div_self (by positivity), mul_one]
    unfold scintLoss
    rw [if_neg (by norm_num)]
    have e : (2 / 4 : ℝ) ^ (-1.5 : ℝ) = 2 * Real.sqrt 2 := by
      rw [show (2 / 4 : ℝ) = 2⁻¹ by norm_num, Real.inv_rpow (by norm_num), ← Real.rpow_neg (by norm_num), neg_neg,
        show (1.5 : ℝ) = 1 + 1 / 2 by norm_num, Real.rpow_add (by norm_num), Real.rpow_one, ← Real.sqrt_eq_rpow]
    simp only [e]
    congr 2
    field_simp
    norm_num

/-- A scenario for the first case. -/
example : ∃ c, mkScenario .subUrban (exArgs 2000000000 "downlink" 12.5) = .ok c ∧ (⟨2, 35786000, 12.5, 190.6⟩ : Spec.BudgetCase) ∈ Spec.budgetCases ∧
    (exArgs 2000000000 "downlink" 12.5).carrierFrequency = 2 * 10 ^ 9 := by
  obtain ⟨c, h⟩ := exArgs_ok .subUrban false false 12.5 (by norm_num) (by norm_num)
  exact ⟨c, by simpa using h, by simp [Spec.budgetCases], by norm_num [exArgs]⟩

/-! ### C119: losses fall when the satellite rises -/

/-- C119. For a satellite at a fixed altitude and the same carrier and atmosphere, the free space loss and the gas loss of the higher elevation
are strictly smaller, and below 6 GHz the scintillation loss is the same. The gas losses are in the ratio of the sines of the elevations. -/
theorem C119_elevation {cls' : ScenarioClass} {a' : ScenarioArgs} {c' : Config} (h : mkScenario cls a = .ok c) (h' : mkScenario cls' a' = .ok c')
    (hf : a'.carrierFrequency = a.carrierFrequency) (hel : a.elevationAngle < a'.elevationAngle) {alt : ℝ} (halt : 0 < alt) {at' : Atmosphere}
    (hp : at'.Physical) (zn zn' : ℝ) :
    ∃ L L' g g', basicLoss c true (distance3d c.elevationAngle alt) 0 zn = .ok L ∧ basicLoss c' true (distance3d c'.elevationAngle alt) 0 zn' = .ok L' ∧
      gasLoss (c.carrierFrequency / 10 ^ 9) c.elevationAngle at' = .ok g ∧ gasLoss (c'.carrierFrequency / 10 ^ 9) c'.elevationAngle at' = .ok g' ∧
      L' < L ∧ g' < g ∧ g * sin (a.elevationAngle * π / 180) = g' * sin (a'.elevationAngle * π / 180) ∧
      (Spec.SBand a.carrierFrequency → scintLoss (c.carrierFrequency / 10 ^ 9) c.elevationAngle at' =
        scintLoss (c'.carrierFrequency / 10 ^ 9) c'.elevationAngle at') := by
  have hb := mkScenario_built h
  have hb' := mkScenario_built h'
  obtain ⟨f1, f2⟩ := built_freq h
  have hs := built_sin h
  have hs' := built_sin h'
  have hT : 0 < at'.temperature := by linarith [hp.temperature]
  obtain ⟨g1, g2, eg⟩ := gasLoss_ok (f := c.carrierFrequency / 10 ^ 9) (el := c.elevationAngle) (a := at') (by linarith) f2 hT hp.pressure hp.vapor hs
  obtain ⟨-, -, eg'⟩ := gasLoss_ok (f := c.carrierFrequency / 10 ^ 9) (el := c'.elevationAngle) (a := at') (by linarith) f2 hT hp.pressure hp.vapor hs'
  obtain ⟨σl, σn, cl, -, -, -, -, -, -, hl⟩ := basicLoss_ok h
  obtain ⟨σl', σn', cl', -, -, -, -, -, -, hl'⟩ := basicLoss_ok h'
  have hcf : c'.carrierFrequency = c.carrierFrequency := by rw [hb.fc_eq, hb'.fc_eq, hf]
  have hsin : sin (deg2rad c.elevationAngle) < sin (deg2rad c'.elevationAngle) := by
    rw [hb.el_eq, hb'.el_eq]
    exact sin_el_mono (by linarith [hb.el_lo]) hel hb'.el_hi
  refine ⟨_, _, _, _, hl true _ 0 zn, hl' true _ 0 zn', eg, by rw [hcf]; exact eg', ?_, ?_, ?_, ?_⟩
  · have h0 := (distance3d_root a'.elevationAngle halt).1
    have hlt := (C21_slant_range hb.el_lo hb.el_hi halt).2.2.2.2.2.2.1 a'.elevationAngle hel hb'.el_hi
    have h10 : 0 < Real.log 10 := Real.log_pos (by norm_num)
    have := Real.log_lt_log h0 hlt
    rw [if_pos rfl, if_pos rfl, hcf, hb.el_eq, hb'.el_eq]
    unfold freeSpaceLoss log10
    have := div_lt_div_of_pos_right this h10
    linarith
  · exact div_lt_div_of_pos_left (by linarith) hs hsin
  · have e : ∀ x : ℝ, x * π / 180 = deg2rad x := fun x => by unfold deg2rad; ring
    rw [e, e, ← hb.el_eq, ← hb'.el_eq, div_mul_cancel₀ _ hs.ne', div_mul_cancel₀ _ hs'.ne']
  · intro hS
    have : ¬ 6 ≤ c.carrierFrequency / 10 ^ 9 := by
      rw [hb.fc_eq, le_div_iff₀ (by positivity)]
      have := hS.2
      push Not
      linarith
    rw [hcf]
    unfold scintLoss
    rw [if_neg this, if_neg this]

/-- Two scenarios at 30 and 60 degrees. -/
example : ∃ c c', mkScenario .urban (exArgs 20000000000 "downlink" 30) = .ok c ∧ mkScenario .urban (exArgs 20000000000 "downlink" 60) = .ok c' ∧
    (exArgs 20000000000 "downlink" 30).elevationAngle < (exArgs 20000000000 "downlink" 60).elevationAngle := by
  obtain ⟨c, h⟩ := exArgs_ok .urban false true 30 (by norm_num) (by norm_num)
  obtain ⟨c', h'⟩ := exArgs_ok .urban false true 60 (by norm_num) (by norm_num)
  exact ⟨c, c', by simpa using h, by simpa using h', by norm_num [exArgs]⟩

end OpenNTN
