import Verif.Props.Pathloss
import Verif.Spec.Itu
import Mathlib.Analysis.Complex.ExponentialBounds

/-
Atmospheric losses against the ITU-R recommendations: C96, C97.
-/
namespace OpenNTN

open Spec

variable {cls : ScenarioClass} {a : ScenarioArgs} {c : Config}

theorem gasYw_itu (f rt rp pw : ℝ) : gasYw f rt rp pw = vapourAttenuation f rp rt pw := by
  unfold gasYw vapourAttenuation
  simp only [vapourLines, VapourLine.value, List.map_cons, List.map_nil, List.sum_cons, List.sum_nil, Bool.false_eq_true, if_false, if_true,
    zero_mul, add_zero, mul_one]
  norm_num
  ring

theorem gasYo_itu {f rt rp : ℝ} (h : f ≤ 54) : gasYo f rt rp = dryAttenuation f rp rt := by
  unfold gasYo dryAttenuation phi
  dsimp only
  rw [if_pos h]
  norm_num
  ring

theorem gasHo_itu (f rp : ℝ) : dryHeight f rp = min (gasHo f rp) (10.7 * rp ^ (0.3 : ℝ)) := by
  unfold gasHo dryHeight
  dsimp only
  congr 2
  norm_num
  ring

/-- The cap on the equivalent height of dry air has no effect below 40 GHz, for pressures from 577 to 1216 hPa. -/
theorem gasHo_uncapped {f rp : ℝ} (hf : 0 < f) (h40 : f ≤ 40) (h1 : 0.57 ≤ rp) (h2 : rp ≤ 1.2) : dryHeight f rp = gasHo f rp := by
  rw [gasHo_itu]
  refine min_eq_left ?_
  have hcap : 8 ≤ 10.7 * rp ^ (0.3 : ℝ) := by
    have e1 : (0.57 : ℝ) ^ (0.5 : ℝ) ≤ rp ^ (0.3 : ℝ) :=
      calc (0.57 : ℝ) ^ (0.5 : ℝ) ≤ 0.57 ^ (0.3 : ℝ) := Real.rpow_le_rpow_of_exponent_ge (by norm_num) (by norm_num) (by norm_num)
        _ ≤ rp ^ (0.3 : ℝ) := Real.rpow_le_rpow (by norm_num) h1 (by norm_num)
    have e2 : (0.75 : ℝ) ≤ 0.57 ^ (0.5 : ℝ) := by
      rw [show (0.5 : ℝ) = 1 / 2 by norm_num, ← Real.sqrt_eq_rpow]
      exact Real.le_sqrt_of_sq_le (by norm_num)
    linarith
  refine le_trans ?_ hcap
  have hrp : 0 < rp := by linarith
  unfold gasHo
  dsimp only
  have hA : 6.1 / (1 + 0.17 * rp ^ (-1.1 : ℝ)) ≤ 6.1 := div_le_self (by norm_num) (by linarith [Real.rpow_pos_of_pos hrp (-1.1)])
  have hA0 : 0 < 6.1 / (1 + 0.17 * rp ^ (-1.1 : ℝ)) := by positivity
  have ht1 : 4.64 / (1 + 0.066 * rp ^ (-2.3 : ℝ)) * Real.exp (-((f - 59.7) / (2.87 + 12.4 * Real.exp (-7.9 * rp))) ^ 2) ≤ 0.28 := by
    have hB : 4.64 / (1 + 0.066 * rp ^ (-2.3 : ℝ)) ≤ 4.64 := div_le_self (by norm_num) (by linarith [Real.rpow_pos_of_pos hrp (-2.3)])
    have hE : Real.exp (-7.9 * rp) ≤ 0.15 := by
      have h3 : (4.5 : ℝ) ^ 2 / 2 + 4.5 + 1 ≤ Real.exp 4.5 := by have := Real.quadratic_le_exp_of_nonneg (x := 4.5) (by norm_num); linarith
      have h4 : Real.exp 4.5 ≤ Real.exp (7.9 * rp) := Real.exp_le_exp.2 (by linarith)
      rw [show -7.9 * rp = -(7.9 * rp) by ring, Real.exp_neg]
      rw [inv_le_comm₀ (Real.exp_pos _) (by norm_num)]
      norm_num at h3 ⊢
      linarith
    have hE0 := Real.exp_pos (-7.9 * rp)
    have hq : 16 ≤ ((f - 59.7) / (2.87 + 12.4 * Real.exp (-7.9 * rp))) ^ 2 := by
      rw [div_pow, le_div_iff₀ (by positivity)]
      nlinarith
    have he : Real.exp (-((f - 59.7) / (2.87 + 12.4 * Real.exp (-7.9 * rp))) ^ 2) ≤ 1 / 17 := by
      have h5 := Real.add_one_le_exp (((f - 59.7) / (2.87 + 12.4 * Real.exp (-7.9 * rp))) ^ 2)
      rw [Real.exp_neg, inv_le_comm₀ (Real.exp_pos _) (by norm_num), one_div, inv_inv]
      linarith
    calc _ ≤ 4.64 * (1 / 17) := mul_le_mul hB he (Real.exp_pos _).le (by norm_num)
      _ ≤ 0.28 := by norm_num
  have ht2 : 0.14 * Real.exp (2.12 * rp) / ((f - 118.75) ^ 2 + 0.031 * Real.exp (2.2 * rp)) ≤ 0.01 := by
    have h3 : Real.exp (2.12 * rp) ≤ 21 := by
      have : Real.exp (2.12 * rp) ≤ Real.exp 1 ^ 3 := by
        rw [← Real.exp_nat_mul]; exact Real.exp_le_exp.2 (by push_cast; linarith)
      have h4 := Real.exp_one_lt_d9
      have h5 : Real.exp 1 ^ 3 ≤ 2.7182818286 ^ 3 := pow_le_pow_left₀ (Real.exp_pos _).le h4.le 3
      have h7 : (2.7182818286 : ℝ) ^ 3 ≤ 21 := by norm_num
      linarith
    have h6 := Real.exp_pos (2.2 * rp)
    rw [div_le_iff₀ (by positivity)]
    nlinarith
  have ht3 : 0.0114 / (1 + 0.14 * rp ^ (-2.6 : ℝ)) * f *
      ((-0.0247 + 0.0001 * f + 1.61 * (10 ^ 6)⁻¹ * f ^ 2) / (1 - 0.0169 * f + 4.1 * (10 ^ 5)⁻¹ * f ^ 2 + 3.2 * (10 ^ 7)⁻¹ * f ^ 3)) ≤ 0 := by
    refine mul_nonpos_of_nonneg_of_nonpos (by positivity) (div_nonpos_of_nonpos_of_nonneg ?_ ?_)
    · nlinarith
    · have : 0 < f ^ 3 := by positivity
      norm_num
      nlinarith
  calc _ ≤ 6.1 / (1 + 0.17 * rp ^ (-1.1 : ℝ)) * 1.29 := by
        apply mul_le_mul_of_nonneg_left _ hA0.le
        linarith
    _ ≤ 8 := by linarith

theorem term_mono {k b D s s' k' : ℝ} (hk : 0 < k) (hb : 0 < b) (hD : 0 ≤ D) (hs : 0 < s) (hss : s ≤ s') (hkk : k ≤ k') :
    k * s / (D + b * s) ≤ k' * s' / (D + b * s') := by
  have hs' : 0 < s' := by linarith
  rw [div_le_div_iff₀ (by positivity) (by positivity)]
  have h1 : k * s ≤ k' * s' := mul_le_mul hkk hss hs.le (by linarith)
  have h2 : k * s * (b * s') ≤ k' * s' * (b * s) := by
    have : 0 ≤ (k' - k) * (b * s * s') := mul_nonneg (by linarith) (by positivity)
    nlinarith
  have h3 : k * s * D ≤ k' * s' * D := mul_le_mul_of_nonneg_right h1 hD
  linarith

theorem term_upper {k b D s s' k' r : ℝ} (hk : 0 < k) (hb : 0 < b) (hD : 0 ≤ D) (hs : 0 < s) (hss : s ≤ s') (hr : k' * s' ≤ r * (k * s))
    (hr0 : 0 ≤ r) : k' * s' / (D + b * s') ≤ r * (k * s / (D + b * s)) := by
  have hs' : 0 < s' := by linarith
  rw [← mul_div_assoc, div_le_div_iff₀ (by positivity) (by positivity)]
  have h1 : D + b * s ≤ D + b * s' := by nlinarith
  have h2 : 0 ≤ r * (k * s) := by positivity
  calc k' * s' * (D + b * s) ≤ r * (k * s) * (D + b * s) := mul_le_mul_of_nonneg_right hr (by positivity)
    _ ≤ r * (k * s) * (D + b * s') := mul_le_mul_of_nonneg_left h1 h2

/-- The equivalent height of water vapour is at most 8 % too small above 577 hPa. -/
theorem gasHw_bounds {f rp : ℝ} (h1 : 0.57 ≤ rp) : gasHw f rp < vapourHeight f rp ∧ vapourHeight f rp ≤ 1.08 * gasHw f rp := by
  set s := 1.013 / (1 + Real.exp ((0 - 8.1) * (rp - 0.57))) with hs
  set s' := 1.013 / (1 + Real.exp (-8.6 * (rp - 0.57))) with hs'
  have p1 := Real.exp_pos ((0 - 8.1) * (rp - 0.57))
  have p2 := Real.exp_pos (-8.6 * (rp - 0.57))
  have hs0 : 0 < s := by positivity
  have hs0' : 0 < s' := by positivity
  have hss : s ≤ s' := by
    apply div_le_div_of_nonneg_left (by norm_num) (by positivity)
    have := Real.exp_le_exp.2 (show -8.6 * (rp - 0.57) ≤ (0 - 8.1) * (rp - 0.57) by nlinarith)
    linarith
  have hss' : s' ≤ 1.025 * s := by
    rw [hs, hs', ← mul_div_assoc, div_le_div_iff₀ (by positivity) (by positivity)]
    have hx : 0 ≤ rp - 0.57 := by linarith
    set x := rp - 0.57
    have e1 : Real.exp (-8.6 * x) = Real.exp ((0 - 8.1) * x) * Real.exp (-(0.5 * x)) := by rw [← Real.exp_add]; congr 1; ring
    have e2 : 1 - 0.5 * x ≤ Real.exp (-(0.5 * x)) := by have := Real.add_one_le_exp (-(0.5 * x)); linarith
    have e3 : 8.1 * x * Real.exp ((0 - 8.1) * x) ≤ 0.4 := by
      have h5 := Real.add_one_le_exp (8.1 * x - 1)
      have h6 : Real.exp (8.1 * x - 1) * Real.exp ((0 - 8.1) * x) = Real.exp (-1) := by rw [← Real.exp_add]; congr 1; ring
      have h7 : Real.exp (-1) ≤ 0.4 := by
        rw [Real.exp_neg, inv_le_comm₀ (Real.exp_pos _) (by norm_num)]
        have := Real.exp_one_gt_d9
        norm_num at this ⊢
        linarith
      calc 8.1 * x * Real.exp ((0 - 8.1) * x) ≤ Real.exp (8.1 * x - 1) * Real.exp ((0 - 8.1) * x) :=
            mul_le_mul_of_nonneg_right (by linarith) p1.le
        _ ≤ 0.4 := by rw [h6]; exact h7
    have e4 : Real.exp ((0 - 8.1) * x) * (1 - 0.5 * x) ≤ Real.exp (-8.6 * x) := by
      rw [e1]; exact mul_le_mul_of_nonneg_left e2 p1.le
    nlinarith
  have d1 : 0 ≤ (f - 22.235) ^ 2 := sq_nonneg _
  have d2 : 0 ≤ (f - 183.31) ^ 2 := sq_nonneg _
  have d3 : 0 ≤ (f - 325.1) ^ 2 := sq_nonneg _
  have m1 := term_mono (k := 1.39) (k' := 1.39) (b := 2.56) (by norm_num) (by norm_num) d1 hs0 hss le_rfl
  have m2 := term_mono (k := 3.37) (k' := 3.37) (b := 4.69) (by norm_num) (by norm_num) d2 hs0 hss le_rfl
  have m3 : 1.5 * s / ((f - 325.1) ^ 2 + 2.89 * s) < 1.58 * s' / ((f - 325.1) ^ 2 + 2.89 * s') :=
    (term_mono (k := 1.5) (k' := 1.5) (b := 2.89) (by norm_num) (by norm_num) d3 hs0 hss le_rfl).trans_lt
      (div_lt_div_of_pos_right (by linarith) (by positivity))
  have u1 := term_upper (k := 1.39) (k' := 1.39) (b := 2.56) (r := 1.08) (by norm_num) (by norm_num) d1 hs0 hss (by linarith) (by norm_num)
  have u2 := term_upper (k := 3.37) (k' := 3.37) (b := 4.69) (r := 1.08) (by norm_num) (by norm_num) d2 hs0 hss (by linarith) (by norm_num)
  have u3 := term_upper (k := 1.5) (k' := 1.58) (b := 2.89) (r := 1.08) (by norm_num) (by norm_num) d3 hs0 hss (by linarith) (by norm_num)
  have eg : gasHw f rp = 1.66 * (1 + 1.39 * s / ((f - 22.235) ^ 2 + 2.56 * s) + 3.37 * s / ((f - 183.31) ^ 2 + 4.69 * s) +
      1.5 * s / ((f - 325.1) ^ 2 + 2.89 * s)) := rfl
  have ev : vapourHeight f rp = 1.66 * (1 + 1.39 * s' / ((f - 22.235) ^ 2 + 2.56 * s') + 3.37 * s' / ((f - 183.31) ^ 2 + 4.69 * s') +
      1.58 * s' / ((f - 325.1) ^ 2 + 2.89 * s')) := by
    unfold vapourHeight vapourHeightTerms
    simp only [List.map_cons, List.map_nil, List.sum_cons, List.sum_nil, ← hs']
    ring
  rw [eg, ev]
  constructor <;> linarith

/-- The full claim of C96: the gas loss of every valid scenario is that of ITU-R P.676-9, Annex 2. -/
def C96_statement : Prop :=
  ∀ (cls : ScenarioClass) (a : ScenarioArgs) (c : Config), mkScenario cls a = .ok c → ∀ at' : Atmosphere, at'.Physical →
    gasLoss (c.carrierFrequency / 10 ^ 9) c.elevationAngle at' =
      .ok (gasAttenuation (c.carrierFrequency / 10 ^ 9) c.elevationAngle at'.temperature at'.pressure at'.vaporDensity)

theorem gasLoss_parts (h : mkScenario cls a = .ok c) {at' : Atmosphere} (hp : at'.Physical) (h1 : 577.41 ≤ at'.pressure)
    (h2 : at'.pressure ≤ 1215) :
    let f := c.carrierFrequency / 10 ^ 9
    let rt := 288 / at'.temperature
    let rp := at'.pressure / 1013
    gasLoss f c.elevationAngle at' =
      .ok ((dryAttenuation f rp rt * dryHeight f rp + vapourAttenuation f rp rt at'.vaporDensity * gasHw f rp) /
        Real.sin (c.elevationAngle * (Real.pi / 180))) := by
  obtain ⟨f1, f2⟩ := built_freq h
  have hs := built_sin h
  have hT : 0 < at'.temperature := by linarith [hp.temperature]
  obtain ⟨-, -, eg⟩ := gasLoss_ok (f := c.carrierFrequency / 10 ^ 9) (el := c.elevationAngle) (a := at') (by linarith) f2 hT hp.pressure
    hp.vapor hs
  dsimp only
  rw [eg, gasHo_uncapped (by linarith) f2 (by rw [le_div_iff₀ (by norm_num)]; linarith) (by rw [div_le_iff₀ (by norm_num)]; linarith),
    gasYw_itu, gasYo_itu (by linarith)]
  rfl

/-- C96, what holds: between 577 and 1215 hPa, the loss is at most 8 % below that of the recommendation and never above it, and the
contribution of dry air is exact. Missing: the contribution of water vapour, whose equivalent height is computed with other constants. -/
theorem C96_gas_partial (h : mkScenario cls a = .ok c) {at' : Atmosphere} (hp : at'.Physical) (h1 : 577.41 ≤ at'.pressure)
    (h2 : at'.pressure ≤ 1215) :
    let f := c.carrierFrequency / 10 ^ 9
    ∃ g, gasLoss f c.elevationAngle at' = .ok g ∧
      g ≤ gasAttenuation f c.elevationAngle at'.temperature at'.pressure at'.vaporDensity ∧
      gasAttenuation f c.elevationAngle at'.temperature at'.pressure at'.vaporDensity ≤ 1.08 * g ∧
      (at'.vaporDensity = 0 → g = gasAttenuation f c.elevationAngle at'.temperature at'.pressure at'.vaporDensity) := by
  have e := gasLoss_parts h hp h1 h2
  dsimp only at e ⊢
  obtain ⟨f1, f2⟩ := built_freq h
  have hs : 0 < Real.sin (c.elevationAngle * (Real.pi / 180)) := built_sin h
  have hT : 0 < at'.temperature := by linarith [hp.temperature]
  have hP := hp.pressure
  have hrp : 0.57 ≤ at'.pressure / 1013 := by rw [le_div_iff₀ (by norm_num)]; linarith
  have hrp2 : at'.pressure / 1013 ≤ 1.2 := by rw [div_le_iff₀ (by norm_num)]; linarith
  obtain ⟨b1, b2⟩ := gasHw_bounds (f := c.carrierFrequency / 10 ^ 9) hrp
  have hv : 0 ≤ vapourAttenuation (c.carrierFrequency / 10 ^ 9) (at'.pressure / 1013) (288 / at'.temperature) at'.vaporDensity := by
    rw [← gasYw_itu]
    exact gasYw_nonneg (by linarith) (by positivity) (by positivity) hp.vapor
  have hd : 0 < dryAttenuation (c.carrierFrequency / 10 ^ 9) (at'.pressure / 1013) (288 / at'.temperature) *
      dryHeight (c.carrierFrequency / 10 ^ 9) (at'.pressure / 1013) := by
    rw [← gasYo_itu (by linarith), gasHo_uncapped (by linarith) f2 hrp hrp2]
    exact mul_pos (gasYo_pos (by linarith) (by linarith) (by positivity) (by positivity)) (gasHo_pos (by linarith) f2 (by positivity))
  refine ⟨_, e, ?_, ?_, fun h0 => ?_⟩
  · unfold gasAttenuation gasZenith
    dsimp only
    gcongr
  · unfold gasAttenuation gasZenith
    dsimp only
    rw [mul_div_assoc' 1.08]
    apply div_le_div_of_nonneg_right _ hs.le
    have := mul_le_mul_of_nonneg_left b2 hv
    linarith
  · have hv0 : vapourAttenuation (c.carrierFrequency / 10 ^ 9) (at'.pressure / 1013) (288 / at'.temperature) at'.vaporDensity = 0 := by
      rw [h0]; unfold vapourAttenuation; simp
    unfold gasAttenuation gasZenith
    dsimp only
    rw [hv0, zero_mul, zero_mul]

/-- C96 fails, for instance in the standard atmosphere: the height of the water vapour is too small. -/
theorem C96_violated : ¬ C96_statement := by
  intro H
  obtain ⟨c, h⟩ := exArgs_ok .urban true true 90 (by norm_num) (by norm_num)
  let at' : Atmosphere := ⟨47, 0.41, 40, 1013, 288, 7.5, 50, 3.6, 0.5⟩
  have hp : at'.Physical := ⟨by norm_num [at'], by norm_num [at'], by norm_num [at'], by norm_num [at'], by norm_num [at'], by norm_num [at']⟩
  have e := gasLoss_parts h hp (by norm_num [at']) (by norm_num [at'])
  dsimp only at e
  rw [H _ _ c h at' hp] at e
  obtain ⟨f1, f2⟩ := built_freq h
  have hs : 0 < Real.sin (c.elevationAngle * (Real.pi / 180)) := built_sin h
  have e := Except.ok.inj e
  unfold gasAttenuation gasZenith at e
  dsimp only at e
  rw [div_left_inj' hs.ne', add_right_inj] at e
  have hv : 0 < vapourAttenuation (c.carrierFrequency / 10 ^ 9) (at'.pressure / 1013) (288 / at'.temperature) at'.vaporDensity := by
    rw [← gasYw_itu]
    exact gasYw_pos (by linarith) (by norm_num [at']) (by norm_num [at']) (by norm_num [at'])
  have e := mul_left_cancel₀ hv.ne' e
  have := (gasHw_bounds (f := c.carrierFrequency / 10 ^ 9) (rp := at'.pressure / 1013) (by norm_num [at'])).1
  exact this.ne e.symm

/-- Hypotheses of C96 can be met, here by the default atmosphere. -/
example : (⟨47, 0.41, 40, 1020, 273, 7.5, 50, 3.6, 0.5⟩ : Atmosphere).Physical ∧
    577.41 ≤ (⟨47, 0.41, 40, 1020, 273, 7.5, 50, 3.6, 0.5⟩ : Atmosphere).pressure ∧
    (⟨47, 0.41, 40, 1020, 273, 7.5, 50, 3.6, 0.5⟩ : Atmosphere).pressure ≤ 1215 ∧ ∃ c, mkScenario .urban (exArgs 2000000000 "uplink" 50) = .ok c :=
  ⟨⟨by norm_num, by norm_num, by norm_num, by norm_num, by norm_num, by norm_num⟩, by norm_num, by norm_num,
    by simpa using exArgs_ok .urban true false 50 (by norm_num) (by norm_num)⟩

/-! ### C97 -/

/-- The full claim of C97: the scintillation loss of every valid scenario is, in Ka band, the fade depth of ITU-R P.618 and, in S band, the
value 1.1 dB at 4 GHz of TR 38.811 scaled with the frequency to the power -1.5 and divided by the square root of two. -/
def C97_statement : Prop :=
  ∀ (cls : ScenarioClass) (a : ScenarioArgs) (c : Config), mkScenario cls a = .ok c → ∀ at' : Atmosphere, at'.Physical →
    let f := c.carrierFrequency / 10 ^ 9
    (SBand a.carrierFrequency → scintLoss f c.elevationAngle at' = .ok (some (1.1 * (f / 4) ^ (-1.5 : ℝ) / Real.sqrt 2))) ∧
    (KaBand a.carrierFrequency → scintLoss f c.elevationAngle at' =
      .ok (some (scintillationFade f c.elevationAngle (turbulentPath c.elevationAngle) at'.temperature at'.humidity at'.diameter at'.efficiency)))

/-- C97, what holds: the S band value is as claimed. In Ka band, for ground antennas with squared effective diameter up to 6.48 m², the loss
is the fade depth for a temperature higher by 0.15 K (zero Celsius is taken as 273 K) and for the effective path length of the code instead of
that of the recommendation (see C57). Missing: the effective path length, the origin of the Celsius scale, larger antennas (NaN instead of
zero). -/
theorem C97_scintillation_partial (h : mkScenario cls a = .ok c) {at' : Atmosphere} (hp : at'.Physical) :
    let f := c.carrierFrequency / 10 ^ 9
    let sn := Real.sin (c.elevationAngle * (Real.pi / 180))
    (SBand a.carrierFrequency → scintLoss f c.elevationAngle at' = .ok (some (1.1 * (f / 4) ^ (-1.5 : ℝ) / Real.sqrt 2))) ∧
    (KaBand a.carrierFrequency → at'.efficiency * at'.diameter ^ 2 ≤ 6.48 → scintLoss f c.elevationAngle at' =
      .ok (some (scintillationFade f c.elevationAngle (2 * 1000 / Real.sqrt (sn ^ 2 + 2.35e-4 + sn)) (at'.temperature + 0.15) at'.humidity
        at'.diameter at'.efficiency))) := by
  have hb := mkScenario_built h
  obtain ⟨f1, f2⟩ := built_freq h
  have hs : 0 < Real.sin (c.elevationAngle * (Real.pi / 180)) := built_sin h
  have hT : 0 < at'.temperature := by linarith [hp.temperature]
  refine ⟨fun hS => ?_, fun hK hD => ?_⟩
  · unfold scintLoss
    rw [if_neg]
    have := hS.2
    rw [hb.fc_eq, not_le, div_lt_iff₀ (by positivity)]
    norm_num; linarith
  · obtain ⟨-, s, -, hsc, -⟩ := C56_losses_partial h hp (.inr hD)
    have h6 : 6 ≤ c.carrierFrequency / 10 ^ 9 := by
      have := hK.1
      rw [hb.fc_eq, le_div_iff₀ (by positivity)]
      norm_num; linarith
    unfold scintLoss at hsc ⊢
    rw [if_pos h6] at hsc ⊢
    dsimp only at hsc ⊢
    have h0 : ¬ (at'.temperature - 273 + 240.97 = 0 ∨ at'.temperature = 0 ∨ at'.efficiency < 0) := by
      push Not
      exact ⟨by linarith [hp.temperature], hT.ne', hp.efficiency.1⟩
    rw [if_neg h0] at hsc ⊢
    split_ifs at hsc with hr
    · cases hsc
    rw [if_neg hr]
    have hx0 : 0 ≤ 1.22 * (Real.sqrt at'.efficiency * at'.diameter) ^ 2 * (c.carrierFrequency / 10 ^ 9) / scintPathLength c.elevationAngle := by
      unfold scintPathLength
      have : 0 ≤ c.carrierFrequency / 10 ^ 9 := by linarith
      positivity
    have hlog : log10 0.01 = -2 := by
      unfold log10
      rw [show (0.01 : ℝ) = 10 ^ (-2 : ℤ) by norm_num, Real.log_zpow]
      have : Real.log 10 ≠ 0 := (Real.log_pos (by norm_num)).ne'
      rw [mul_div_cancel_right₀ _ this]
      norm_num
    have hrad : ∀ x, 0 ≤ x → scintRadicand x = averagingSq x := by
      intro x hx
      have hat : (if x = 0 then Real.pi / 2 else Real.arctan (1 / x)) = Real.pi / 2 - Real.arctan x := by
        split_ifs with h
        · rw [h, Real.arctan_zero, sub_zero]
        · rw [one_div, Real.arctan_inv_of_pos (lt_of_le_of_ne hx (Ne.symm h))]
      unfold scintRadicand averagingSq
      dsimp only
      rw [hat]
    have hx1 : 1.22 * (Real.sqrt at'.efficiency * at'.diameter) ^ 2 * (c.carrierFrequency / 10 ^ 9) / scintPathLength c.elevationAngle =
        1.22 * (at'.efficiency * at'.diameter ^ 2) * (c.carrierFrequency / 10 ^ 9) /
          (2 * 1000 / Real.sqrt (Real.sin (c.elevationAngle * (Real.pi / 180)) ^ 2 + 2.35e-4 + Real.sin (c.elevationAngle * (Real.pi / 180)))) := by
      rw [mul_pow, Real.sq_sqrt hp.efficiency.1]; rfl
    rw [hrad _ hx0, hx1, hlog]
    congr 2
    rw [abs_of_nonneg]
    · unfold scintillationFade wetRefractivity
      dsimp only
      rw [show at'.temperature + 0.15 - 273.15 = at'.temperature - 273 by ring]
      unfold deg2rad
      ring_nf
    · have hes : 0 ≤ 3732 * at'.humidity * (6.1121 * Real.exp (17.502 * (at'.temperature - 273) / (at'.temperature - 273 + 240.97))) /
          (at'.temperature - 273 + 273) ^ 2 := by
        have := hp.humidity
        positivity
      have hf0 : 0 ≤ c.carrierFrequency / 10 ^ 9 := by linarith
      have hs' : 0 < Real.sin (deg2rad c.elevationAngle) := hs
      refine mul_nonneg (by norm_num) (div_nonneg (mul_nonneg (mul_nonneg ?_ (by positivity)) (Real.sqrt_nonneg _)) (by positivity))
      linarith

/-- C97 fails for a 20 GHz link at 90 degrees with a 200 m ground antenna: the loss is not a number. -/
theorem C97_violated : ¬ C97_statement := by
  intro H
  obtain ⟨c, at', h, hp, e⟩ := scint_nan
  have h2 := (H _ _ c h at' hp).2 ⟨by norm_num [exArgs], by norm_num [exArgs]⟩
  rw [e] at h2
  simp at h2

/-- Hypotheses of C97 can be met in both bands: scenarios exist, and the default atmosphere is as required. -/
example : (∃ c, mkScenario .urban (exArgs 2000000000 "uplink" 50) = .ok c) ∧ (∃ c, mkScenario .urban (exArgs 20000000000 "uplink" 50) = .ok c) ∧
    SBand 2000000000 ∧ KaBand 20000000000 ∧ (⟨47, 0.41, 40, 1020, 273, 7.5, 50, 3.6, 0.5⟩ : Atmosphere).Physical ∧
    (0.5 : ℝ) * 3.6 ^ 2 ≤ 6.48 :=
  ⟨by simpa using exArgs_ok .urban true false 50 (by norm_num) (by norm_num), by simpa using exArgs_ok .urban true true 50 (by norm_num) (by norm_num),
    ⟨by norm_num, by norm_num⟩, ⟨by norm_num, by norm_num⟩,
    ⟨by norm_num, by norm_num, by norm_num, by norm_num, by norm_num, by norm_num⟩, by norm_num⟩

end OpenNTN
