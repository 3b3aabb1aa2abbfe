import Verif.Model.Pathloss
import Verif.Lemmas.ConfigTable
import Mathlib.Analysis.MeanInequalities
import Mathlib.Analysis.SpecialFunctions.Trigonometric.Bounds
import Mathlib.Analysis.Real.Pi.Bounds
import Mathlib.Analysis.SpecialFunctions.Trigonometric.ArctanDeriv

namespace OpenNTN

open Real

theorem gasYw_nonneg {f rt rp pw : ℝ} (hf : 0 < f) (ht : 0 < rt) (hp : 0 < rp) (hw : 0 ≤ pw) : 0 ≤ gasYw f rt rp pw := by
  unfold gasYw
  positivity

theorem gasYw_pos {f rt rp pw : ℝ} (hf : 0 < f) (ht : 0 < rt) (hp : 0 < rp) (hw : 0 < pw) : 0 < gasYw f rt rp pw := by
  have hn1 : 0 < 0.955 * rp * rt ^ (0.68 : ℝ) + 0.006 * pw := by positivity
  unfold gasYw
  dsimp only
  refine mul_pos ?_ (by positivity)
  have h0 : 0 < ((3.98 * (0.955 * rp * rt ^ (0.68 : ℝ) + 0.006 * pw) * exp (2.23 * (1 - rt))) /
      ((f - 22.235) ^ 2 + 9.42 * (0.955 * rp * rt ^ (0.68 : ℝ) + 0.006 * pw) ^ 2)) * (1 + ((f - 22) / (f + 22)) ^ 2) := by positivity
  refine add_pos_of_pos_of_nonneg ?_ (by positivity)
  refine add_pos_of_pos_of_nonneg ?_ (by positivity)
  refine add_pos_of_pos_of_nonneg ?_ (by positivity)
  refine add_pos_of_pos_of_nonneg ?_ (by positivity)
  refine add_pos_of_pos_of_nonneg ?_ (by positivity)
  refine add_pos_of_pos_of_nonneg ?_ (by positivity)
  refine add_pos_of_pos_of_nonneg ?_ (by positivity)
  exact add_pos_of_pos_of_nonneg h0 (by positivity)

theorem gasHw_pos (f rp : ℝ) : 0 < gasHw f rp := by
  unfold gasHw
  positivity

theorem gasYo_pos {f rt rp : ℝ} (hf : 0 < f) (h54 : f < 54) (ht : 0 < rt) (hp : 0 < rp) : 0 < gasYo f rt rp := by
  unfold gasYo
  dsimp only
  rw [if_pos h54.le]
  have : 0 < 54 - f := by linarith
  positivity

theorem gasHo_pos {f rp : ℝ} (hf : 0 < f) (h40 : f ≤ 40) (hp : 0 < rp) : 0 < gasHo f rp := by
  unfold gasHo
  dsimp only
  refine mul_pos (by positivity) ?_
  have hden : 0.3 < 1 - 0.0169 * f + 4.1 * (10 ^ 5)⁻¹ * f ^ 2 + 3.2 * (10 ^ 7)⁻¹ * f ^ 3 := by
    have : (0 : ℝ) ≤ 3.2 * (10 ^ 7)⁻¹ * f ^ 3 := by positivity
    have : (0 : ℝ) ≤ 4.1 * (10 ^ 5)⁻¹ * f ^ 2 := by positivity
    linarith
  have hden0 : 0 < 1 - 0.0169 * f + 4.1 * (10 ^ 5)⁻¹ * f ^ 2 + 3.2 * (10 ^ 7)⁻¹ * f ^ 3 := by linarith
  have ht1 : 0 ≤ 4.64 / (1 + 0.066 * rp ^ (-2.3 : ℝ)) * exp (-((f - 59.7) / (2.87 + 12.4 * exp (-7.9 * rp))) ^ 2) := by positivity
  have ht2 : 0 ≤ 0.14 * exp (2.12 * rp) / ((f - 118.75) ^ 2 + 0.031 * exp (2.2 * rp)) := by positivity
  have hk : 0 < 0.0114 / (1 + 0.14 * rp ^ (-2.6 : ℝ)) ∧ 0.0114 / (1 + 0.14 * rp ^ (-2.6 : ℝ)) ≤ 0.0114 := by
    have : 0 ≤ rp ^ (-2.6 : ℝ) := by positivity
    refine ⟨by positivity, ?_⟩
    apply div_le_self (by norm_num); linarith
  have hr : -0.1 ≤ (-0.0247 + 0.0001 * f + 1.61 * (10 ^ 6)⁻¹ * f ^ 2) /
      (1 - 0.0169 * f + 4.1 * (10 ^ 5)⁻¹ * f ^ 2 + 3.2 * (10 ^ 7)⁻¹ * f ^ 3) := by
    rw [le_div_iff₀ hden0]
    have : (0 : ℝ) ≤ 1.61 * (10 ^ 6)⁻¹ * f ^ 2 := by positivity
    linarith
  have hkf : 0 < 0.0114 / (1 + 0.14 * rp ^ (-2.6 : ℝ)) * f ∧ 0.0114 / (1 + 0.14 * rp ^ (-2.6 : ℝ)) * f ≤ 0.456 := by
    refine ⟨mul_pos hk.1 hf, ?_⟩
    calc _ ≤ 0.0114 * 40 := mul_le_mul hk.2 h40 hf.le (by norm_num)
      _ = 0.456 := by norm_num
  have ht3 : -0.0456 ≤ 0.0114 / (1 + 0.14 * rp ^ (-2.6 : ℝ)) * f * ((-0.0247 + 0.0001 * f + 1.61 * (10 ^ 6)⁻¹ * f ^ 2) /
      (1 - 0.0169 * f + 4.1 * (10 ^ 5)⁻¹ * f ^ 2 + 3.2 * (10 ^ 7)⁻¹ * f ^ 3)) := by
    nlinarith [hkf.1, hkf.2]
  linarith

/-- Gas loss as a positive quotient. -/
theorem gasLoss_ok {f el : ℝ} {a : Atmosphere} (hf : 0 < f) (h40 : f ≤ 40) (hT : 0 < a.temperature) (hP : 0 < a.pressure)
    (hw : 0 ≤ a.vaporDensity) (hs : 0 < sin (deg2rad el)) :
    0 < gasYo f (288 / a.temperature) (a.pressure / 1013) * gasHo f (a.pressure / 1013) ∧
    0 ≤ gasYw f (288 / a.temperature) (a.pressure / 1013) a.vaporDensity * gasHw f (a.pressure / 1013) ∧
    gasLoss f el a = .ok ((gasYo f (288 / a.temperature) (a.pressure / 1013) * gasHo f (a.pressure / 1013) +
      gasYw f (288 / a.temperature) (a.pressure / 1013) a.vaporDensity * gasHw f (a.pressure / 1013)) / sin (deg2rad el)) := by
  have ht : 0 < 288 / a.temperature := by positivity
  have hp : 0 < a.pressure / 1013 := by positivity
  have h1 := mul_pos (gasYo_pos hf (by linarith) ht hp) (gasHo_pos hf h40 hp)
  have h2 := mul_nonneg (gasYw_nonneg hf ht hp hw) (gasHw_pos f (a.pressure / 1013)).le
  refine ⟨h1, h2, ?_⟩
  unfold gasLoss
  rw [if_neg (by push Not; exact ⟨hT, hP⟩)]
  dsimp only
  rw [abs_of_pos (by positivity)]

/-- The averaging factor is real for small antennas. -/
theorem scintRadicand_pos {x : ℝ} (h0 : 0 ≤ x) (h1 : x ≤ 0.224) : 0 < scintRadicand x := by
  have hat : (if x = 0 then π / 2 else arctan (1 / x)) = π / 2 - arctan x := by
    split_ifs with h
    · rw [h, arctan_zero, sub_zero]
    · have : 0 < x := lt_of_le_of_ne h0 (Ne.symm h)
      rw [one_div, arctan_inv_of_pos this]
  unfold scintRadicand
  rw [hat]
  dsimp only
  have hsin : sin (11 / 6 * (π / 2 - arctan x)) = sin (π / 12 + 11 / 6 * arctan x) := by
    rw [← sin_pi_sub]; congr 1; ring
  rw [hsin]
  -- bounds on the argument
  have ha0 : 0.95 * x ≤ arctan x := by
    -- tan t ≤ t / 0.95 is the derivative bound of arctan
    have hder : ∀ t ∈ Set.Icc (0 : ℝ) 0.224, 0.95 * t ≤ arctan t := by
      have hmono : MonotoneOn (fun t => arctan t - 0.95 * t) (Set.Icc (0 : ℝ) 0.224) := by
        apply monotoneOn_of_deriv_nonneg (convex_Icc _ _)
        · exact (continuous_arctan.sub (by fun_prop)).continuousOn
        · exact ((differentiable_arctan).sub (by fun_prop)).differentiableOn
        · intro t ht
          rw [interior_Icc] at ht
          have hd : HasDerivAt (fun t => arctan t - 0.95 * t) (1 / (1 + t ^ 2) - 0.95 * 1) t :=
            (hasDerivAt_arctan t).sub ((hasDerivAt_id t).const_mul _)
          rw [hd.deriv, sub_nonneg, le_div_iff₀ (by positivity)]
          nlinarith [ht.1, ht.2]
      intro t ht
      have := hmono (Set.left_mem_Icc.2 (by norm_num)) ht ht.1
      simp at this
      linarith
    exact hder x ⟨h0, h1⟩
  have ha1 : arctan x ≤ x := by
    have := arctan_lt_pi_div_two x
    rcases h0.eq_or_lt with h | h
    · rw [← h, arctan_zero]
    · have h2 := Real.lt_tan (arctan_pos.2 h) (arctan_lt_pi_div_two x)
      rw [tan_arctan] at h2; exact h2.le
  have hpi1 := Real.pi_gt_d2
  have hpi2 := Real.pi_lt_d2
  set t0 : ℝ := 0.2616 + 1.741 * x with ht0
  have htpos : 0 < t0 := by positivity
  have ht1 : t0 ≤ 0.652 := by rw [ht0]; linarith
  have hle : sin t0 ≤ sin (π / 12 + 11 / 6 * arctan x) := by
    apply sin_le_sin_of_le_of_le_pi_div_two <;> rw [ht0] at * <;> linarith
  have hsl : t0 - t0 ^ 3 / 6 < sin t0 := sin_gt_sub_cube htpos
  have hone : 1 ≤ (x ^ 2 + 1) ^ ((11 : ℝ) / 12) := one_le_rpow (by nlinarith) (by norm_num)
  have hsp : 0 < t0 - t0 ^ 3 / 6 := by nlinarith [sq_nonneg t0]
  -- weighted AM-GM
  have hrp : x ^ ((5 : ℝ) / 6) ≤ 0.16807 / 6 + 5 / 6 * (x / 0.7) := by
    have := Real.geom_mean_le_arith_mean2_weighted (w₁ := 1 / 6) (w₂ := 5 / 6) (p₁ := 0.7 ^ 5) (p₂ := x / 0.7) (by norm_num)
      (by norm_num) (by norm_num) (by positivity) (by norm_num)
    have e : ((0.7 : ℝ) ^ 5) ^ ((1 : ℝ) / 6) * (x / 0.7) ^ ((5 : ℝ) / 6) = x ^ ((5 : ℝ) / 6) := by
      rw [Real.div_rpow h0 (by norm_num), ← Real.rpow_natCast, ← Real.rpow_mul (by norm_num)]
      norm_num
      rw [mul_div_cancel₀]
      positivity
    rw [e] at this
    refine this.trans (le_of_eq ?_)
    norm_num
  have hmain : 3.86 * (t0 - t0 ^ 3 / 6) > 7.08 * (0.16807 / 6 + 5 / 6 * (x / 0.7)) := by
    have hc : t0 ^ 3 ≤ 0.652 ^ 2 * t0 := by
      have : t0 ^ 2 ≤ 0.652 ^ 2 := pow_le_pow_left₀ htpos.le ht1 2
      nlinarith
    norm_num at hc ⊢
    linarith
  have hsin0 : 0 < sin (π / 12 + 11 / 6 * arctan x) := by linarith
  have : 3.86 * 1 * (t0 - t0 ^ 3 / 6) ≤ 3.86 * (x ^ 2 + 1) ^ ((11 : ℝ) / 12) * sin (π / 12 + 11 / 6 * arctan x) := by
    apply mul_le_mul _ (by linarith) hsp.le (by positivity)
    linarith
  linarith

/-- The averaging factor is not real for large antennas. -/
theorem scintRadicand_neg {x : ℝ} (h1 : 100 ≤ x) : scintRadicand x < 0 := by
  have hx : 0 < x := by linarith
  unfold scintRadicand
  rw [if_neg hx.ne']
  have ha : 0 < arctan (1 / x) := arctan_pos.2 (by positivity)
  have hat : arctan (1 / x) ≤ 1 / x := by
    have h2 := Real.lt_tan ha (arctan_lt_pi_div_two _)
    rw [tan_arctan] at h2; exact h2.le
  have hs : sin (11 / 6 * arctan (1 / x)) ≤ 11 / 6 * (1 / x) :=
    (sin_lt (by positivity)).le.trans (by linarith)
  have hp : (x ^ 2 + 1) ^ ((11 : ℝ) / 12) ≤ x ^ ((11 : ℝ) / 6) * 1.0001 := by
    have e1 : x ^ 2 + 1 ≤ x ^ 2 * 1.0001 := by nlinarith
    calc (x ^ 2 + 1) ^ ((11 : ℝ) / 12) ≤ (x ^ 2 * 1.0001) ^ ((11 : ℝ) / 12) := rpow_le_rpow (by positivity) e1 (by norm_num)
      _ = (x ^ 2) ^ ((11 : ℝ) / 12) * 1.0001 ^ ((11 : ℝ) / 12) := mul_rpow (by positivity) (by norm_num)
      _ ≤ x ^ ((11 : ℝ) / 6) * 1.0001 := by
        have e2 : (x ^ 2) ^ ((11 : ℝ) / 12) = x ^ ((11 : ℝ) / 6) := by
          rw [← rpow_natCast, ← rpow_mul hx.le]; norm_num
        rw [e2]
        apply mul_le_mul_of_nonneg_left _ (by positivity)
        calc (1.0001 : ℝ) ^ ((11 : ℝ) / 12) ≤ 1.0001 ^ (1 : ℝ) := rpow_le_rpow_of_exponent_le (by norm_num) (by norm_num)
          _ = 1.0001 := rpow_one _
  have hx6 : x ^ ((11 : ℝ) / 6) * (1 / x) = x ^ ((5 : ℝ) / 6) := by
    rw [one_div, ← rpow_neg_one, ← rpow_add hx]; norm_num
  have hpos : 0 < x ^ ((5 : ℝ) / 6) := by positivity
  have : 3.86 * (x ^ 2 + 1) ^ ((11 : ℝ) / 12) * sin (11 / 6 * arctan (1 / x)) ≤
      3.86 * (x ^ ((11 : ℝ) / 6) * 1.0001) * (11 / 6 * (1 / x)) := by
    by_cases hsn : 0 ≤ sin (11 / 6 * arctan (1 / x))
    · apply mul_le_mul _ hs hsn (by positivity)
      linarith
    · push Not at hsn
      have : 3.86 * (x ^ 2 + 1) ^ ((11 : ℝ) / 12) * sin (11 / 6 * arctan (1 / x)) ≤ 0 :=
        mul_nonpos_of_nonneg_of_nonpos (by positivity) hsn.le
      exact this.trans (by positivity)
  have e3 : 3.86 * (x ^ ((11 : ℝ) / 6) * 1.0001) * (11 / 6 * (1 / x)) = 3.86 * 1.0001 * (11 / 6) * x ^ ((5 : ℝ) / 6) := by
    rw [← hx6]; ring
  rw [e3] at this
  nlinarith

end OpenNTN
