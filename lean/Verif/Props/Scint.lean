import Verif.Props.Pathloss
import Mathlib.Analysis.SpecialFunctions.Trigonometric.Bounds
import Mathlib.Analysis.SpecialFunctions.Log.Deriv
import Mathlib.Analysis.SpecialFunctions.Trigonometric.ArctanDeriv
import Mathlib.Analysis.Calculus.Deriv.MeanValue

/-
C56: for which antennas the scintillation loss is a number, exactly.
-/
namespace OpenNTN

open Real

/-! ### Bounds of sine and cosine -/

theorem nonneg_of_hasDeriv {f f' : ℝ → ℝ} (hf : ∀ x, HasDerivAt f (f' x) x) (h0 : f 0 = 0) (hp : ∀ x, 0 ≤ x → 0 ≤ f' x) {x : ℝ} (hx : 0 ≤ x) :
    0 ≤ f x := by
  have : MonotoneOn f (Set.Ici 0) := by
    refine monotoneOn_of_deriv_nonneg (convex_Ici 0) (fun y _ => (hf y).continuousAt.continuousWithinAt)
      (fun y _ => (hf y).differentiableAt.differentiableWithinAt) fun y hy => ?_
    rw [interior_Ici] at hy
    rw [(hf y).deriv]
    exact hp y (le_of_lt hy)
  rw [← h0]
  exact this (by simp) hx hx

theorem cos_le4 {x : ℝ} (hx : 0 ≤ x) : cos x ≤ 1 - x ^ 2 / 2 + x ^ 4 / 24 := by
  have := nonneg_of_hasDeriv (f := fun x => 1 - x ^ 2 / 2 + x ^ 4 / 24 - cos x) (f' := fun x => sin x - (x - x ^ 3 / 6)) (fun y => by
    have h := ((((hasDerivAt_const y (1 : ℝ)).sub ((hasDerivAt_pow 2 y).div_const 2)).add ((hasDerivAt_pow 4 y).div_const 24)).sub (hasDerivAt_cos y))
    refine h.congr_deriv ?_
    norm_num
    ring) (by norm_num) (fun y hy => by have := sin_ge_sub_cube hy; linarith) hx
  linarith

theorem sin_le5 {x : ℝ} (hx : 0 ≤ x) : sin x ≤ x - x ^ 3 / 6 + x ^ 5 / 120 := by
  have := nonneg_of_hasDeriv (f := fun x => x - x ^ 3 / 6 + x ^ 5 / 120 - sin x) (f' := fun x => 1 - x ^ 2 / 2 + x ^ 4 / 24 - cos x) (fun y => by
    have h := ((((hasDerivAt_id' y).sub ((hasDerivAt_pow 3 y).div_const 6)).add ((hasDerivAt_pow 5 y).div_const 120)).sub (hasDerivAt_sin y))
    refine h.congr_deriv ?_
    norm_num
    ring) (by norm_num) (fun y hy => by have := cos_le4 hy; linarith) hx
  linarith

theorem cos_ge6 {x : ℝ} (hx : 0 ≤ x) : 1 - x ^ 2 / 2 + x ^ 4 / 24 - x ^ 6 / 720 ≤ cos x := by
  have := nonneg_of_hasDeriv (f := fun x => cos x - (1 - x ^ 2 / 2 + x ^ 4 / 24 - x ^ 6 / 720)) (f' := fun x => x - x ^ 3 / 6 + x ^ 5 / 120 - sin x)
    (fun y => by
      have h := ((hasDerivAt_cos y).sub ((((hasDerivAt_const y (1 : ℝ)).sub ((hasDerivAt_pow 2 y).div_const 2)).add
        ((hasDerivAt_pow 4 y).div_const 24)).sub ((hasDerivAt_pow 6 y).div_const 720)))
      refine h.congr_deriv ?_
      norm_num
      ring) (by norm_num) (fun y hy => by have := sin_le5 hy; linarith) hx
  linarith

theorem sin_ge7 {x : ℝ} (hx : 0 ≤ x) : x - x ^ 3 / 6 + x ^ 5 / 120 - x ^ 7 / 5040 ≤ sin x := by
  have := nonneg_of_hasDeriv (f := fun x => sin x - (x - x ^ 3 / 6 + x ^ 5 / 120 - x ^ 7 / 5040))
    (f' := fun x => cos x - (1 - x ^ 2 / 2 + x ^ 4 / 24 - x ^ 6 / 720))
    (fun y => by
      have h := ((hasDerivAt_sin y).sub ((((hasDerivAt_id' y).sub ((hasDerivAt_pow 3 y).div_const 6)).add
        ((hasDerivAt_pow 5 y).div_const 120)).sub ((hasDerivAt_pow 7 y).div_const 5040)))
      refine h.congr_deriv ?_
      norm_num
      ring) (by norm_num) (fun y hy => by have := cos_ge6 hy; linarith) hx
  linarith

/-! ### The radicand -/

/-- The radicand at the cotangent of an angle. -/
theorem scintRadicand_cot {θ : ℝ} (h0 : 0 < θ) (h1 : θ < π / 2) :
    scintRadicand (cos θ / sin θ) = sin θ ^ (-(11 : ℝ) / 6) * (3.86 * sin (11 / 6 * θ) - 7.08 * (sin θ * cos θ ^ ((5 : ℝ) / 6))) := by
  have hs : 0 < sin θ := sin_pos_of_pos_of_lt_pi h0 (by linarith [pi_pos])
  have hc : 0 < cos θ := cos_pos_of_mem_Ioo ⟨by linarith, h1⟩
  have ha : arctan (1 / (cos θ / sin θ)) = θ := by
    rw [one_div_div, ← tan_eq_sin_div_cos, arctan_tan (by linarith) h1]
  unfold scintRadicand
  rw [if_neg (div_pos hc hs).ne', ha]
  have e1 : (cos θ / sin θ) ^ 2 + 1 = (sin θ ^ 2)⁻¹ := by
    field_simp; linarith [sin_sq_add_cos_sq θ]
  have e2 : ((sin θ ^ 2)⁻¹ : ℝ) ^ ((11 : ℝ) / 12) = sin θ ^ (-(11 : ℝ) / 6) := by
    rw [← rpow_natCast, ← rpow_neg hs.le, ← rpow_mul hs.le]; norm_num
  have e3 : (cos θ / sin θ) ^ ((5 : ℝ) / 6) = cos θ ^ ((5 : ℝ) / 6) * (sin θ ^ (-(11 : ℝ) / 6) * sin θ) := by
    rw [div_rpow hc.le hs.le, div_eq_mul_inv, ← rpow_neg hs.le]
    congr 1
    nth_rw 3 [← rpow_one (sin θ)]
    rw [← rpow_add hs]
    norm_num
  simp only
  rw [e1, e2, e3]
  ring

/-- Logarithm of the ratio of the two terms. -/
noncomputable def scintRatio (θ : ℝ) : ℝ := log (sin (11 / 6 * θ)) - log (sin θ) - 5 / 6 * log (cos θ)

theorem scint_pos {θ : ℝ} (h0 : 0 < θ) (h1 : θ < π / 2) : 0 < sin (11 / 6 * θ) ∧ 0 < sin θ ∧ 0 < cos θ :=
  ⟨sin_pos_of_pos_of_lt_pi (by linarith) (by linarith), sin_pos_of_pos_of_lt_pi h0 (by linarith [pi_pos]), cos_pos_of_mem_Ioo ⟨by linarith, h1⟩⟩

theorem scintRatio_deriv {θ : ℝ} (h0 : 0 < θ) (h1 : θ < π / 2) :
    HasDerivAt scintRatio ((11 / 6 * cos (11 / 6 * θ)) / sin (11 / 6 * θ) - cos θ / sin θ - 5 / 6 * (-sin θ / cos θ)) θ := by
  obtain ⟨h2, h3, h4⟩ := scint_pos h0 h1
  have hm : HasDerivAt (fun t : ℝ => 11 / 6 * t) (11 / 6) θ := by simpa using (hasDerivAt_id' θ).const_mul (11 / 6 : ℝ)
  have k1 : HasDerivAt (fun t => sin (11 / 6 * t)) (11 / 6 * cos (11 / 6 * θ)) θ := by
    have := (hasDerivAt_sin (11 / 6 * θ)).comp θ hm
    simpa [Function.comp_def, mul_comm] using this
  exact ((k1.log h2.ne').sub ((hasDerivAt_sin θ).log h3.ne')).sub (((hasDerivAt_cos θ).log h4.ne').const_mul (5 / 6))

/-- `sin t / t` decreases: the case needed. -/
theorem sin_ratio {θ : ℝ} (h0 : 0 < θ) (h1 : θ < π / 2) : 1 / 6 * sin (11 / 6 * θ) < 11 / 6 * sin (1 / 6 * θ) := by
  have hpi := pi_pos
  have hc := strictConcaveOn_sin_Icc
  have h := hc.2 (⟨le_refl _, hpi.le⟩ : (0 : ℝ) ∈ Set.Icc 0 π) (⟨by linarith, by linarith⟩ : 11 / 6 * θ ∈ Set.Icc 0 π) (by linarith)
    (by norm_num : (0 : ℝ) < 10 / 11) (by norm_num : (0 : ℝ) < 1 / 11) (by norm_num)
  simp only [smul_eq_mul, sin_zero, mul_zero, zero_add] at h
  rw [show (1 : ℝ) / 11 * (11 / 6 * θ) = 1 / 6 * θ by ring] at h
  linarith

theorem scintRatio_mono : StrictMonoOn scintRatio (Set.Ioo 0 (π / 2)) := by
  refine strictMonoOn_of_deriv_pos (convex_Ioo _ _) (fun θ h => (scintRatio_deriv h.1 h.2).continuousAt.continuousWithinAt) fun θ h => ?_
  rw [interior_Ioo] at h
  rw [(scintRatio_deriv h.1 h.2).deriv]
  obtain ⟨h2, h3, h4⟩ := scint_pos h.1 h.2
  have key := sin_ratio h.1 h.2
  have e : (11 / 6 * cos (11 / 6 * θ)) / sin (11 / 6 * θ) - cos θ / sin θ - 5 / 6 * (-sin θ / cos θ) =
      (11 / 6 * sin (1 / 6 * θ) - 1 / 6 * sin (11 / 6 * θ)) / (2 * sin (11 / 6 * θ) * sin θ * cos θ) := by
    have e1 : sin (1 / 6 * θ) = 2 * sin θ * cos θ * cos (11 / 6 * θ) - (cos θ ^ 2 - sin θ ^ 2) * sin (11 / 6 * θ) := by
      rw [show 1 / 6 * θ = 2 * θ - 11 / 6 * θ by ring, sin_sub, sin_two_mul, cos_two_mul']
    rw [e1]
    generalize sin (11 / 6 * θ) = p at *
    generalize cos (11 / 6 * θ) = q at *
    field_simp
    have := sin_sq_add_cos_sq θ
    have e2 : sin θ ^ 2 = 1 - cos θ ^ 2 := by linarith
    rw [e2]
    ring
  rw [e]
  exact div_pos (by linarith) (by positivity)

/-- The sign of the radicand. -/
theorem scintRadicand_neg_iff {θ : ℝ} (h0 : 0 < θ) (h1 : θ < π / 2) :
    scintRadicand (cos θ / sin θ) < 0 ↔ scintRatio θ < log (7.08 / 3.86) := by
  obtain ⟨h2, h3, h4⟩ := scint_pos h0 h1
  have hc : 0 < cos θ ^ ((5 : ℝ) / 6) := rpow_pos_of_pos h4 _
  have e : scintRatio θ = log (sin (11 / 6 * θ) / (sin θ * cos θ ^ ((5 : ℝ) / 6))) := by
    rw [log_div h2.ne' (mul_pos h3 hc).ne', log_mul h3.ne' hc.ne', log_rpow h4]
    unfold scintRatio; ring
  rw [scintRadicand_cot h0 h1, e, log_lt_log_iff (div_pos h2 (mul_pos h3 hc)) (by norm_num), div_lt_iff₀ (mul_pos h3 hc)]
  have hp : 0 < sin θ ^ (-(11 : ℝ) / 6) := rpow_pos_of_pos h3 _
  constructor
  · intro h
    by_contra hge
    exact absurd h (not_lt.2 (mul_nonneg hp.le (by linarith)))
  · intro h
    exact mul_neg_of_pos_of_neg hp (by linarith)

/-- Comparison without fractional powers. -/
theorem scintRatio_lt {θ : ℝ} (h0 : 0 < θ) (h1 : θ < π / 2) :
    scintRatio θ < log (7.08 / 3.86) ↔ sin (11 / 6 * θ) ^ 6 < (7.08 / 3.86) ^ 6 * (sin θ ^ 6 * cos θ ^ 5) := by
  obtain ⟨h2, h3, h4⟩ := scint_pos h0 h1
  have e : sin (11 / 6 * θ) ^ 6 < (7.08 / 3.86) ^ 6 * (sin θ ^ 6 * cos θ ^ 5) ↔
      6 * log (sin (11 / 6 * θ)) < 6 * log (7.08 / 3.86) + (6 * log (sin θ) + 5 * log (cos θ)) := by
    rw [← log_lt_log_iff (by positivity) (by positivity), log_mul (by positivity) (by positivity), log_mul (by positivity) (by positivity),
      log_pow, log_pow, log_pow, log_pow]
    push_cast
    rfl
  rw [e]
  unfold scintRatio
  constructor <;> intro h <;> linarith

theorem scint_root : ∃ x0 : ℝ, 6.9 < x0 ∧ x0 < 7.1 ∧ ∀ x, 0 ≤ x → (scintRadicand x < 0 ↔ x0 < x) := by
  have hpi := pi_gt_three
  have lo : scintRatio (1 / 7.1) < log (7.08 / 3.86) := by
    rw [scintRatio_lt (by norm_num) (by linarith)]
    have a1 := sin_le5 (x := 11 / 6 * (1 / 7.1)) (by norm_num)
    have a0 : 0 < sin (11 / 6 * (1 / 7.1)) := (scint_pos (θ := 1 / 7.1) (by norm_num) (by linarith)).1
    have b1 := sin_ge7 (x := 1 / 7.1) (by norm_num)
    have c1 := cos_ge6 (x := 1 / 7.1) (by norm_num)
    calc sin (11 / 6 * (1 / 7.1)) ^ 6 ≤ _ := pow_le_pow_left₀ a0.le a1 6
      _ < (7.08 / 3.86) ^ 6 * (((1 / 7.1 : ℝ) - (1 / 7.1) ^ 3 / 6 + (1 / 7.1) ^ 5 / 120 - (1 / 7.1) ^ 7 / 5040) ^ 6 *
          (1 - (1 / 7.1 : ℝ) ^ 2 / 2 + (1 / 7.1) ^ 4 / 24 - (1 / 7.1) ^ 6 / 720) ^ 5) := by norm_num
      _ ≤ _ := by gcongr
  have hi : log (7.08 / 3.86) < scintRatio 0.1439 := by
    rw [← not_le]
    intro hle
    have hlt : (7.08 / 3.86 : ℝ) ^ 6 * (sin 0.1439 ^ 6 * cos 0.1439 ^ 5) < sin (11 / 6 * 0.1439) ^ 6 := by
      have a1 := sin_ge7 (x := 11 / 6 * 0.1439) (by norm_num)
      have b1 := sin_le5 (x := 0.1439) (by norm_num)
      have b0 := (scint_pos (θ := 0.1439) (by norm_num) (by linarith)).2
      have c1 := cos_le4 (x := 0.1439) (by norm_num)
      calc (7.08 / 3.86 : ℝ) ^ 6 * (sin 0.1439 ^ 6 * cos 0.1439 ^ 5)
          ≤ (7.08 / 3.86) ^ 6 * (((0.1439 : ℝ) - 0.1439 ^ 3 / 6 + 0.1439 ^ 5 / 120) ^ 6 * (1 - (0.1439 : ℝ) ^ 2 / 2 + 0.1439 ^ 4 / 24) ^ 5) := by
            have := b0.1.le
            have := b0.2.le
            gcongr
        _ < ((11 / 6 * 0.1439 : ℝ) - (11 / 6 * 0.1439) ^ 3 / 6 + (11 / 6 * 0.1439) ^ 5 / 120 - (11 / 6 * 0.1439) ^ 7 / 5040) ^ 6 := by norm_num
        _ ≤ _ := pow_le_pow_left₀ (by norm_num) a1 6
    obtain ⟨h2, h3, h4⟩ := scint_pos (θ := 0.1439) (by norm_num) (by linarith)
    have := log_lt_log (by positivity) hlt
    rw [log_mul (by positivity) (by positivity), log_mul (by positivity) (by positivity), log_pow, log_pow, log_pow, log_pow] at this
    unfold scintRatio at hle
    push_cast at this
    linarith
  have hcont : ContinuousOn scintRatio (Set.Icc (1 / 7.1) 0.1439) := fun θ hθ => by
    have : 0 < θ := lt_of_lt_of_le (by norm_num) hθ.1
    exact (scintRatio_deriv this (by linarith [hθ.2])).continuousAt.continuousWithinAt
  obtain ⟨θ0, ⟨g1, g2⟩, g3⟩ := intermediate_value_Ioo (by norm_num) hcont ⟨lo, hi⟩
  have p0 : 0 < θ0 := lt_trans (by norm_num) g1
  have p1 : θ0 < π / 2 := by linarith
  obtain ⟨-, h3, h4⟩ := scint_pos p0 p1
  have hx0 : 0 < cos θ0 / sin θ0 := div_pos h4 h3
  refine ⟨cos θ0 / sin θ0, ?_, ?_, fun x hx => ?_⟩
  · rw [lt_div_iff₀ h3]
    have : cos 0.1439 ≤ cos θ0 := cos_le_cos_of_nonneg_of_le_pi p0.le (by linarith) g2.le
    have b1 : sin θ0 ≤ sin 0.1439 := sin_le_sin_of_le_of_le_pi_div_two (by linarith) (by linarith) g2.le
    have b2 := sin_le5 (x := 0.1439) (by norm_num)
    have b3 := cos_ge6 (x := 0.1439) (by norm_num)
    norm_num at b2 b3 this b1 ⊢
    linarith
  · have ht := lt_tan p0 p1
    rw [tan_eq_sin_div_cos] at ht
    have hlt : 1 / 7.1 < sin θ0 / cos θ0 := lt_trans g1 ht
    rw [lt_div_iff₀ h4] at hlt
    rw [div_lt_iff₀ h3]
    linarith
  · rcases hx.lt_or_eq with hx | rfl
    · set θ := arctan (1 / x) with hθ
      have q0 : 0 < θ := by rw [hθ]; exact arctan_pos.2 (by positivity)
      have q1 : θ < π / 2 := arctan_lt_pi_div_two _
      have ht : tan θ = 1 / x := tan_arctan _
      obtain ⟨-, k3, k4⟩ := scint_pos q0 q1
      have ex : x = cos θ / sin θ := by
        rw [tan_eq_sin_div_cos] at ht
        rw [← one_div_div, ht, one_div_one_div]
      rw [ex, scintRadicand_neg_iff q0 q1, ← g3, scintRatio_mono.lt_iff_lt ⟨q0, q1⟩ ⟨p0, p1⟩,
        ← strictMonoOn_tan.lt_iff_lt (a := θ) (b := θ0) ⟨by linarith, q1⟩ ⟨by linarith, p1⟩, tan_eq_sin_div_cos, tan_eq_sin_div_cos,
        div_lt_div_iff₀ k4 h4, div_lt_div_iff₀ h3 k3]
      constructor <;> intro h <;> linarith
    · have := scintRadicand_pos (le_refl 0) (by norm_num)
      constructor
      · intro h; linarith
      · intro h; linarith

/-- C56 exactly: with physical atmospheres the claim holds in S band and, in Ka band, for a quantity `1.22 D_eff^2 f / L` (squared effective diameter of the
ground antenna times frequency in GHz over the effective path length) up to one number between 6.9 and 7.1, the same for all scenarios (ITU-R P.618 names
7.0 as the value from which on there is no scintillation); beyond, the loss is not a number. -/
theorem C56_threshold : ∃ x0 : ℝ, 6.9 < x0 ∧ x0 < 7.1 ∧
    ∀ (cls : ScenarioClass) (a : ScenarioArgs) (c : Config), mkScenario cls a = .ok c → ∀ (at' : Atmosphere), at'.Physical →
      let L := 2000 / sqrt (sin (c.elevationAngle * π / 180) ^ 2 + 2.35e-4 + sin (c.elevationAngle * π / 180))
      let small := Spec.SBand a.carrierFrequency ∨ 1.22 * (at'.efficiency * at'.diameter ^ 2) * (a.carrierFrequency / 1000000000) / L ≤ x0
      ((∃ g s : ℝ, gasLoss (c.carrierFrequency / 10 ^ 9) c.elevationAngle at' = .ok g ∧
        scintLoss (c.carrierFrequency / 10 ^ 9) c.elevationAngle at' = .ok (some s) ∧ 0 ≤ g ∧ 0 ≤ s ∧ 0 ≤ entryLoss ∧
        ∀ b, totalLoss b g (some s) entryLoss = some (b + g + s + entryLoss)) ↔ small) ∧
      (¬ small → scintLoss (c.carrierFrequency / 10 ^ 9) c.elevationAngle at' = .ok none) := by
  obtain ⟨x0, h1, h2, h3⟩ := scint_root
  refine ⟨x0, h1, h2, fun cls a c h at' hp => ?_⟩
  intro L small
  have hb := mkScenario_built h
  obtain ⟨f1, f2⟩ := built_freq h
  have hs := built_sin h
  have hT : 0 < at'.temperature := by linarith [hp.temperature]
  obtain ⟨g1, g2, eg⟩ := gasLoss_ok (f := c.carrierFrequency / 10 ^ 9) (el := c.elevationAngle) (a := at') (by linarith) f2 hT hp.pressure hp.vapor hs
  have hgpos := div_pos (add_pos_of_pos_of_nonneg g1 g2) hs
  have hfc : c.carrierFrequency / 10 ^ 9 = a.carrierFrequency / 1000000000 := by rw [hb.fc_eq]; norm_num
  have hsc : (small → ∃ s, scintLoss (c.carrierFrequency / 10 ^ 9) c.elevationAngle at' = .ok (some s) ∧ 0 ≤ s) ∧
      (¬ small → scintLoss (c.carrierFrequency / 10 ^ 9) c.elevationAngle at' = .ok none) := by
    by_cases h6 : 6 ≤ c.carrierFrequency / 10 ^ 9
    · have hns : ¬ Spec.SBand a.carrierFrequency := by
        intro hS
        have := hS.2
        rw [hb.fc_eq, le_div_iff₀ (by positivity)] at h6
        norm_num at h6; linarith
      have hx : 1.22 * (sqrt at'.efficiency * at'.diameter) ^ 2 * (c.carrierFrequency / 10 ^ 9) / scintPathLength c.elevationAngle =
          1.22 * (at'.efficiency * at'.diameter ^ 2) * (a.carrierFrequency / 1000000000) / L := by
        rw [mul_pow, sq_sqrt hp.efficiency.1, hfc]
        congr 1
        unfold scintPathLength deg2rad
        rw [← mul_div_assoc]
        simp only [L]
        norm_num
      have hL : 0 < L := by
        have hs' : 0 < sin (c.elevationAngle * π / 180) := by rwa [deg2rad, ← mul_div_assoc] at hs
        have : 0 < sin (c.elevationAngle * π / 180) ^ 2 + 2.35e-4 + sin (c.elevationAngle * π / 180) := by positivity
        exact div_pos (by norm_num) (sqrt_pos.2 this)
      have hx0 : 0 ≤ 1.22 * (at'.efficiency * at'.diameter ^ 2) * (a.carrierFrequency / 1000000000) / L := by
        have := hp.efficiency.1
        have : 0 ≤ a.carrierFrequency / 1000000000 := by rw [← hfc]; linarith
        positivity
      have hr := h3 _ hx0
      unfold scintLoss
      rw [if_pos h6]
      dsimp only
      rw [if_neg (by
        push Not
        exact ⟨by linarith [hp.temperature], hT.ne', hp.efficiency.1⟩), hx]
      refine ⟨fun hsm => ?_, fun hsm => ?_⟩
      · have := hsm.resolve_left hns
        rw [if_neg (by rw [hr]; linarith)]
        exact ⟨_, rfl, abs_nonneg _⟩
      · have : ¬ _ := fun h => hsm (Or.inr h)
        rw [if_pos (by rw [hr]; linarith)]
    · have hS : Spec.SBand a.carrierFrequency := by
        rcases hb.fc_ok with hh | hh
        · exact hh
        · exfalso
          apply h6
          rw [hb.fc_eq, le_div_iff₀ (by positivity)]
          have := hh.1
          norm_num; linarith
      refine ⟨fun _ => ?_, fun hsm => absurd (Or.inl hS) hsm⟩
      unfold scintLoss
      rw [if_neg h6]
      have : 0 ≤ c.carrierFrequency / 10 ^ 9 / 4 := by linarith
      exact ⟨_, rfl, by positivity⟩
  refine ⟨⟨?_, fun hsm => ?_⟩, hsc.2⟩
  · rintro ⟨g, s, -, e, -⟩
    by_contra hsm
    rw [hsc.2 hsm] at e
    cases e
  · obtain ⟨s, e, h0⟩ := hsc.1 hsm
    exact ⟨_, s, eg, e, hgpos.le, h0, le_refl _, fun b => rfl⟩

/-- Both cases occur at 20 GHz and 90 degrees: an ideal dish of 3 m is small, one of 30 m is not. -/
example : ∃ c s, mkScenario .urban (exArgs 20000000000 "uplink" 90) = .ok c ∧
    (⟨47, 0.41, 40, 1020, 273, 7.5, 50, 3, 1⟩ : Atmosphere).Physical ∧ (⟨47, 0.41, 40, 1020, 273, 7.5, 50, 30, 1⟩ : Atmosphere).Physical ∧
    scintLoss (c.carrierFrequency / 10 ^ 9) c.elevationAngle ⟨47, 0.41, 40, 1020, 273, 7.5, 50, 3, 1⟩ = .ok (some s) ∧
    scintLoss (c.carrierFrequency / 10 ^ 9) c.elevationAngle ⟨47, 0.41, 40, 1020, 273, 7.5, 50, 30, 1⟩ = .ok none := by
  obtain ⟨c, h⟩ : ∃ c, mkScenario .urban (exArgs 20000000000 "uplink" 90) = .ok c := by
    simpa using exArgs_ok .urban true true 90 (by norm_num) (by norm_num)
  have p1 : (⟨47, 0.41, 40, 1020, 273, 7.5, 50, 3, 1⟩ : Atmosphere).Physical :=
    ⟨by norm_num, by norm_num, by norm_num, by norm_num, by norm_num, by norm_num⟩
  have p2 : (⟨47, 0.41, 40, 1020, 273, 7.5, 50, 30, 1⟩ : Atmosphere).Physical :=
    ⟨by norm_num, by norm_num, by norm_num, by norm_num, by norm_num, by norm_num⟩
  obtain ⟨x0, h1, h2, H⟩ := C56_threshold
  have hel : c.elevationAngle = 90 := (mkScenario_built h).el_eq
  have hsin : sin (c.elevationAngle * π / 180) = 1 := by rw [hel, show (90 : ℝ) * π / 180 = π / 2 by ring, sin_pi_div_two]
  have q1 : 1.4 < sqrt (1 ^ 2 + 2.35e-4 + 1) := lt_sqrt_of_sq_lt (by norm_num)
  have q2 : sqrt (1 ^ 2 + 2.35e-4 + 1) < 1.5 := (sqrt_lt' (by norm_num)).2 (by norm_num)
  obtain ⟨g, s, -, e, -⟩ := (H _ _ c h _ p1).1.2 (Or.inr (by
    rw [hsin, div_div_eq_mul_div, div_le_iff₀ (by norm_num)]
    simp only [exArgs]
    norm_num at q2 ⊢
    linarith))
  refine ⟨c, s, h, p1, p2, e, (H _ _ c h _ p2).2 ?_⟩
  rintro (hS | hle)
  · have := hS.2
    simp only [exArgs] at this
    norm_num at this
  · rw [hsin, div_div_eq_mul_div, div_le_iff₀ (by norm_num)] at hle
    simp only [exArgs] at hle
    norm_num at q1 hle
    linarith

end OpenNTN
