import Verif.Props.Antenna
import Verif.Model.Gain
import Verif.Lemmas.Rays
import Mathlib.Analysis.Calculus.ParametricIntervalIntegral
import Mathlib.Analysis.Calculus.Deriv.Slope
import Mathlib.Analysis.Complex.ExponentialBounds

/-
Shape of the antenna patterns: C98, and the gain reported for them: C99.
-/
namespace OpenNTN

open Classical MeasureTheory

/-! ### Bessel's integral -/

/-- The derivative of a parameter integral of a trigonometric function. -/
theorem hasDerivAt_trig {F F' : ℝ → ℝ → ℝ} (x : ℝ) (hF : ∀ x, Continuous (F x)) (hF' : ∀ x, Continuous (F' x))
    (hb : ∀ x t, |F' x t| ≤ 1) (hd : ∀ x t, HasDerivAt (fun x => F x t) (F' x t) x) :
    HasDerivAt (fun x => ∫ t in (0 : ℝ)..Real.pi, F x t) (∫ t in (0 : ℝ)..Real.pi, F' x t) x :=
  (intervalIntegral.hasDerivAt_integral_of_dominated_loc_of_deriv_le (s := Set.univ) (bound := fun _ => 1) Filter.univ_mem
    (Filter.Eventually.of_forall fun y => (hF y).aestronglyMeasurable) ((hF x).intervalIntegrable _ _) (hF' x).aestronglyMeasurable
    (Filter.Eventually.of_forall fun t _ y _ => hb y t) (continuous_const.intervalIntegrable _ _)
    (Filter.Eventually.of_forall fun t _ y _ => hd y t)).2

/-- Derivative of the function of the model. -/
noncomputable def besselD (x : ℝ) : ℝ := (1 / Real.pi) * ∫ t in (0 : ℝ)..Real.pi, Real.sin t * Real.sin (t - x * Real.sin t)

/-- Second derivative. -/
noncomputable def besselDD (x : ℝ) : ℝ := (1 / Real.pi) * ∫ t in (0 : ℝ)..Real.pi, -(Real.sin t ^ 2 * Real.cos (t - x * Real.sin t))

theorem bessel_deriv (x : ℝ) : HasDerivAt besselJ1 (besselD x) x := by
  refine HasDerivAt.const_mul _ (hasDerivAt_trig (F := fun x t => Real.cos (t - x * Real.sin t))
    (F' := fun x t => Real.sin t * Real.sin (t - x * Real.sin t)) x (fun y => by fun_prop) (fun y => by fun_prop) (fun y t => ?_) fun y t => ?_)
  · rw [abs_mul]
    exact mul_le_one₀ (Real.abs_sin_le_one _) (abs_nonneg _) (Real.abs_sin_le_one _)
  · have h := (((hasDerivAt_id' y).mul_const (Real.sin t)).const_sub t).cos
    exact h.congr_deriv (by ring)

theorem bessel_deriv2 (x : ℝ) : HasDerivAt besselD (besselDD x) x := by
  refine HasDerivAt.const_mul _ (hasDerivAt_trig (F := fun x t => Real.sin t * Real.sin (t - x * Real.sin t))
    (F' := fun x t => -(Real.sin t ^ 2 * Real.cos (t - x * Real.sin t))) x (fun y => by fun_prop) (fun y => by fun_prop) (fun y t => ?_) fun y t => ?_)
  · rw [abs_neg, abs_mul, abs_pow]
    exact mul_le_one₀ (pow_le_one₀ (abs_nonneg _) (Real.abs_sin_le_one _)) (abs_nonneg _) (Real.abs_cos_le_one _)
  · have h := ((((hasDerivAt_id' y).mul_const (Real.sin t)).const_sub t).sin).const_mul (Real.sin t)
    exact h.congr_deriv (by ring)

/-- The differential equation of the Bessel function of order one. -/
theorem bessel_ode (x : ℝ) : x ^ 2 * besselDD x + x * besselD x + (x ^ 2 - 1) * besselJ1 x = 0 := by
  have key : ∫ t in (0 : ℝ)..Real.pi, (x * (Real.sin t * Real.sin (t - x * Real.sin t)) -
      (1 - x ^ 2 * Real.cos t ^ 2) * Real.cos (t - x * Real.sin t)) = 0 := by
    have hd : ∀ t ∈ Set.uIcc (0 : ℝ) Real.pi, HasDerivAt (fun t => -((1 + x * Real.cos t) * Real.sin (t - x * Real.sin t)))
        (x * (Real.sin t * Real.sin (t - x * Real.sin t)) - (1 - x ^ 2 * Real.cos t ^ 2) * Real.cos (t - x * Real.sin t)) t := by
      intro t _
      have h1 := ((Real.hasDerivAt_cos t).const_mul x).const_add 1
      have h2 := ((hasDerivAt_id' t).sub ((Real.hasDerivAt_sin t).const_mul x)).sin
      exact (h1.mul h2).neg.congr_deriv (by simp only [Pi.sub_apply]; ring)
    rw [intervalIntegral.integral_eq_sub_of_hasDerivAt hd (Continuous.intervalIntegrable (by fun_prop) _ _)]
    simp
  unfold besselDD besselD besselJ1
  have e : x ^ 2 * (1 / Real.pi * ∫ t in (0 : ℝ)..Real.pi, -(Real.sin t ^ 2 * Real.cos (t - x * Real.sin t))) +
      x * (1 / Real.pi * ∫ t in (0 : ℝ)..Real.pi, Real.sin t * Real.sin (t - x * Real.sin t)) +
      (x ^ 2 - 1) * (1 / Real.pi * ∫ t in (0 : ℝ)..Real.pi, Real.cos (t - x * Real.sin t)) =
      1 / Real.pi * (x ^ 2 * (∫ t in (0 : ℝ)..Real.pi, -(Real.sin t ^ 2 * Real.cos (t - x * Real.sin t))) +
        x * (∫ t in (0 : ℝ)..Real.pi, Real.sin t * Real.sin (t - x * Real.sin t)) +
        (x ^ 2 - 1) * ∫ t in (0 : ℝ)..Real.pi, Real.cos (t - x * Real.sin t)) := by ring
  rw [e, ← intervalIntegral.integral_const_mul, ← intervalIntegral.integral_const_mul, ← intervalIntegral.integral_const_mul,
    ← intervalIntegral.integral_add (Continuous.intervalIntegrable (by fun_prop) _ _) (Continuous.intervalIntegrable (by fun_prop) _ _),
    ← intervalIntegral.integral_add (Continuous.intervalIntegrable (by fun_prop) _ _) (Continuous.intervalIntegrable (by fun_prop) _ _)]
  rw [mul_eq_zero]
  right
  rw [← key]
  congr 1
  funext t
  rw [Real.sin_sq]
  ring

theorem bessel_zero : besselJ1 0 = 0 ∧ besselD 0 = 1 / 2 := by
  constructor
  · unfold besselJ1; simp
  · unfold besselD
    simp only [zero_mul, sub_zero]
    rw [show (fun t : ℝ => Real.sin t * Real.sin t) = fun t => Real.sin t ^ 2 by funext t; ring, integral_sin_sq]
    simp
    field_simp

theorem bessel_limit : Filter.Tendsto (fun x => (2 * besselJ1 x / x) ^ 2) (nhdsWithin 0 {0}ᶜ) (nhds 1) := by
  have h := (hasDerivAt_iff_tendsto_slope.1 (bessel_deriv 0))
  rw [bessel_zero.2] at h
  have h2 := ((h.const_mul 2).pow 2)
  norm_num at h2
  refine h2.congr fun x => ?_
  rw [slope_def_field, bessel_zero.1]
  ring

/-! ### C98 -/

/-- The two sector patterns in a common form: maximum `g`, floor `c`, beamwidth `w`. -/
noncomputable def sector (g c w θ φ : ℝ) : ℝ :=
  pow10 ((g - min (min (12 * ((θ - Real.pi / 2) / w) ^ 2) c + min (12 * (φ / w) ^ 2) c) c) / 10)

theorem sector_38901 (θ φ : ℝ) : Pattern.p38901.power θ φ = sector 8 30 (65 / 180 * Real.pi) θ φ := by
  simp only [Pattern.power, pattern38901, sector]
  congr 2
  rw [neg_add, neg_neg, neg_neg]
  ring

theorem sector_dlp (θ φ : ℝ) : Pattern.dlp.power θ φ = sector 0 25 (Real.pi / 2) θ φ := by
  have hpi := Real.pi_pos
  simp only [Pattern.power, patternDlp, sector]
  congr 2
  rw [neg_add, neg_neg, neg_neg, show (θ * (180 / Real.pi) - 90) / 90 = (θ - Real.pi / 2) / (Real.pi / 2) by field_simp; ring,
    show φ * (180 / Real.pi) / 90 = φ / (Real.pi / 2) by field_simp; ring]
  ring

section
variable {g c w : ℝ} (hc : 3 ≤ c) (hw : 0 < w) (hb : c ≤ 12 * (Real.pi / w) ^ 2)
include hc hw

theorem sector_half {s : ℝ} (hs : s = 1 ∨ s = -1) :
    sector g c w (Real.pi / 2 + s * (w / 2)) 0 = pow10 ((g - 3) / 10) ∧ sector g c w (Real.pi / 2) (s * (w / 2)) = pow10 ((g - 3) / 10) := by
  have s2 : s ^ 2 = 1 := by rcases hs with rfl | rfl <;> norm_num
  have e : 12 * (s * (w / 2) / w) ^ 2 = 3 := by
    rw [show s * (w / 2) / w = s / 2 by field_simp, div_pow, s2]; norm_num
  have h0 : min (0 : ℝ) c = 0 := min_eq_left (by linarith)
  constructor
  · unfold sector
    rw [add_sub_cancel_left, e, zero_div, min_eq_left hc]
    norm_num [h0, hc]
  · unfold sector
    rw [sub_self, e, zero_div, min_eq_left hc]
    norm_num [h0, hc]

omit hw in
include hb in
theorem sector_back {s : ℝ} (hs : s = 1 ∨ s = -1) : sector g c w (Real.pi / 2) (s * Real.pi) = pow10 ((g - c) / 10) := by
  have s2 : s ^ 2 = 1 := by rcases hs with rfl | rfl <;> norm_num
  have e : c ≤ 12 * (s * Real.pi / w) ^ 2 := by rw [mul_div_assoc, mul_pow, s2, one_mul]; exact hb
  have h0 : min (0 : ℝ) c = 0 := min_eq_left (by linarith)
  unfold sector
  rw [sub_self, min_eq_right e, zero_div]
  norm_num [h0]

omit hc hw in
theorem sector_symm (θ φ : ℝ) : sector g c w (Real.pi - θ) φ = sector g c w θ φ ∧ sector g c w θ (-φ) = sector g c w θ φ := by
  unfold sector
  rw [show Real.pi - θ - Real.pi / 2 = -(θ - Real.pi / 2) by ring, neg_div, neg_sq, neg_div, neg_sq]
  exact ⟨rfl, rfl⟩

omit hc hw in
theorem sector_mono {θ θ' φ φ' : ℝ} (h1 : |θ - Real.pi / 2| ≤ |θ' - Real.pi / 2|) (h2 : |φ| ≤ |φ'|) :
    sector g c w θ' φ' ≤ sector g c w θ φ := by
  have g1 : (θ - Real.pi / 2) ^ 2 ≤ (θ' - Real.pi / 2) ^ 2 := sq_le_sq.2 h1
  have g2 : φ ^ 2 ≤ φ' ^ 2 := sq_le_sq.2 h2
  unfold sector
  apply pow10_mono
  have m1 : 12 * ((θ - Real.pi / 2) / w) ^ 2 ≤ 12 * ((θ' - Real.pi / 2) / w) ^ 2 := by
    rw [div_pow, div_pow]; gcongr
  have m2 : 12 * (φ / w) ^ 2 ≤ 12 * (φ' / w) ^ 2 := by
    rw [div_pow, div_pow]; gcongr
  have m5 := min_le_min_right c (add_le_add (min_le_min_right c m1) (min_le_min_right c m2))
  linarith

omit hw in
include hb in
theorem sector_sum (θ φ : ℝ) : sector g c w θ φ * sector g c w (Real.pi / 2) 0 = sector g c w θ 0 * sector g c w (Real.pi / 2) φ ∨
    sector g c w θ φ = sector g c w (Real.pi / 2) Real.pi := by
  have hback := sector_back (g := g) hc hb (s := 1) (.inl rfl)
  rw [one_mul] at hback
  rw [hback]
  unfold sector
  have h0 : min (0 : ℝ) c = 0 := min_eq_left (by linarith)
  set X := min (12 * ((θ - Real.pi / 2) / w) ^ 2) c with hX
  set Y := min (12 * (φ / w) ^ 2) c with hY
  have hXc : X ≤ c := min_le_right _ _
  have hYc : Y ≤ c := min_le_right _ _
  by_cases h : X + Y ≤ c
  · left
    rw [min_eq_left h]
    simp only [sub_self, zero_div, ne_eq, OfNat.ofNat_ne_zero, not_false_eq_true, zero_pow, mul_zero, h0, add_zero, zero_add,
      min_eq_left hXc, min_eq_left hYc, sub_zero]
    unfold pow10
    rw [← Real.rpow_add (by norm_num), ← Real.rpow_add (by norm_num)]
    congr 1
    ring
  · right
    rw [min_eq_right (by linarith)]

end

/-- C98: shape of the patterns. The sector patterns (38.901 and co-phased) fall to half power (3 dB) at half the tabulated beamwidth of 65
respectively 90 degrees in both planes, to the floor of 30 respectively 25 dB at the back, are symmetric and decrease with the deviation from
boresight in either plane, and attenuations in dB of the two planes add up until the floor is reached. The aperture pattern depends on the angle
`r` between direction and boresight only, as `(2 J(x)/x)²`, `x = 2π·10·sin r`, where `J` solves Bessel's differential equation of order one,
with `J(0)=0`, `J'(0)=1/2`, and is continuous at boresight. -/
theorem C98_shape :
    (∀ s : ℝ, s = 1 ∨ s = -1 → Pattern.p38901.power (Real.pi / 2 + s * (32.5 / 180 * Real.pi)) 0 = pow10 (5 / 10) ∧
      Pattern.p38901.power (Real.pi / 2) (s * (32.5 / 180 * Real.pi)) = pow10 (5 / 10) ∧
      Pattern.dlp.power (Real.pi / 2 + s * (45 / 180 * Real.pi)) 0 = pow10 (-3 / 10) ∧
      Pattern.dlp.power (Real.pi / 2) (s * (45 / 180 * Real.pi)) = pow10 (-3 / 10) ∧
      Pattern.p38901.power (Real.pi / 2) (s * Real.pi) = pow10 (-22 / 10) ∧ Pattern.dlp.power (Real.pi / 2) (s * Real.pi) = pow10 (-25 / 10)) ∧
    (∀ p, p = Pattern.p38901 ∨ p = Pattern.dlp →
      (∀ θ φ, p.power (Real.pi - θ) φ = p.power θ φ ∧ p.power θ (-φ) = p.power θ φ) ∧
      (∀ θ θ' φ φ', |θ - Real.pi / 2| ≤ |θ' - Real.pi / 2| → |φ| ≤ |φ'| → p.power θ' φ' ≤ p.power θ φ) ∧
      ∀ θ φ, p.power θ φ * p.power (Real.pi / 2) 0 = p.power θ 0 * p.power (Real.pi / 2) φ ∨ p.power θ φ = p.power (Real.pi / 2) Real.pi) ∧
    ∃ J J' J'' : ℝ → ℝ, (∀ x, HasDerivAt J (J' x) x ∧ HasDerivAt J' (J'' x) x ∧ x ^ 2 * J'' x + x * J' x + (x ^ 2 - 1) * J x = 0) ∧
      J 0 = 0 ∧ J' 0 = 1 / 2 ∧ Filter.Tendsto (fun x => (2 * J x / x) ^ 2) (nhdsWithin 0 {0}ᶜ) (nhds 1) ∧
      ∀ θ φ r, 0 < r → r ≤ Real.pi / 2 → Real.cos r = Real.sin θ * Real.cos φ →
        Pattern.aperture.power θ φ = (2 * J (2 * Real.pi * 10 * Real.sin r) / (2 * Real.pi * 10 * Real.sin r)) ^ 2 := by
  have hpi := Real.pi_pos
  have k65 : (0 : ℝ) < 65 / 180 * Real.pi := by positivity
  have b65 : (30 : ℝ) ≤ 12 * (Real.pi / (65 / 180 * Real.pi)) ^ 2 := by
    rw [show Real.pi / (65 / 180 * Real.pi) = 180 / 65 by field_simp]; norm_num
  have b90 : (25 : ℝ) ≤ 12 * (Real.pi / (Real.pi / 2)) ^ 2 := by
    rw [show Real.pi / (Real.pi / 2) = 2 by field_simp]; norm_num
  refine ⟨fun s hs => ?_, fun p hp => ⟨fun θ φ => ?_, fun θ θ' φ φ' h1 h2 => ?_, fun θ φ => ?_⟩,
    besselJ1, besselD, besselDD, fun x => ⟨bessel_deriv x, bessel_deriv2 x, bessel_ode x⟩, bessel_zero.1, bessel_zero.2, bessel_limit,
    fun θ φ r h0 h1 hr => ?_⟩
  · rw [show (32.5 / 180 * Real.pi : ℝ) = 65 / 180 * Real.pi / 2 by ring, show (45 / 180 * Real.pi : ℝ) = Real.pi / 2 / 2 by ring]
    simp only [sector_38901, sector_dlp]
    obtain ⟨a1, a2⟩ := sector_half (g := 8) (c := 30) (by norm_num) k65 hs
    obtain ⟨b1, b2⟩ := sector_half (g := 0) (c := 25) (by norm_num) (half_pos hpi) hs
    have a3 := sector_back (g := 8) (by norm_num) b65 hs
    have b3 := sector_back (g := 0) (by norm_num) b90 hs
    norm_num at a1 a2 a3 b1 b2 b3 ⊢
    exact ⟨a1, a2, b1, b2, a3, b3⟩
  · rcases hp with rfl | rfl <;> simp only [sector_38901, sector_dlp] <;> exact sector_symm θ φ
  · rcases hp with rfl | rfl <;> simp only [sector_38901, sector_dlp] <;> exact sector_mono h1 h2
  · rcases hp with rfl | rfl <;> simp only [sector_38901, sector_dlp]
    · exact sector_sum (by norm_num) b65 θ φ
    · exact sector_sum (by norm_num) b90 θ φ
  · simp only [Pattern.power, patternAperture]
    have hr' : Real.arccos (Real.sin θ * Real.cos φ) = r := by rw [← hr, Real.arccos_cos h0.le (by linarith)]
    have hs : 0 < Real.sin r := Real.sin_pos_of_pos_of_lt_pi h0 (by linarith)
    rw [hr', if_neg h0.ne, if_neg (by rw [abs_of_pos h0]; linarith), sq_abs]
    rw [show Real.sin r * (10 * 2 * Real.pi) = 2 * Real.pi * 10 * Real.sin r by ring,
      show 10 * 2 * Real.pi * Real.sin r = 2 * Real.pi * 10 * Real.sin r by ring]
    ring

/-- A direction 60 degrees off boresight meets the hypotheses on the aperture pattern. -/
example : 0 < Real.pi / 3 ∧ Real.pi / 3 ≤ Real.pi / 2 ∧ Real.cos (Real.pi / 3) = Real.sin (Real.pi / 2) * Real.cos (Real.pi / 3) := by
  have := Real.pi_pos
  exact ⟨by positivity, by linarith, by simp⟩

/-! ### C99 -/

/-- The full claim of C99: the reported gain is the boresight gain of the pattern, and an isotropic element has a directivity of 0 dB. -/
def C99_statement : Prop :=
  ∀ slant : ℝ, (computeGain ⟨.p38901, slant⟩).1 = 8 ∧ (computeGain ⟨.dlp, slant⟩).1 = 0 ∧ (computeGain ⟨.aperture, slant⟩).1 = 0 ∧
    computeGain ⟨.omni, slant⟩ = (0, 0)

theorem gainPower_eq (e : Element) (i : Fin 181) (j : Fin 361) : gainPower e i j = e.pattern.power (gainTheta i) (gainPhi j) :=
  (C61_patterns (gainTheta i) (gainPhi j) e.slant).2.2.2.2.2.2.2.2 e.pattern

/-- The grid contains the boresight, so a maximum of the pattern at boresight is found. -/
theorem gain_of_max {e : Element} {m : ℝ} (h1 : ∀ θ φ, e.pattern.power θ φ ≤ m) (h2 : e.pattern.power (Real.pi / 2) 0 = m) :
    (reduceMax fun i => reduceMax fun j => gainPower e i j) = m := by
  have hi : gainTheta 90 = Real.pi / 2 := by
    unfold gainTheta
    rw [show ((90 : Fin 181) : ℕ) = 90 from rfl]; push_cast; ring
  have hj : gainPhi 180 = 0 := by
    unfold gainPhi
    rw [show ((180 : Fin 361) : ℕ) = 180 from rfl]; push_cast; ring
  apply le_antisymm
  · obtain ⟨i, hi⟩ := reduceMax_mem fun i => reduceMax fun j => gainPower e i j
    rw [hi]
    obtain ⟨j, hj⟩ := reduceMax_mem fun j => gainPower e i j
    rw [hj, gainPower_eq]
    exact h1 _ _
  · refine le_trans ?_ (le_reduceMax (fun i => reduceMax fun j => gainPower e i j) 90)
    refine le_trans ?_ (le_reduceMax (fun j => gainPower e 90 j) 180)
    rw [gainPower_eq, hi, hj, h2]

theorem sin_sum (x : ℝ) (n : ℕ) : 2 * Real.sin x * ∑ i ∈ Finset.range (n + 1), Real.sin (2 * i * x) = Real.cos x - Real.cos ((2 * n + 1) * x) := by
  induction n with
  | zero => simp
  | succ n ih =>
    rw [Finset.sum_range_succ, mul_add, ih]
    push_cast
    have h1 : Real.cos ((2 * n + 1) * x) = Real.cos (2 * (n + 1) * x - x) := by congr 1; ring
    have h2 : Real.cos ((2 * (n + 1) + 1) * x) = Real.cos (2 * (n + 1) * x + x) := by congr 1; ring
    rw [h1, h2, Real.cos_sub, Real.cos_add]
    ring

theorem omni_mean (slant : ℝ) : 1 < (∑ i, ∑ j, gainPower ⟨.omni, slant⟩ i j * Real.sin (gainTheta i) * (gainTheta 1 - gainTheta 0) *
    (gainPhi 1 - gainPhi 0)) / (4 * Real.pi) ∧ (∑ i, ∑ j, gainPower ⟨.omni, slant⟩ i j * Real.sin (gainTheta i) * (gainTheta 1 - gainTheta 0) *
    (gainPhi 1 - gainPhi 0)) / (4 * Real.pi) < 361 / 360 := by
  have hpi := Real.pi_pos
  have hpi4 := Real.pi_le_four
  have e1 : gainTheta 1 - gainTheta 0 = Real.pi / 180 := by simp [gainTheta]
  have e2 : gainPhi 1 - gainPhi 0 = Real.pi / 180 := by
    unfold gainPhi
    rw [show ((1 : Fin 361) : ℕ) = 1 from rfl, show ((0 : Fin 361) : ℕ) = 0 from rfl]; push_cast; ring
  have e3 : ∀ i j, gainPower ⟨.omni, slant⟩ i j = 1 := fun i j => by
    rw [gainPower_eq]; exact (C61_patterns (gainTheta i) (gainPhi j) 0).2.2.2.2.1
  set x := Real.pi / 360 with hx
  have hx0 : 0 < x := by positivity
  have hx1 : x < 1 / 72 := by rw [hx]; linarith
  have hS : 2 * Real.sin x * ∑ i : Fin 181, Real.sin (gainTheta i) = 2 * Real.cos x := by
    have h := sin_sum x 180
    rw [show ((2 * (180 : ℕ) + 1 : ℝ)) * x = x + Real.pi by rw [hx]; push_cast; ring, Real.cos_add_pi] at h
    rw [Finset.sum_range] at h
    rw [show 2 * Real.cos x = Real.cos x - -Real.cos x by ring, ← h]
    congr 1
    refine Finset.sum_congr rfl fun i _ => ?_
    congr 1
    rw [hx]; unfold gainTheta; ring
  have hsin : 0 < Real.sin x := Real.sin_pos_of_pos_of_lt_pi hx0 (by linarith)
  have e4 : (∑ i, ∑ j, gainPower ⟨.omni, slant⟩ i j * Real.sin (gainTheta i) * (gainTheta 1 - gainTheta 0) * (gainPhi 1 - gainPhi 0)) /
      (4 * Real.pi) = 361 / 360 * (x * Real.cos x / Real.sin x) := by
    simp only [e1, e2, e3, one_mul]
    simp only [Finset.sum_const, Finset.card_univ, Fintype.card_fin, nsmul_eq_mul]
    have h5 : ∑ i : Fin 181, Real.sin (gainTheta i) = Real.cos x / Real.sin x := by
      rw [eq_div_iff hsin.ne']; linarith
    rw [← Finset.mul_sum, ← Finset.sum_mul, ← Finset.sum_mul, h5, hx]
    push_cast
    field_simp
    ring
  rw [e4]
  have c1 : 1 - x ^ 2 / 2 ≤ Real.cos x := Real.one_sub_sq_div_two_le_cos
  have c2 : Real.sin x < x := Real.sin_lt hx0
  have c3 : x * Real.cos x < Real.sin x := by
    have := Real.lt_tan hx0 (by linarith)
    rw [Real.tan_eq_sin_div_cos] at this
    have hcos : 0 < Real.cos x := by nlinarith
    rwa [lt_div_iff₀ hcos] at this
  constructor
  · have : 360 / 361 < x * Real.cos x / Real.sin x := by
      rw [lt_div_iff₀ hsin]
      have h6 : x * (1 - x ^ 2 / 2) ≤ x * Real.cos x := mul_le_mul_of_nonneg_left c1 hx0.le
      have h7 : x ^ 2 < 1 / 5000 := by nlinarith
      nlinarith
    linarith
  · have : x * Real.cos x / Real.sin x < 1 := by rw [div_lt_one hsin]; exact c3
    linarith

/-- C99, what holds: the reported gain is the boresight gain for every pattern and slant; for an isotropic element the reported directivity is
too small by less than 0.014 dB. Missing: it is not zero, since the azimuths -180 and 180 degrees are both counted. -/
theorem C99_gain_partial (slant : ℝ) :
    (computeGain ⟨.p38901, slant⟩).1 = 8 ∧ (computeGain ⟨.dlp, slant⟩).1 = 0 ∧ (computeGain ⟨.aperture, slant⟩).1 = 0 ∧
    (computeGain ⟨.omni, slant⟩).1 = 0 ∧ -0.014 < (computeGain ⟨.omni, slant⟩).2 ∧ (computeGain ⟨.omni, slant⟩).2 < 0 := by
  have hl : ∀ x, 10 * log10 (pow10 (x / 10)) = x := by
    intro x
    unfold log10 pow10
    rw [Real.log_rpow (by norm_num), mul_div_assoc, div_self (Real.log_pos (by norm_num)).ne']
    ring
  have h0 : log10 1 = 0 := by simp [log10]
  refine ⟨?_, ?_, ?_, ?_, ?_⟩
  · show 10 * log10 _ = 8
    rw [gain_of_max (m := pow10 (8 / 10)) (fun θ φ => (C61_patterns θ φ 0).1.2) (C61_patterns 0 0 0).2.1, hl]
  · show 10 * log10 _ = 0
    rw [gain_of_max (m := 1) (fun θ φ => (C61_patterns θ φ 0).2.2.1.2) (C61_patterns 0 0 0).2.2.2.1, h0, mul_zero]
  · show 10 * log10 _ = 0
    rw [gain_of_max (m := 1) (fun θ φ => (C61_patterns θ φ 0).2.2.2.2.2.1.2) (C61_patterns 0 0 0).2.2.2.2.2.2.1, h0, mul_zero]
  · show 10 * log10 _ = 0
    rw [gain_of_max (m := 1) (fun θ φ => (C61_patterns θ φ 0).2.2.2.2.1.le) (C61_patterns (Real.pi / 2) 0 0).2.2.2.2.1, h0, mul_zero]
  · obtain ⟨m1, m2⟩ := omni_mean slant
    set M := (∑ i, ∑ j, gainPower ⟨.omni, slant⟩ i j * Real.sin (gainTheta i) * (gainTheta 1 - gainTheta 0) *
      (gainPhi 1 - gainPhi 0)) / (4 * Real.pi) with hM
    have e3 : ∀ i j, gainPower ⟨.omni, slant⟩ i j = 1 := fun i j => by
      rw [gainPower_eq]; exact (C61_patterns (gainTheta i) (gainPhi j) 0).2.2.2.2.1
    have e : (computeGain ⟨.omni, slant⟩).2 = 10 * log10 (1 / M) := by
      show 10 * log10 (reduceMax fun i => reduceMax fun j => gainPower ⟨.omni, slant⟩ i j / M) = _
      obtain ⟨i, hi⟩ := reduceMax_mem fun i => reduceMax fun j => gainPower ⟨.omni, slant⟩ i j / M
      obtain ⟨j, hj⟩ := reduceMax_mem fun j => gainPower ⟨.omni, slant⟩ i j / M
      rw [hi, hj, e3]
    rw [e]
    unfold log10
    rw [one_div, Real.log_inv]
    have l10 : 2 < Real.log 10 := by
      rw [Real.lt_log_iff_exp_lt (by norm_num)]
      have h4 := Real.exp_one_lt_d9
      have h5 : Real.exp 2 = Real.exp 1 * Real.exp 1 := by rw [← Real.exp_add]; norm_num
      have := Real.exp_pos 1
      rw [h5]; nlinarith
    have lM : 0 < Real.log M := Real.log_pos m1
    have lM2 : Real.log M < 1 / 360 := by
      have := Real.log_le_sub_one_of_pos (show 0 < M by linarith)
      linarith
    constructor
    · rw [neg_div, mul_neg, neg_lt_neg_iff]
      have : Real.log M / Real.log 10 < 0.0014 := by
        rw [div_lt_iff₀ (by linarith)]; linarith
      linarith
    · have : 0 < Real.log M / Real.log 10 := div_pos lM (by linarith)
      rw [neg_div]; linarith

/-- C99 fails: an isotropic element is reported with a negative directivity. -/
theorem C99_violated : ¬ C99_statement := by
  intro H
  have h := (C99_gain_partial 0).2.2.2.2.2
  rw [(H 0).2.2.2] at h
  exact lt_irrefl _ h

end OpenNTN
