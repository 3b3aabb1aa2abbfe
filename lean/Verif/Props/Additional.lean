import Verif.Model.Additional
import Verif.Props.Getters
import Mathlib.Analysis.Complex.Basic
import Mathlib.Analysis.Complex.Exponential
import Mathlib.Analysis.SpecialFunctions.Pow.Real
import Mathlib.Data.Fin.VecNotation
import Mathlib.Algebra.BigOperators.Fin

/-
C128: cloud attenuation. C129: specific rain attenuation. C130: the cloud and rain loss can be computed.
-/
namespace OpenNTN

open Classical Spec

/-! ### C128 -/

/-- Permittivity of water, ITU-R P.840: double-Debye model at the frequency `f` in GHz and temperature `T` in K. -/
noncomputable def Spec.permittivity (f T : ℝ) : ℂ :=
  let θ : ℝ := 300 / T
  let fp : ℝ := 20.09 - 142 * (θ - 1) + 294 * (θ - 1) ^ 2
  let fs : ℝ := 590 - 1500 * (θ - 1)
  let ε0 : ℝ := 77.6 + 103.3 * (θ - 1)
  3.51 + ((ε0 - 5.48 : ℝ) : ℂ) / (1 + Complex.I * (f / fp : ℝ)) + ((5.48 - 3.51 : ℝ) : ℂ) / (1 + Complex.I * (f / fs : ℝ))

/-- Specific attenuation of a cloud in dB/km per g/m³, ITU-R P.840: Rayleigh absorption by droplets of that permittivity. -/
noncomputable def Spec.cloudCoefficient (f T : ℝ) : ℝ :=
  -0.273 * f * ((permittivity f T - 1) / (permittivity f T + 2)).im

theorem debyePrimary_pos (t : ℝ) : 0 < debyePrimary t := by
  unfold debyePrimary
  nlinarith [sq_nonneg (300 / t - 1 - 71 / 294)]

theorem debye_ranges {T : ℝ} (h1 : 216 ≤ T) (h2 : T ≤ 400) : 0 < debyeSecondary T ∧ 0 < 77.6 + 103.3 * (300 / T - 1) - (5.48 : ℝ) := by
  have hT : 0 < T := by linarith
  unfold debyeSecondary
  constructor
  · have : 300 / T ≤ 300 / 216 := by gcongr
    norm_num at this ⊢
    linarith
  · have : (300 : ℝ) / 400 ≤ 300 / T := by gcongr
    norm_num at this ⊢
    linarith

theorem permittivity_parts {f T : ℝ} : (permittivity f T).re = waterEta1 f T ∧ (permittivity f T).im = -waterEta2 f T := by
  have key : ∀ a x : ℝ, ((a : ℂ) / (1 + Complex.I * (x : ℂ))).re = a / (1 + x ^ 2) ∧
      ((a : ℂ) / (1 + Complex.I * (x : ℂ))).im = -(x * (a / (1 + x ^ 2))) := by
    intro a x
    have hn : Complex.normSq (1 + Complex.I * (x : ℂ)) = 1 + x ^ 2 := by
      simp [Complex.normSq_apply]; ring
    rw [Complex.div_re, Complex.div_im, hn]
    simp
    ring
  unfold permittivity waterEta1 waterEta2
  dsimp only
  change _ = _ / (1 + (f / (20.09 - 142 * (300 / T - 1) + 294 * (300 / T - 1) ^ 2)) ^ 2) +
    _ / (1 + (f / (590 - 1500 * (300 / T - 1))) ^ 2) + _ ∧ _ = -(f / (20.09 - 142 * (300 / T - 1) + 294 * (300 / T - 1) ^ 2) *
    (_ / (1 + (f / (20.09 - 142 * (300 / T - 1) + 294 * (300 / T - 1) ^ 2)) ^ 2)) + (f / (590 - 1500 * (300 / T - 1))) *
    (_ / (1 + (f / (590 - 1500 * (300 / T - 1))) ^ 2)))
  rw [Complex.add_re, Complex.add_re, Complex.add_im, Complex.add_im, (key _ _).1, (key _ _).1, (key _ _).2, (key _ _).2]
  have h3 : (3.51 : ℂ) = ((3.51 : ℝ) : ℂ) := by push_cast; rfl
  rw [h3, Complex.ofReal_re, Complex.ofReal_im]
  constructor <;> ring

theorem waterEta2_pos {f T : ℝ} (hf : 0 < f) (h1 : 216 ≤ T) (h2 : T ≤ 400) : 0 < waterEta2 f T ∧ 0 < waterEta1 f T := by
  obtain ⟨q1, q2⟩ := debye_ranges h1 h2
  have q3 := debyePrimary_pos T
  unfold waterEta2 waterEta1
  dsimp only
  have q4 : (0 : ℝ) < 5.48 - 3.51 := by norm_num
  constructor
  · have a1 : 0 < f / debyePrimary T := by positivity
    have a2 : 0 < f / debyeSecondary T := by positivity
    positivity
  · positivity

/-- C128: for temperatures between 216 K and 400 K, the cloud attenuation is the liquid water content times the coefficient of
ITU-R P.840 along the slant path; it is positive for a positive content, and falls with the elevation. -/
theorem C128_cloud {f el : ℝ} {a : Atmosphere} (hf : 0 < f) (h10 : 10 ≤ el) (h90 : el ≤ 90) (h1 : 216 ≤ a.temperature)
    (h2 : a.temperature ≤ 400) :
    ∃ v, cloudLoss f el a = .ok v ∧ v = a.lwc * cloudCoefficient f a.temperature / Real.sin (el * Real.pi / 180) ∧
      0 < cloudCoefficient f a.temperature ∧ (0 < a.lwc → 0 < v) ∧
      (0 < a.lwc → ∀ el' v', el < el' → el' ≤ 90 → cloudLoss f el' a = .ok v' → v' < v) := by
  obtain ⟨q1, q2⟩ := debye_ranges h1 h2
  obtain ⟨e2, e1⟩ := waterEta2_pos hf h1 h2
  have hT : a.temperature ≠ 0 := by intro h; rw [h] at h1; norm_num at h1
  have hs : ∀ e : ℝ, 10 ≤ e → e ≤ 90 → 0 < Real.sin (e * Real.pi / 180) := fun e he he' =>
    Real.sin_pos_of_pos_of_lt_pi (by have := Real.pi_pos; positivity) (by nlinarith [Real.pi_pos])
  have hd : ∀ e, deg2rad e = e * Real.pi / 180 := fun e => by unfold deg2rad; ring
  have hk : cloudCoefficient f a.temperature =
      0.819 * f / (waterEta2 f a.temperature * (1 + ((2 + waterEta1 f a.temperature) / waterEta2 f a.temperature) ^ 2)) := by
    obtain ⟨p1, p2⟩ := permittivity_parts (f := f) (T := a.temperature)
    unfold cloudCoefficient
    rw [Complex.div_im]
    have n1 : (permittivity f a.temperature - 1).re = waterEta1 f a.temperature - 1 := by simp [p1]
    have n2 : (permittivity f a.temperature - 1).im = -waterEta2 f a.temperature := by simp [p2]
    have n3 : (permittivity f a.temperature + 2).re = waterEta1 f a.temperature + 2 := by simp [p1]
    have n4 : (permittivity f a.temperature + 2).im = -waterEta2 f a.temperature := by simp [p2]
    rw [n1, n2, n3, n4, Complex.normSq_apply, n3, n4]
    set x := waterEta1 f a.temperature
    set y := waterEta2 f a.temperature
    have hy : y ≠ 0 := e2.ne'
    have : (x + 2) * (x + 2) + -y * -y ≠ 0 := by
      have : 0 < (x + 2) ^ 2 + y ^ 2 := by positivity
      exact ne_of_gt (by nlinarith)
    have : y ^ 2 + (2 + x) ^ 2 ≠ 0 := by positivity
    field_simp
    ring
  have hpos : 0 < cloudCoefficient f a.temperature := by rw [hk]; positivity
  have hv : ∀ e, cloudLoss f e a = .ok (a.lwc * cloudCoefficient f a.temperature / Real.sin (e * Real.pi / 180)) := by
    intro e
    unfold cloudLoss
    rw [if_neg hT]
    dsimp only
    rw [if_neg (by rintro (h | h); exacts [q1.ne' h, e2.ne' h]), hk, hd]
  refine ⟨_, hv el, rfl, hpos, fun hl => ?_, fun hl el' v' hlt hle he => ?_⟩
  · have := hs el h10 h90
    positivity
  · rw [hv] at he
    cases he
    have hp := Real.pi_pos
    have h0 := hs el h10 h90
    have : Real.sin (el * Real.pi / 180) < Real.sin (el' * Real.pi / 180) := by
      apply Real.sin_lt_sin_of_lt_of_le_pi_div_two <;> nlinarith
    gcongr

/-- The hypotheses of C128 are met at 20 GHz with the standard atmosphere. -/
example : (10 : ℝ) ≤ 50 ∧ (50 : ℝ) ≤ 90 ∧ 216 ≤ (atmosphereOf (exTopo 1 1 1)).temperature ∧ (atmosphereOf (exTopo 1 1 1)).temperature ≤ 400 ∧
    0 < (atmosphereOf (exTopo 1 1 1)).lwc := by
  norm_num [atmosphereOf, exTopo]

/-! ### C129 -/

/-- ITU-R P.838-3, equations (2) and (3): a sum of Gaussians in the logarithm of the frequency (GHz) plus a straight line. -/
noncomputable def Spec.p838Curve {n : ℕ} (a b c : Fin n → ℝ) (m d f : ℝ) : ℝ :=
  ∑ j, a j * Real.exp (-((Real.logb 10 f - b j) / c j) ^ 2) + m * Real.logb 10 f + d

/-- ITU-R P.838-3, Tables 1 to 4. -/
noncomputable def Spec.p838KH (f : ℝ) : ℝ := (10 : ℝ) ^ p838Curve ![-5.33980, -0.35351, -0.23789, -0.94158]
  ![-0.10008, 1.26970, 0.86036, 0.64552] ![1.13098, 0.45400, 0.15354, 0.16817] (-0.18961) 0.71147 f
noncomputable def Spec.p838KV (f : ℝ) : ℝ := (10 : ℝ) ^ p838Curve ![-3.80595, -3.44965, -0.39902, 0.50167]
  ![0.56934, -0.22911, 0.73042, 1.07319] ![0.81061, 0.51059, 0.11899, 0.27195] (-0.16398) 0.63297 f
noncomputable def Spec.p838AH (f : ℝ) : ℝ := p838Curve ![-0.14318, 0.29591, 0.32177, -5.37610, 16.1721]
  ![1.82442, 0.77564, 0.63773, -0.96230, -3.29980] ![-0.55187, 0.19822, 0.13164, 1.47828, 3.43990] 0.67849 (-1.95537) f
noncomputable def Spec.p838AV (f : ℝ) : ℝ := p838Curve ![-0.07771, 0.56727, -0.20238, -48.2991, 48.5833]
  ![2.33840, 0.95545, 1.14520, 0.791669, 0.791459] ![-0.76284, 0.54039, 0.26809, 0.116226, 0.116479] (-0.053739) 0.83433 f

/-- Specific attenuation in dB/km for the rain rate `R` in mm/h and circular polarisation, ITU-R P.838-3. -/
noncomputable def Spec.p838 (f R : ℝ) : ℝ :=
  (p838KH f + p838KV f) / 2 * R ^ ((p838KH f * p838AH f + p838KV f * p838AV f) / (p838KH f + p838KV f))

/-- The full claim of C129: the specific attenuation is that of the rain rate of the atmosphere. -/
def C129_statement : Prop :=
  ∀ (f el : ℝ) (a : Atmosphere), carrierOk (f * 10 ^ 9) → 10 ≤ el → el ≤ 90 → 0 < a.rainRate → rainSpecific f el = p838 f a.rainRate

theorem curve4 (a1 a2 a3 a4 b1 b2 b3 b4 c1 c2 c3 c4 m d f : ℝ) :
    regression [(a1, b1, c1), (a2, b2, c2), (a3, b3, c3), (a4, b4, c4)] m d f = p838Curve ![a1, a2, a3, a4] ![b1, b2, b3, b4] ![c1, c2, c3, c4] m d f := by
  simp [regression, p838Curve, Fin.sum_univ_four, log10, Real.logb]

theorem curve5 (a1 a2 a3 a4 a5 b1 b2 b3 b4 b5 c1 c2 c3 c4 c5 m d f : ℝ) :
    regression [(a1, b1, c1), (a2, b2, c2), (a3, b3, c3), (a4, b4, c4), (a5, b5, c5)] m d f =
      p838Curve ![a1, a2, a3, a4, a5] ![b1, b2, b3, b4, b5] ![c1, c2, c3, c4, c5] m d f := by
  simp [regression, p838Curve, Fin.sum_univ_five, log10, Real.logb]

/-- C129, what holds: the specific attenuation is that of ITU-R P.838 at 40 mm/h, whatever the elevation. Missing: other rain rates,
see `C129_violated`. -/
theorem C129_specific_partial (f el : ℝ) : rainSpecific f el = p838 f 40 := by
  have hc : Real.cos (2 * 45 * Real.pi / 180) = 0 := by
    rw [show 2 * 45 * Real.pi / 180 = Real.pi / 2 by ring, Real.cos_pi_div_two]
  unfold rainSpecific p838
  dsimp only
  rw [hc]
  simp only [mul_zero, add_zero]
  rw [show rainKH f = p838KH f from congrArg pow10 (curve4 ..), show rainKV f = p838KV f from congrArg pow10 (curve4 ..),
    show rainAH f = p838AH f from curve5 .., show rainAV f = p838AV f from curve5 ..]
  rw [show 2 * ((p838KH f + p838KV f) / 2) = p838KH f + p838KV f by ring]

theorem exp_neg_le {q : ℝ} (n : ℕ) (hn : 0 < n) (hq : 0 ≤ q) : Real.exp (-q) ≤ 1 / (1 + q / n) ^ n := by
  have hn' : (0 : ℝ) < n := by exact_mod_cast hn
  have h1 : (1 + q / n) ^ n ≤ Real.exp q := by
    have : 1 + q / n ≤ Real.exp (q / n) := by linarith [Real.add_one_le_exp (q / n)]
    calc (1 + q / n) ^ n ≤ Real.exp (q / n) ^ n := by gcongr
      _ = Real.exp q := by rw [← Real.exp_nat_mul]; congr 1; field_simp
  rw [Real.exp_neg, inv_eq_one_div]
  gcongr

theorem le_exp_neg {q : ℝ} (n : ℕ) (hn : 0 < n) (hq : q ≤ n) : (1 - q / n) ^ n ≤ Real.exp (-q) := by
  have hn' : (0 : ℝ) < n := by exact_mod_cast hn
  have h0 : 0 ≤ 1 - q / n := by rw [sub_nonneg, div_le_one hn']; exact hq
  have : 1 - q / n ≤ Real.exp (-(q / n)) := by linarith [Real.add_one_le_exp (-(q / n))]
  calc (1 - q / n) ^ n ≤ Real.exp (-(q / n)) ^ n := by gcongr
    _ = Real.exp (-q) := by rw [← Real.exp_nat_mul]; congr 1; field_simp

/-- The frequency 10^1.3 GHz, which lies in the Ka band. -/
theorem exKa : carrierOk ((10 : ℝ) ^ (1.3 : ℝ) * 10 ^ 9) ∧ Real.logb 10 ((10 : ℝ) ^ (1.3 : ℝ)) = 1.3 := by
  have h10 : ((10 : ℝ) ^ (1.3 : ℝ)) ^ 10 = 10 ^ 13 := by
    rw [← Real.rpow_natCast, ← Real.rpow_mul (by norm_num), ← Real.rpow_natCast]; norm_num
  have hp : (0 : ℝ) ≤ (10 : ℝ) ^ (1.3 : ℝ) := by positivity
  refine ⟨Or.inl ⟨?_, ?_⟩, Real.logb_rpow (by norm_num) (by norm_num)⟩
  · have : (19 : ℝ) ≤ (10 : ℝ) ^ (1.3 : ℝ) := by
      by_contra hlt
      push Not at hlt
      have := pow_le_pow_left₀ hp hlt.le 10
      rw [h10] at this
      norm_num at this
    norm_num at this ⊢
    linarith
  · have : (10 : ℝ) ^ (1.3 : ℝ) ≤ 40 := by
      by_contra hlt
      push Not at hlt
      have := pow_le_pow_left₀ (by norm_num) hlt.le 10
      rw [h10] at this
      norm_num at this
    norm_num at this ⊢
    linarith

/-- The exponents of the specific attenuation are positive there. -/
theorem exKa_exponents : 0 < p838AH ((10 : ℝ) ^ (1.3 : ℝ)) ∧ 0 < p838AV ((10 : ℝ) ^ (1.3 : ℝ)) := by
  have e0 : ∀ q : ℝ, 0 < Real.exp q := Real.exp_pos
  unfold p838AH p838AV p838Curve
  rw [exKa.2]
  simp only [Fin.sum_univ_five, Matrix.cons_val]
  constructor
  · have a1 := exp_neg_le (q := ((1.3 - 1.82442) / (-0.55187 : ℝ)) ^ 2) 4 (by norm_num) (sq_nonneg _)
    have a2 := e0 (-((1.3 - 0.77564) / (0.19822 : ℝ)) ^ 2)
    have a3 := e0 (-((1.3 - 0.63773) / (0.13164 : ℝ)) ^ 2)
    have a4 := exp_neg_le (q := ((1.3 - (-0.96230)) / (1.47828 : ℝ)) ^ 2) 32 (by norm_num) (sq_nonneg _)
    have a5 := le_exp_neg (q := ((1.3 - (-3.29980)) / (3.43990 : ℝ)) ^ 2) 32 (by norm_num) (by norm_num)
    norm_num at a1 a2 a3 a4 a5 ⊢
    linarith
  · have a1 := exp_neg_le (q := ((1.3 - 2.33840) / (-0.76284 : ℝ)) ^ 2) 4 (by norm_num) (sq_nonneg _)
    have a2 := e0 (-((1.3 - 0.95545) / (0.54039 : ℝ)) ^ 2)
    have a3 := exp_neg_le (q := ((1.3 - 1.14520) / (0.26809 : ℝ)) ^ 2) 4 (by norm_num) (sq_nonneg _)
    have a4 := exp_neg_le (q := ((1.3 - 0.791669) / (0.116226 : ℝ)) ^ 2) 8 (by norm_num) (sq_nonneg _)
    have a5 := e0 (-((1.3 - 0.791459) / (0.116479 : ℝ)) ^ 2)
    norm_num at a1 a2 a3 a4 a5 ⊢
    linarith

/-- C129 is violated: the rain rate passed to `set_topology` is ignored. -/
theorem C129_violated : ¬ C129_statement := by
  intro H
  obtain ⟨hc, -⟩ := exKa
  set f := (10 : ℝ) ^ (1.3 : ℝ)
  have h1 := H f 50 ⟨47, 0.41, 1, 1020, 273, 7.5, 50, 3.6, 0.5⟩ hc (by norm_num) (by norm_num) (by norm_num)
  rw [C129_specific_partial] at h1
  obtain ⟨a1, a2⟩ := exKa_exponents
  have k1 : 0 < p838KH f := by unfold p838KH; positivity
  have k2 : 0 < p838KV f := by unfold p838KV; positivity
  unfold p838 at h1
  rw [Real.one_rpow, mul_one] at h1
  have h2 := mul_eq_left₀ (a := (p838KH f + p838KV f) / 2) (by positivity) |>.1 h1
  have : 1 < (40 : ℝ) ^ ((p838KH f * p838AH f + p838KV f * p838AV f) / (p838KH f + p838KV f)) :=
    Real.one_lt_rpow (by norm_num) (by positivity)
  linarith

/-- With 40 mm/h the claim of C129 holds, in particular at a frequency of the Ka band. -/
example : carrierOk ((10 : ℝ) ^ (1.3 : ℝ) * 10 ^ 9) ∧ rainSpecific ((10 : ℝ) ^ (1.3 : ℝ)) 50 = p838 ((10 : ℝ) ^ (1.3 : ℝ)) 40 :=
  ⟨exKa.1, C129_specific_partial _ _⟩

/-! ### C130 -/

/-- The full claim of C130: after a topology was set in a standard atmosphere, the cloud and rain loss can be computed. -/
def C130_statement : Prop :=
  ∀ (B N U : ℕ) [NeZero B] (cls : ScenarioClass) (sa : ScenarioArgs) (c : Config), mkScenario cls sa = .ok c →
    ∀ (log : List (TopoCall B N U)) (s : TopoState B N U), TopoReach c log s → Relocated log →
      (∀ e ∈ log, e.1.latitude = none ∧ e.1.temperature = none ∧ e.1.lwc = none ∧ e.1.rainRate = none) →
      (∀ bs, s.getBsLoc = some bs → ∀ b n, 500000 ≤ (bs b n).z) → Readable (additionalLoss c s)

theorem rain_trig {el : ℝ} (h10 : 10 ≤ el) (h90 : el < 90) : 0 < Real.sin (el * Real.pi / 180) ∧ 0 < Real.cos (el * Real.pi / 180) ∧
    Real.sin (el * Real.pi / 180) ≤ 1 ∧ 0 < el * Real.pi / 180 := by
  have hp := Real.pi_pos
  refine ⟨Real.sin_pos_of_pos_of_lt_pi (by positivity) (by nlinarith), Real.cos_pos_of_mem_Ioo ⟨by nlinarith, by nlinarith⟩,
    Real.sin_le_one _, by positivity⟩

theorem p838_pos (f : ℝ) : 0 < p838 f 40 := by
  unfold p838
  have k1 : 0 < p838KH f := by unfold p838KH; positivity
  have k2 : 0 < p838KV f := by unfold p838KV; positivity
  positivity

/-- The rain loss of a station above the rain height is the root of a negative number. -/
theorem rainLoss_above {f el hs : ℝ} {a : Atmosphere} (h10 : 10 ≤ el) (h90 : el < 90) (hh : rainHeight a.latitude < hs) :
    rainLoss f el hs a = .error .invalidArgument := by
  obtain ⟨t1, t2, -, -⟩ := rain_trig h10 h90
  unfold rainLoss
  dsimp only
  rw [C129_specific_partial]
  have hg := p838_pos f
  have hls : (rainHeight a.latitude - hs) / Real.sin (el * Real.pi / 180) < 0 := div_neg_of_neg_of_pos (by linarith) t1
  set ls := (rainHeight a.latitude - hs) / Real.sin (el * Real.pi / 180)
  have hlg : ls / 1000 * Real.cos (el * Real.pi / 180) < 0 := mul_neg_of_neg_of_pos (div_neg_of_neg_of_pos hls (by norm_num)) t2
  set lg := ls / 1000 * Real.cos (el * Real.pi / 180)
  set γ := p838 f 40
  set m := lg * γ / f - 0.38 * (1 - Real.exp (-2 * lg))
  by_cases h1 : m < 0
  · rw [if_pos h1]
  rw [if_neg h1]
  have hh : 0 < 1 / (1 + 0.78 * Real.sqrt m) := by positivity
  have hl : lg * (1 / (1 + 0.78 * Real.sqrt m)) < 0 := mul_neg_of_neg_of_pos hlg hh
  rw [if_neg hl.ne]
  have hlr : ∀ z : ℝ, (if z > el * Real.pi / 180 then lg * (1 / (1 + 0.78 * Real.sqrt m)) / Real.cos (el * Real.pi / 180) else ls) * γ < 0 := by
    intro z
    refine mul_neg_of_neg_of_pos ?_ hg
    split
    · exact div_neg_of_neg_of_pos hl t2
    · exact hls
  rw [if_pos (hlr _)]

/-- The rain loss of a station on the ground. -/
theorem rainLoss_ground {f el : ℝ} {a : Atmosphere} (hf : 0 < f) (h10 : 10 ≤ el) (h90 : el < 90) (hh : 0 < rainHeight a.latitude) :
    let lg := rainHeight a.latitude / 1000 * (Real.cos (el * Real.pi / 180) / Real.sin (el * Real.pi / 180))
    ((∃ v, rainLoss f el 0 a = .ok v) ↔ 0.38 * (1 - Real.exp (-2 * lg)) ≤ lg * p838 f 40 / f) ∧
    ∀ v, rainLoss f el 0 a = .ok v → 0 < v := by
  obtain ⟨t1, t2, t3, t4⟩ := rain_trig h10 h90
  intro lg
  have hlg : 0 < lg := by positivity
  have e1 : (rainHeight a.latitude - 0) / Real.sin (el * Real.pi / 180) / 1000 * Real.cos (el * Real.pi / 180) = lg := by
    simp only [lg]; field_simp; ring
  unfold rainLoss
  dsimp only
  rw [C129_specific_partial, e1]
  have hg := p838_pos f
  have hls : 0 < (rainHeight a.latitude - 0) / Real.sin (el * Real.pi / 180) := by
    rw [sub_zero]; positivity
  set ls := (rainHeight a.latitude - 0) / Real.sin (el * Real.pi / 180)
  set γ := p838 f 40
  set m := lg * γ / f - 0.38 * (1 - Real.exp (-2 * lg)) with hm
  by_cases h1 : m < 0
  · rw [if_pos h1]
    exact ⟨⟨(fun ⟨v, hv⟩ => by cases hv), (fun h => by linarith)⟩, (fun v hv => by cases hv)⟩
  rw [if_neg h1]
  have hl : 0 < lg * (1 / (1 + 0.78 * Real.sqrt m)) := by positivity
  rw [if_neg hl.ne']
  have hlr : ∀ z : ℝ, 0 < (if z > el * Real.pi / 180 then lg * (1 / (1 + 0.78 * Real.sqrt m)) / Real.cos (el * Real.pi / 180) else ls) := by
    intro z
    split
    · positivity
    · exact hls
  have hlr' := hlr (Real.tan ((rainHeight a.latitude - 0) / (lg * (1 / (1 + 0.78 * Real.sqrt m))) * Real.pi / 180))
  set lr := (if Real.tan ((rainHeight a.latitude - 0) / (lg * (1 / (1 + 0.78 * Real.sqrt m))) * Real.pi / 180) > el * Real.pi / 180
    then lg * (1 / (1 + 0.78 * Real.sqrt m)) / Real.cos (el * Real.pi / 180) else ls)
  rw [if_neg (not_lt.2 (mul_pos hlr' hg).le)]
  have hx : Real.exp (-(el * Real.pi / 180)) ≤ 1 := Real.exp_le_one_iff.2 (by linarith)
  have hden : 0 < 1 + Real.sqrt (Real.sin (el * Real.pi / 180)) *
      (31 * (1 - Real.exp (-(el * Real.pi / 180))) * (Real.sqrt (lr * γ) / f ^ 2) - 0.45) := by
    have s1 : Real.sqrt (Real.sin (el * Real.pi / 180)) ≤ 1 := Real.sqrt_le_one.2 t3
    have s0 := Real.sqrt_nonneg (Real.sin (el * Real.pi / 180))
    have : 0 ≤ 31 * (1 - Real.exp (-(el * Real.pi / 180))) * (Real.sqrt (lr * γ) / f ^ 2) := by
      have : 0 ≤ 1 - Real.exp (-(el * Real.pi / 180)) := by linarith
      positivity
    nlinarith [mul_nonneg s0 this]
  rw [if_neg hden.ne']
  refine ⟨⟨fun _ => by linarith, fun _ => ⟨_, rfl⟩⟩, fun v hv => ?_⟩
  cases hv
  positivity

variable {B N U : ℕ} [NeZero B] {cls : ScenarioClass} {sa : ScenarioArgs} {c : Config} {log : List (TopoCall B N U)} {s : TopoState B N U}

/-- C130, what holds: below 90 degrees and for stations below the rain height. In the downlink the loss can never be computed for a
satellite above the rain height, nor for a batch of several examples. In the uplink it can be computed exactly if the slant path,
taken a thousand times too short, still meets an inequality; it then is positive. `C130_never` (RainFails.lean) shows that at latitudes from -90
degrees on the inequality fails throughout the accepted bands. Missing: the other cases, see `C130_violated`. -/
theorem C130_additional_partial (h : mkScenario cls sa = .ok c) (r : TopoReach c log s) (hr : Relocated log) (h90 : sa.elevationAngle < 90)
    {t lat lwc : ℝ} (ht : s.getTemperature = .ok t) (h1 : 216 ≤ t) (h2 : t ≤ 400) (hlat : s.getLatitude = .ok lat) (hl : lat ≤ 89)
    (hw : s.getLwc = .ok lwc) (hw0 : 0 < lwc) :
    (sa.direction = "downlink" → (∀ bs, s.getBsLoc = some bs → ∀ b n, 5 - 0.075 * (lat - 23) < (bs b n).z) →
      ¬ Readable (additionalLoss c s)) ∧
    (sa.direction = "uplink" →
      let lg := (5 - 0.075 * (lat - 23)) / 1000 * (Real.cos (sa.elevationAngle * Real.pi / 180) / Real.sin (sa.elevationAngle * Real.pi / 180))
      let f := sa.carrierFrequency / 10 ^ 9
      (Readable (additionalLoss c s) ↔ 0.38 * (1 - Real.exp (-2 * lg)) ≤ lg * p838 f 40 / f) ∧
      ∀ v, additionalLoss c s = .ok v → ∀ b n u, 0 < v b n u) := by
  obtain ⟨ar, -, -, -, hN, -⟩ := C127_attributes_partial h r hr
  have hb := mkScenario_built h
  obtain ⟨at', hat⟩ : ∃ a, s.atmosphere = some a := by
    cases e : s.atmosphere with
    | none => rw [TopoState.getTemperature, e] at ht; cases ht
    | some a => exact ⟨a, rfl⟩
  have e1 : at'.temperature = t := by rw [TopoState.getTemperature, hat] at ht; exact Except.ok.inj ht
  have e2 : at'.latitude = lat := by rw [TopoState.getLatitude, hat] at hlat; exact Except.ok.inj hlat
  have e3 : at'.lwc = lwc := by rw [TopoState.getLwc, hat] at hw; exact Except.ok.inj hw
  obtain ⟨bs, hbs⟩ := Option.ne_none_iff_exists'.1 (show s.bsLoc ≠ none from ar.bsLoc)
  obtain ⟨los, hlos⟩ : ∃ l, s.los = some l := by
    obtain ⟨v, hv⟩ := ar.los
    cases e : s.los with
    | none => rw [TopoState.getLos, e] at hv; cases hv
    | some a => exact ⟨a, rfl⟩
  have hf : 0 < c.carrierFrequency / 10 ^ 9 := by
    rw [hb.fc_eq]
    rcases hb.fc_ok with hh | hh <;> · have := hh.1; positivity
  have hrh : 0 < rainHeight at'.latitude := by unfold rainHeight; rw [e2]; linarith
  obtain ⟨cl, hcl, -, -, hcp, -⟩ := C128_cloud (a := at') (el := c.elevationAngle) hf (by rw [hb.el_eq]; exact hb.el_lo) (by rw [hb.el_eq]; exact hb.el_hi)
    (by rw [e1]; exact h1) (by rw [e1]; exact h2)
  have hcp := hcp (by rw [e3]; exact hw0)
  have hadd : additionalLoss c s = match (if c.direction = "downlink" then
          if h : B = 1 ∧ N = 1 then rainLoss (c.carrierFrequency / 10 ^ 9) c.elevationAngle (bs ⟨0, by omega⟩ ⟨0, by omega⟩).z at' else .error .typeError
        else rainLoss (c.carrierFrequency / 10 ^ 9) c.elevationAngle 0 at' : Except Err ℝ) with
      | .error e => .error e
      | .ok rain => .ok fun _ _ _ => rain + cl := by
    unfold additionalLoss
    rw [hat, hbs, hlos]
    dsimp only
    rw [hcl]
    rfl
  constructor
  · rintro hd hz ⟨v, hv⟩
    rw [hadd, if_pos (by rw [hb.dir_eq, hd])] at hv
    by_cases hB : B = 1 ∧ N = 1
    · rw [dif_pos hB, rainLoss_above (by rw [hb.el_eq]; exact hb.el_lo) (by rw [hb.el_eq]; exact h90)
        (by unfold rainHeight; rw [e2]; exact hz _ hbs _ _)] at hv
      cases hv
    · rw [dif_neg hB] at hv
      cases hv
  · intro hd lg f
    have hnd : c.direction ≠ "downlink" := by rw [hb.dir_eq, hd]; decide
    rw [hadd, if_neg hnd]
    obtain ⟨g1, g2⟩ := rainLoss_ground (a := at') (el := c.elevationAngle) hf (by rw [hb.el_eq]; exact hb.el_lo) (by rw [hb.el_eq]; exact h90) hrh
    have e4 : rainHeight at'.latitude / 1000 * (Real.cos (c.elevationAngle * Real.pi / 180) / Real.sin (c.elevationAngle * Real.pi / 180)) = lg := by
      rw [hb.el_eq]; unfold rainHeight; rw [e2]
    rw [e4, hb.fc_eq] at g1
    rw [hb.fc_eq] at g2 ⊢
    rw [← g1]
    cases e : rainLoss (sa.carrierFrequency / 10 ^ 9) c.elevationAngle 0 at' with
    | error er =>
      refine ⟨⟨?_, ?_⟩, ?_⟩
      · rintro ⟨v, hv⟩; cases hv
      · rintro ⟨v, hv⟩; cases hv
      · intro v hv; cases hv
    | ok v =>
      refine ⟨⟨fun _ => ⟨v, rfl⟩, fun _ => ⟨_, rfl⟩⟩, ?_⟩
      intro w hw b n u
      cases hw
      have := g2 v e
      linarith

/-- A downlink history in the standard atmosphere. -/
theorem exDownlink (B U : ℕ) [NeZero B] : ∃ (c : Config) (log : List (TopoCall B 1 U)) (s : TopoState B 1 U),
    mkScenario .urban (exArgs 2000000000 "downlink" 50) = .ok c ∧ TopoReach c log s ∧ Relocated log ∧
    (∀ e ∈ log, e.1.latitude = none ∧ e.1.temperature = none ∧ e.1.lwc = none ∧ e.1.rainRate = none) ∧
    s.getTemperature = .ok 273 ∧ s.getLatitude = .ok 47 ∧ s.getLwc = .ok 0.41 ∧
    ∀ bs, s.getBsLoc = some bs → ∀ b n, (bs b n).z = 600000 := by
  obtain ⟨c, hc⟩ : ∃ c, mkScenario .urban (exArgs 2000000000 "downlink" 50) = .ok c := by
    simpa using exArgs_ok .urban false false 50 (by norm_num) (by norm_num)
  have r := TopoReach.call (c := c) (exTopo B 1 U) (exDraws B 1 U) .init
  have hr : Relocated [((exTopo B 1 U, exDraws B 1 U, (setTopology c (TopoState.init c) (exTopo B 1 U) (exDraws B 1 U)).2) : TopoCall B 1 U)] :=
    ⟨_, List.mem_cons_self, exTopo_single hc B U⟩
  obtain ⟨-, -, -, -, -, -, pb, -, -, -, -, -, -, -, pa⟩ := C127_attributes_partial hc r hr
  obtain ⟨q1, -, -, -, q2, q3, -⟩ := pa.1 _ _ _ rfl (by rw [exTopo_single hc]; intro hh; cases hh)
  refine ⟨c, _, _, hc, r, hr, ?_, q1, q2, q3, ?_⟩
  · intro e he
    rcases List.mem_singleton.1 he with rfl
    exact ⟨rfl, rfl, rfl, rfl⟩
  · intro bs hbs b n
    rw [pb, latest_cons_counted (by rw [TopoCall.accepted, exTopo_single hc]; intro hh; cases hh)] at hbs
    cases hbs
    rfl

/-- C130 is violated: in the downlink the computation fails, here for a single example with one UT. -/
theorem C130_violated : ¬ C130_statement := by
  intro H
  obtain ⟨c, log, s, hc, r, hr, hn, h1, h2, h3, h4⟩ := exDownlink 1 1
  refine (C130_additional_partial hc r hr (by norm_num [exArgs]) h1 (by norm_num) (by norm_num) h2 (by norm_num) h3 (by norm_num)).1 rfl ?_
    (H 1 1 1 _ _ c hc log s r hr hn ?_)
  · intro bs hbs b n
    rw [h4 bs hbs b n]
    norm_num
  · intro bs hbs b n
    rw [h4 bs hbs b n]
    norm_num

/-- The hypotheses of C130 are met with two examples and three UTs. -/
example : ∃ (c : Config) (log : List (TopoCall 2 1 3)) (s : TopoState 2 1 3), TopoReach c log s ∧ ¬ Readable (additionalLoss c s) := by
  obtain ⟨c, log, s, hc, r, hr, -, h1, h2, h3, h4⟩ := exDownlink 2 3
  refine ⟨c, log, s, r, (C130_additional_partial hc r hr (by norm_num [exArgs]) h1 (by norm_num) (by norm_num) h2 (by norm_num) h3
    (by norm_num)).1 rfl fun bs hbs b n => ?_⟩
  rw [h4 bs hbs b n]
  norm_num

end OpenNTN
