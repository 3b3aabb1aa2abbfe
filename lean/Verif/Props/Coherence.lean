import Verif.Props.Statistics
import Verif.Props.DopplerSpectrum
import Mathlib.Analysis.Real.Pi.Bounds

/-
C207: coherence bandwidth and coherence time of the frequency response.
-/
namespace OpenNTN

open Matrix MeasureTheory

/-- A weighted sum of phases is at least the sum of the weights minus their spread around any centre. -/
theorem cycles_sum_lower {ι : Type} [Fintype ι] (w x : ι → ℝ) (hw : ∀ i, 0 ≤ w i) (c : ℝ) :
    ∑ i, w i - 2 * Real.pi ^ 2 * ∑ i, w i * (x i - c) ^ 2 ≤ ‖∑ i, (w i : ℂ) * Spec.cycles (x i)‖ := by
  have hn : ‖(∑ i, (w i : ℂ) * Spec.cycles (x i)) * Spec.cycles (-c)‖ = ‖∑ i, (w i : ℂ) * Spec.cycles (x i)‖ := by
    rw [norm_mul, Spec.cycles, Complex.norm_exp_ofReal_mul_I, mul_one]
  rw [← hn]
  refine le_trans ?_ (Complex.re_le_norm _)
  have hc : ∀ i, Spec.cycles (x i) * Spec.cycles (-c) = Spec.cycles (x i - c) := by
    intro i
    unfold Spec.cycles
    rw [← Complex.exp_add]
    congr 1
    push_cast
    ring
  rw [Finset.sum_mul, Complex.re_sum, Finset.mul_sum, ← Finset.sum_sub_distrib]
  refine Finset.sum_le_sum fun i _ => ?_
  rw [mul_assoc (w i : ℂ), hc, Complex.re_ofReal_mul, Spec.cycles, Complex.exp_ofReal_mul_I_re]
  have := mul_le_mul_of_nonneg_left (Real.one_sub_sq_div_two_le_cos (x := 2 * Real.pi * (x i - c))) (hw i)
  nlinarith

/-- The same for quantities that all are within `D` of the centre. -/
theorem cycles_sum_within {ι : Type} [Fintype ι] (w x : ι → ℝ) (hw : ∀ i, 0 ≤ w i) (c D : ℝ) (hD : ∀ i, |x i - c| ≤ D) :
    (1 - 2 * Real.pi ^ 2 * D ^ 2) * ∑ i, w i ≤ ‖∑ i, (w i : ℂ) * Spec.cycles (x i)‖ := by
  refine le_trans ?_ (cycles_sum_lower w x hw c)
  have : ∑ i, w i * (x i - c) ^ 2 ≤ D ^ 2 * ∑ i, w i := by
    rw [Finset.mul_sum]
    refine Finset.sum_le_sum fun i _ => ?_
    rw [mul_comm]
    refine mul_le_mul_of_nonneg_right ?_ (hw i)
    rw [← sq_abs]
    exact pow_le_pow_left₀ (abs_nonneg _) (hD i) 2
  nlinarith [Real.pi_pos, mul_le_mul_of_nonneg_left this (show 0 ≤ 2 * Real.pi ^ 2 by positivity)]

theorem crossGain_self {x : ℝ} (hx : 0 < x) (rx tx : Fin 2 → ℝ) : Spec.crossGain x rx tx rx tx = Spec.rayGain x rx tx ∧ 0 ≤ Spec.rayGain x rx tx := by
  constructor
  · unfold Spec.crossGain Spec.rayGain
    ring
  · unfold Spec.rayGain
    positivity

/-- C207. The scattered part of the response of a link, at two subcarriers a distance `Δf` apart, has a covariance of at least `1 - 2 (π Δf σ)²` of its power,
where `σ` is the root mean square of the delays around any reference, weighted with the mean powers of the rays (C100); and at two times `Δt` apart one of at least
`1 - 2 (π fᴅ Δt)²` of its power, where `fᴅ` is the Doppler shift at the full speed of the UT. The motion of the satellite does not count. -/
theorem C207_coherence {n RA TA T F : ℕ} (g : CoeffGen) (l : LinkTopo) (k : ℝ) (r : LinkRays (n + 2)) (cDs : ℝ) (hP : ∀ c, 0 ≤ r.powers c)
    (hx : ∀ c m, 0 < r.xpr c m) (hk : 0 ≤ k) (hf : 0 < g.fc) (freq : Fin F → ℝ) (times : Fin T → ℝ) :
    ∃ strong : Finset (Fin (n + 2)), strong.card = 2 ∧ (∀ c ∈ strong, ∀ d ∉ strong, r.powers d ≤ r.powers c) ∧
      ∀ (u : Fin RA) (s : Fin TA) (i i' : Fin T) (f f' : Fin F),
        let H (x : Fin (n + 2) × Fin raysPerCluster × Fin 4 → ℝ) (i : Fin T) (f : Fin F) : ℂ :=
          let o := coeffCall g l k r cDs fun c m j => x (c, m, j)
          cirToOfdm (B := 1) (Y := 1) (X := 1) freq (fun _ _ (u : Fin RA) _ (s : Fin TA) q i => o.1 q u s (times i)) (.link fun _ _ _ q => o.2 q) false 0 0 u 0 s i f
        let mean i f := ∫ x, H x i f ∂(Measure.pi fun _ => uniformPhase)
        let cov i f i' f' := ∫ x, (starRingEnd ℂ) (H x i f - mean i f) * (H x i' f' - mean i' f') ∂(Measure.pi fun _ => uniformPhase)
        let weight c m := r.powers c / 20 * Spec.rayGain (r.xpr c m) (fieldVector g.rx l.rxOri (r.zoa c m) (r.aoa c m) u)
          (Spec.faraday g.fc l.bsHeight (fieldVector g.tx l.txOri (r.zod c m) (r.aod c m) s))
        let delay c (m : Fin raysPerCluster) := r.delays c + if c ∈ strong then Spec.subClusterDelay (Spec.subCluster m) * cDs else 0
        (∀ μ σ, ∑ c, ∑ m, weight c m * (delay c m - μ) ^ 2 ≤ σ ^ 2 * ∑ c, ∑ m, weight c m →
          (1 - 2 * (Real.pi * (freq f' - freq f) * σ) ^ 2) * ‖cov i f i f‖ ≤ ‖cov i f i f'‖) ∧
        (1 - 2 * (Real.pi * (Real.sqrt (∑ j, l.velocity j ^ 2) * g.fc / 299792458) * (times i' - times i)) ^ 2) * ‖cov i f i f‖ ≤ ‖cov i f i' f‖ := by
  obtain ⟨strong, h1, h2, H0⟩ := C141_frequency_correlation (RA := RA) (TA := TA) g l k r cDs hP hx hk freq times
  refine ⟨strong, h1, h2, ?_⟩
  intro u s i i' f f' H mean cov weight delay
  have hcov : ∀ j g', ‖cov i f j g'‖ = ‖∑ p : Fin (n + 2) × Fin raysPerCluster, (weight p.1 p.2 : ℂ) *
      Spec.cycles (Spec.dopplerFrequency (299792458 / g.fc) l (if l.movingRx then Spec.sphereDirection (r.zoa p.1 p.2) (r.aoa p.1 p.2) else
        Spec.sphereDirection (r.zod p.1 p.2) (r.aod p.1 p.2)) * (times j - times i) - delay p.1 p.2 * (freq g' - freq f))‖ / (if l.los then k + 1 else 1) := by
    intro j g'
    obtain ⟨-, e2⟩ := H0 u u s s i j f g'
    have e1 := fun i f => (H0 u u s s i i f f).1
    simp only [sub_self, Matrix.mulVec_zero, dotProduct_zero, zero_div, zero_add] at e2
    dsimp only at e1 e2
    simp only [← e1] at e2
    change cov i f j g' = _ at e2
    rw [e2, norm_div]
    congr 1
    · rw [Fintype.sum_prod_type]
      congr 1
      refine Finset.sum_congr rfl fun c _ => Finset.sum_congr rfl fun m _ => ?_
      rw [(crossGain_self (hx c m) _ _).1]
    · split_ifs
      · rw [← Complex.ofReal_one, ← Complex.ofReal_add, Complex.norm_real, Real.norm_of_nonneg (by linarith)]
      · simp
  have hw : ∀ p : Fin (n + 2) × Fin raysPerCluster, 0 ≤ weight p.1 p.2 := fun p =>
    mul_nonneg (by have := hP p.1; positivity) (crossGain_self (hx p.1 p.2) _ _).2
  have hk1 : (0 : ℝ) < if l.los then k + 1 else 1 := by split_ifs <;> linarith
  have h0 : ‖cov i f i f‖ = (∑ p : Fin (n + 2) × Fin raysPerCluster, weight p.1 p.2) / (if l.los then k + 1 else 1) := by
    rw [hcov]
    congr 1
    simp only [sub_self, mul_zero]
    have : Spec.cycles 0 = 1 := by simp [Spec.cycles]
    simp only [this, mul_one]
    rw [← Complex.ofReal_sum, Complex.norm_real, Real.norm_of_nonneg (Finset.sum_nonneg fun p _ => hw p)]
  constructor
  · intro μ σ hσ
    rw [h0, hcov, ← mul_div_assoc]
    refine div_le_div_of_nonneg_right ?_ hk1.le
    have := cycles_sum_lower (fun p : Fin (n + 2) × Fin raysPerCluster => weight p.1 p.2) (fun p => Spec.dopplerFrequency (299792458 / g.fc) l
      (if l.movingRx then Spec.sphereDirection (r.zoa p.1 p.2) (r.aoa p.1 p.2) else Spec.sphereDirection (r.zod p.1 p.2) (r.aod p.1 p.2)) * (times i - times i) -
        delay p.1 p.2 * (freq f' - freq f)) hw (-(μ * (freq f' - freq f)))
    refine le_trans ?_ this
    rw [← Fintype.sum_prod_type' (fun c m => weight c m), ← Fintype.sum_prod_type' (fun c m => weight c m * (delay c m - μ) ^ 2)] at hσ
    have e : ∑ p : Fin (n + 2) × Fin raysPerCluster, weight p.1 p.2 * (Spec.dopplerFrequency (299792458 / g.fc) l
        (if l.movingRx then Spec.sphereDirection (r.zoa p.1 p.2) (r.aoa p.1 p.2) else Spec.sphereDirection (r.zod p.1 p.2) (r.aod p.1 p.2)) * (times i - times i) -
        delay p.1 p.2 * (freq f' - freq f) - -(μ * (freq f' - freq f))) ^ 2 =
        (freq f' - freq f) ^ 2 * ∑ p : Fin (n + 2) × Fin raysPerCluster, weight p.1 p.2 * (delay p.1 p.2 - μ) ^ 2 := by
      rw [Finset.mul_sum]
      refine Finset.sum_congr rfl fun p _ => ?_
      rw [sub_self, mul_zero]
      ring
    rw [e]
    have := mul_le_mul_of_nonneg_left hσ (show 0 ≤ 2 * Real.pi ^ 2 * (freq f' - freq f) ^ 2 by positivity)
    nlinarith
  · rw [h0, hcov, ← mul_div_assoc]
    refine div_le_div_of_nonneg_right ?_ hk1.le
    have := cycles_sum_within (fun p : Fin (n + 2) × Fin raysPerCluster => weight p.1 p.2) (fun p => Spec.dopplerFrequency (299792458 / g.fc) l
      (if l.movingRx then Spec.sphereDirection (r.zoa p.1 p.2) (r.aoa p.1 p.2) else Spec.sphereDirection (r.zod p.1 p.2) (r.aod p.1 p.2)) * (times i' - times i) -
        delay p.1 p.2 * (freq f - freq f)) hw
      ((if 600000 ≤ l.bsHeight ∧ l.doppler = true then l.satSpeed else 0) / (299792458 / g.fc) * (times i' - times i))
      (Real.sqrt (∑ j, l.velocity j ^ 2) * g.fc / 299792458 * |times i' - times i|) ?_
    · refine le_trans (le_of_eq ?_) this
      rw [mul_pow _ |times i' - times i|, sq_abs]
      ring
    · intro p
      have e : ∀ v : Fin 3 → ℝ, Spec.dopplerFrequency (299792458 / g.fc) l v * (times i' - times i) - delay p.1 p.2 * (freq f - freq f) -
          (if 600000 ≤ l.bsHeight ∧ l.doppler = true then l.satSpeed else 0) / (299792458 / g.fc) * (times i' - times i) =
          (∑ j, v j * l.velocity j) * (g.fc / 299792458) * (times i' - times i) := by
        intro v
        unfold Spec.dopplerFrequency dotProduct
        field_simp
        ring
      rw [e, abs_mul]
      refine mul_le_mul_of_nonneg_right ?_ (abs_nonneg _)
      rw [abs_mul, abs_of_nonneg (show 0 ≤ g.fc / 299792458 by positivity), mul_div_assoc]
      refine mul_le_mul_of_nonneg_right ?_ (by positivity)
      split_ifs
      · exact direction_speed _ _ _
      · exact direction_speed _ _ _

/-- The hypotheses can be met: the rays of the example above; delays within 200 ns are coherent over a megahertz. -/
example : (∀ c, 0 ≤ exLinkRays.powers c) ∧ (∀ c m, 0 < exLinkRays.xpr c m) ∧ (0 : ℝ) < 1 - 2 * (Real.pi * 1e6 * 2e-7) ^ 2 := by
  refine ⟨fun c => ?_, fun _ _ => by norm_num [exLinkRays], ?_⟩
  · fin_cases c <;> norm_num [exLinkRays]
  · have := Real.pi_lt_d2
    nlinarith [Real.pi_pos]

end OpenNTN
