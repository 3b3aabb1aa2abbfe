import Mathlib.Probability.CentralLimitTheorem
import Mathlib.MeasureTheory.Measure.LevyConvergence
import Mathlib.MeasureTheory.Measure.Lebesgue.VolumeOfBalls
import Mathlib.Analysis.SpecialFunctions.PolarCoord
import Verif.Lemmas.Blocks
import Verif.Spec.Random

/-
Sums of unit phasors with independent uniform phases: fourth moment, and normal law of sums of many.
-/
namespace OpenNTN

open MeasureTheory ProbabilityTheory

/-! ### Fourth moment -/

theorem integral_uniform (f : ℝ → ℝ) : ∫ x, f x ∂uniformPhase = (2 * Real.pi)⁻¹ * ∫ x in (-Real.pi)..Real.pi, f x := by
  unfold uniformPhase
  rw [integral_smul_measure, ← intervalIntegral.integral_of_le (by linarith [Real.pi_pos]), ENNReal.toReal_ofReal (by positivity), smul_eq_mul]

theorem phasor_fourth (W c : ℂ) : ∫ x : ℝ, ‖W + c * Complex.exp ((x : ℂ) * Complex.I)‖ ^ 4 ∂uniformPhase =
    ‖W‖ ^ 4 + 4 * ‖c‖ ^ 2 * ‖W‖ ^ 2 + ‖c‖ ^ 4 := by
  have hpi := Real.pi_pos
  rw [integral_uniform]
  set A := ‖W‖ ^ 2 + ‖c‖ ^ 2 with hA
  set p := W.re * c.re + W.im * c.im with hp
  set q := W.re * c.im - W.im * c.re with hq
  have hn : ∀ z : ℂ, ‖z‖ ^ 2 = z.re ^ 2 + z.im ^ 2 := fun z => by rw [Complex.sq_norm, Complex.normSq_apply]; ring
  have e : ∀ x : ℝ, ‖W + c * Complex.exp ((x : ℂ) * Complex.I)‖ ^ 4 =
      A ^ 2 + 4 * A * p * Real.cos x - 4 * A * q * Real.sin x + 4 * p ^ 2 * Real.cos x ^ 2 + 4 * q ^ 2 * Real.sin x ^ 2
        - 8 * p * q * (Real.sin x * Real.cos x) := by
    intro x
    have h1 : ‖W + c * Complex.exp ((x : ℂ) * Complex.I)‖ ^ 2 = A + 2 * (p * Real.cos x - q * Real.sin x) := by
      have hcs := Real.sin_sq_add_cos_sq x
      rw [hA, hn, hn, hn, Complex.exp_mul_I, ← Complex.ofReal_cos, ← Complex.ofReal_sin]
      simp only [Complex.add_re, Complex.mul_re, Complex.add_im, Complex.mul_im, Complex.ofReal_re, Complex.ofReal_im, Complex.I_re, Complex.I_im,
        hp, hq]
      linear_combination (c.re ^ 2 + c.im ^ 2) * hcs
    rw [show (4 : ℕ) = 2 * 2 from rfl, pow_mul, h1]
    ring
  simp_rw [e]
  have i0 : ∀ k : ℝ, IntervalIntegrable (fun _ : ℝ => k) volume (-Real.pi) Real.pi := fun k => intervalIntegrable_const
  have i1 : ∀ k : ℝ, IntervalIntegrable (fun x : ℝ => k * Real.cos x) volume (-Real.pi) Real.pi := fun k => (by fun_prop : Continuous _).intervalIntegrable _ _
  have i2 : ∀ k : ℝ, IntervalIntegrable (fun x : ℝ => k * Real.sin x) volume (-Real.pi) Real.pi := fun k => (by fun_prop : Continuous _).intervalIntegrable _ _
  have i3 : ∀ k : ℝ, IntervalIntegrable (fun x : ℝ => k * Real.cos x ^ 2) volume (-Real.pi) Real.pi := fun k => (by fun_prop : Continuous _).intervalIntegrable _ _
  have i4 : ∀ k : ℝ, IntervalIntegrable (fun x : ℝ => k * Real.sin x ^ 2) volume (-Real.pi) Real.pi := fun k => (by fun_prop : Continuous _).intervalIntegrable _ _
  have i5 : ∀ k : ℝ, IntervalIntegrable (fun x : ℝ => k * (Real.sin x * Real.cos x)) volume (-Real.pi) Real.pi := fun k =>
    (by fun_prop : Continuous _).intervalIntegrable _ _
  rw [intervalIntegral.integral_sub ((((i0 _).add (i1 _)).sub (i2 _)).add (i3 _) |>.add (i4 _)) (i5 _),
    intervalIntegral.integral_add ((((i0 _).add (i1 _)).sub (i2 _)).add (i3 _)) (i4 _),
    intervalIntegral.integral_add (((i0 _).add (i1 _)).sub (i2 _)) (i3 _), intervalIntegral.integral_sub ((i0 _).add (i1 _)) (i2 _),
    intervalIntegral.integral_add (i0 _) (i1 _)]
  simp only [intervalIntegral.integral_const_mul, intervalIntegral.integral_const, integral_cos, integral_sin, integral_cos_sq, integral_sin_sq,
    integral_sin_mul_cos₁, smul_eq_mul, Real.sin_neg, Real.sin_pi, Real.cos_neg, Real.cos_pi]
  have h2 : p ^ 2 + q ^ 2 = ‖W‖ ^ 2 * ‖c‖ ^ 2 := by rw [hn, hn, hp, hq]; ring
  have h4 : ‖W‖ ^ 4 + 4 * ‖c‖ ^ 2 * ‖W‖ ^ 2 + ‖c‖ ^ 4 = A ^ 2 + 2 * (p ^ 2 + q ^ 2) := by rw [h2, hA]; ring
  rw [h4]
  field_simp
  ring

theorem phasorSum_continuous {ι : Type} [Fintype ι] (a : ℂ) (c : ι → ℂ) :
    Continuous fun x : ι → ℝ => a + ∑ k, c k * Complex.exp ((x k : ℂ) * Complex.I) := by fun_prop

theorem phasorSum_bound {ι : Type} [Fintype ι] (a : ℂ) (c : ι → ℂ) (x : ι → ℝ) :
    ‖a + ∑ k, c k * Complex.exp ((x k : ℂ) * Complex.I)‖ ≤ ‖a‖ + ∑ k, ‖c k‖ := by
  refine (norm_add_le _ _).trans (add_le_add_right ?_ _)
  refine (norm_sum_le _ _).trans (Finset.sum_le_sum fun k _ => ?_)
  rw [norm_mul, Complex.norm_exp_ofReal_mul_I, mul_one]

theorem phasorSum_integrable {ι : Type} [Fintype ι] (a : ℂ) (c : ι → ℂ) (m : ℕ) :
    Integrable (fun x : ι → ℝ => ‖a + ∑ k, c k * Complex.exp ((x k : ℂ) * Complex.I)‖ ^ m) (Measure.pi fun _ : ι => uniformPhase) := by
  refine Integrable.of_bound ((phasorSum_continuous a c).norm.pow m).aestronglyMeasurable ((‖a‖ + ∑ k, ‖c k‖) ^ m) (Filter.Eventually.of_forall fun x => ?_)
  rw [norm_pow, norm_norm]
  exact pow_le_pow_left₀ (norm_nonneg _) (phasorSum_bound a c x) m

theorem fourth_fin : ∀ (n : ℕ) (a : ℂ) (c : Fin n → ℂ),
    ∫ x, ‖a + ∑ k, c k * Complex.exp ((x k : ℂ) * Complex.I)‖ ^ 4 ∂(Measure.pi fun _ : Fin n => uniformPhase) =
      ‖a‖ ^ 4 + 4 * ‖a‖ ^ 2 * (∑ k, ‖c k‖ ^ 2) + 2 * (∑ k, ‖c k‖ ^ 2) ^ 2 - ∑ k, ‖c k‖ ^ 4
  | 0, a, c => by simp
  | n + 1, a, c => by
    have mp := measurePreserving_piFinSuccAbove (fun _ : Fin (n + 1) => uniformPhase) 0
    have hs : ∫ x, ‖a + ∑ k, c k * Complex.exp ((x k : ℂ) * Complex.I)‖ ^ 4 ∂(Measure.pi fun _ : Fin (n + 1) => uniformPhase) =
        ∫ z : ℝ × (Fin n → ℝ), ‖(a + ∑ k, c k.succ * Complex.exp ((z.2 k : ℂ) * Complex.I)) + c 0 * Complex.exp ((z.1 : ℂ) * Complex.I)‖ ^ 4
          ∂(uniformPhase.prod (Measure.pi fun _ : Fin n => uniformPhase)) := by
      rw [← mp.integral_comp' (g := fun z : ℝ × (Fin n → ℝ) => ‖(a + ∑ k, c k.succ * Complex.exp ((z.2 k : ℂ) * Complex.I)) +
        c 0 * Complex.exp ((z.1 : ℂ) * Complex.I)‖ ^ 4)]
      refine integral_congr_ae (Filter.Eventually.of_forall fun x => ?_)
      simp only [Fin.sum_univ_succ]
      congr 2
      have e1 : (MeasurableEquiv.piFinSuccAbove (fun _ => ℝ) 0 x).1 = x 0 := rfl
      have e2 : ∀ k : Fin n, (MeasurableEquiv.piFinSuccAbove (fun _ => ℝ) 0 x).2 k = x k.succ := fun _ => rfl
      simp only [e1, e2]
      ring
    rw [hs]
    have hcont : Continuous fun z : ℝ × (Fin n → ℝ) => ‖(a + ∑ k, c k.succ * Complex.exp ((z.2 k : ℂ) * Complex.I)) +
        c 0 * Complex.exp ((z.1 : ℂ) * Complex.I)‖ ^ 4 := by fun_prop
    have hint : Integrable (fun z : ℝ × (Fin n → ℝ) => ‖(a + ∑ k, c k.succ * Complex.exp ((z.2 k : ℂ) * Complex.I)) +
        c 0 * Complex.exp ((z.1 : ℂ) * Complex.I)‖ ^ 4) (uniformPhase.prod (Measure.pi fun _ : Fin n => uniformPhase)) := by
      refine Integrable.of_bound hcont.aestronglyMeasurable ((‖a‖ + ∑ k : Fin n, ‖c k.succ‖ + ‖c 0‖) ^ 4) (Filter.Eventually.of_forall fun z => ?_)
      rw [norm_pow, norm_norm]
      refine pow_le_pow_left₀ (norm_nonneg _) ((norm_add_le _ _).trans (add_le_add (phasorSum_bound a _ z.2) ?_)) 4
      rw [norm_mul, Complex.norm_exp_ofReal_mul_I, mul_one]
    rw [integral_prod_symm _ hint]
    simp only [phasor_fourth]
    have j4 := phasorSum_integrable a (fun k : Fin n => c k.succ) 4
    have j2 := phasorSum_integrable a (fun k : Fin n => c k.succ) 2
    have j42 : Integrable (fun y : Fin n → ℝ => ‖a + ∑ k : Fin n, c k.succ * Complex.exp ((y k : ℂ) * Complex.I)‖ ^ 4 +
        4 * ‖c 0‖ ^ 2 * ‖a + ∑ k : Fin n, c k.succ * Complex.exp ((y k : ℂ) * Complex.I)‖ ^ 2) (Measure.pi fun _ : Fin n => uniformPhase) :=
      j4.add (j2.const_mul _)
    rw [integral_add j42 (integrable_const _), integral_add j4 (j2.const_mul _), integral_const_mul, fourth_fin n a fun k => c k.succ,
      average_power, integral_const, probReal_univ, one_smul, Fin.sum_univ_succ (fun k => ‖c k‖ ^ 2), Fin.sum_univ_succ (fun k => ‖c k‖ ^ 4)]
    ring

/-- Fourth moment of a constant plus a sum of phasors with independent uniform phases. -/
theorem average_fourth {ι : Type} [Fintype ι] (a : ℂ) (c : ι → ℂ) :
    ∫ x, ‖a + ∑ k, c k * Complex.exp ((x k : ℂ) * Complex.I)‖ ^ 4 ∂(Measure.pi fun _ : ι => uniformPhase) =
      ‖a‖ ^ 4 + 4 * ‖a‖ ^ 2 * (∑ k, ‖c k‖ ^ 2) + 2 * (∑ k, ‖c k‖ ^ 2) ^ 2 - ∑ k, ‖c k‖ ^ 4 := by
  let e := (Fintype.equivFin ι).symm
  have mp := measurePreserving_piCongrLeft (fun _ : ι => uniformPhase) e
  rw [← mp.integral_comp']
  have h1 : ∀ x : Fin (Fintype.card ι) → ℝ, a + ∑ k, c k * Complex.exp (((MeasurableEquiv.piCongrLeft (fun _ => ℝ) e x) k : ℂ) * Complex.I) =
      a + ∑ k, c (e k) * Complex.exp ((x k : ℂ) * Complex.I) := by
    intro x
    congr 1
    rw [← e.sum_comp]
    refine Finset.sum_congr rfl fun k _ => ?_
    have : MeasurableEquiv.piCongrLeft (fun _ => ℝ) e x (e k) = x k := by
      rw [MeasurableEquiv.coe_piCongrLeft]
      exact Equiv.piCongrLeft_apply_apply (P := fun _ => ℝ) e x k
    rw [this]
  simp only [h1]
  rw [fourth_fin, e.sum_comp (fun k => ‖c k‖ ^ 2), e.sum_comp (fun k => ‖c k‖ ^ 4)]

/-! ### Sums of many phasors -/

theorem integral_phasor_turn (θ : ℝ) (G : ℂ → ℂ) (hG : Continuous G) :
    ∫ x : ℝ, G (Complex.exp ((θ : ℂ) * Complex.I) * Complex.exp ((x : ℂ) * Complex.I)) ∂uniformPhase =
      ∫ x : ℝ, G (Complex.exp ((x : ℂ) * Complex.I)) ∂uniformPhase := by
  have hm : Measurable fun x : ℝ => Complex.exp ((x : ℂ) * Complex.I) := (by fun_prop : Continuous _).measurable
  have hm' : Measurable fun x : ℝ => Complex.exp ((θ : ℂ) * Complex.I) * Complex.exp ((x : ℂ) * Complex.I) := hm.const_mul _
  rw [← integral_map (f := G) hm'.aemeasurable hG.aestronglyMeasurable, ← integral_map (f := G) hm.aemeasurable hG.aestronglyMeasurable, phasor_turn]

/-- Characteristic function of a phasor of length `‖c‖`: it depends on the length only. -/
theorem phasor_char (c τ : ℂ) : ∫ x : ℝ, Complex.exp (((inner ℝ (c * Complex.exp ((x : ℂ) * Complex.I)) τ : ℝ) : ℂ) * Complex.I) ∂uniformPhase =
    ∫ x : ℝ, Complex.exp (((‖c‖ * ‖τ‖ * Real.cos x : ℝ) : ℂ) * Complex.I) ∂uniformPhase := by
  set z := c * (starRingEnd ℂ) τ with hz
  have hzn : ‖z‖ = ‖c‖ * ‖τ‖ := by rw [hz, norm_mul, RCLike.norm_conj]
  let G : ℂ → ℂ := fun y => Complex.exp (((‖z‖ * y.re : ℝ) : ℂ) * Complex.I)
  have hG : Continuous G := by fun_prop
  have e1 : ∀ x : ℝ, Complex.exp (((inner ℝ (c * Complex.exp ((x : ℂ) * Complex.I)) τ : ℝ) : ℂ) * Complex.I) =
      G (Complex.exp ((z.arg : ℂ) * Complex.I) * Complex.exp ((x : ℂ) * Complex.I)) := by
    intro x
    simp only [G]
    congr 3
    rw [real_inner_comm, Complex.inner, ← Complex.re_ofReal_mul, ← mul_assoc, Complex.norm_mul_exp_arg_mul_I, hz]
    congr 1
    ring
  have e2 : ∀ x : ℝ, Complex.exp (((‖c‖ * ‖τ‖ * Real.cos x : ℝ) : ℂ) * Complex.I) = G (Complex.exp ((x : ℂ) * Complex.I)) := by
    intro x
    simp only [G]
    rw [Complex.exp_ofReal_mul_I_re, hzn]
  simp_rw [e1, e2]
  exact integral_phasor_turn _ G hG

/-- Characteristic function of a sum of phasors of equal length. -/
theorem phasorSum_char {n : ℕ} (c : Fin n → ℂ) (ρ : ℝ) (hc : ∀ k, ‖c k‖ = ρ) (τ : ℂ) :
    charFun ((Measure.pi fun _ : Fin n => uniformPhase).map fun x => ∑ k, c k * Complex.exp ((x k : ℂ) * Complex.I)) τ =
      (charFun (uniformPhase.map fun x => Real.sqrt 2 * Real.cos x) (ρ * ‖τ‖ / Real.sqrt 2)) ^ n := by
  have hs : Real.sqrt 2 ≠ 0 := by positivity
  have hm : Measurable fun x : Fin n → ℝ => ∑ k, c k * Complex.exp ((x k : ℂ) * Complex.I) := (by fun_prop : Continuous _).measurable
  rw [charFun_apply, integral_map hm.aemeasurable (by fun_prop), charFun_apply, integral_map (by fun_prop) (by fun_prop)]
  have e : ∀ x : Fin n → ℝ, Complex.exp (((inner ℝ (∑ k, c k * Complex.exp ((x k : ℂ) * Complex.I)) τ : ℝ) : ℂ) * Complex.I) =
      ∏ k, Complex.exp (((inner ℝ (c k * Complex.exp ((x k : ℂ) * Complex.I)) τ : ℝ) : ℂ) * Complex.I) := by
    intro x
    rw [sum_inner, ← Complex.exp_sum]
    congr 1
    push_cast
    rw [Finset.sum_mul]
  simp_rw [e]
  rw [integral_fintype_prod_eq_prod (fun k (y : ℝ) => Complex.exp (((inner ℝ (c k * Complex.exp ((y : ℂ) * Complex.I)) τ : ℝ) : ℂ) * Complex.I))]
  simp only [phasor_char, hc]
  rw [Finset.prod_const, Finset.card_univ, Fintype.card_fin]
  congr 2
  funext x
  congr 3
  rw [RCLike.inner_apply, conj_trivial]
  field_simp

theorem cosine_moments : ∫ x, Real.sqrt 2 * Real.cos x ∂uniformPhase = 0 ∧ ∫ x, (Real.sqrt 2 * Real.cos x) ^ 2 ∂uniformPhase = 1 := by
  have hpi := Real.pi_pos
  rw [integral_uniform, integral_uniform]
  have e : ∀ x : ℝ, (Real.sqrt 2 * Real.cos x) ^ 2 = 2 * Real.cos x ^ 2 := fun x => by
    rw [mul_pow, Real.sq_sqrt (by norm_num)]
  simp_rw [e]
  simp only [intervalIntegral.integral_const_mul, integral_cos, integral_cos_sq, Real.sin_neg, Real.sin_pi, Real.cos_neg, Real.cos_pi]
  constructor
  · simp
  · field_simp
    ring

/-- The characteristic function of a sum of `n` phasors of length `√(S/n)` tends to that of a circular normal variable of power `S`. -/
theorem phasorSum_char_tendsto (S : ℝ) (hS : 0 ≤ S) (c : ∀ n : ℕ, Fin (n + 1) → ℂ) (hc : ∀ n k, ‖c n k‖ = Real.sqrt (S / (n + 1 : ℕ))) (τ : ℂ) :
    Filter.Tendsto (fun n : ℕ => charFun ((Measure.pi fun _ : Fin (n + 1) => uniformPhase).map fun x => ∑ k, c n k * Complex.exp ((x k : ℂ) * Complex.I)) τ)
      Filter.atTop (nhds (Complex.exp (-(S * ‖τ‖ ^ 2 / 4 : ℝ)))) := by
  have hX : AEMeasurable (fun x : ℝ => Real.sqrt 2 * Real.cos x) uniformPhase := by fun_prop
  have h := tendsto_charFun_inv_sqrt_mul_pow hX cosine_moments.1 cosine_moments.2 (Real.sqrt (S / 2) * ‖τ‖)
  have h' := (Filter.tendsto_add_atTop_iff_nat 1).2 h
  convert h' using 1
  · funext n
    rw [phasorSum_char (c n) _ (hc n)]
    congr 2
    rw [Real.sqrt_div hS, Real.sqrt_div hS]
    field_simp
  · have e : S * ‖τ‖ ^ 2 / 4 = (Real.sqrt (S / 2) * ‖τ‖) ^ 2 / 2 := by
      rw [mul_pow, Real.sq_sqrt (by positivity)]
      ring
    rw [e]
    push_cast
    rw [neg_div]

/-! ### The circular normal law -/

theorem complexMk_measurable : Measurable fun p : ℝ × ℝ => (⟨p.1, p.2⟩ : ℂ) := Complex.measurableEquivRealProd.symm.measurable

instance (S : ℝ) : IsProbabilityMeasure (Spec.circularNormal S) := Measure.isProbabilityMeasure_map complexMk_measurable.aemeasurable

theorem circularNormal_char (S : ℝ) (hS : 0 ≤ S) (τ : ℂ) : charFun (Spec.circularNormal S) τ = Complex.exp (-(S * ‖τ‖ ^ 2 / 4 : ℝ)) := by
  unfold Spec.circularNormal
  rw [charFun_apply, integral_map complexMk_measurable.aemeasurable (by fun_prop)]
  have e : ∀ p : ℝ × ℝ, Complex.exp (((inner ℝ (⟨p.1, p.2⟩ : ℂ) τ : ℝ) : ℂ) * Complex.I) =
      Complex.exp (((inner ℝ p.1 τ.re : ℝ) : ℂ) * Complex.I) * Complex.exp (((inner ℝ p.2 τ.im : ℝ) : ℂ) * Complex.I) := by
    intro p
    rw [← Complex.exp_add, ← add_mul, ← Complex.ofReal_add]
    congr 3
    rw [Complex.inner, RCLike.inner_apply, RCLike.inner_apply, conj_trivial (R := ℝ), conj_trivial (R := ℝ)]
    simp [Complex.mul_re]
  simp_rw [e]
  rw [integral_prod_mul (fun x : ℝ => Complex.exp (((inner ℝ x τ.re : ℝ) : ℂ) * Complex.I)) (fun y : ℝ => Complex.exp (((inner ℝ y τ.im : ℝ) : ℂ) * Complex.I)),
    ← charFun_apply, ← charFun_apply, charFun_gaussianReal, charFun_gaussianReal, ← Complex.exp_add]
  congr 1
  have h1 : ((S / 2).toNNReal : ℝ) = S / 2 := Real.coe_toNNReal _ (by positivity)
  have h2 : ‖τ‖ ^ 2 = τ.re ^ 2 + τ.im ^ 2 := by rw [Complex.sq_norm, Complex.normSq_apply]; ring
  rw [h1, h2]
  push_cast
  ring

/-- The power of a circular normal variable is exponentially distributed, its modulus has the law of Rayleigh. -/
theorem circularNormal_disc (S : ℝ) (hS : 0 < S) (y : ℝ) (hy : 0 ≤ y) :
    (Spec.circularNormal S).real {z | ‖z‖ ^ 2 ≤ y} = 1 - Real.exp (-y / S) := by
  have hpi := Real.pi_pos
  set v := (S / 2).toNNReal with hv
  have hv1 : (v : ℝ) = S / 2 := Real.coe_toNNReal _ (by positivity)
  have hv0 : v ≠ 0 := by
    intro h
    rw [h, NNReal.coe_zero] at hv1
    linarith
  have hset : MeasurableSet {z : ℂ | ‖z‖ ^ 2 ≤ y} := measurableSet_le (by fun_prop) measurable_const
  have hn : ∀ p : ℝ × ℝ, ‖(⟨p.1, p.2⟩ : ℂ)‖ ^ 2 = p.1 ^ 2 + p.2 ^ 2 := fun p => by rw [Complex.sq_norm, Complex.normSq_apply]; ring
  unfold Spec.circularNormal
  rw [map_measureReal_apply complexMk_measurable hset, ← hv]
  simp only [Set.preimage_ofPred_eq, hn]
  have hset' : MeasurableSet {p : ℝ × ℝ | p.1 ^ 2 + p.2 ^ 2 ≤ y} := measurableSet_le (by fun_prop) measurable_const
  rw [← integral_indicator_one hset', gaussianReal_of_var_ne_zero _ hv0,
    prod_withDensity (measurable_gaussianPDF _ _) (measurable_gaussianPDF _ _),
    integral_withDensity_eq_integral_toReal_smul (by fun_prop)
      (Filter.Eventually.of_forall fun p => ENNReal.mul_lt_top gaussianPDF_lt_top gaussianPDF_lt_top)]
  let g : ℝ → ℝ := fun r => if r ^ 2 ≤ y then (Real.pi * S)⁻¹ * (r * Real.exp (-r ^ 2 / S)) else 0
  have e1 : ∀ p : ℝ × ℝ, (gaussianPDF 0 v p.1 * gaussianPDF 0 v p.2).toReal • Set.indicator {p : ℝ × ℝ | p.1 ^ 2 + p.2 ^ 2 ≤ y} (1 : ℝ × ℝ → ℝ) p =
      if p.1 ^ 2 + p.2 ^ 2 ≤ y then (Real.pi * S)⁻¹ * Real.exp (-(p.1 ^ 2 + p.2 ^ 2) / S) else 0 := by
    intro p
    rw [ENNReal.toReal_mul, toReal_gaussianPDF, toReal_gaussianPDF, gaussianPDFReal, gaussianPDFReal, hv1]
    by_cases h : p.1 ^ 2 + p.2 ^ 2 ≤ y
    · rw [Set.indicator_of_mem (by exact h), if_pos h, Pi.one_apply, smul_eq_mul, mul_one]
      have h1 : (Real.sqrt (2 * Real.pi * (S / 2)))⁻¹ * (Real.sqrt (2 * Real.pi * (S / 2)))⁻¹ = (Real.pi * S)⁻¹ := by
        rw [← mul_inv, Real.mul_self_sqrt (by positivity)]
        congr 1
        ring
      have h2 : Real.exp (-(p.1 - 0) ^ 2 / (2 * (S / 2))) * Real.exp (-(p.2 - 0) ^ 2 / (2 * (S / 2))) = Real.exp (-(p.1 ^ 2 + p.2 ^ 2) / S) := by
        rw [← Real.exp_add]
        congr 1
        field_simp
        ring
      rw [← h1, ← h2]
      ring
    · rw [Set.indicator_of_notMem (by exact h), if_neg h, smul_zero]
  simp_rw [e1]
  rw [← Measure.volume_eq_prod, ← integral_comp_polarCoord_symm, polarCoord_target]
  have e2 : ∀ p : ℝ × ℝ, p.1 • (if (polarCoord.symm p).1 ^ 2 + (polarCoord.symm p).2 ^ 2 ≤ y then
      (Real.pi * S)⁻¹ * Real.exp (-((polarCoord.symm p).1 ^ 2 + (polarCoord.symm p).2 ^ 2) / S) else 0) = g p.1 * 1 := by
    intro p
    have : (polarCoord.symm p).1 ^ 2 + (polarCoord.symm p).2 ^ 2 = p.1 ^ 2 := by
      rw [polarCoord_symm_apply]
      have := Real.sin_sq_add_cos_sq p.2
      linear_combination p.1 ^ 2 * this
    rw [this]
    simp only [g, smul_eq_mul, mul_one]
    split_ifs
    · ring
    · simp
  simp_rw [e2]
  rw [Measure.volume_eq_prod, setIntegral_prod_mul g (fun _ => (1 : ℝ)) (Set.Ioi 0) (Set.Ioo (-Real.pi) Real.pi)]
  have e3 : ∫ _ in Set.Ioo (-Real.pi) Real.pi, (1 : ℝ) = 2 * Real.pi := by
    rw [setIntegral_const, Real.volume_real_Ioo_of_le (by linarith), smul_eq_mul]
    ring
  have e4 : ∫ r in Set.Ioi 0, g r = (2 * Real.pi)⁻¹ * (1 - Real.exp (-y / S)) := by
    have h1 : ∫ r in Set.Ioi 0, g r = ∫ r in Set.Ioc 0 (Real.sqrt y), (Real.pi * S)⁻¹ * (r * Real.exp (-r ^ 2 / S)) := by
      rw [← integral_indicator measurableSet_Ioi, ← integral_indicator measurableSet_Ioc]
      congr 1
      funext r
      by_cases h0 : 0 < r
      · rw [Set.indicator_of_mem (by exact h0)]
        by_cases h1 : r ^ 2 ≤ y
        · rw [Set.indicator_of_mem (by exact ⟨h0, Real.le_sqrt_of_sq_le h1⟩)]
          simp only [g, if_pos h1]
        · rw [Set.indicator_of_notMem (by
            rintro ⟨-, h2⟩
            exact h1 ((Real.le_sqrt' h0).1 h2))]
          simp only [g, if_neg h1]
      · rw [Set.indicator_of_notMem (by exact h0), Set.indicator_of_notMem (by rintro ⟨h2, -⟩; exact h0 h2)]
    rw [h1, ← intervalIntegral.integral_of_le (Real.sqrt_nonneg _), intervalIntegral.integral_const_mul]
    have hd : ∀ r ∈ Set.uIcc 0 (Real.sqrt y), HasDerivAt (fun r => -(S / 2) * Real.exp (-r ^ 2 / S)) (r * Real.exp (-r ^ 2 / S)) r := by
      intro r _
      have := (((hasDerivAt_pow 2 r).neg.div_const S).exp).const_mul (-(S / 2))
      refine this.congr_deriv ?_
      simp only [Pi.neg_apply]
      field_simp
      norm_num
    rw [intervalIntegral.integral_eq_sub_of_hasDerivAt hd ((by fun_prop : Continuous fun r : ℝ => r * Real.exp (-r ^ 2 / S)).intervalIntegrable _ _),
      Real.sq_sqrt hy]
    simp
    field_simp
    ring
  rw [e3, e4]
  field_simp

theorem circularNormal_circle (S : ℝ) (hS : 0 < S) (y : ℝ) (hy : 0 ≤ y) : Spec.circularNormal S (frontier {z | ‖z‖ ^ 2 ≤ y}) = 0 := by
  have hv0 : (S / 2).toNNReal ≠ 0 := by
    intro h
    have := Real.toNNReal_eq_zero.1 h
    linarith
  have hball : {z : ℂ | ‖z‖ ^ 2 ≤ y} = Metric.closedBall 0 (Real.sqrt y) := by
    ext z
    rw [Metric.mem_closedBall, dist_zero_right]
    exact (Real.le_sqrt (norm_nonneg _) hy).symm
  have hac : Spec.circularNormal S ≪ volume := by
    have h1 := (gaussianReal_absolutelyContinuous 0 hv0).prod (gaussianReal_absolutelyContinuous 0 hv0)
    have h2 := h1.map (f := fun p : ℝ × ℝ => (⟨p.1, p.2⟩ : ℂ)) complexMk_measurable
    rw [← Measure.volume_eq_prod] at h2
    exact h2.trans (by
      rw [show (fun p : ℝ × ℝ => (⟨p.1, p.2⟩ : ℂ)) = Complex.measurableEquivRealProd.symm from rfl,
        Complex.volume_preserving_equiv_real_prod.symm.map_eq])
  refine hac ?_
  rw [hball]
  refine measure_mono_null Metric.frontier_closedBall_subset_sphere ?_
  exact Measure.addHaar_sphere volume 0 _

/-- Sums of many phasors of equal length are circular normal: they converge in distribution, and their modulus has the law of Rayleigh. -/
theorem phasorSum_limit (S : ℝ) (hS : 0 < S) (N : ℕ → ℕ) (hN : ∀ n, N n = n + 1) (c : ∀ n : ℕ, Fin (N n) → ℂ)
    (hc : ∀ n k, ‖c n k‖ = Real.sqrt (S / N n)) :
    TendstoInDistribution (fun n (x : Fin (N n) → ℝ) => ∑ k, c n k * Complex.exp ((x k : ℂ) * Complex.I)) Filter.atTop (id : ℂ → ℂ)
      (fun n => Measure.pi fun _ : Fin (N n) => uniformPhase) (Spec.circularNormal S) ∧
    ∀ y, 0 ≤ y → Filter.Tendsto (fun n => (Measure.pi fun _ : Fin (N n) => uniformPhase).real
      {x | ‖∑ k, c n k * Complex.exp ((x k : ℂ) * Complex.I)‖ ^ 2 ≤ y}) Filter.atTop (nhds (1 - Real.exp (-y / S))) := by
  obtain rfl : N = fun n => n + 1 := funext hN
  have hm : ∀ n, Measurable fun x : Fin (n + 1) → ℝ => ∑ k, c n k * Complex.exp ((x k : ℂ) * Complex.I) := fun n =>
    (by fun_prop : Continuous fun x : Fin (n + 1) → ℝ => ∑ k, c n k * Complex.exp ((x k : ℂ) * Complex.I)).measurable
  have hd : TendstoInDistribution (fun n (x : Fin (n + 1) → ℝ) => ∑ k, c n k * Complex.exp ((x k : ℂ) * Complex.I)) Filter.atTop (id : ℂ → ℂ)
      (fun n => Measure.pi fun _ : Fin (n + 1) => uniformPhase) (Spec.circularNormal S) := by
    refine ⟨fun n => (hm n).aemeasurable, measurable_id.aemeasurable, ?_⟩
    refine ProbabilityMeasure.tendsto_iff_tendsto_charFun.2 fun τ => ?_
    have := phasorSum_char_tendsto S hS.le c hc τ
    rw [← circularNormal_char S hS.le] at this
    simpa only [ProbabilityMeasure.coe_mk, Measure.map_id] using this
  refine ⟨hd, fun y hy => ?_⟩
  have h := ProbabilityMeasure.tendsto_measure_of_null_frontier_of_tendsto' hd.tendsto (E := {z | ‖z‖ ^ 2 ≤ y}) (by
    simpa only [ProbabilityMeasure.coe_mk, Measure.map_id] using circularNormal_circle S hS y hy)
  have hset : MeasurableSet {z : ℂ | ‖z‖ ^ 2 ≤ y} := measurableSet_le (by fun_prop) measurable_const
  simp only [ProbabilityMeasure.coe_mk, Measure.map_id, Measure.map_apply (hm _) hset] at h
  have h' := (ENNReal.tendsto_toReal (measure_ne_top _ _)).comp h
  rw [← circularNormal_disc S hS y hy]
  exact h'

end OpenNTN
