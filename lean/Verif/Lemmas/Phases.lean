import Mathlib.MeasureTheory.Integral.Pi
import Mathlib.MeasureTheory.Integral.IntervalIntegral.FundThmCalculus
import Mathlib.Analysis.SpecialFunctions.Integrals.Basic
import Mathlib.Analysis.SpecialFunctions.Complex.Circle

/-
Sums of unit phasors with independent uniform phases: average of the squared modulus.
-/
namespace OpenNTN

open MeasureTheory

/-- The uniform distribution on `(-π, π]`. -/
noncomputable def uniformPhase : Measure ℝ := ENNReal.ofReal (2 * Real.pi)⁻¹ • volume.restrict (Set.Ioc (-Real.pi) Real.pi)

instance : IsProbabilityMeasure uniformPhase := by
  constructor
  have h := Real.pi_pos
  simp only [uniformPhase, Measure.smul_apply, Measure.restrict_apply MeasurableSet.univ, Set.univ_inter, Real.volume_Ioc, smul_eq_mul]
  rw [← ENNReal.ofReal_mul (by positivity), show (2 * Real.pi)⁻¹ * (Real.pi - -Real.pi) = 1 by field_simp; ring]
  simp

/-- The mean phasor is zero. -/
theorem integral_phasor : ∫ x, Complex.exp (x * Complex.I) ∂uniformPhase = 0 := by
  unfold uniformPhase
  rw [integral_smul_measure, ← intervalIntegral.integral_of_le (by linarith [Real.pi_pos])]
  have : ∫ x in (-Real.pi)..Real.pi, Complex.exp (x * Complex.I) = 0 := by
    have := integral_exp_mul_complex (a := -Real.pi) (b := Real.pi) (c := Complex.I) Complex.I_ne_zero
    have e : ∀ x : ℝ, Complex.exp (Complex.I * x) = Complex.exp (x * Complex.I) := fun x => by rw [mul_comm]
    simp only [e] at this
    rw [this, Complex.exp_pi_mul_I, show ((-Real.pi : ℝ) : ℂ) * Complex.I = -(Real.pi * Complex.I) by push_cast; ring, Complex.exp_neg,
      Complex.exp_pi_mul_I]
    norm_num
  rw [this, smul_zero]

theorem integrable_phasors {ι : Type} [Fintype ι] (f : (ι → ℝ) → ℂ) (hf : Continuous f) (C : ℝ) (hC : ∀ x, ‖f x‖ ≤ C) :
    Integrable f (Measure.pi fun _ : ι => uniformPhase) :=
  Integrable.of_bound hf.aestronglyMeasurable C (Filter.Eventually.of_forall hC)

theorem integral_one_phasor {ι : Type} [Fintype ι] (k : ι) :
    ∫ x, Complex.exp ((x k : ℂ) * Complex.I) ∂(Measure.pi fun _ : ι => uniformPhase) = 0 := by
  classical
  have e : ∀ x : ι → ℝ, Complex.exp ((x k : ℂ) * Complex.I) = ∏ i, if i = k then Complex.exp ((x i : ℂ) * Complex.I) else 1 := by
    intro x; rw [Finset.prod_ite_eq' Finset.univ k]; simp
  simp_rw [e]
  rw [integral_fintype_prod_eq_prod (fun i (y : ℝ) => if i = k then Complex.exp ((y : ℂ) * Complex.I) else 1)]
  refine Finset.prod_eq_zero (Finset.mem_univ k) ?_
  simp [integral_phasor]

theorem integral_two_phasors {ι : Type} [Fintype ι] (k l : ι) (h : k ≠ l) :
    ∫ x, (starRingEnd ℂ) (Complex.exp ((x k : ℂ) * Complex.I)) * Complex.exp ((x l : ℂ) * Complex.I)
      ∂(Measure.pi fun _ : ι => uniformPhase) = 0 := by
  classical
  have e : ∀ x : ι → ℝ, (starRingEnd ℂ) (Complex.exp ((x k : ℂ) * Complex.I)) * Complex.exp ((x l : ℂ) * Complex.I) =
      ∏ i, (if i = k then (starRingEnd ℂ) (Complex.exp ((x i : ℂ) * Complex.I)) else 1) *
        (if i = l then Complex.exp ((x i : ℂ) * Complex.I) else 1) := by
    intro x
    rw [Finset.prod_mul_distrib, Finset.prod_ite_eq' Finset.univ k, Finset.prod_ite_eq' Finset.univ l]
    simp
  simp_rw [e]
  rw [integral_fintype_prod_eq_prod (fun i (y : ℝ) => (if i = k then (starRingEnd ℂ) (Complex.exp ((y : ℂ) * Complex.I)) else 1) *
        (if i = l then Complex.exp ((y : ℂ) * Complex.I) else 1))]
  refine Finset.prod_eq_zero (Finset.mem_univ l) ?_
  have : ¬ l = k := fun e => h e.symm
  simp [this, integral_phasor]

/-- Average power of a constant plus a sum of phasors with independent uniform phases. -/
theorem average_power {ι : Type} [Fintype ι] (a : ℂ) (c : ι → ℂ) :
    ∫ x, ‖a + ∑ k, c k * Complex.exp ((x k : ℂ) * Complex.I)‖ ^ 2 ∂(Measure.pi fun _ : ι => uniformPhase) =
      ‖a‖ ^ 2 + ∑ k, ‖c k‖ ^ 2 := by
  set μ := Measure.pi fun _ : ι => uniformPhase
  have hn : ∀ (x : ι → ℝ) (k : ι), ‖Complex.exp ((x k : ℂ) * Complex.I)‖ = 1 := fun x k => Complex.norm_exp_ofReal_mul_I _
  have hcont : ∀ k : ι, Continuous fun x : ι → ℝ => Complex.exp ((x k : ℂ) * Complex.I) := fun k => by fun_prop
  have hconj : ∀ k : ι, Continuous fun x : ι → ℝ => (starRingEnd ℂ) (Complex.exp ((x k : ℂ) * Complex.I)) := fun k =>
    Complex.continuous_conj.comp (hcont k)
  have expand : ∀ x : ι → ℝ, ((‖a + ∑ k, c k * Complex.exp ((x k : ℂ) * Complex.I)‖ ^ 2 : ℝ) : ℂ) =
      (starRingEnd ℂ) a * a + ∑ k, ((starRingEnd ℂ) a * c k) * Complex.exp ((x k : ℂ) * Complex.I) +
      ∑ k, ((starRingEnd ℂ) (c k) * a) * (starRingEnd ℂ) (Complex.exp ((x k : ℂ) * Complex.I)) +
      ∑ k, ∑ l, ((starRingEnd ℂ) (c k) * c l) * ((starRingEnd ℂ) (Complex.exp ((x k : ℂ) * Complex.I)) * Complex.exp ((x l : ℂ) * Complex.I)) := by
    intro x
    rw [Complex.ofReal_pow, ← Complex.conj_mul', map_add, map_sum, add_mul, mul_add, mul_add, Finset.mul_sum, Finset.sum_mul, Finset.sum_mul_sum]
    simp only [map_mul]
    have e1 : ∀ k : ι, (starRingEnd ℂ) a * (c k * Complex.exp ((x k : ℂ) * Complex.I)) =
      ((starRingEnd ℂ) a * c k) * Complex.exp ((x k : ℂ) * Complex.I) := fun k => by ring
    have e2 : ∀ k : ι, (starRingEnd ℂ) (c k) * (starRingEnd ℂ) (Complex.exp ((x k : ℂ) * Complex.I)) * a =
      ((starRingEnd ℂ) (c k) * a) * (starRingEnd ℂ) (Complex.exp ((x k : ℂ) * Complex.I)) := fun k => by ring
    have e3 : ∀ k l : ι, (starRingEnd ℂ) (c k) * (starRingEnd ℂ) (Complex.exp ((x k : ℂ) * Complex.I)) * (c l * Complex.exp ((x l : ℂ) * Complex.I)) =
      ((starRingEnd ℂ) (c k) * c l) * ((starRingEnd ℂ) (Complex.exp ((x k : ℂ) * Complex.I)) * Complex.exp ((x l : ℂ) * Complex.I)) := fun k l => by ring
    simp only [e1, e2, e3]
    ring
  have i1 : ∀ k, Integrable (fun x : ι → ℝ => Complex.exp ((x k : ℂ) * Complex.I)) μ := fun k =>
    integrable_phasors _ (hcont k) 1 fun x => (hn x k).le
  have i2 : ∀ k, Integrable (fun x : ι → ℝ => (starRingEnd ℂ) (Complex.exp ((x k : ℂ) * Complex.I))) μ := fun k =>
    integrable_phasors _ (hconj k) 1 fun x => by rw [RCLike.norm_conj]; exact (hn x k).le
  have i3 : ∀ k l, Integrable (fun x : ι → ℝ => (starRingEnd ℂ) (Complex.exp ((x k : ℂ) * Complex.I)) * Complex.exp ((x l : ℂ) * Complex.I)) μ :=
    fun k l => integrable_phasors _ ((hconj k).mul (hcont l)) 1 fun x => by rw [norm_mul, RCLike.norm_conj, hn, hn]; norm_num
  have hinj : Function.Injective (Complex.ofReal) := Complex.ofReal_injective
  apply hinj
  rw [← integral_complex_ofReal]
  simp_rw [expand]
  rw [integral_add, integral_add, integral_add, integral_const, integral_finsetSum, integral_finsetSum, integral_finsetSum]
  · have z1 : ∀ k, ∫ x, ((starRingEnd ℂ) a * c k) * Complex.exp ((x k : ℂ) * Complex.I) ∂μ = 0 := fun k => by
      rw [integral_const_mul, integral_one_phasor, mul_zero]
    have z2 : ∀ k, ∫ x, ((starRingEnd ℂ) (c k) * a) * (starRingEnd ℂ) (Complex.exp ((x k : ℂ) * Complex.I)) ∂μ = 0 := fun k => by
      rw [integral_const_mul, integral_conj, integral_one_phasor, map_zero, mul_zero]
    have z3 : ∀ k, ∫ x, ∑ l, ((starRingEnd ℂ) (c k) * c l) * ((starRingEnd ℂ) (Complex.exp ((x k : ℂ) * Complex.I)) * Complex.exp ((x l : ℂ) * Complex.I)) ∂μ =
        ((‖c k‖ ^ 2 : ℝ) : ℂ) := fun k => by
      rw [integral_finsetSum _ fun l _ => (i3 k l).const_mul _]
      rw [Finset.sum_eq_single k]
      · rw [integral_const_mul]
        have : ∀ x : ι → ℝ, (starRingEnd ℂ) (Complex.exp ((x k : ℂ) * Complex.I)) * Complex.exp ((x k : ℂ) * Complex.I) = 1 := fun x => by
          rw [Complex.conj_mul', hn]; norm_num
        simp_rw [this]
        rw [integral_const]
        simp [Complex.conj_mul']
      · intro l _ hl
        rw [integral_const_mul, integral_two_phasors k l (Ne.symm hl), mul_zero]
      · simp
    simp only [z1, z2, z3]
    simp [Complex.conj_mul']
  · exact fun k _ => integrable_finsetSum _ fun l _ => (i3 k l).const_mul _
  · exact fun k _ => (i2 k).const_mul _
  · exact fun k _ => (i1 k).const_mul _
  · exact integrable_const _
  · exact integrable_finsetSum _ fun k _ => (i1 k).const_mul _
  · exact (integrable_const _).add (integrable_finsetSum _ fun k _ => (i1 k).const_mul _)
  · exact integrable_finsetSum _ fun k _ => (i2 k).const_mul _
  · exact ((integrable_const _).add (integrable_finsetSum _ fun k _ => (i1 k).const_mul _)).add (integrable_finsetSum _ fun k _ => (i2 k).const_mul _)
  · exact integrable_finsetSum _ fun k _ => integrable_finsetSum _ fun l _ => (i3 k l).const_mul _

end OpenNTN
