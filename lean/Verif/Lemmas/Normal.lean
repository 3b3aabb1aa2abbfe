import Verif.Spec.Random
import Mathlib.Probability.Distributions.Gaussian.HasGaussianLaw.Independence
import Mathlib.Tactic.Ring

namespace OpenNTN

open MeasureTheory ProbabilityTheory Finset

variable {K Ω : Type*} [MeasurableSpace Ω] {P : Measure Ω} {s : K → Ω → ℝ}

theorem StandardNormal.memLp (h : Spec.StandardNormal P s) (k : K) : MemLp (s k) 2 P := by
  have h1 : MemLp id 2 (P.map (s k)) := by rw [(h.law k).map_eq]; exact memLp_id_gaussianReal 2
  exact (memLp_map_measure_iff (by fun_prop) (h.law k).aemeasurable).1 h1

theorem StandardNormal.mean (h : Spec.StandardNormal P s) (k : K) : ∫ ω, s k ω ∂P = 0 := by
  rw [(h.law k).integral_eq, integral_id_gaussianReal]

theorem StandardNormal.inner [DecidableEq K] (h : Spec.StandardNormal P s) (k l : K) :
    ∫ ω, s k ω * s l ω ∂P = if k = l then 1 else 0 := by
  have : IsProbabilityMeasure P := (h.law k).isProbabilityMeasure
  split_ifs with hkl
  · subst hkl
    have hv : Var[s k; P] = 1 := by rw [(h.law k).variance_eq, variance_id_gaussianReal]; rfl
    rw [variance_eq_sub (StandardNormal.memLp h k), StandardNormal.mean h k] at hv
    simp only [Pi.pow_apply, sq] at hv
    linarith
  · rw [(h.indep.indepFun hkl).integral_fun_mul_eq_mul_integral (h.law k).aemeasurable.aestronglyMeasurable
      (h.law l).aemeasurable.aestronglyMeasurable, StandardNormal.mean h k, zero_mul]

theorem StandardNormal.mean_lin [Fintype K] (h : Spec.StandardNormal P s) (a : K → ℝ) :
    ∫ ω, ∑ k, a k * s k ω ∂P = 0 := by
  by_cases hK : Nonempty K
  swap
  · have := not_nonempty_iff.1 hK; simp
  have : IsProbabilityMeasure P := (h.law hK.some).isProbabilityMeasure
  rw [integral_finsetSum]
  · exact sum_eq_zero fun k _ => by rw [integral_const_mul, StandardNormal.mean h k, mul_zero]
  · exact fun k _ => ((StandardNormal.memLp h k).integrable (by norm_num)).const_mul _

theorem StandardNormal.inner_lin [Fintype K] [DecidableEq K] (h : Spec.StandardNormal P s) (a b : K → ℝ) :
    ∫ ω, (∑ k, a k * s k ω) * (∑ k, b k * s k ω) ∂P = ∑ k, a k * b k := by
  have hint : ∀ k l, Integrable (fun ω => s k ω * s l ω) P := fun k l =>
    (StandardNormal.memLp h k).integrable_mul (StandardNormal.memLp h l)
  have e : ∀ ω, (∑ k, a k * s k ω) * (∑ k, b k * s k ω) = ∑ k, ∑ l, a k * b l * (s k ω * s l ω) := by
    intro ω
    rw [sum_mul_sum]
    exact sum_congr rfl fun k _ => sum_congr rfl fun l _ => by ring
  simp_rw [e]
  rw [integral_finsetSum]
  · refine sum_congr rfl fun k _ => ?_
    rw [integral_finsetSum]
    · rw [sum_eq_single k]
      · rw [integral_const_mul, StandardNormal.inner h, if_pos rfl, mul_one]
      · intro l _ hl
        rw [integral_const_mul, StandardNormal.inner h, if_neg (Ne.symm hl), mul_zero]
      · intro hk; exact absurd (mem_univ _) hk
    · exact fun l _ => (hint k l).const_mul _
  · exact fun k _ => integrable_finsetSum _ fun l _ => (hint k l).const_mul _

/-- A linear combination of independent standard normal draws is normal. -/
theorem StandardNormal.law_lin [Fintype K] [DecidableEq K] [IsProbabilityMeasure P] (h : Spec.StandardNormal P s) (a : K → ℝ) :
    HasLaw (fun ω => ∑ k, a k * s k ω) (gaussianReal 0 (∑ k, a k ^ 2).toNNReal) P := by
  have hj : HasGaussianLaw (fun ω => (s · ω)) P := iIndepFun.hasGaussianLaw (fun k => (h.law k).hasGaussianLaw) h.indep
  have hl : HasGaussianLaw (fun ω => ∑ k, a k * s k ω) P := by
    have := hj.map_fun (∑ k, a k • ContinuousLinearMap.proj (R := ℝ) (φ := fun _ : K => ℝ) k)
    simpa [_root_.sum_apply] using this
  refine ⟨hl.aemeasurable, ?_⟩
  rw [hl.map_eq_gaussianReal, StandardNormal.mean_lin h, variance_eq_sub hl.memLp_two, StandardNormal.mean_lin h]
  have e := StandardNormal.inner_lin h a a
  simp only [Pi.pow_apply]
  congr 2
  rw [show (fun ω => (∑ k, a k * s k ω) ^ 2) = fun ω => (∑ k, a k * s k ω) * (∑ k, a k * s k ω) from by funext; ring, e]
  simp [sq]

/-- Such draws exist. -/
theorem exists_standardNormal (K : Type) [Fintype K] :
    ∃ (P : Measure (K → ℝ)), IsProbabilityMeasure P ∧ Spec.StandardNormal P (fun k ω => ω k) := by
  refine ⟨Measure.pi fun _ => gaussianReal 0 1, inferInstance, ?_, ?_⟩
  · intro k
    refine ⟨(measurable_pi_apply k).aemeasurable, ?_⟩
    exact (measurePreserving_eval (fun _ : K => gaussianReal 0 1) k).map_eq
  · exact iIndepFun_pi (X := fun _ => id) (fun _ => aemeasurable_id)

end OpenNTN
