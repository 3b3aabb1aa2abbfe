import Verif.Lemmas.Phases
import Mathlib.MeasureTheory.Integral.IntervalIntegral.Periodic

/-
Correlation of two sums of phasors with the same uniform phases, and the average of a periodic function over equal sectors.
-/
namespace OpenNTN

open MeasureTheory

/-- Correlation of two constants plus sums of phasors that share their independent uniform phases. -/
theorem average_correlation {ι : Type} [Fintype ι] (a b : ℂ) (c d : ι → ℂ) :
    ∫ x, (starRingEnd ℂ) (a + ∑ k, c k * Complex.exp ((x k : ℂ) * Complex.I)) * (b + ∑ k, d k * Complex.exp ((x k : ℂ) * Complex.I))
      ∂(Measure.pi fun _ : ι => uniformPhase) = (starRingEnd ℂ) a * b + ∑ k, (starRingEnd ℂ) (c k) * d k := by
  set μ := Measure.pi fun _ : ι => uniformPhase
  have hn : ∀ (x : ι → ℝ) (k : ι), ‖Complex.exp ((x k : ℂ) * Complex.I)‖ = 1 := fun x k => Complex.norm_exp_ofReal_mul_I _
  have hcont : ∀ k : ι, Continuous fun x : ι → ℝ => Complex.exp ((x k : ℂ) * Complex.I) := fun k => by fun_prop
  have hconj : ∀ k : ι, Continuous fun x : ι → ℝ => (starRingEnd ℂ) (Complex.exp ((x k : ℂ) * Complex.I)) := fun k =>
    Complex.continuous_conj.comp (hcont k)
  have expand : ∀ x : ι → ℝ, (starRingEnd ℂ) (a + ∑ k, c k * Complex.exp ((x k : ℂ) * Complex.I)) *
      (b + ∑ k, d k * Complex.exp ((x k : ℂ) * Complex.I)) =
      (starRingEnd ℂ) a * b + ∑ k, ((starRingEnd ℂ) a * d k) * Complex.exp ((x k : ℂ) * Complex.I) +
      ∑ k, ((starRingEnd ℂ) (c k) * b) * (starRingEnd ℂ) (Complex.exp ((x k : ℂ) * Complex.I)) +
      ∑ k, ∑ l, ((starRingEnd ℂ) (c k) * d l) * ((starRingEnd ℂ) (Complex.exp ((x k : ℂ) * Complex.I)) * Complex.exp ((x l : ℂ) * Complex.I)) := by
    intro x
    rw [map_add, map_sum, add_mul, mul_add, mul_add, Finset.mul_sum, Finset.sum_mul, Finset.sum_mul_sum]
    simp only [map_mul]
    have e1 : ∀ k : ι, (starRingEnd ℂ) a * (d k * Complex.exp ((x k : ℂ) * Complex.I)) =
      ((starRingEnd ℂ) a * d k) * Complex.exp ((x k : ℂ) * Complex.I) := fun k => by ring
    have e2 : ∀ k : ι, (starRingEnd ℂ) (c k) * (starRingEnd ℂ) (Complex.exp ((x k : ℂ) * Complex.I)) * b =
      ((starRingEnd ℂ) (c k) * b) * (starRingEnd ℂ) (Complex.exp ((x k : ℂ) * Complex.I)) := fun k => by ring
    have e3 : ∀ k l : ι, (starRingEnd ℂ) (c k) * (starRingEnd ℂ) (Complex.exp ((x k : ℂ) * Complex.I)) * (d l * Complex.exp ((x l : ℂ) * Complex.I)) =
      ((starRingEnd ℂ) (c k) * d l) * ((starRingEnd ℂ) (Complex.exp ((x k : ℂ) * Complex.I)) * Complex.exp ((x l : ℂ) * Complex.I)) := fun k l => by ring
    simp only [e1, e2, e3]
    ring
  have i1 : ∀ k, Integrable (fun x : ι → ℝ => Complex.exp ((x k : ℂ) * Complex.I)) μ := fun k =>
    integrable_phasors _ (hcont k) 1 fun x => (hn x k).le
  have i2 : ∀ k, Integrable (fun x : ι → ℝ => (starRingEnd ℂ) (Complex.exp ((x k : ℂ) * Complex.I))) μ := fun k =>
    integrable_phasors _ (hconj k) 1 fun x => by rw [RCLike.norm_conj]; exact (hn x k).le
  have i3 : ∀ k l, Integrable (fun x : ι → ℝ => (starRingEnd ℂ) (Complex.exp ((x k : ℂ) * Complex.I)) * Complex.exp ((x l : ℂ) * Complex.I)) μ :=
    fun k l => integrable_phasors _ ((hconj k).mul (hcont l)) 1 fun x => by rw [norm_mul, RCLike.norm_conj, hn, hn]; norm_num
  simp_rw [expand]
  rw [integral_add, integral_add, integral_add, integral_const, integral_finsetSum, integral_finsetSum, integral_finsetSum]
  · have z1 : ∀ k, ∫ x, ((starRingEnd ℂ) a * d k) * Complex.exp ((x k : ℂ) * Complex.I) ∂μ = 0 := fun k => by
      rw [integral_const_mul, integral_one_phasor, mul_zero]
    have z2 : ∀ k, ∫ x, ((starRingEnd ℂ) (c k) * b) * (starRingEnd ℂ) (Complex.exp ((x k : ℂ) * Complex.I)) ∂μ = 0 := fun k => by
      rw [integral_const_mul, integral_conj, integral_one_phasor, map_zero, mul_zero]
    have z3 : ∀ k, ∫ x, ∑ l, ((starRingEnd ℂ) (c k) * d l) * ((starRingEnd ℂ) (Complex.exp ((x k : ℂ) * Complex.I)) * Complex.exp ((x l : ℂ) * Complex.I)) ∂μ =
        (starRingEnd ℂ) (c k) * d k := fun k => by
      rw [integral_finsetSum _ fun l _ => (i3 k l).const_mul _]
      rw [Finset.sum_eq_single k]
      · rw [integral_const_mul]
        have : ∀ x : ι → ℝ, (starRingEnd ℂ) (Complex.exp ((x k : ℂ) * Complex.I)) * Complex.exp ((x k : ℂ) * Complex.I) = 1 := fun x => by
          rw [Complex.conj_mul', hn]; norm_num
        simp_rw [this]
        rw [integral_const]
        simp
      · intro l _ hl
        rw [integral_const_mul, integral_two_phasors k l (Ne.symm hl), mul_zero]
      · simp
    simp only [z1, z2, z3]
    simp
  · exact fun k _ => integrable_finsetSum _ fun l _ => (i3 k l).const_mul _
  · exact fun k _ => (i2 k).const_mul _
  · exact fun k _ => (i1 k).const_mul _
  · exact integrable_const _
  · exact integrable_finsetSum _ fun k _ => (i1 k).const_mul _
  · exact (integrable_const _).add (integrable_finsetSum _ fun k _ => (i1 k).const_mul _)
  · exact integrable_finsetSum _ fun k _ => (i2 k).const_mul _
  · exact ((integrable_const _).add (integrable_finsetSum _ fun k _ => (i1 k).const_mul _)).add (integrable_finsetSum _ fun k _ => (i2 k).const_mul _)
  · exact integrable_finsetSum _ fun k _ => integrable_finsetSum _ fun l _ => (i3 k l).const_mul _

/-- Sums of phasors with different independent phases are uncorrelated. -/
theorem average_uncorrelated {ι κ : Type} [Fintype ι] [Fintype κ] (b : ℂ) (c : ι → ℂ) (d : κ → ℂ) :
    ∫ y, ∫ x, (starRingEnd ℂ) (∑ k, c k * Complex.exp ((x k : ℂ) * Complex.I)) * (b + ∑ k, d k * Complex.exp ((y k : ℂ) * Complex.I))
      ∂(Measure.pi fun _ : ι => uniformPhase) ∂(Measure.pi fun _ : κ => uniformPhase) = 0 := by
  have : ∀ z : ℂ, ∫ x, (starRingEnd ℂ) (∑ k, c k * Complex.exp ((x k : ℂ) * Complex.I)) * z ∂(Measure.pi fun _ : ι => uniformPhase) = 0 := by
    intro z
    have := average_correlation (ι := ι) 0 z c 0
    simpa using this
  simp_rw [this]
  simp

/-- The uniform distribution on the sector `(-π/n, π/n]`. -/
noncomputable def uniformSector (n : ℕ) : Measure ℝ :=
  ENNReal.ofReal (n / (2 * Real.pi)) • volume.restrict (Set.Ioc (-(Real.pi / n)) (Real.pi / n))

theorem uniformSector_prob {n : ℕ} (hn : n ≠ 0) : IsProbabilityMeasure (uniformSector n) := by
  constructor
  have h := Real.pi_pos
  have hn' : (0 : ℝ) < n := by exact_mod_cast Nat.pos_of_ne_zero hn
  simp only [uniformSector, Measure.smul_apply, Measure.restrict_apply MeasurableSet.univ, Set.univ_inter, Real.volume_Ioc, smul_eq_mul]
  rw [← ENNReal.ofReal_mul (by positivity), show (n : ℝ) / (2 * Real.pi) * (Real.pi / n - -(Real.pi / n)) = 1 by field_simp; ring]
  simp

/-- One angle of each of `n` equal sectors, averaged: the average over the whole circle. -/
theorem sector_average {n : ℕ} (hn : n ≠ 0) (f : ℝ → ℂ) (hf : Continuous f) (hp : Function.Periodic f (2 * Real.pi)) :
    ∫ θ, (1 / (n : ℂ)) * ∑ k : Fin n, f (2 * Real.pi / n * ((k.val : ℝ) + 1) + θ k) ∂(Measure.pi fun _ : Fin n => uniformSector n) =
      (1 / (2 * Real.pi : ℂ)) * ∫ t in (-Real.pi)..Real.pi, f t := by
  have h := Real.pi_pos
  have hn' : (0 : ℝ) < n := by exact_mod_cast Nat.pos_of_ne_zero hn
  haveI := uniformSector_prob hn
  have one : ∀ k : Fin n, ∫ θ, f (2 * Real.pi / n * ((k.val : ℝ) + 1) + θ k) ∂(Measure.pi fun _ : Fin n => uniformSector n) =
      ((n / (2 * Real.pi) : ℝ) : ℂ) * ∫ t in ((2 * (k.val : ℝ) + 1) * (Real.pi / n))..((2 * ((k.val + 1 : ℕ) : ℝ) + 1) * (Real.pi / n)), f t := by
    intro k
    have hg : Continuous fun y : ℝ => f (2 * Real.pi / n * ((k.val : ℝ) + 1) + y) := by fun_prop
    have e : ∫ θ, f (2 * Real.pi / n * ((k.val : ℝ) + 1) + θ k) ∂(Measure.pi fun _ : Fin n => uniformSector n) =
        ∫ y, f (2 * Real.pi / n * ((k.val : ℝ) + 1) + y) ∂(uniformSector n) := by
      have mp := measurePreserving_eval (fun _ : Fin n => uniformSector n) k
      conv_rhs => rw [← mp.map_eq]
      rw [integral_map mp.measurable.aemeasurable hg.aestronglyMeasurable]
    rw [e]
    unfold uniformSector
    rw [integral_smul_measure, ← intervalIntegral.integral_of_le (by have : 0 < Real.pi / n := by positivity
                                                                     linarith)]
    rw [intervalIntegral.integral_comp_add_left, ENNReal.toReal_ofReal (by positivity), Complex.real_smul]
    congr 2
    · field_simp; ring
    · push_cast; field_simp
      try ring
  have hint : ∀ k : Fin n, Integrable (fun θ : Fin n → ℝ => f (2 * Real.pi / n * ((k.val : ℝ) + 1) + θ k)) (Measure.pi fun _ : Fin n => uniformSector n) := by
    intro k
    obtain ⟨C, hC⟩ : ∃ C, ∀ x, ‖f x‖ ≤ C := by
      obtain ⟨C, hC⟩ := (isCompact_Icc (a := (0 : ℝ)) (b := 2 * Real.pi)).exists_bound_of_continuousOn hf.continuousOn
      refine ⟨C, fun x => ?_⟩
      obtain ⟨y, hy, e⟩ := hp.exists_mem_Ico₀ (by positivity) x
      rw [e]
      exact hC y ⟨hy.1, hy.2.le⟩
    refine Integrable.of_bound ?_ C (Filter.Eventually.of_forall fun _ => hC _)
    exact Continuous.aestronglyMeasurable (by fun_prop)
  rw [integral_const_mul, integral_finsetSum _ fun k _ => hint k]
  simp_rw [one]
  rw [← Finset.mul_sum, Fin.sum_univ_eq_sum_range (fun k => ∫ t in ((2 * (k : ℝ) + 1) * (Real.pi / n))..((2 * ((k + 1 : ℕ) : ℝ) + 1) * (Real.pi / n)), f t) n,
    intervalIntegral.sum_integral_adjacent_intervals (a := fun k : ℕ => (2 * (k : ℝ) + 1) * (Real.pi / n)) fun k _ => hf.intervalIntegrable _ _]
  have e1 : (2 * ((n : ℕ) : ℝ) + 1) * (Real.pi / n) = (2 * ((0 : ℕ) : ℝ) + 1) * (Real.pi / n) + 2 * Real.pi := by field_simp; push_cast; ring
  rw [e1, hp.intervalIntegral_add_eq _ (-Real.pi), show -Real.pi + 2 * Real.pi = Real.pi by ring, ← mul_assoc]
  congr 1
  have hnc : (n : ℂ) ≠ 0 := by exact_mod_cast hn
  push_cast
  field_simp

end OpenNTN
