import Mathlib.MeasureTheory.Measure.Prod
import Mathlib.Probability.Distributions.Gaussian.Real
import Mathlib.Probability.HasLaw
import Mathlib.Probability.Independence.Basic
import Mathlib.Probability.Moments.Variance

/-
Random signs with normal perturbations: the law used for cluster directions.
-/
namespace OpenNTN

open MeasureTheory ProbabilityTheory

/-- A fair sign, `1` or `-1`. -/
noncomputable def Spec.fairSign : Measure ℝ := (2 : ENNReal)⁻¹ • Measure.dirac 1 + (2 : ENNReal)⁻¹ • Measure.dirac (-1)

/-- Half of the mass is normal around `a`, half around `-a`, each with deviation `σ`. -/
noncomputable def Spec.twoSided (a σ : ℝ) : Measure ℝ :=
  (2 : ENNReal)⁻¹ • gaussianReal a (σ ^ 2).toNNReal + (2 : ENNReal)⁻¹ • gaussianReal (-a) (σ ^ 2).toNNReal

instance : IsProbabilityMeasure Spec.fairSign := ⟨by simp [Spec.fairSign, ENNReal.inv_two_add_inv_two]⟩

instance (a σ : ℝ) : IsProbabilityMeasure (Spec.twoSided a σ) := ⟨by simp [Spec.twoSided, ENNReal.inv_two_add_inv_two]⟩

/-- A fair sign times `a` plus `σ` times an independent standard normal variable. -/
theorem twoSided_law {Ω : Type*} [MeasurableSpace Ω] {P : Measure Ω} [IsProbabilityMeasure P] {X Z : Ω → ℝ} (hX : HasLaw X Spec.fairSign P)
    (hZ : HasLaw Z (gaussianReal 0 1) P) (hi : IndepFun X Z P) (a σ : ℝ) : HasLaw (fun ω => X ω * a + σ * Z ω) (Spec.twoSided a σ) P := by
  have hp : HasLaw (fun ω => (X ω, Z ω)) (Spec.fairSign.prod (gaussianReal 0 1)) P := (indepFun_iff_hasLaw_prodMk_prod hX hZ).1 hi
  have hg : Measurable fun q : ℝ × ℝ => q.1 * a + σ * q.2 := by fun_prop
  have hn : ∀ m : ℝ, (gaussianReal 0 1).map (fun z => m + σ * z) = gaussianReal m (σ ^ 2).toNNReal := by
    intro m
    have e : (fun z : ℝ => m + σ * z) = (m + ·) ∘ (σ * ·) := rfl
    rw [e, ← Measure.map_map (by fun_prop) (by fun_prop), gaussianReal_map_const_mul, gaussianReal_map_const_add]
    congr 1
    · ring
    · ext; simp [Real.coe_toNNReal _ (sq_nonneg σ)]
  refine ⟨hg.comp_aemeasurable hp.aemeasurable, ?_⟩
  have e : (fun ω => X ω * a + σ * Z ω) = (fun q : ℝ × ℝ => q.1 * a + σ * q.2) ∘ fun ω => (X ω, Z ω) := rfl
  rw [e, ← AEMeasurable.map_map_of_aemeasurable hg.aemeasurable hp.aemeasurable, hp.map_eq, Spec.fairSign, Measure.add_prod,
    Measure.prod_smul_left, Measure.prod_smul_left, Measure.map_add _ _ hg, Measure.map_smul, Measure.map_smul, Measure.dirac_prod,
    Measure.dirac_prod, Measure.map_map hg (by fun_prop), Measure.map_map hg (by fun_prop)]
  unfold Spec.twoSided
  rw [← hn a, ← hn (-a)]
  congr 3 <;> · funext z; simp

theorem gaussian_second (a : ℝ) (σ : ℝ) : ∫ x, x ^ 2 ∂gaussianReal a (σ ^ 2).toNNReal = a ^ 2 + σ ^ 2 := by
  have h := variance_eq_sub (memLp_id_gaussianReal (μ := a) (v := (σ ^ 2).toNNReal) 2)
  rw [variance_id_gaussianReal] at h
  simp only [id, integral_id_gaussianReal, Pi.pow_apply, Real.coe_toNNReal _ (sq_nonneg σ)] at h
  linarith

theorem twoSided_memLp (a σ : ℝ) : MemLp id 2 (Spec.twoSided a σ) := by
  have h : ∀ m : ℝ, MemLp id 2 ((2 : ENNReal)⁻¹ • gaussianReal m (σ ^ 2).toNNReal) := fun m =>
    (memLp_id_gaussianReal (μ := m) (v := (σ ^ 2).toNNReal) 2).smul_measure (by simp)
  rw [memLp_two_iff_integrable_sq (by fun_prop)]
  unfold Spec.twoSided
  exact integrable_add_measure.2 ⟨(h a).integrable_sq, (h (-a)).integrable_sq⟩

/-- Mean and variance. -/
theorem twoSided_moments (a σ : ℝ) : ∫ x, x ∂Spec.twoSided a σ = 0 ∧ Var[id; Spec.twoSided a σ] = a ^ 2 + σ ^ 2 := by
  have h := (memLp_two_iff_integrable_sq (by fun_prop)).1 (twoSided_memLp a σ)
  have h1 := (twoSided_memLp a σ).integrable (by norm_num)
  have i1 : ∫ x, x ∂Spec.twoSided a σ = 0 := by
    unfold Spec.twoSided at h1 ⊢
    rw [integrable_add_measure] at h1
    rw [integral_add_measure (f := fun x : ℝ => x) h1.1 h1.2, integral_smul_measure, integral_smul_measure, integral_id_gaussianReal, integral_id_gaussianReal]
    simp
  refine ⟨i1, ?_⟩
  rw [variance_of_integral_eq_zero (X := id) (by fun_prop) i1]
  unfold Spec.twoSided at h ⊢
  rw [integrable_add_measure] at h
  rw [integral_add_measure h.1 h.2, integral_smul_measure, integral_smul_measure]
  simp only [id, gaussian_second]
  simp
  ring

/-- Of independent variables `X k`, `Z k`, the pairs are independent. -/
theorem iIndepFun_pairs {Ω κ : Type*} [MeasurableSpace Ω] {P : Measure Ω} [IsProbabilityMeasure P] {X Z : κ → Ω → ℝ}
    (hX : ∀ k, Measurable (X k)) (hZ : ∀ k, Measurable (Z k)) (h : iIndepFun (fun k : κ ⊕ κ => Sum.elim X Z k) P) :
    iIndepFun (fun k ω => (X k ω, Z k ω)) P := by
  classical
  let S : κ → Set (Set Ω) := fun k => {s | ∃ A B, MeasurableSet A ∧ MeasurableSet B ∧ X k ⁻¹' A ∩ Z k ⁻¹' B = s}
  have hS : ∀ k, MeasurableSpace.comap (fun ω => (X k ω, Z k ω)) inferInstance = MeasurableSpace.generateFrom (S k) := by
    intro k
    rw [← generateFrom_prod, MeasurableSpace.comap_generateFrom]
    congr 1
    ext s
    constructor
    · rintro ⟨_, ⟨A, hA, B, hB, rfl⟩, rfl⟩
      exact ⟨A, B, hA, hB, rfl⟩
    · rintro ⟨A, B, hA, hB, rfl⟩
      exact ⟨_, ⟨A, hA, B, hB, rfl⟩, rfl⟩
  refine iIndepSets.iIndep (fun k => ((hX k).prodMk (hZ k)).comap_le) S ?_ hS ?_
  · rintro k _ ⟨A, B, hA, hB, rfl⟩ _ ⟨A', B', hA', hB', rfl⟩ -
    exact ⟨A ∩ A', B ∩ B', hA.inter hA', hB.inter hB', by ext; simp; tauto⟩
  · rw [iIndepSets_iff]
    intro s f hf
    choose! A B hA hB hAB using hf
    have key := h.measure_inter_preimage_eq_mul (s.disjSum s) (sets := Sum.elim A B) (by
      rintro (k | k) hk
      · exact hA k (by simpa using hk)
      · exact hB k (by simpa using hk))
    have h2 : ∀ k ∈ s, P (f k) = P (X k ⁻¹' A k) * P (Z k ⁻¹' B k) := by
      intro k hk
      rw [← hAB k hk]
      have := h.measure_inter_preimage_eq_mul {Sum.inl k, Sum.inr k} (sets := Sum.elim A B) (by
        intro j hj
        simp only [Finset.mem_insert, Finset.mem_singleton] at hj
        rcases hj with rfl | rfl
        · exact hA k hk
        · exact hB k hk)
      simpa using this
    rw [Finset.prod_congr rfl h2, Finset.prod_mul_distrib]
    rw [Finset.prod_disjSum] at key
    rw [show ⋂ i ∈ s, f i = ⋂ i ∈ s.disjSum s, Sum.elim X Z i ⁻¹' Sum.elim A B i from ?_]
    · simpa using key
    · ext ω
      simp only [Set.mem_iInter, Finset.mem_disjSum]
      constructor
      · rintro hω _ (⟨k, hk, rfl⟩ | ⟨k, hk, rfl⟩)
        · have := hω k hk
          rw [← hAB k hk] at this
          exact this.1
        · have := hω k hk
          rw [← hAB k hk] at this
          exact this.2
      · intro hω k hk
        rw [← hAB k hk]
        exact ⟨hω (Sum.inl k) (Or.inl ⟨k, hk, rfl⟩), hω (Sum.inr k) (Or.inr ⟨k, hk, rfl⟩)⟩

end OpenNTN
