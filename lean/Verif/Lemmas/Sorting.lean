import Mathlib.Data.Fin.Tuple.Sort
import Mathlib.GroupTheory.Perm.Basic
import Mathlib.MeasureTheory.Constructions.Pi
import Mathlib.Probability.HasLaw
import Mathlib.Probability.Independence.Basic

/-
Sorting independent numbers with a common law without atoms gives a uniformly distributed permutation.
-/
namespace OpenNTN

open MeasureTheory ProbabilityTheory Classical

variable {R : ℕ}

theorem measurableSet_sort (σ : Equiv.Perm (Fin R)) : MeasurableSet {x : Fin R → ℝ | Tuple.sort x = σ} := by
  have : {x : Fin R → ℝ | Tuple.sort x = σ} =
      (⋂ (i : Fin R) (j : Fin R), {x | i ≤ j → x (σ i) ≤ x (σ j)}) ∩ ⋂ (i : Fin R) (j : Fin R), {x | i < j → x (σ i) = x (σ j) → σ i < σ j} := by
    ext x
    rw [Set.mem_ofPred_eq, eq_comm, Tuple.eq_sort_iff]
    simp only [Set.mem_inter_iff, Set.mem_iInter, Set.mem_ofPred_eq, Monotone, Function.comp]
  rw [this]
  refine MeasurableSet.inter (MeasurableSet.iInter fun i => MeasurableSet.iInter fun j => ?_) (MeasurableSet.iInter fun i => MeasurableSet.iInter fun j => ?_)
  · by_cases h : i ≤ j
    · simp only [h, true_imp_iff]
      exact measurableSet_le (measurable_pi_apply _) (measurable_pi_apply _)
    · simp [h]
  · by_cases h : i < j
    · by_cases h' : σ i < σ j
      · simp [h']
      · simp only [h, h', true_imp_iff, imp_false]
        exact (measurableSet_eq_fun (f := fun x : Fin R → ℝ => x (σ i)) (g := fun x => x (σ j)) (measurable_pi_apply _) (measurable_pi_apply _)).compl
    · simp [h]

theorem measurable_sort : @Measurable (Fin R → ℝ) (Equiv.Perm (Fin R)) _ ⊤ Tuple.sort := by
  refine @measurable_to_countable' (Equiv.Perm (Fin R)) _ ⊤ _ _ _ fun σ => measurableSet_sort σ

/-- Two coordinates almost never agree. -/
theorem ties_null (μ : Measure ℝ) [IsProbabilityMeasure μ] [NullSingletonClass μ] {i j : Fin R} (h : i ≠ j) : (Measure.pi fun _ : Fin R => μ) {x | x i = x j} = 0 := by
  have hind : IndepFun (fun x : Fin R → ℝ => x i) (fun x => x j) (Measure.pi fun _ : Fin R => μ) :=
    (iIndepFun_pi (μ := fun _ : Fin R => μ) (X := fun _ => id) (fun _ => aemeasurable_id)).indepFun h
  have hi := measurePreserving_eval (fun _ : Fin R => μ) i
  have hj := measurePreserving_eval (fun _ : Fin R => μ) j
  have hmap := (indepFun_iff_map_prod_eq_prod_map_map (measurable_pi_apply i).aemeasurable (measurable_pi_apply j).aemeasurable).1 hind
  have e : {x : Fin R → ℝ | x i = x j} = (fun x => (x i, x j)) ⁻¹' Set.diagonal ℝ := rfl
  rw [e, ← Measure.map_apply (by fun_prop) measurableSet_diagonal, hmap]
  have hi' : Measure.map (fun x : Fin R → ℝ => x i) (Measure.pi fun _ => μ) = μ := hi.map_eq
  have hj' : Measure.map (fun x : Fin R → ℝ => x j) (Measure.pi fun _ => μ) = μ := hj.map_eq
  rw [hi', hj', Measure.prod_apply measurableSet_diagonal]
  have : ∀ x : ℝ, Prod.mk x ⁻¹' Set.diagonal ℝ = {x} := by
    intro x; ext y; simp [eq_comm]
  simp [this]

theorem pi_sort_uniform (μ : Measure ℝ) [IsProbabilityMeasure μ] [NullSingletonClass μ] (σ : Equiv.Perm (Fin R)) :
    (Measure.pi fun _ : Fin R => μ) {x | Tuple.sort x = σ} = (R.factorial : ENNReal)⁻¹ := by
  set ν := Measure.pi fun _ : Fin R => μ
  have hinj : ∀ᵐ x ∂ν, Function.Injective x := by
    have : ∀ᵐ x ∂ν, ∀ i j, i ≠ j → x i ≠ x j := by
      rw [ae_all_iff]; intro i
      rw [ae_all_iff]; intro j
      by_cases h : i = j
      · simp [h]
      · have := ties_null μ h
        rw [measure_eq_zero_iff_ae_notMem] at this
        filter_upwards [this] with x hx _ using hx
    filter_upwards [this] with x hx i j hij
    by_contra h
    exact hx i j h hij
  have hperm : ∀ τ : Equiv.Perm (Fin R), MeasurePreserving (fun x : Fin R → ℝ => x ∘ τ) ν ν := by
    intro τ
    exact measurePreserving_arrowCongr' (fun _ : Fin R => μ) (fun _ : Fin R => μ) τ.symm (MeasurableEquiv.refl ℝ) fun _ => MeasurePreserving.id μ
  have heq : ∀ τ, ν {x | Tuple.sort x = τ} = ν {x | Tuple.sort x = 1} := by
    intro τ
    rw [← (hperm τ).measure_preimage (measurableSet_sort 1).nullMeasurableSet]
    refine measure_congr ?_
    filter_upwards [hinj] with x hx
    refine propext ⟨fun h => ?_, fun h => ?_⟩
    · have h : Tuple.sort x = τ := h
      show Tuple.sort (x ∘ τ) = 1
      rw [← h]
      exact Tuple.sort_eq_refl_iff_monotone.2 (Tuple.monotone_sort x)
    · have h : Tuple.sort (x ∘ τ) = 1 := h
      show Tuple.sort x = τ
      rw [eq_comm, Tuple.eq_sort_iff]
      refine ⟨Tuple.sort_eq_refl_iff_monotone.1 h, fun i j hij he => ?_⟩
      exact absurd (τ.injective (hx he)) hij.ne
  have hsum : ∑ τ : Equiv.Perm (Fin R), ν {x | Tuple.sort x = τ} = 1 := by
    rw [← measure_biUnion_finset]
    · have : (⋃ τ ∈ (Finset.univ : Finset (Equiv.Perm (Fin R))), {x : Fin R → ℝ | Tuple.sort x = τ}) = Set.univ := by
        ext x; simp
      rw [this, measure_univ]
    · intro a _ b _ hab
      rw [Function.onFun, Set.disjoint_left]
      intro x hx hx'
      exact hab (hx.symm.trans hx')
    · exact fun τ _ => measurableSet_sort τ
  simp only [heq, Finset.sum_const, Finset.card_univ, Fintype.card_perm, Fintype.card_fin, nsmul_eq_mul] at hsum ⊢
  exact ENNReal.eq_inv_of_mul_eq_one_left (by rw [mul_comm]; exact hsum)

end OpenNTN
