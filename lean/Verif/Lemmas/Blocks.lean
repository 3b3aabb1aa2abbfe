import Verif.Lemmas.Phases
import Mathlib.MeasureTheory.Integral.IntervalIntegral.Periodic
import Mathlib.Probability.Independence.Basic
import Mathlib.Analysis.SpecialFunctions.Complex.CircleAddChar

/-
Functions of disjoint blocks of independent variables are independent, and uniform phases are still uniform after a rotation.
-/
namespace OpenNTN

open MeasureTheory ProbabilityTheory

/-- The blocks of independent variables given by the fibres of `f` are independent. -/
theorem iIndepFun_blocks {Ω ι κ : Type*} [MeasurableSpace Ω] {P : Measure Ω} [IsProbabilityMeasure P] [Fintype ι] {X : ι → Ω → ℝ}
    (hX : ∀ i, Measurable (X i)) (h : iIndepFun X P) (f : ι → κ) :
    iIndepFun (fun k ω (i : {i // f i = k}) => X i ω) P := by
  classical
  let S : κ → Set (Set Ω) := fun k => {s | ∃ A : {i // f i = k} → Set ℝ, (∀ i, MeasurableSet (A i)) ∧ (⋂ i, X i.1 ⁻¹' A i) = s}
  have hS : ∀ k, MeasurableSpace.comap (fun ω (i : {i // f i = k}) => X i ω) inferInstance = MeasurableSpace.generateFrom (S k) := by
    intro k
    have e : (MeasurableSpace.pi : MeasurableSpace ({i // f i = k} → ℝ)) = _ := generateFrom_pi.symm
    rw [show (inferInstance : MeasurableSpace ({i // f i = k} → ℝ)) = MeasurableSpace.pi from rfl, e, MeasurableSpace.comap_generateFrom]
    congr 1
    ext s
    constructor
    · rintro ⟨_, ⟨A, hA, rfl⟩, rfl⟩
      exact ⟨A, fun i => hA i (Set.mem_univ i), by ext; simp⟩
    · rintro ⟨A, hA, rfl⟩
      exact ⟨_, ⟨A, fun i _ => hA i, rfl⟩, by ext; simp⟩
  refine iIndepSets.iIndep (fun k => (measurable_pi_lambda (fun ω (i : {i // f i = k}) => X i ω) fun i => hX i.1).comap_le) S ?_ hS ?_
  · rintro k _ ⟨A, hA, rfl⟩ _ ⟨A', hA', rfl⟩ -
    exact ⟨fun i => A i ∩ A' i, fun i => (hA i).inter (hA' i), by ext; simp [forall_and]⟩
  · rw [iIndepSets_iff]
    intro s g hg
    choose! A hA hAg using hg
    have hw : ∀ k ∈ s, g k = ⋂ i ∈ Finset.univ.filter (fun i => f i = k), X i ⁻¹' A (f i) ⟨i, rfl⟩ := by
      intro k hk
      rw [← hAg k hk]
      ext ω
      simp only [Set.mem_iInter, Finset.mem_filter, Finset.mem_univ, true_and, Set.mem_preimage, Subtype.forall]
      constructor
      · intro H i hi; subst hi; exact H i rfl
      · intro H i hi; subst hi; exact H i rfl
    have hm : ∀ k ∈ s, ∀ i ∈ Finset.univ.filter (fun i => f i = k), MeasurableSet (A (f i) ⟨i, rfl⟩) := by
      intro k hk i hi
      obtain rfl := (Finset.mem_filter.1 hi).2
      exact hA _ hk _
    have hone : ∀ k ∈ s, P (g k) = ∏ i ∈ Finset.univ.filter (fun i => f i = k), P (X i ⁻¹' A (f i) ⟨i, rfl⟩) := by
      intro k hk
      rw [hw k hk]
      exact h.measure_inter_preimage_eq_mul _ (sets := fun i => A (f i) ⟨i, rfl⟩) (hm k hk)
    rw [Finset.prod_congr rfl hone, ← Finset.prod_biUnion]
    · rw [← h.measure_inter_preimage_eq_mul (s.biUnion fun k => Finset.univ.filter (fun i => f i = k)) (sets := fun i => A (f i) ⟨i, rfl⟩)]
      · congr 1
        ext ω
        simp only [Set.mem_iInter, Finset.mem_biUnion]
        constructor
        · rintro H i ⟨k, hk, hi⟩
          have := H k hk
          rw [hw k hk] at this
          simp only [Set.mem_iInter] at this
          exact this i hi
        · intro H k hk
          rw [hw k hk]
          simp only [Set.mem_iInter]
          exact fun i hi => H i ⟨k, hk, hi⟩
      · intro i hi
        obtain ⟨k, hk, hi⟩ := Finset.mem_biUnion.1 hi
        exact hm k hk i hi
    · intro k _ k' _ hkk
      refine Finset.disjoint_left.2 fun i hi hi' => hkk ?_
      rw [← (Finset.mem_filter.1 hi).2, (Finset.mem_filter.1 hi').2]

/-- A uniform phase can be turned by any angle. -/
theorem phasor_turn (θ : ℝ) : uniformPhase.map (fun x : ℝ => Complex.exp ((θ : ℂ) * Complex.I) * Complex.exp ((x : ℂ) * Complex.I)) =
    uniformPhase.map fun x : ℝ => Complex.exp ((x : ℂ) * Complex.I) := by
  have : Fact (0 < 2 * Real.pi) := ⟨by positivity⟩
  have mp := AddCircle.measurePreserving_mk (2 * Real.pi) (-Real.pi)
  rw [show -Real.pi + 2 * Real.pi = Real.pi by ring] at mp
  have hE : Continuous fun y : AddCircle (2 * Real.pi) => ((AddCircle.toCircle y : Circle) : ℂ) :=
    continuous_subtype_val.comp AddCircle.continuous_toCircle
  have e : ∀ x : ℝ, ((AddCircle.toCircle (x : AddCircle (2 * Real.pi)) : Circle) : ℂ) = Complex.exp ((x : ℂ) * Complex.I) := by
    intro x
    rw [AddCircle.toCircle_apply_mk, Circle.coe_exp]
    congr 2
    have := Real.pi_pos
    push_cast
    field_simp
  have hq := (measurePreserving_add_left (volume : Measure (AddCircle (2 * Real.pi))) (θ : AddCircle (2 * Real.pi))).comp mp
  have e1 : (fun x : ℝ => Complex.exp ((x : ℂ) * Complex.I)) = (fun y : AddCircle (2 * Real.pi) => ((AddCircle.toCircle y : Circle) : ℂ)) ∘
      fun x : ℝ => (x : AddCircle (2 * Real.pi)) := by ext x; exact (e x).symm
  have e2 : (fun x : ℝ => Complex.exp ((θ : ℂ) * Complex.I) * Complex.exp ((x : ℂ) * Complex.I)) =
      (fun y : AddCircle (2 * Real.pi) => ((AddCircle.toCircle y : Circle) : ℂ)) ∘
      ((fun y => (θ : AddCircle (2 * Real.pi)) + y) ∘ fun x : ℝ => (x : AddCircle (2 * Real.pi))) := by
    ext x
    simp only [Function.comp_apply, AddCircle.toCircle_add, Circle.coe_mul, e]
  unfold uniformPhase
  rw [Measure.map_smul, Measure.map_smul, e1, e2, ← Measure.map_map hE.measurable hq.measurable, ← Measure.map_map hE.measurable mp.measurable,
    hq.map_eq, mp.map_eq]

/-- Independent uniform phases can be turned together. -/
theorem phasors_turn {ι : Type} [Fintype ι] (θ : ℝ) :
    (Measure.pi fun _ : ι => uniformPhase).map (fun x k => Complex.exp ((θ : ℂ) * Complex.I) * Complex.exp ((x k : ℂ) * Complex.I)) =
    (Measure.pi fun _ : ι => uniformPhase).map fun x k => Complex.exp ((x k : ℂ) * Complex.I) := by
  have hm : Measurable fun x : ℝ => Complex.exp ((x : ℂ) * Complex.I) := (by fun_prop : Continuous _).measurable
  have hm' : Measurable fun x : ℝ => Complex.exp ((θ : ℂ) * Complex.I) * Complex.exp ((x : ℂ) * Complex.I) := hm.const_mul _
  have : IsProbabilityMeasure (uniformPhase.map fun x : ℝ => Complex.exp ((x : ℂ) * Complex.I)) := Measure.isProbabilityMeasure_map hm.aemeasurable
  have : IsProbabilityMeasure (uniformPhase.map fun x : ℝ => Complex.exp ((θ : ℂ) * Complex.I) * Complex.exp ((x : ℂ) * Complex.I)) :=
    Measure.isProbabilityMeasure_map hm'.aemeasurable
  rw [Measure.pi_map_pi (fun _ => hm'.aemeasurable), Measure.pi_map_pi (fun _ => hm.aemeasurable)]
  simp only [phasor_turn]

end OpenNTN
