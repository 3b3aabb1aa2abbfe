import Verif.Props.Lsp
import Mathlib.Probability.IdentDistrib

/-
C136: the distribution of the large scale parameters and the numbering of the UTs.
-/
namespace OpenNTN

open MeasureTheory ProbabilityTheory

/-- A linear functional of linear combinations of independent standard normal draws. -/
theorem StandardNormal.functional {K ι Ω : Type*} [Fintype K] [DecidableEq K] [Fintype ι] [DecidableEq ι] [MeasurableSpace Ω] {P : Measure Ω}
    [IsProbabilityMeasure P] {s : K → Ω → ℝ} (hs : Spec.StandardNormal P s) (a : ι → K → ℝ) (L : (ι → ℝ) →L[ℝ] ℝ)
    (hm : AEMeasurable (fun ω i => ∑ k, a i k * s k ω) P) :
    (P.map fun ω i => ∑ k, a i k * s k ω).map L =
      gaussianReal 0 (∑ i, ∑ j, L (Pi.single i 1) * L (Pi.single j 1) * ∑ k, a i k * a j k).toNNReal := by
  have hL : ∀ v : ι → ℝ, L v = ∑ i, L (Pi.single i 1) * v i := by
    intro v
    have hv : v = ∑ i, v i • (Pi.single i (1 : ℝ) : ι → ℝ) := by
      funext j
      simp [Finset.sum_apply, Pi.single_apply]
    conv_lhs => rw [hv]
    rw [map_sum]
    exact Finset.sum_congr rfl fun i _ => by rw [map_smul, smul_eq_mul, mul_comm]
  generalize hl : (fun i => L (Pi.single i 1)) = l at hL
  have hl' : ∀ i, L (Pi.single i 1) = l i := fun i => congrFun hl i
  simp only [hl'] at hL ⊢
  rw [AEMeasurable.map_map_of_aemeasurable L.continuous.measurable.aemeasurable hm]
  have e : (L ∘ fun ω i => ∑ k, a i k * s k ω) = fun ω => ∑ k, (∑ i, l i * a i k) * s k ω := by
    funext ω
    rw [Function.comp, hL]
    simp only [Finset.mul_sum, Finset.sum_mul]
    rw [Finset.sum_comm]
    exact Finset.sum_congr rfl fun k _ => Finset.sum_congr rfl fun i _ => by ring
  rw [e, (StandardNormal.law_lin hs _).map_eq]
  congr 2
  have e1 : ∀ k, (∑ i, l i * a i k) ^ 2 = ∑ i, ∑ j, l i * l j * (a i k * a j k) := fun k => by
    rw [sq, Finset.sum_mul_sum]
    exact Finset.sum_congr rfl fun i _ => Finset.sum_congr rfl fun j _ => by ring
  simp only [e1, Finset.mul_sum]
  rw [Finset.sum_comm]
  exact Finset.sum_congr rfl fun i _ => Finset.sum_comm

/-- The law of several linear combinations of independent standard normal draws depends only on the inner products of their coefficients. -/
theorem StandardNormal.ident_lin {K K' ι Ω Ω' : Type*} [Fintype K] [DecidableEq K] [Fintype K'] [DecidableEq K'] [Finite ι] [MeasurableSpace Ω]
    [MeasurableSpace Ω'] {P : Measure Ω} {P' : Measure Ω'} [IsProbabilityMeasure P] [IsProbabilityMeasure P'] {s : K → Ω → ℝ}
    {s' : K' → Ω' → ℝ} (hs : Spec.StandardNormal P s) (hs' : Spec.StandardNormal P' s') (a : ι → K → ℝ) (a' : ι → K' → ℝ)
    (h : ∀ i j, ∑ k, a i k * a j k = ∑ k, a' i k * a' j k) :
    IdentDistrib (fun ω i => ∑ k, a i k * s k ω) (fun ω i => ∑ k, a' i k * s' k ω) P P' := by
  cases nonempty_fintype ι
  classical
  have m1 : AEMeasurable (fun ω i => ∑ k, a i k * s k ω) P :=
    aemeasurable_pi_lambda _ fun i => (StandardNormal.law_lin hs (a i)).aemeasurable
  have m2 : AEMeasurable (fun ω i => ∑ k, a' i k * s' k ω) P' :=
    aemeasurable_pi_lambda _ fun i => (StandardNormal.law_lin hs' (a' i)).aemeasurable
  refine ⟨m1, m2, ?_⟩
  have := Measure.isProbabilityMeasure_map m1
  have := Measure.isProbabilityMeasure_map m2
  refine Measure.ext_of_charFunDual ?_
  funext L
  rw [charFunDual_eq_charFun_map_one, charFunDual_eq_charFun_map_one, StandardNormal.functional hs a L m1,
    StandardNormal.functional hs' a' L m2]
  simp only [h]

/-! ### The large scale parameters -/

variable {cls : ScenarioClass} {a : ScenarioArgs} {c : Config} {U U' : ℕ} {los indoor : Fin U → Bool} {x y : Fin U → ℝ}
  {nb : Fin U → Bool} {κ : Fin U' → Fin U}

/-- A parameter as function of its normal variable. -/
theorem lspOf_get (i : Fin 7) : ∃ cap : ℝ → ℝ, Measurable cap ∧
    ∀ (m : Fin 7 → WithBot ℝ) (σ t : Fin 7 → ℝ), (lspOf m σ t).get i = cap (pow10X (lspLog (m i) (σ i) (t i))) := by
  fin_cases i
  · exact ⟨id, measurable_id, fun _ _ _ => rfl⟩
  · exact ⟨(min · 104), measurable_id.min measurable_const, fun _ _ _ => rfl⟩
  · exact ⟨(min · 104), measurable_id.min measurable_const, fun _ _ _ => rfl⟩
  · exact ⟨id, measurable_id, fun _ _ _ => rfl⟩
  · exact ⟨id, measurable_id, fun _ _ _ => rfl⟩
  · exact ⟨(min · 52), measurable_id.min measurable_const, fun _ _ _ => rfl⟩
  · exact ⟨(min · 52), measurable_id.min measurable_const, fun _ _ _ => rfl⟩

theorem measurable_pow10X_lspLog (m : WithBot ℝ) (σ : ℝ) : Measurable fun t => pow10X (lspLog m σ t) := by
  induction m using WithBot.recBotCoe with
  | bot => exact measurable_const
  | coe m =>
    simp only [pow10X_lspLog_coe, pow10]
    fun_prop

/-- The full claim of C136: the parameters of some of the UTs, in any order, have the same joint law as if only those UTs were simulated, in
that order. -/
def C136_statement : Prop :=
  ∀ (cls : ScenarioClass) (a : ScenarioArgs) (c : Config), mkScenario cls a = .ok c → ∀ (U U' : ℕ) (los indoor : Fin U → Bool)
    (x y : Fin U → ℝ) (nb : Fin U → Bool) (κ : Fin U' → Fin U) (_ : ∀ u, ¬ (los u = true ∧ indoor u = true))
    (S : LspSetup c los indoor x y nb) (S' : LspSetup c (los ∘ κ) (indoor ∘ κ) (x ∘ κ) (y ∘ κ) (nb ∘ κ))
    (Ω Ω' : Type) (_ : MeasurableSpace Ω) (_ : MeasurableSpace Ω') (P : Measure Ω) (P' : Measure Ω') (_ : IsProbabilityMeasure P)
    (_ : IsProbabilityMeasure P') (s : Fin U × Fin 7 → Ω → ℝ) (s' : Fin U' × Fin 7 → Ω' → ℝ),
    Spec.StandardNormal P s → Spec.StandardNormal P' s' →
    IdentDistrib (fun ω u => (S'.sample (fun v k => s' (v, k) ω) u).get) (fun ω u => (S.sample (fun v k => s (v, k) ω) (κ u)).get) P' P

/-- C136, what holds: for each parameter, the joint law of its values for the selected UTs. Missing: the joint law of all parameters, see
`C136_violated`. -/
theorem C136_each_parameter_partial (h : mkScenario cls a = .ok c) (hli : ∀ u, ¬ (los u = true ∧ indoor u = true))
    (S : LspSetup c los indoor x y nb) (S' : LspSetup c (los ∘ κ) (indoor ∘ κ) (x ∘ κ) (y ∘ κ) (nb ∘ κ))
    {Ω Ω' : Type} [MeasurableSpace Ω] [MeasurableSpace Ω'] {P : Measure Ω} {P' : Measure Ω'} [IsProbabilityMeasure P] [IsProbabilityMeasure P']
    {s : Fin U × Fin 7 → Ω → ℝ} {s' : Fin U' × Fin 7 → Ω' → ℝ} (hs : Spec.StandardNormal P s) (hs' : Spec.StandardNormal P' s') (i : Fin 7) :
    IdentDistrib (fun ω u => (S'.sample (fun v k => s' (v, k) ω) u).get i) (fun ω u => (S.sample (fun v k => s (v, k) ω) (κ u)).get i) P' P := by
  have cov : ∀ {U : ℕ} {los indoor : Fin U → Bool} {x y : Fin U → ℝ} {nb : Fin U → Bool} (_ : ∀ u, ¬ (los u = true ∧ indoor u = true))
      (S : LspSetup c los indoor x y nb) (u v : Fin U) {C}, spatialCorrelationOf c los indoor x y i = .ok C →
      ∑ p : Fin U × Fin 7, (S.crossSqrt p.1 i p.2 * S.spatialSqrt i u p.1) * (S.crossSqrt p.1 i p.2 * S.spatialSqrt i v p.1) = C u v := by
    intro U los indoor x y nb hli S u v C hC
    choose R hR hL using S.cross_ok
    obtain ⟨C', hC', hS⟩ := S.spatial_ok i
    rw [hC] at hC'; cases hC'
    rw [correlateDraws_coef hL, ← hS.prod]
    refine Finset.sum_congr rfl fun w _ => ?_
    obtain ⟨R', e, hd, -⟩ := C05_cross_correlation_cholesky h (los w)
    rw [hR w] at e; cases e
    rw [hd, one_mul]
  obtain ⟨C, D, hC, hD, -, -, hspec⟩ := C28_spatial_correlation (x := x) (y := y) h hli i
  obtain ⟨C', D', hC', hD', -, -, hspec'⟩ := C28_spatial_correlation (x := x ∘ κ) (y := y ∘ κ) h (fun u => hli (κ u)) i
  have hDD : ∀ st, D st = D' st := fun st => Except.ok.inj ((hD st).2.symm.trans (hD' st).2)
  have hCC : ∀ u v, C' u v = C (κ u) (κ v) := fun u v => by
    rw [hspec, hspec']
    simp only [Spec.spatialCorr, Function.comp, hDD]
  have lin := StandardNormal.ident_lin hs' hs (fun u (p : Fin U' × Fin 7) => S'.crossSqrt p.1 i p.2 * S'.spatialSqrt i u p.1)
    (fun u (p : Fin U × Fin 7) => S.crossSqrt p.1 i p.2 * S.spatialSqrt i (κ u) p.1) (fun u v => by
      rw [cov hli S (κ u) (κ v) hC, cov (fun u => hli (κ u)) S' u v hC', hCC])
  obtain ⟨cap, hcap, hget⟩ := lspOf_get i
  have hmean : ∀ u, S'.mean u = S.mean (κ u) := fun u => Except.ok.inj ((S'.mean_ok u).symm.trans (S.mean_ok (κ u)))
  have hstd : ∀ u, S'.std u = S.std (κ u) := fun u => Except.ok.inj ((S'.std_ok u).symm.trans (S.std_ok (κ u)))
  have hφ : Measurable fun (g : Fin U' → ℝ) (u : Fin U') => cap (pow10X (lspLog (S.mean (κ u) i) (S.std (κ u) i) (g u))) :=
    measurable_pi_lambda _ fun u => hcap.comp ((measurable_pow10X_lspLog _ _).comp (measurable_pi_apply u))
  have e1 : (fun ω u => (S'.sample (fun v k => s' (v, k) ω) u).get i) =
      (fun (g : Fin U' → ℝ) (u : Fin U') => cap (pow10X (lspLog (S.mean (κ u) i) (S.std (κ u) i) (g u)))) ∘
        fun ω u => ∑ p : Fin U' × Fin 7, (S'.crossSqrt p.1 i p.2 * S'.spatialSqrt i u p.1) * s' p ω := by
    funext ω u
    unfold LspSetup.sample
    rw [hget, hmean, hstd, correlateDraws_lin]
    rfl
  have e2 : (fun ω u => (S.sample (fun v k => s (v, k) ω) (κ u)).get i) =
      (fun (g : Fin U' → ℝ) (u : Fin U') => cap (pow10X (lspLog (S.mean (κ u) i) (S.std (κ u) i) (g u)))) ∘
        fun ω u => ∑ p : Fin U × Fin 7, (S.crossSqrt p.1 i p.2 * S.spatialSqrt i (κ u) p.1) * s p ω := by
    funext ω u
    unfold LspSetup.sample
    rw [hget, correlateDraws_lin]
    rfl
  rw [e1, e2]
  exact lin.comp hφ

/-- The hypotheses are met by two UTs exchanged. -/
example : ∃ c, mkScenario .denseUrban (exArgs 2000000000 "uplink" 50) = .ok c ∧
    Nonempty (LspSetup c (fun _ : Fin 2 => true) (fun _ => false) ![0, 10] ![0, 0] (fun _ => true)) ∧
    Nonempty (LspSetup c ((fun _ : Fin 2 => true) ∘ ![1, 0]) ((fun _ => false) ∘ ![1, 0]) (![0, 10] ∘ ![1, 0]) (![0, 0] ∘ ![1, 0])
      ((fun _ => true) ∘ ![1, 0])) ∧
    ∃ P : Measure (Fin 2 × Fin 7 → ℝ), IsProbabilityMeasure P ∧ Spec.StandardNormal P (fun k ω => ω k) := by
  obtain ⟨c, h, S, -⟩ := exPair
  refine ⟨c, h, ⟨S⟩, lspSetup_exists h (by simp) ?_ _, exists_standardNormal _⟩
  intro m n _ hx _
  fin_cases m <;> fin_cases n <;> simp_all

/-- C136 fails for the second of two UTs 10 m apart: on its own its delay spread and K-factor have the tabulated correlation of -0.4, as second
UT of the pair they have another. -/
theorem C136_violated : ¬ C136_statement := by
  intro H
  obtain ⟨c, h, S, ⟨m0, h0⟩, ⟨m4, h4⟩, hσ0, hσ4, ⟨R, hR, hR04⟩, C0, C4, f0, f4, hne⟩ := exPair
  have hli : ∀ u : Fin 2, ¬ ((fun _ : Fin 2 => true) u = true ∧ (fun _ : Fin 2 => false) u = true) := by simp
  set κ : Fin 1 → Fin 2 := fun _ => 1 with hκ
  obtain ⟨S'⟩ : Nonempty (LspSetup c ((fun _ : Fin 2 => true) ∘ κ) ((fun _ : Fin 2 => false) ∘ κ) ((![0, 10] : Fin 2 → ℝ) ∘ κ)
      ((![0, 0] : Fin 2 → ℝ) ∘ κ) ((fun _ : Fin 2 => true) ∘ κ)) :=
    lspSetup_exists h (by simp) (fun m n _ _ _ => Subsingleton.elim m n) _
  obtain ⟨P, hP, hs⟩ := exists_standardNormal (Fin 2 × Fin 7)
  obtain ⟨P', hP', hs'⟩ := exists_standardNormal (Fin 1 × Fin 7)
  have hid := H _ _ c h 2 1 _ _ _ _ _ κ hli S S' _ _ _ _ P P' hP hP' _ _ hs hs'
  obtain ⟨g, hg, -, -, q, hcov, -, -, -, hconv⟩ := C27_lsp_statistics_partial h hli S hs
  obtain ⟨g', hg', -, -, q', hcov', -, hone', -, -⟩ := C27_lsp_statistics_partial h (fun u => hli (κ u)) S' hs'
  have hmean : S'.mean 0 = S.mean 1 := Except.ok.inj ((S'.mean_ok 0).symm.trans (S.mean_ok 1))
  have hstd : S'.std 0 = S.std 1 := Except.ok.inj ((S'.std_ok 0).symm.trans (S.std_ok 1))
  -- the product of the normalised logarithms
  set f : (Fin 1 → Fin 7 → ℝ) → ℝ := fun v => (log10 (v 0 0) - m0) / S.std 1 0 * ((log10 (v 0 4) - m4) / S.std 1 4) with hf
  have hfm : Measurable f := by
    rw [hf]
    unfold log10
    fun_prop
  have e1 : ∀ ω, f (fun u => (S'.sample (fun v k => ω (v, k)) u).get) = g' 0 0 ω * g' 0 4 ω := by
    intro ω
    have a0 := hg' 0 0 ω m0 (hmean ▸ h0) (WithTop.coe_lt_top _)
    have a4 := hg' 0 4 ω m4 (hmean ▸ h4) (WithTop.coe_lt_top _)
    rw [hstd] at a0 a4
    simp only [hf]
    rw [a0, a4]
    field_simp
    ring
  have e2 : ∀ ω, f (fun u => (S.sample (fun v k => ω (v, k)) (κ u)).get) = g 1 0 ω * g 1 4 ω := by
    intro ω
    have a0 := hg 1 0 ω m0 h0 (WithTop.coe_lt_top _)
    have a4 := hg 1 4 ω m4 h4 (WithTop.coe_lt_top _)
    simp only [hf, hκ]
    rw [a0, a4]
    field_simp
    ring
  have hint := (hid.comp hfm).integral_eq
  simp only [Function.comp, e1, e2] at hint
  have c1 := hcov 1 0 4 R hR
  have c2 := hcov' 0 0 4 R hR
  rw [hone' 0 0 4 (fun v hv => absurd hv (Fin.not_lt_zero v)), one_mul] at c2
  rw [← hint, c2, hR04] at c1
  exact hne (hconv 1 0 0 4 (by linarith) (by intro v hv; exact absurd hv (Fin.not_lt_zero v)) C0 C4 f0 f4)

end OpenNTN
