import Verif.Props.Lsp
import Verif.Props.RayLaw

/-
C155: joint law of the large-scale parameters.
-/
namespace OpenNTN

open MeasureTheory ProbabilityTheory

/-- A large-scale parameter from its logarithm: spreads of azimuths are capped at 104 degrees, spreads of zeniths at 52 degrees (TR 38.901, 7.5, step 4). -/
noncomputable def Spec.lspOfLog (i : Fin 7) (z : ℝ) : ℝ :=
  match i with
  | 0 | 3 | 4 => (10 : ℝ) ^ z
  | 1 | 2 => min ((10 : ℝ) ^ z) 104
  | 5 | 6 => min ((10 : ℝ) ^ z) 52

variable {cls : ScenarioClass} {a : ScenarioArgs} {c : Config} {U : ℕ} {los indoor : Fin U → Bool} {x y : Fin U → ℝ}
  {nb : Fin U → Bool}

theorem sample_get (S : LspSetup c los indoor x y nb) (s : Fin U → Fin 7 → ℝ) (u : Fin U) (i : Fin 7) :
    (∀ m : ℝ, S.mean u i = m → (S.sample s u).get i = Spec.lspOfLog i (m + S.std u i * correlateDraws S.crossSqrt S.spatialSqrt s u i)) ∧
    (S.mean u i = ⊥ → (S.sample s u).get i = 0) := by
  set t := correlateDraws S.crossSqrt S.spatialSqrt s u i with ht
  constructor
  · intro m hm
    have hraw : pow10X (lspLog (S.mean u i) (S.std u i) t) = (10 : ℝ) ^ (m + S.std u i * t) := by
      rw [hm, pow10X_lspLog_coe, add_comm]; rfl
    fin_cases i <;> simp only [Spec.lspOfLog] <;> rw [← hraw] <;> rfl
  · intro hm
    have hraw : pow10X (lspLog (S.mean u i) (S.std u i) t) = 0 := by rw [hm, pow10X_lspLog_bot]
    have h104 : min (0 : ℝ) 104 = 0 := by norm_num
    have h52 : min (0 : ℝ) 52 = 0 := by norm_num
    fin_cases i
    · exact hraw
    · rw [← h104, ← hraw]; rfl
    · rw [← h104, ← hraw]; rfl
    · exact hraw
    · exact hraw
    · rw [← h52, ← hraw]; rfl
    · rw [← h52, ← hraw]; rfl

theorem measurable_lspOfLog (i : Fin 7) : Measurable (Spec.lspOfLog i) := by
  have h0 : Measurable fun z : ℝ => (10 : ℝ) ^ z := by fun_prop
  have h1 : ∀ r : ℝ, Measurable fun z : ℝ => min ((10 : ℝ) ^ z) r := fun r => by fun_prop
  fin_cases i
  exacts [h0, h1 104, h1 104, h0, h0, h1 52, h1 52]

/-- The parameters of a UT as a function of the normal variables of the UTs. -/
theorem measurable_sample (S : LspSetup c los indoor x y nb) (u : Fin U) (i : Fin 7) :
    Measurable fun s : Fin U → Fin 7 → ℝ => (S.sample s u).get i := by
  have hm : Measurable fun s : Fin U → Fin 7 → ℝ => correlateDraws S.crossSqrt S.spatialSqrt s u i := by
    unfold correlateDraws
    fun_prop
  cases hq : S.mean u i using WithBot.recBotCoe with
  | bot =>
    have : (fun s : Fin U → Fin 7 → ℝ => (S.sample s u).get i) = fun _ => 0 := funext fun s => (sample_get S s u i).2 hq
    rw [this]
    exact measurable_const
  | coe m =>
    have : (fun s : Fin U → Fin 7 → ℝ => (S.sample s u).get i) =
        fun s => Spec.lspOfLog i (m + S.std u i * correlateDraws S.crossSqrt S.spatialSqrt s u i) := funext fun s => (sample_get S s u i).1 m hq
    rw [this]
    exact (measurable_lspOfLog i).comp (by fun_prop)

/-- **C155.** Behind the large-scale parameters of all UTs are jointly normal variables with mean zero and variance one: parameter `i` of UT `u` is
ten to the tabulated mean plus deviation times its variable, capped; its law follows. Two variables are correlated as the table says for the two parameters,
times the product of the rows of the factors of the two spatial correlation matrices; for one parameter of two UTs this is the spatial correlation. The
parameters of the UTs in one state (LoS, NLoS, indoor) are independent of the parameters of all other UTs. -/
theorem C155_joint_law (h : mkScenario cls a = .ok c) (hli : ∀ u, ¬ (los u = true ∧ indoor u = true))
    (S : LspSetup c los indoor x y nb) {Ω : Type} [MeasurableSpace Ω] {P : Measure Ω} [IsProbabilityMeasure P]
    {s : Fin U × Fin 7 → Ω → ℝ} (hs : Spec.StandardNormal P s) :
    let X : Fin U → Fin 7 → Ω → ℝ := fun u i ω => (S.sample (fun v k => s (v, k) ω) u).get i
    let state := fun u => Spec.utState (los u) (indoor u)
    (∃ g : Fin U × Fin 7 → Ω → ℝ,
      (∀ u i ω (m : ℝ), S.mean u i = m → X u i ω = Spec.lspOfLog i (m + S.std u i * g (u, i) ω)) ∧
      HasGaussianLaw (fun ω p => g p ω) P ∧ (∀ p, HasLaw (g p) (gaussianReal 0 1) P) ∧
      (∀ u v i j R, crossLspCorrelation c (los u) = .ok R → ∃ q, cov[g (u, i), g (v, j); P] = q * R i j ∧
        q = ∑ w, S.spatialSqrt i u w * S.spatialSqrt j v w ∧ |q| ≤ 1 ∧ (state u ≠ state v → q = 0) ∧
        (i = j → ∀ C, spatialCorrelationOf c los indoor x y i = .ok C → q = C u v))) ∧
    (∀ u i (m : ℝ), S.mean u i = m → HasLaw (X u i) ((gaussianReal m (S.std u i ^ 2).toNNReal).map (Spec.lspOfLog i)) P) ∧
    (∀ u i, S.mean u i = ⊥ → ∀ ω, X u i ω = 0) ∧
    ∀ σ, IndepFun (fun ω (u : {u // state u = σ}) i => X u i ω) (fun ω (u : {u // state u ≠ σ}) i => X u i ω) P := by
  intro X state
  choose R hR hL using S.cross_ok
  choose C hC hS using S.spatial_ok
  have hspec := fun i => C28_spatial_correlation (x := x) (y := y) h hli i
  have hCdiag : ∀ i u, C i u u = 1 := fun i u => by
    obtain ⟨C', D, e, -, -, hd, -⟩ := hspec i
    have : C i = C' := by have := (hC i).symm.trans e; simpa using this
    rw [this]; exact hd u
  have hCzero : ∀ i u v, ¬ state u = state v → C i u v = 0 := fun i u v hne => by
    obtain ⟨C', D, e, -, -, -, hc⟩ := hspec i
    have : C i = C' := by have := (hC i).symm.trans e; simpa using this
    rw [this, hc]; exact if_neg hne
  have hblock : ∀ i u v, ¬ state u = state v → S.spatialSqrt i u v = 0 := fun i => cholesky_block (hS i) (fun u v => state u = state v)
    (fun _ _ h => h.symm) (fun _ _ _ h1 h2 => h1.trans h2) (fun u v => hCzero i u v)
  have hstate : ∀ u v, state u = state v → los u = los v := by
    intro u v huv
    have hu := hli u; have hv := hli v
    revert huv hu hv
    unfold state Spec.utState
    cases los u <;> cases indoor u <;> cases los v <;> cases indoor v <;> simp
  have hRR : ∀ u v, los u = los v → R u = R v := fun u v huv => by
    have := (hR u).symm.trans (huv ▸ hR v); simpa using this
  have hRdiag : ∀ u i, R u i i = 1 := fun u i => by
    obtain ⟨R', e, hd, -⟩ := C05_cross_correlation_cholesky h (los u)
    have : R u = R' := by have := (hR u).symm.trans e; simpa using this
    rw [this]; exact hd i
  have hrow : ∀ i u, ∑ v, S.spatialSqrt i u v * S.spatialSqrt i u v = 1 := fun i u => by
    rw [(hS i).prod]; exact hCdiag i u
  let g : Fin U × Fin 7 → Ω → ℝ := fun p ω => correlateDraws S.crossSqrt S.spatialSqrt (fun v k => s (v, k) ω) p.1 p.2
  have hlin : ∀ p, g p = fun ω => ∑ k : Fin U × Fin 7, (S.crossSqrt k.1 p.2 k.2 * S.spatialSqrt p.2 p.1 k.1) * s k ω := fun p => by
    funext ω; exact correlateDraws_lin _ _ _ _ _
  have hlaw : ∀ p, HasLaw (g p) (gaussianReal 0 1) P := by
    intro p
    have := StandardNormal.law_lin hs (fun k : Fin U × Fin 7 => S.crossSqrt k.1 p.2 k.2 * S.spatialSqrt p.2 p.1 k.1)
    have e : ∑ k : Fin U × Fin 7, (S.crossSqrt k.1 p.2 k.2 * S.spatialSqrt p.2 p.1 k.1) ^ 2 = 1 := by
      have := correlateDraws_coef hL S.spatialSqrt p.1 p.1 p.2 p.2
      simp only [hRdiag, one_mul, hrow] at this
      simpa only [sq] using this
    rw [e] at this
    rw [hlin]
    simpa using this
  have hjoint : HasGaussianLaw (fun ω p => g p ω) P := by
    have hj : HasGaussianLaw (fun ω => (s · ω)) P := iIndepFun.hasGaussianLaw (fun k => (hs.law k).hasGaussianLaw) hs.indep
    have := hj.map_fun (ContinuousLinearMap.pi fun p : Fin U × Fin 7 =>
      ∑ k : Fin U × Fin 7, (S.crossSqrt k.1 p.2 k.2 * S.spatialSqrt p.2 p.1 k.1) • ContinuousLinearMap.proj (R := ℝ) (φ := fun _ : Fin U × Fin 7 => ℝ) k)
    have e : (fun ω p => g p ω) = fun ω => (ContinuousLinearMap.pi fun p : Fin U × Fin 7 =>
      ∑ k : Fin U × Fin 7, (S.crossSqrt k.1 p.2 k.2 * S.spatialSqrt p.2 p.1 k.1) • ContinuousLinearMap.proj (R := ℝ) (φ := fun _ : Fin U × Fin 7 => ℝ) k)
        (s · ω) := by
      funext ω p
      rw [hlin]
      simp [_root_.sum_apply]
    rw [e]
    exact this
  have hmean : ∀ p, ∫ ω, g p ω ∂P = 0 := fun p => by rw [(hlaw p).integral_eq, integral_id_gaussianReal]
  have hmem : ∀ p, MemLp (g p) 2 P := fun p => by
    have h1 : MemLp id 2 (P.map (g p)) := by rw [(hlaw p).map_eq]; exact memLp_id_gaussianReal 2
    exact (memLp_map_measure_iff (by fun_prop) (hlaw p).aemeasurable).1 h1
  have hX : ∀ u i ω (m : ℝ), S.mean u i = m → X u i ω = Spec.lspOfLog i (m + S.std u i * g (u, i) ω) := fun u i ω m hm => (sample_get S _ u i).1 m hm
  refine ⟨⟨g, hX, hjoint, hlaw, ?_⟩, ?_, fun u i hm ω => (sample_get S _ u i).2 hm, ?_⟩
  · intro u v i j R' hR'
    have hRR' : R u = R' := by have := (hR u).symm.trans hR'; simpa using this
    refine ⟨_, ?_, rfl, ?_, ?_, ?_⟩
    · rw [covariance_eq_sub (hmem _) (hmem _), hmean, zero_mul, sub_zero]
      simp only [Pi.mul_apply, hlin]
      rw [StandardNormal.inner_lin hs, correlateDraws_coef hL, Finset.sum_mul]
      refine Finset.sum_congr rfl fun w _ => ?_
      by_cases hw : state u = state w
      · rw [hRR w u (hstate _ _ hw.symm), hRR']; ring
      · rw [hblock i u w hw]; ring
    · rw [← sq_le_one_iff_abs_le_one]
      refine (Finset.sum_mul_sq_le_sq_mul_sq _ _ _).trans ?_
      have := hrow i u; have := hrow j v
      simp only [sq]; simp only [*]; norm_num
    · intro huv
      refine Finset.sum_eq_zero fun w _ => ?_
      by_cases hw : state u = state w
      · rw [hblock j v w fun e => huv (hw.trans e.symm), mul_zero]
      · rw [hblock i u w hw, zero_mul]
    · rintro rfl C' hC'
      have hCC : C i = C' := by have := (hC i).symm.trans hC'; simpa using this
      rw [(hS i).prod, hCC]
  · intro u i m hm
    have h1 := normal_affine (hlaw (u, i)) m (S.std u i)
    have e : X u i = Spec.lspOfLog i ∘ fun ω => m + S.std u i * g (u, i) ω := funext fun ω => hX u i ω m hm
    refine ⟨?_, ?_⟩
    · rw [e]; exact (measurable_lspOfLog i).comp_aemeasurable h1.aemeasurable
    · rw [e, ← AEMeasurable.map_map_of_aemeasurable (measurable_lspOfLog i).aemeasurable h1.aemeasurable, h1.map_eq]
  · intro σ
    classical
    let A : Finset (Fin U × Fin 7) := Finset.univ.filter fun p => state p.1 = σ
    let B : Finset (Fin U × Fin 7) := Finset.univ.filter fun p => state p.1 ≠ σ
    have hAB : Disjoint A B := by
      rw [Finset.disjoint_filter]
      exact fun p _ h1 h2 => h2 h1
    have hind := hs.indep.indepFun_finset₀ A B hAB fun k => (hs.law k).aemeasurable
    -- the parameters of a UT depend on the draws of UTs in its state only
    have dep : ∀ (q : Fin U → Prop) [DecidablePred q] (t : Fin U → Fin 7 → ℝ) (u : Fin U), (∀ v, state v = state u → q v) →
        S.sample t u = S.sample (fun v k => if q v then t v k else 0) u := by
      intro q _ t u hq
      unfold LspSetup.sample
      congr 1
      funext i
      rw [correlateDraws_lin, correlateDraws_lin]
      refine Finset.sum_congr rfl fun p _ => ?_
      by_cases hp : state p.1 = state u
      · rw [if_pos (hq _ hp)]
      · rw [hblock i u p.1 fun e => hp e.symm]; ring
    have mk : ∀ (q : Fin U → Prop) [DecidablePred q] (D : Finset (Fin U × Fin 7)) (hD : ∀ p, p ∈ D ↔ q p.1) (hq : ∀ u v, state v = state u → q u → q v),
        ∃ F : (D → ℝ) → ({u // q u} → Fin 7 → ℝ), Measurable F ∧ (fun ω (u : {u // q u}) i => X u i ω) = F ∘ fun ω (k : D) => s k ω := by
      intro q _ D hD hq
      refine ⟨fun t u i => (S.sample (fun v k => if hv : q v then t ⟨(v, k), (hD _).2 hv⟩ else 0) u).get i, ?_, ?_⟩
      · refine measurable_pi_lambda _ fun u => measurable_pi_lambda _ fun i => (measurable_sample S u i).comp ?_
        refine measurable_pi_lambda _ fun v => measurable_pi_lambda _ fun k => ?_
        by_cases hv : q v
        · simp only [hv, dite_true]; exact measurable_pi_apply _
        · simp only [hv, dite_false]; exact measurable_const
      · funext ω u i
        simp only [X, Function.comp]
        rw [dep q _ u fun v hv => hq u v hv u.2]
        rfl
    obtain ⟨F, hF, eF⟩ := mk (fun u => state u = σ) A (fun p => by simp [A]) (fun u v e h => e.trans h)
    obtain ⟨G, hG, eG⟩ := mk (fun u => state u ≠ σ) B (fun p => by simp [B]) (fun u v e h h' => h (e.symm.trans h'))
    rw [eF, eG]
    exact hind.comp hF hG

/-- Non-vacuity: in uplink, with two LoS UTs ten metres apart and an NLoS UT. -/
example : ∃ c, mkScenario .urban (exArgs 2000000000 "uplink" 45) = .ok c ∧
    Nonempty (LspSetup c ![true, true, false] (fun _ => false) ![0, 10, 10] (fun _ => 0) (fun _ => true)) ∧
    (∀ u : Fin 3, ¬ ((![true, true, false] : Fin 3 → Bool) u = true ∧ false = true)) ∧
    ∃ P : Measure (Fin 3 × Fin 7 → ℝ), IsProbabilityMeasure P ∧ Spec.StandardNormal P (fun k ω => ω k) := by
  obtain ⟨c, h⟩ : ∃ c, mkScenario .urban (exArgs 2000000000 "uplink" 45) = .ok c := by
    simpa using exArgs_ok .urban true false 45 (by norm_num) (by norm_num)
  refine ⟨c, h, lspSetup_exists h (by simp) (fun m n => ?_) _, by simp, exists_standardNormal _⟩
  fin_cases m <;> fin_cases n <;> simp [Spec.utState]

end OpenNTN
