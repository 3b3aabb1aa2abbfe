import Verif.Lemmas.Lsp
import Verif.Props.Config

/-
Properties C26-C30: large-scale parameters.
-/
namespace OpenNTN

open MeasureTheory ProbabilityTheory

theorem pow10_pos (x : ℝ) : 0 < pow10 x := Real.rpow_pos_of_pos (by norm_num) _

theorem pow10X_nonneg (x : WithBot ℝ) : 0 ≤ pow10X x := by
  induction x using WithBot.recBotCoe with
  | bot => exact le_refl _
  | coe a => exact (pow10_pos a).le

theorem pow10X_lspLog_coe (m σ s : ℝ) : pow10X (lspLog (m : WithBot ℝ) σ s) = pow10 (σ * s + m) := rfl
theorem pow10X_lspLog_bot (σ s : ℝ) : pow10X (lspLog ⊥ σ s) = 0 := rfl

variable {cls : ScenarioClass} {a : ScenarioArgs} {c : Config} {U : ℕ} {los indoor : Fin U → Bool} {x y : Fin U → ℝ}
  {nb : Fin U → Bool}

/-- C28: the spatial correlation matrix is the specified one: symmetric, unit diagonal, `exp(-distance/D)` with the
correlation distance `D` of the common state, zero across states. -/
theorem C28_spatial_correlation (h : mkScenario cls a = .ok c) (hli : ∀ u, ¬ (los u = true ∧ indoor u = true)) (i : Fin 7) :
    ∃ (C : Fin U → Fin U → ℝ) (D : Spec.UtState → ℝ), spatialCorrelationOf c los indoor x y i = .ok C ∧
      (∀ s, 0 < D s ∧ c.getReal (corrDistParam i) (decide (s = .los)) = .ok (D s)) ∧
      (∀ m n, C m n = C n m) ∧ (∀ m, C m m = 1) ∧
      ∀ m n, C m n = Spec.spatialCorr (fun u => Spec.utState (los u) (indoor u)) D x y m n := by
  obtain ⟨dl, dn, pl, pn, el, en, e⟩ := spatialCorrelationOf_ok h los indoor x y i
  have key := spatialCorrelation_spec los indoor hli dl dn x y
  refine ⟨_, fun s => if s = .los then dl else dn, e, ?_, ?_, ?_, key⟩
  · intro s; cases s <;> simp [pl, pn, el, en]
  · intro m n
    rw [key, key]
    unfold Spec.spatialCorr
    by_cases hs : Spec.utState (los m) (indoor m) = Spec.utState (los n) (indoor n)
    · simp only [hs, if_true]
      congr 4; ring
    · rw [if_neg hs, if_neg (Ne.symm hs)]
  · intro m
    rw [key]; simp [Spec.spatialCorr]

/-- Both cases of C28 occur: three UTs, one of them indoor, the others LoS. -/
example : (∀ u, ¬ ((![true, true, false] : Fin 3 → Bool) u = true ∧ (![false, false, true] : Fin 3 → Bool) u = true)) ∧
    Spec.utState true false = Spec.utState true false ∧ Spec.utState true false ≠ Spec.utState false true ∧
    ∃ c, mkScenario .urban (exArgs 2000000000 "uplink" 45) = .ok c := by
  refine ⟨by decide, rfl, by decide, ?_⟩
  simpa using exArgs_ok .urban true false 45 (by norm_num) (by norm_num)

/-- C29: the spatial correlation matrix is positive semi-definite; its factor exists exactly when no two UTs in the same state
share a planar position. -/
theorem C29_spatial_psd (h : mkScenario cls a = .ok c) (hli : ∀ u, ¬ (los u = true ∧ indoor u = true)) (i : Fin 7) :
    ∃ C : Fin U → Fin U → ℝ, spatialCorrelationOf c los indoor x y i = .ok C ∧
      (∀ w : Fin U → ℝ, 0 ≤ ∑ m, ∑ n, C m n * w m * w n) ∧
      ((∃ L, IsCholesky C L) ↔ ∀ m n, Spec.utState (los m) (indoor m) = Spec.utState (los n) (indoor n) →
        x m = x n → y m = y n → m = n) ∧
      ((∃ m n, m ≠ n ∧ Spec.utState (los m) (indoor m) = Spec.utState (los n) (indoor n) ∧ x m = x n ∧ y m = y n) →
        (Matrix.of C).det = 0) := by
  obtain ⟨C, D, e, hD, hsym, hdiag, hC⟩ := C28_spatial_correlation (x := x) (y := y) h hli i
  have hq := spatialCorr_quad (fun u => Spec.utState (los u) (indoor u)) D (fun s => (hD s).1) x y
  have hCC : C = Spec.spatialCorr (fun u => Spec.utState (los u) (indoor u)) D x y := by funext m n; exact hC m n
  have hrow : ∀ m n, Spec.utState (los m) (indoor m) = Spec.utState (los n) (indoor n) → x m = x n → y m = y n →
      ∀ k, C m k = C n k := by
    intro m n hs hx hy k
    rw [hC, hC]; simp only [Spec.spatialCorr, hs, hx, hy]
  refine ⟨C, e, fun w => hCC ▸ (hq w).1, ⟨?_, ?_⟩, ?_⟩
  · rintro ⟨L, hL⟩ m n hs hx hy
    by_contra hmn
    have key : ∀ m n, m < n → (∀ k, C m k = C n k) → False := by
      intro m n hlt hr
      have h0 : ∑ k, (L m k - L n k) ^ 2 = 0 := by
        have e1 : ∑ k, (L m k - L n k) ^ 2 = ∑ k, L m k * L m k - 2 * ∑ k, L m k * L n k + ∑ k, L n k * L n k := by
          rw [Finset.mul_sum, ← Finset.sum_sub_distrib, ← Finset.sum_add_distrib]
          exact Finset.sum_congr rfl fun k _ => by ring
        rw [e1, hL.prod, hL.prod, hL.prod, hdiag, hdiag, hr n, hdiag]; norm_num
      have h1 := (Finset.sum_eq_zero_iff_of_nonneg (fun k _ => sq_nonneg (L m k - L n k))).1 h0 n (Finset.mem_univ _)
      rw [hL.lower m n hlt] at h1
      have := hL.diag n
      simp at h1; exact this.ne' h1
    rcases lt_or_gt_of_ne hmn with hlt | hgt
    · exact key m n hlt (hrow m n hs hx hy)
    · exact key n m hgt fun k => (hrow m n hs hx hy k).symm
  · intro hd
    refine exists_cholesky U C hsym fun w hw => ?_
    have := (hq w).2 hd hw
    rw [← hCC] at this
    exact this
  · rintro ⟨m, n, hmn, hs, hx, hy⟩
    exact Matrix.det_zero_of_row_eq hmn (by funext k; exact hrow m n hs hx hy k)

/-- Both sides of C29 occur. -/
example : (∀ m n : Fin 2, Spec.utState ((fun _ => true) m) false = Spec.utState ((fun _ => true) n) false →
      (![0, 10] : Fin 2 → ℝ) m = ![0, 10] n → (0 : ℝ) = 0 → m = n) ∧
    (∃ m n : Fin 2, m ≠ n ∧ Spec.utState true false = Spec.utState true false ∧ (0 : ℝ) = 0 ∧ (0 : ℝ) = 0) := by
  refine ⟨?_, ⟨0, 1, by decide, rfl, rfl, rfl⟩⟩
  intro m n _ hx _
  fin_cases m <;> fin_cases n <;> simp_all

/-- The state behind every sample exists whenever no two UTs in the same state share a planar position. -/
theorem lspSetup_exists (h : mkScenario cls a = .ok c) (hli : ∀ u, ¬ (los u = true ∧ indoor u = true))
    (hd : ∀ m n, Spec.utState (los m) (indoor m) = Spec.utState (los n) (indoor n) → x m = x n → y m = y n → m = n)
    (nb : Fin U → Bool) : Nonempty (LspSetup c los indoor x y nb) := by
  have h1 : ∀ u, ∃ L R, crossLspCorrelation c (los u) = .ok R ∧ IsCholesky R L := fun u => by
    obtain ⟨R, e, -, -, -, L, hL, -⟩ := C05_cross_correlation_cholesky h (los u)
    exact ⟨L, R, e, hL⟩
  have h2 : ∀ i, ∃ L C, spatialCorrelationOf c los indoor x y i = .ok C ∧ IsCholesky C L := fun i => by
    obtain ⟨C, e, -, hL, -⟩ := C29_spatial_psd (x := x) (y := y) h hli i
    obtain ⟨L, hL⟩ := hL.2 hd
    exact ⟨L, C, e, hL⟩
  have h3 : ∀ u, ∃ μ, lspLogMean c (los u) = .ok μ := fun u => by
    obtain ⟨μ, _, _, _, _, e, -⟩ := lspLogMean_ok h (los u); exact ⟨μ, e⟩
  have h4 : ∀ u, ∃ σ, lspLogStd c (los u) (nb u) = .ok σ := fun u => by
    obtain ⟨σ, e, -⟩ := lspLogStd_ok h (los u) (nb u); exact ⟨σ, e⟩
  choose L1 h1 using h1
  choose L2 h2 using h2
  choose L3 h3 using h3
  choose L4 h4 using h4
  exact ⟨⟨L1, L2, L3, L4, h1, h2, h3, h4⟩⟩

/-- C26: every sample of every UT is in its physical range, whatever the draws. -/
theorem C26_lsp_ranges (h : mkScenario cls a = .ok c) (S : LspSetup c los indoor x y nb) (s : Fin U → Fin 7 → ℝ) (u : Fin U) :
    let v := S.sample s u
    0 < v.ds ∧ 0 < v.sf ∧ 0 < v.kFactor ∧ (0 < v.asa ∧ v.asa ≤ 104) ∧ (0 ≤ v.asd ∧ v.asd ≤ 104) ∧
    (0 < v.zsa ∧ v.zsa ≤ 52) ∧ (0 ≤ v.zsd ∧ v.zsd ≤ 52) ∧
    (a.direction = "downlink" → v.asd = 0 ∧ v.zsd = 0) ∧ (a.direction = "uplink" → 0 < v.asd ∧ 0 < v.zsd) := by
  intro v
  obtain ⟨μ, m0, m2, m4, m5, e, -, -, -, -, e1, e6, h0, h2, h3, h4, h5⟩ := lspLogMean_ok h (los u)
  have hμ : S.mean u = μ := by have := (S.mean_ok u).symm.trans e; simpa using this
  set t := correlateDraws S.crossSqrt S.spatialSqrt s u with ht
  have hv : v = lspOf μ (S.std u) t := by rw [← hμ]; rfl
  obtain ⟨hup, hdn⟩ := departure_ok h (los u)
  have pos : ∀ (i : Fin 7) (m : ℝ), μ i = m → 0 < pow10X (lspLog (μ i) (S.std u i) (t i)) := by
    intro i m hm; rw [hm, pow10X_lspLog_coe]; exact pow10_pos _
  rw [hv]
  refine ⟨pos 0 _ h0, pos 3 _ h3, pos 4 _ h4, ⟨lt_min (pos 2 _ h2) (by norm_num), min_le_right _ _⟩,
    ⟨le_min (pow10X_nonneg _) (by norm_num), min_le_right _ _⟩, ⟨lt_min (pos 5 _ h5) (by norm_num), min_le_right _ _⟩,
    ⟨le_min (pow10X_nonneg _) (by norm_num), min_le_right _ _⟩, fun hd => ?_, fun hd => ?_⟩
  · obtain ⟨b1, b6, -⟩ := hdn hd
    have c1 : μ 1 = ⊥ := by have := e1.symm.trans b1; simpa using this
    have c6 : μ 6 = ⊥ := by have := e6.symm.trans b6; simpa using this
    unfold lspOf
    simp only [c1, c6, pow10X_lspLog_bot]
    constructor <;> norm_num
  · obtain ⟨⟨y1, b1⟩, ⟨y6, b6, -⟩⟩ := hup hd
    have c1 : μ 1 = y1 := by have := e1.symm.trans b1; simpa using this
    have c6 : μ 6 = y6 := by have := e6.symm.trans b6; simpa using this
    exact ⟨lt_min (pos 1 _ c1) (by norm_num), lt_min (pos 6 _ c6) (by norm_num)⟩

/-- C26 applies to two LoS UTs 10 m apart, in both directions. -/
example (up : Bool) : ∃ c, mkScenario .denseUrban (exArgs 2000000000 (if up then "uplink" else "downlink") 50) = .ok c ∧
    Nonempty (LspSetup c (fun _ : Fin 2 => true) (fun _ => false) ![0, 10] ![0, 0] (fun _ => true)) := by
  obtain ⟨c, hc⟩ : ∃ c, mkScenario .denseUrban (exArgs 2000000000 (if up then "uplink" else "downlink") 50) = .ok c := by
    simpa using exArgs_ok .denseUrban up false 50 (by norm_num) (by norm_num)
  refine ⟨c, hc, lspSetup_exists hc (by simp) ?_ _⟩
  intro m n _ hx _
  fin_cases m <;> fin_cases n <;> simp_all

/-- The LSPs in code order. -/
def LspValues.get (v : LspValues) : Fin 7 → ℝ := ![v.ds, v.asd, v.asa, v.sf, v.kFactor, v.zsa, v.zsd]

/-- The caps on the LSPs in code order. -/
noncomputable def lspCap : Fin 7 → WithTop ℝ := ![⊤, ((104 : ℝ) : WithTop ℝ), ((104 : ℝ) : WithTop ℝ), ⊤, ⊤, ((52 : ℝ) : WithTop ℝ), ((52 : ℝ) : WithTop ℝ)]

theorem log10_pow10 (t : ℝ) : log10 (pow10 t) = t := by
  unfold log10 pow10
  rw [Real.log_rpow (by norm_num)]
  have : Real.log 10 ≠ 0 := (Real.log_pos (by norm_num)).ne'
  field_simp

/-- The full claim of C27, as expectations over independent standard normal draws: there are normal variables `g u i` behind
the parameters such that below the caps `log10` of parameter `i` of UT `u` is `mean + deviation * g u i`, each `g u i` is
standard normal, and parameters `i`, `j` of one UT have the tabulated correlation. -/
def C27_statement : Prop :=
  ∀ (cls : ScenarioClass) (a : ScenarioArgs) (c : Config), mkScenario cls a = .ok c → ∀ (U : ℕ) (los indoor : Fin U → Bool)
    (x y : Fin U → ℝ) (nb : Fin U → Bool) (_ : ∀ u, ¬ (los u = true ∧ indoor u = true)) (S : LspSetup c los indoor x y nb)
    (Ω : Type) (_ : MeasurableSpace Ω) (P : Measure Ω) (_ : IsProbabilityMeasure P) (s : Fin U × Fin 7 → Ω → ℝ),
    Spec.StandardNormal P s →
    ∃ g : Fin U → Fin 7 → Ω → ℝ,
      (∀ u i ω (m : ℝ), S.mean u i = m → (((S.sample (fun v k => s (v, k) ω) u).get i : ℝ) : WithTop ℝ) < lspCap i →
        log10 ((S.sample (fun v k => s (v, k) ω) u).get i) = m + S.std u i * g u i ω) ∧
      (∀ u i, HasLaw (g u i) (gaussianReal 0 1) P) ∧
      (∀ u i j R, crossLspCorrelation c (los u) = .ok R → ∫ ω, g u i ω * g u j ω ∂P = R i j)

/-- The variables behind the LSPs. -/
theorem sample_log (S : LspSetup c los indoor x y nb) (s : Fin U → Fin 7 → ℝ) (u : Fin U) (i : Fin 7) (m : ℝ)
    (hm : S.mean u i = m) (hcap : (((S.sample s u).get i : ℝ) : WithTop ℝ) < lspCap i) :
    log10 ((S.sample s u).get i) = m + S.std u i * correlateDraws S.crossSqrt S.spatialSqrt s u i := by
  set t := correlateDraws S.crossSqrt S.spatialSqrt s u i with ht
  have hraw : pow10X (lspLog (S.mean u i) (S.std u i) t) = pow10 (S.std u i * t + m) := by rw [hm, pow10X_lspLog_coe]
  have hget : (S.sample s u).get i = pow10 (S.std u i * t + m) := by
    rw [← hraw]
    have hmin : ∀ (r : ℝ) (cap : ℝ), ((min r cap : ℝ) : WithTop ℝ) < (cap : WithTop ℝ) → min r cap = r := by
      intro r cap hlt
      have := WithTop.coe_lt_coe.1 hlt
      exact min_eq_left (by by_contra hh; rw [min_eq_right (le_of_not_ge hh)] at this; exact lt_irrefl _ this)
    fin_cases i
    · rfl
    · exact hmin _ _ hcap
    · exact hmin _ _ hcap
    · rfl
    · rfl
    · exact hmin _ _ hcap
    · exact hmin _ _ hcap
  rw [hget, log10_pow10]; ring

/-- C27, what the code achieves. There are standard normal variables `g u i` such that below the caps `log10` of parameter `i`
of UT `u` is `mean + deviation * g u i`, with the table's mean and deviation; parameter `i` of two UTs has exactly the
spatial correlation; parameters `i`, `j` of one UT have the tabulated correlation times a factor `κ` in `[-1,1]`.
The factor is one when no earlier UT is in the same state (in particular for a single UT) or the two parameters have the same
correlation distances; conversely, with a factor of one the two parameters have the same spatial correlation with the first UT of
a state.
Missing from the full statement: `κ = 1` for all UTs, which is false, see `C27_violated`. -/
theorem C27_lsp_statistics_partial (h : mkScenario cls a = .ok c) (hli : ∀ u, ¬ (los u = true ∧ indoor u = true))
    (S : LspSetup c los indoor x y nb) {Ω : Type} [MeasurableSpace Ω] {P : Measure Ω} [IsProbabilityMeasure P]
    {s : Fin U × Fin 7 → Ω → ℝ} (hs : Spec.StandardNormal P s) :
    ∃ g : Fin U → Fin 7 → Ω → ℝ,
      (∀ u i ω (m : ℝ), S.mean u i = m → (((S.sample (fun v k => s (v, k) ω) u).get i : ℝ) : WithTop ℝ) < lspCap i →
        log10 ((S.sample (fun v k => s (v, k) ω) u).get i) = m + S.std u i * g u i ω) ∧
      (∀ u i, HasLaw (g u i) (gaussianReal 0 1) P) ∧
      (∀ u v i C, spatialCorrelationOf c los indoor x y i = .ok C → ∫ ω, g u i ω * g v i ω ∂P = C u v) ∧
      ∃ κ : Fin U → Fin 7 → Fin 7 → ℝ,
        (∀ u i j R, crossLspCorrelation c (los u) = .ok R → ∫ ω, g u i ω * g u j ω ∂P = κ u i j * R i j) ∧
        (∀ u i j, |κ u i j| ≤ 1) ∧
        (∀ u i j, (∀ v, v < u → Spec.utState (los v) (indoor v) ≠ Spec.utState (los u) (indoor u)) → κ u i j = 1) ∧
        (∀ u i j, (∀ l, c.getReal (corrDistParam i) l = c.getReal (corrDistParam j) l) → κ u i j = 1) ∧
        (∀ u w i j, κ u i j = 1 → (∀ v, v < w → Spec.utState (los v) (indoor v) ≠ Spec.utState (los w) (indoor w)) →
          ∀ Ci Cj, spatialCorrelationOf c los indoor x y i = .ok Ci → spatialCorrelationOf c los indoor x y j = .ok Cj →
            Ci u w = Cj u w) := by
  choose R hR hL using S.cross_ok
  choose C hC hS using S.spatial_ok
  have hspec := fun i => C28_spatial_correlation (x := x) (y := y) h hli i
  have hCdiag : ∀ i u, C i u u = 1 := fun i u => by
    obtain ⟨C', D, e, -, -, hd, -⟩ := hspec i
    have : C i = C' := by have := (hC i).symm.trans e; simpa using this
    rw [this]; exact hd u
  have hCzero : ∀ i u v, ¬ Spec.utState (los u) (indoor u) = Spec.utState (los v) (indoor v) → C i u v = 0 := fun i u v hne => by
    obtain ⟨C', D, e, -, -, -, hc⟩ := hspec i
    have : C i = C' := by have := (hC i).symm.trans e; simpa using this
    rw [this, hc]; simp only [Spec.spatialCorr, if_neg hne]
  have hblock : ∀ i u v, ¬ Spec.utState (los u) (indoor u) = Spec.utState (los v) (indoor v) → S.spatialSqrt i u v = 0 :=
    fun i => cholesky_block (hS i) (fun u v => Spec.utState (los u) (indoor u) = Spec.utState (los v) (indoor v))
      (fun _ _ h => h.symm) (fun _ _ _ h1 h2 => h1.trans h2) (fun u v => hCzero i u v)
  -- the table matrix of all UTs in one state is the same
  have hstate : ∀ u v, Spec.utState (los u) (indoor u) = Spec.utState (los v) (indoor v) → los u = los v := by
    intro u v huv
    have hu := hli u; have hv := hli v
    revert huv hu hv
    unfold Spec.utState
    cases los u <;> cases indoor u <;> cases los v <;> cases indoor v <;> simp
  have hRR : ∀ u v, los u = los v → R u = R v := fun u v huv => by
    have := (hR u).symm.trans (huv ▸ hR v); simpa using this
  have hRdiag : ∀ u i, R u i i = 1 := fun u i => by
    obtain ⟨R', e, hd, -⟩ := C05_cross_correlation_cholesky h (los u)
    have : R u = R' := by have := (hR u).symm.trans e; simpa using this
    rw [this]; exact hd i
  have hrow : ∀ i u, ∑ v, S.spatialSqrt i u v * S.spatialSqrt i u v = 1 := fun i u => by
    rw [(hS i).prod]; exact hCdiag i u
  have hfirstrow : ∀ u, (∀ v, v < u → Spec.utState (los v) (indoor v) ≠ Spec.utState (los u) (indoor u)) →
      (∀ k v, v ≠ u → S.spatialSqrt k u v = 0) ∧ ∀ k, S.spatialSqrt k u u = 1 := by
    intro u hfirst
    have hz : ∀ k v, v ≠ u → S.spatialSqrt k u v = 0 := by
      intro k v hv
      rcases lt_or_gt_of_ne hv with hlt | hgt
      · exact hblock k u v fun he => hfirst v hlt he.symm
      · exact (hS k).lower u v hgt
    refine ⟨hz, fun k => ?_⟩
    have := hrow k u
    rw [Finset.sum_eq_single u (fun v _ hv => by rw [hz k v hv, zero_mul]) (fun h => absurd (Finset.mem_univ _) h)] at this
    nlinarith [(hS k).diag u]
  refine ⟨fun u i ω => correlateDraws S.crossSqrt S.spatialSqrt (fun v k => s (v, k) ω) u i,
    fun u i ω m hm hcap => sample_log S _ u i m hm hcap, ?_, ?_, fun u i j => ∑ v, S.spatialSqrt i u v * S.spatialSqrt j u v,
    ?_, ?_, ?_, ?_, ?_⟩
  · intro u i
    have := StandardNormal.law_lin hs (fun p : Fin U × Fin 7 => S.crossSqrt p.1 i p.2 * S.spatialSqrt i u p.1)
    have e : ∑ p : Fin U × Fin 7, (S.crossSqrt p.1 i p.2 * S.spatialSqrt i u p.1) ^ 2 = 1 := by
      have := correlateDraws_coef hL S.spatialSqrt u u i i
      simp only [hRdiag, one_mul, hrow] at this
      simpa only [sq] using this
    rw [e] at this
    simp only [correlateDraws_lin]
    simpa using this
  · intro u v i C' hC'
    have hCC : C i = C' := by have := (hC i).symm.trans hC'; simpa using this
    simp only [correlateDraws_lin]
    rw [StandardNormal.inner_lin hs, correlateDraws_coef hL]
    simp only [hRdiag, one_mul]
    rw [(hS i).prod, hCC]
  · intro u i j R' hR'
    have hRR' : R u = R' := by have := (hR u).symm.trans hR'; simpa using this
    simp only [correlateDraws_lin]
    rw [StandardNormal.inner_lin hs, correlateDraws_coef hL]
    change _ = (∑ v, S.spatialSqrt i u v * S.spatialSqrt j u v) * R' i j
    rw [Finset.sum_mul]
    refine Finset.sum_congr rfl fun w _ => ?_
    by_cases hw : Spec.utState (los u) (indoor u) = Spec.utState (los w) (indoor w)
    · rw [hRR w u (hstate _ _ hw.symm), hRR']; ring
    · rw [hblock i u w hw]; ring
  · intro u i j
    rw [← sq_le_one_iff_abs_le_one]
    change (∑ v, S.spatialSqrt i u v * S.spatialSqrt j u v) ^ 2 ≤ 1
    refine (Finset.sum_mul_sq_le_sq_mul_sq _ _ _).trans ?_
    have := hrow i u; have := hrow j u
    simp only [sq]; simp only [*]; norm_num
  · intro u i j hfirst
    obtain ⟨hz, hone⟩ := hfirstrow u hfirst
    change (∑ v, S.spatialSqrt i u v * S.spatialSqrt j u v) = 1
    rw [Finset.sum_eq_single u (fun v _ hv => by rw [hz i v hv, zero_mul]) (fun h => absurd (Finset.mem_univ _) h), hone, hone,
      one_mul]
  · intro u i j hD
    have e : spatialCorrelationOf c los indoor x y i = spatialCorrelationOf c los indoor x y j := by
      unfold spatialCorrelationOf; rw [hD, hD]
    have hCC : C i = C j := by have := (hC i).symm.trans (e.trans (hC j)); simpa using this
    have hLL : S.spatialSqrt i = S.spatialSqrt j := cholesky_unique (hS i) (hCC ▸ hS j)
    change (∑ v, S.spatialSqrt i u v * S.spatialSqrt j u v) = 1
    rw [hLL]; exact hrow j u
  · intro u w i j hκ hfirst Ci Cj hCi hCj
    obtain ⟨hz, hone⟩ := hfirstrow w hfirst
    have e1 : C i = Ci := by have := (hC i).symm.trans hCi; simpa using this
    have e2 : C j = Cj := by have := (hC j).symm.trans hCj; simpa using this
    have hcol : ∀ k, C k u w = S.spatialSqrt k u w := by
      intro k
      rw [← (hS k).prod, Finset.sum_eq_single w (fun v _ hv => by rw [hz k v hv, mul_zero])
        (fun h => absurd (Finset.mem_univ _) h), hone, mul_one]
    rw [← e1, ← e2, hcol, hcol]
    have h0 : ∑ k, (S.spatialSqrt i u k - S.spatialSqrt j u k) ^ 2 = 0 := by
      have e3 : ∑ k, (S.spatialSqrt i u k - S.spatialSqrt j u k) ^ 2 = ∑ k, S.spatialSqrt i u k * S.spatialSqrt i u k -
          2 * ∑ k, S.spatialSqrt i u k * S.spatialSqrt j u k + ∑ k, S.spatialSqrt j u k * S.spatialSqrt j u k := by
        rw [Finset.mul_sum, ← Finset.sum_sub_distrib, ← Finset.sum_add_distrib]
        exact Finset.sum_congr rfl fun k _ => by ring
      have hκ : ∑ k, S.spatialSqrt i u k * S.spatialSqrt j u k = 1 := hκ
      rw [e3, hrow, hrow, hκ]; norm_num
    have h1 := (Finset.sum_eq_zero_iff_of_nonneg (fun k _ => sq_nonneg _)).1 h0 w (Finset.mem_univ _)
    have := pow_eq_zero_iff (two_ne_zero) |>.1 h1
    linarith

/-- C27: the means and deviations that scale the normal variables are the tabulated ones (SF and K are tabulated in dB, the
others as decadic logarithms). -/
theorem C27_tabulated_mean_deviation (h : mkScenario cls a = .ok c) (S : LspSetup c los indoor x y nb) (u : Fin U) :
    (∀ i ∈ [((0 : Fin 7), Param.pmuDS, Param.psigmaDS), (1, .pmuASD, .psigmaASD), (2, .pmuASA, .psigmaASA),
        (5, .pmuZSA, .psigmaZSA), (6, .pmuZSD, .psigmaZSD)],
      c.getParam i.2.1 (los u) = .ok (S.mean u i.1) ∧ c.getReal i.2.2 (los u) = .ok (S.std u i.1)) ∧
    S.mean u 3 = ((0 : ℝ) : WithBot ℝ) ∧ c.getReal .psigmaSF (los u) = .ok (10 * S.std u 3) ∧
    (∃ k : ℝ, c.getReal .pmuK (los u) = .ok (10 * k) ∧ S.mean u 4 = k) ∧ c.getReal .psigmaK (los u) = .ok (10 * S.std u 4) := by
  obtain ⟨σ, hσ, -, d0, d1, d2, d3, d4, d5, d6⟩ := lspLogStd_ok h (los u) (nb u)
  have hσS : S.std u = σ := by have := (S.std_ok u).symm.trans hσ; simpa using this
  obtain ⟨μ, m0, m2, m4, m5, hμ, f0, f2, f4, f5, f1, f6, h0, h2, h3, h4, h5⟩ := lspLogMean_ok h (los u)
  have hμS : S.mean u = μ := by have := (S.mean_ok u).symm.trans hμ; simpa using this
  rw [hσS, hμS]
  refine ⟨?_, h3, d3, ⟨m4, f4, h4⟩, d4⟩
  intro i hi
  simp only [List.mem_cons, List.not_mem_nil, or_false] at hi
  rcases hi with rfl | rfl | rfl | rfl | rfl
  · exact ⟨by rw [h0]; exact getReal_getParam f0, d0⟩
  · exact ⟨f1, d1⟩
  · exact ⟨by rw [h2]; exact getReal_getParam f2, d2⟩
  · exact ⟨by rw [h5]; exact getReal_getParam f5, d5⟩
  · exact ⟨f6, d6⟩

/-- Two LoS UTs 10 m apart in a dense urban uplink at 50 degrees: delay spread and K-factor have different correlation distances. -/
theorem exPair : ∃ c, mkScenario .denseUrban (exArgs 2000000000 "uplink" 50) = .ok c ∧
    ∃ S : LspSetup c (fun _ : Fin 2 => true) (fun _ => false) ![0, 10] ![0, 0] (fun _ => true), (∃ m : ℝ, S.mean 1 0 = m) ∧
      (∃ m : ℝ, S.mean 1 4 = m) ∧ S.std 1 0 ≠ 0 ∧ S.std 1 4 ≠ 0 ∧ (∃ R, crossLspCorrelation c true = .ok R ∧ R 0 4 = -2 / 5) ∧
      ∃ C0 C4, spatialCorrelationOf c (fun _ : Fin 2 => true) (fun _ => false) ![0, 10] ![0, 0] 0 = .ok C0 ∧
        spatialCorrelationOf c (fun _ : Fin 2 => true) (fun _ => false) ![0, 10] ![0, 0] 4 = .ok C4 ∧ C0 1 0 ≠ C4 1 0 := by
  obtain ⟨c, h⟩ : ∃ c, mkScenario .denseUrban (exArgs 2000000000 "uplink" 50) = .ok c := by
    simpa using exArgs_ok .denseUrban true false 50 (by norm_num) (by norm_num)
  refine ⟨c, h, ?_⟩
  have hb := mkScenario_built h
  have key : c.angleKey = 50 := by
    obtain ⟨k, hk, k1, k9, hd, -⟩ := angleKey_nearest c (hb.el_eq ▸ hb.el_lo) (hb.el_eq ▸ hb.el_hi)
    have : c.elevationAngle = 50 := hb.el_eq
    rw [this, hk] at hd
    have h1 := abs_le.1 hd
    push_cast at h1
    have l1 : (k : ℝ) < 6 := by linarith [h1.2]
    have l2 : (4 : ℝ) < k := by linarith [h1.1]
    have : k < 6 := by exact_mod_cast l1
    have : 4 < k := by exact_mod_cast l2
    omega
  obtain ⟨sb, up, -, hsb, hup, e1, e2⟩ := built_rows h
  have hsb : sb = true := hsb.2 (by norm_num [exArgs, Spec.SBand])
  have hup : up = true := hup.2 (by simp [exArgs])
  subst hsb hup
  have val : ∀ (p : Param) (nl nn : ℤ), lookupAt (tableOf .denseUrban true true true) p 50 = .ok (.m nl) →
      lookupAt (tableOf .denseUrban false true true) p 50 = .ok (.m nn) → c.getReal p true = .ok ((nl : ℝ) / 1000) := by
    intro p nl nn h1 h2
    rw [← e1, ← key] at h1; rw [← e2, ← key] at h2
    exact getReal_ok h1 h2 true
  have dDS := val .pcorrDistDS 30000 40000 (by rfl) (by rfl)
  have dK := val .pcorrDistK 12000 1000 (by rfl) (by rfl)
  have rDSK := val .pcorrDSvsK (-400) 0 (by rfl) (by rfl)
  have sDS := val .psigmaDS 620 510 (by rfl) (by rfl)
  have sK := val .psigmaK 3000 0 (by rfl) (by rfl)
  set L : Fin 2 → Bool := fun _ => true
  set I : Fin 2 → Bool := fun _ => false
  set X : Fin 2 → ℝ := ![0, 10]
  set Y : Fin 2 → ℝ := ![0, 0]
  have hli : ∀ u, ¬ (L u = true ∧ I u = true) := by simp [L, I]
  obtain ⟨S⟩ := lspSetup_exists (x := X) (y := Y) h hli (by
    intro m n _ hx _
    fin_cases m <;> fin_cases n <;> simp_all [X]) (fun _ => true)
  obtain ⟨R, hR, hpair⟩ := C06_pair_coefficients h true
  have hR04 : R 0 4 = -2 / 5 := by
    obtain ⟨p, ⟨hn, hp, -⟩, -⟩ := hpair 0 4 (by decide)
    have hp' : p = .pcorrDSvsK := by
      have : ∀ p ∈ allParams, (p.name = "corr" ++ lspNames 0 ++ "vs" ++ lspNames 4 ∨
          p.name = "corr" ++ lspNames 4 ++ "vs" ++ lspNames 0) → p = .pcorrDSvsK := by decide +kernel
      exact this p (mem_allParams p) hn
    rw [hp', rDSK] at hp
    have : ((-400 : ℤ) : ℝ) / 1000 = R 0 4 := by simpa using hp
    rw [← this]; norm_num
  obtain ⟨σ, hσ, -, d0, -, -, -, d4, -, -⟩ := lspLogStd_ok h (L 1) true
  have hσS : S.std 1 = σ := by have := (S.std_ok 1).symm.trans hσ; simpa using this
  obtain ⟨μ, m0, m2, m4, m5, hμ, -, -, -, -, -, -, h0, -, -, h4, -⟩ := lspLogMean_ok h (L 1)
  have hμS : S.mean 1 = μ := by have := (S.mean_ok 1).symm.trans hμ; simpa using this
  have hσ0 : σ 0 ≠ 0 := by
    have := d0.symm.trans sDS
    have : σ 0 = ((620 : ℤ) : ℝ) / 1000 := by simpa using this
    rw [this]; norm_num
  have hσ4 : σ 4 ≠ 0 := by
    have := d4.symm.trans sK
    have : 10 * σ 4 = ((3000 : ℤ) : ℝ) / 1000 := by simpa using this
    intro h0; rw [h0] at this; norm_num at this
  obtain ⟨C0, D0, f0, hD0, -, -, hC0⟩ := C28_spatial_correlation (x := X) (y := Y) h hli 0
  obtain ⟨C4, D4, f4, hD4, -, -, hC4⟩ := C28_spatial_correlation (x := X) (y := Y) h hli 4
  refine ⟨S, ⟨m0, hμS ▸ h0⟩, ⟨m4, hμS ▸ h4⟩, hσS ▸ hσ0, hσS ▸ hσ4, ⟨R, hR, hR04⟩, C0, C4, f0, f4, fun hfin => ?_⟩
  have hd0 : D0 .los = 30 := by
    have := (hD0 .los).2.symm.trans dDS
    have : D0 .los = ((30000 : ℤ) : ℝ) / 1000 := by simpa using this
    rw [this]; norm_num
  have hd4 : D4 .los = 12 := by
    have := (hD4 .los).2.symm.trans dK
    have : D4 .los = ((12000 : ℤ) : ℝ) / 1000 := by simpa using this
    rw [this]; norm_num
  rw [hC0, hC4] at hfin
  have hdist : Real.sqrt ((10 : ℝ) ^ 2) = 10 := Real.sqrt_sq (by norm_num)
  simp [Spec.spatialCorr, Spec.utState, L, I, X, Y, hd0, hd4, hdist] at hfin
  norm_num at hfin

/-- The correlation of delay spread and K-factor of the second UT of that pair is not the tabulated -0.4. -/
theorem C27_violated : ¬ C27_statement := by
  intro H
  obtain ⟨c, h, S, ⟨m0, h0⟩, ⟨m4, h4⟩, hσ0, hσ4, ⟨R, hR, hR04⟩, C0, C4, f0, f4, hne⟩ := exPair
  obtain ⟨P, hP, hs⟩ := exists_standardNormal (Fin 2 × Fin 7)
  have hli : ∀ u : Fin 2, ¬ ((fun _ : Fin 2 => true) u = true ∧ (fun _ : Fin 2 => false) u = true) := by simp
  obtain ⟨g, hg, -, hcov⟩ := H _ _ c h 2 _ _ _ _ _ hli S _ _ P hP _ hs
  obtain ⟨g', hg', -, -, κ, hcov', -, -, -, hconv⟩ := C27_lsp_statistics_partial h hli S hs
  -- the two families agree on uncapped parameters with positive deviation
  have eq0 : ∀ ω, g 1 0 ω = g' 1 0 ω := by
    intro ω
    have a1 := hg 1 0 ω m0 h0 (WithTop.coe_lt_top _)
    have a2 := hg' 1 0 ω m0 h0 (WithTop.coe_lt_top _)
    rw [a1] at a2
    exact mul_left_cancel₀ hσ0 (add_left_cancel a2)
  have eq4 : ∀ ω, g 1 4 ω = g' 1 4 ω := by
    intro ω
    have a1 := hg 1 4 ω m4 h4 (WithTop.coe_lt_top _)
    have a2 := hg' 1 4 ω m4 h4 (WithTop.coe_lt_top _)
    rw [a1] at a2
    exact mul_left_cancel₀ hσ4 (add_left_cancel a2)
  have c1 := hcov 1 0 4 R hR
  have c2 := hcov' 1 0 4 R hR
  simp only [eq0, eq4] at c1
  rw [c1, hR04] at c2
  exact hne (hconv 1 0 0 4 (by linarith) (by intro v hv; exact absurd hv (Fin.not_lt_zero v)) C0 C4 f0 f4)

/-- The hypotheses of C27 are met. -/
example : ∃ c, mkScenario .urban (exArgs 2000000000 "uplink" 45) = .ok c ∧
    Nonempty (LspSetup c (fun _ : Fin 1 => true) (fun _ => false) (fun _ => 0) (fun _ => 0) (fun _ => true)) ∧
    ∃ P : Measure (Fin 1 × Fin 7 → ℝ), IsProbabilityMeasure P ∧ Spec.StandardNormal P (fun k ω => ω k) := by
  obtain ⟨c, h⟩ : ∃ c, mkScenario .urban (exArgs 2000000000 "uplink" 45) = .ok c := by
    simpa using exArgs_ok .urban true false 45 (by norm_num) (by norm_num)
  exact ⟨c, h, lspSetup_exists h (by simp) (fun m n _ _ _ => Subsingleton.elim m n) _, exists_standardNormal _⟩

/-- The full claim of C30. -/
def C30_statement : Prop :=
  ∀ (cls : ScenarioClass) (a : ScenarioArgs) (c : Config), mkScenario cls a = .ok c → ∀ (los : Bool) (μ : Fin 7 → WithBot ℝ),
    lspLogMean c los = .ok μ → ∃ x : ℝ, μ 6 = x ∧ -100 ≤ x

/-- C30 holds in uplink. Missing: downlink, where the mean stays `-inf`. -/
theorem C30_zsd_mean_partial (h : mkScenario cls a = .ok c) (hup : a.direction = "uplink") (los : Bool) :
    ∃ μ, lspLogMean c los = .ok μ ∧ ∃ x : ℝ, μ 6 = x ∧ -100 ≤ x := by
  obtain ⟨μ, m0, m2, m4, m5, e, -, -, -, -, -, e6, -⟩ := lspLogMean_ok h los
  obtain ⟨-, x, hx, hle⟩ := (departure_ok h los).1 hup
  refine ⟨μ, e, x, ?_, hle⟩
  have := e6.symm.trans hx; simpa using this

example : ∃ c, mkScenario .urban (exArgs 2000000000 "uplink" 45) = .ok c := by
  simpa using exArgs_ok .urban true false 45 (by norm_num) (by norm_num)

/-- In downlink the mean handed to the sampler is `-inf`, for every accepted configuration. -/
theorem C30_violated : ¬ C30_statement ∧ ∀ (cls : ScenarioClass) (a : ScenarioArgs) (c : Config), mkScenario cls a = .ok c →
    a.direction = "downlink" → ∀ los, ∃ μ, lspLogMean c los = .ok μ ∧ μ 6 = ⊥ := by
  have key : ∀ (cls : ScenarioClass) (a : ScenarioArgs) (c : Config), mkScenario cls a = .ok c →
      a.direction = "downlink" → ∀ los, ∃ μ, lspLogMean c los = .ok μ ∧ μ 6 = ⊥ := by
    intro cls a c h hd los
    obtain ⟨μ, m0, m2, m4, m5, e, -, -, -, -, -, e6, -⟩ := lspLogMean_ok h los
    refine ⟨μ, e, ?_⟩
    have := e6.symm.trans ((departure_ok h los).2 hd).2.1; simpa using this
  refine ⟨fun H => ?_, key⟩
  obtain ⟨c, h⟩ := exArgs_ok .urban false false 50 (by norm_num) (by norm_num)
  obtain ⟨μ, e, hbot⟩ := key _ _ c h (by simp [exArgs]) true
  obtain ⟨x, hx, -⟩ := H _ _ c h true μ e
  rw [hbot] at hx
  exact WithBot.bot_ne_coe hx

end OpenNTN
