import Verif.Lemmas.Pathloss
import Verif.Props.Lsp
import Verif.Props.Geometry

/-
Properties C52-C57: path loss and shadow fading.
-/
namespace OpenNTN

open MeasureTheory ProbabilityTheory

variable {cls : ScenarioClass} {a : ScenarioArgs} {c : Config}

/-! ### The loss of a link -/

theorem sf_cells : tableAll (fun cl l s u k => cellIs (fun n => decide (0 < n)) (lookupAt (tableOf cl l s u) .psigmaSF k)) = true := by
  decide +kernel

/-- Clutter loss in Ka band is at least that in S band. -/
theorem cl_band_cells : tableAll (fun cl _ _ u k =>
    decide (milliAt (tableOf cl false true u) .pCL k ≤ milliAt (tableOf cl false false u) .pCL k)) = true := by
  decide +kernel

theorem rowReal_of {f : ParamFile} {p : Param} {n : ℤ} (hp : ¬ (p = .pCPhiNLoS ∨ p = .pCThetaNLoS))
    (h : lookupAt f p c.angleKey = .ok (.m n)) : c.rowReal f p = .ok ((n : ℝ) / 1000) := by
  unfold lookupAt at h
  rw [if_pos hp] at h
  unfold Config.rowReal
  rw [h]
  rfl

/-- The basic path loss, tied to the tables. -/
theorem basicLoss_ok (h : mkScenario cls a = .ok c) :
    ∃ σl σn cl : ℝ, 0 < σl ∧ 0 < σn ∧ 0 < cl ∧ c.getReal .psigmaSF true = .ok σl ∧ c.getReal .psigmaSF false = .ok σn ∧
      c.rowReal c.paramsNlos .pCL = .ok cl ∧
      ∀ los d zl zn, basicLoss c los d zl zn = .ok (if los then freeSpaceLoss c.carrierFrequency d + zl * σl
        else freeSpaceLoss c.carrierFrequency d + zn * σn + cl) := by
  obtain ⟨s, u, hk, -, -, e1, e2⟩ := built_rows h
  obtain ⟨nl, hl, pl⟩ := cellIs_spec (tableAll_spec sf_cells cls true s u hk)
  obtain ⟨nn, hn, pn⟩ := cellIs_spec (tableAll_spec sf_cells cls false s u hk)
  obtain ⟨nc, hc, pc⟩ := cellIs_spec (tableAll_spec cl_cells cls false s u hk)
  rw [← e1] at hl
  rw [← e2] at hn hc
  have pl : (0 : ℝ) < nl := by exact_mod_cast of_decide_eq_true pl
  have pn : (0 : ℝ) < nn := by exact_mod_cast of_decide_eq_true pn
  have pc : (0 : ℝ) < nc := by exact_mod_cast of_decide_eq_true pc
  have rl := rowReal_of (c := c) (by decide) hl
  have rn := rowReal_of (c := c) (by decide) hn
  have rc := rowReal_of (c := c) (by decide) hc
  refine ⟨nl / 1000, nn / 1000, nc / 1000, by positivity, by positivity, by positivity, getReal_ok hl hn true, getReal_ok hl hn false,
    rc, ?_⟩
  intro los d zl zn
  unfold basicLoss
  rw [rl, rn, rc]
  rfl

/-! ### C52 -/

/-- C52: the power gain (squared amplitude gain) in dB is minus the path loss plus the shadow fading in dB; a disabled component
contributes 0 dB; the gain is positive. -/
theorem C52_step12_gain (pe se : Bool) (pl sf : ℝ) (hsf : 0 < sf) :
    0 < step12Gain pe se pl sf ∧
    10 * log10 (step12Gain pe se pl sf ^ 2) = (if pe then -pl else 0) + (if se then 10 * log10 sf else 0) := by
  have key : ∀ p s : ℝ, 0 < s → 0 < pow10 (-p / 20) * Real.sqrt s ∧
      10 * log10 ((pow10 (-p / 20) * Real.sqrt s) ^ 2) = -p + 10 * log10 s := by
    intro p s hs
    have h1 := pow10_pos (-p / 20)
    have h2 := Real.sqrt_pos.2 hs
    refine ⟨by positivity, ?_⟩
    rw [mul_pow, Real.sq_sqrt hs.le]
    have : log10 (pow10 (-p / 20) ^ 2 * s) = 2 * log10 (pow10 (-p / 20)) + log10 s := by
      unfold log10
      rw [Real.log_mul (by positivity) hs.ne', Real.log_pow]
      push_cast; ring
    rw [this, log10_pow10]; ring
  have hone : log10 1 = 0 := by simp [log10]
  cases pe <;> cases se
  · have := key 0 1 (by norm_num); simpa [step12Gain, hone] using this
  · have := key 0 sf hsf; simpa [step12Gain] using this
  · have := key pl 1 (by norm_num); simpa [step12Gain, hone] using this
  · have := key pl sf hsf; simpa [step12Gain] using this

/-- C52 on numbers: 120 dB path loss and 20 dB shadow fading. -/
example : 10 * log10 (step12Gain true true 120 100 ^ 2) = -120 + 10 * log10 100 := (C52_step12_gain true true 120 100 (by norm_num)).2

/-- The shadow fading that the LSP sampler hands to step 12 is positive, so C52 applies to every sample. -/
example (h : mkScenario cls a = .ok c) {U : ℕ} {los indoor : Fin U → Bool} {x y : Fin U → ℝ} {nb : Fin U → Bool}
    (S : LspSetup c los indoor x y nb) (s : Fin U → Fin 7 → ℝ) (u : Fin U) : 0 < (S.sample s u).sf := (C26_lsp_ranges h S s u).2.1

/-! ### C53 -/

/-- The gain in dB of a link with distance `d`, given the draws `zl`, `zn` behind the basic path loss, the remaining losses
`rest` and the shadow fading `sf` of the LSPs. -/
noncomputable def linkGainDb (c : Config) (los : Bool) (d zl zn rest sf : ℝ) : Except Err ℝ := do
  let b ← basicLoss c los d zl zn
  return 10 * log10 (step12Gain c.enablePathloss c.enableShadowFading (b + rest) sf ^ 2)

/-- The full claim of C53: without shadow fading the gain depends on none of the shadow fading draws. -/
def C53_statement : Prop :=
  ∀ (cls : ScenarioClass) (a : ScenarioArgs) (c : Config), mkScenario cls a = .ok c → a.enableShadowFading = false →
    ∀ (los : Bool) (d zl zn zl' zn' rest sf sf' : ℝ), 0 < sf → 0 < sf' →
      linkGainDb c los d zl zn rest sf = linkGainDb c los d zl' zn' rest sf'

/-- The gain of a link in closed form. -/
theorem linkGainDb_ok (h : mkScenario cls a = .ok c) :
    ∃ σl σn cl : ℝ, 0 < σl ∧ 0 < σn ∧ 0 < cl ∧ c.getReal .psigmaSF true = .ok σl ∧ c.getReal .psigmaSF false = .ok σn ∧
      ∀ los d zl zn rest sf, 0 < sf → linkGainDb c los d zl zn rest sf = .ok (
        (if a.enablePathloss then -(freeSpaceLoss a.carrierFrequency d + (if los then zl * σl else zn * σn + cl) + rest) else 0) +
        (if a.enableShadowFading then 10 * log10 sf else 0)) := by
  obtain ⟨σl, σn, cl, p1, p2, p3, e1, e2, -, e⟩ := basicLoss_ok h
  have hb := mkScenario_built h
  refine ⟨σl, σn, cl, p1, p2, p3, e1, e2, fun los d zl zn rest sf hsf => ?_⟩
  unfold linkGainDb
  rw [e, hb.pl_eq, hb.sf_eq, hb.fc_eq]
  change Except.ok (10 * log10 (step12Gain _ _ _ sf ^ 2)) = _
  rw [(C52_step12_gain _ _ _ sf hsf).2]
  cases los <;> simp [add_assoc]

/-- C53, what holds: the shadow fading LSP has no influence, and with path loss disabled as well no draw has.
Missing: independence of the draws inside the basic path loss, see `C53_violated`. -/
theorem C53_shadow_fading_disabled_partial (h : mkScenario cls a = .ok c) (hs : a.enableShadowFading = false)
    (los : Bool) (d zl zn rest sf sf' : ℝ) (h1 : 0 < sf) (h2 : 0 < sf') :
    linkGainDb c los d zl zn rest sf = linkGainDb c los d zl zn rest sf' ∧
    (a.enablePathloss = false → ∀ zl' zn', linkGainDb c los d zl zn rest sf = linkGainDb c los d zl' zn' rest sf') := by
  obtain ⟨σl, σn, cl, -, -, -, -, -, e⟩ := linkGainDb_ok h
  refine ⟨?_, fun hp zl' zn' => ?_⟩
  · rw [e _ _ _ _ _ _ h1, e _ _ _ _ _ _ h2, hs]; rfl
  · rw [e _ _ _ _ _ _ h1, e _ _ _ _ _ _ h2, hs, hp]; rfl

/-- A scenario without shadow fading and path loss. -/
example : ∃ c, mkScenario .urban { exArgs 2000000000 "uplink" 50 with enableShadowFading := false, enablePathloss := false } = .ok c := by
  refine mkScenario_ok _ ?_ ?_ rfl rfl ?_ ?_ <;> norm_num [exArgs, Spec.SBand]

/-- For every accepted configuration with path loss enabled and every state and distance, the gain changes with the draw. -/
theorem C53_violated : ¬ C53_statement ∧
    ∀ (cls : ScenarioClass) (a : ScenarioArgs) (c : Config), mkScenario cls a = .ok c → a.enablePathloss = true →
      ∀ (los : Bool) (d rest sf : ℝ), 0 < sf → linkGainDb c los d 0 0 rest sf ≠ linkGainDb c los d 1 1 rest sf := by
  have key : ∀ (cls : ScenarioClass) (a : ScenarioArgs) (c : Config), mkScenario cls a = .ok c → a.enablePathloss = true →
      ∀ (los : Bool) (d rest sf : ℝ), 0 < sf → linkGainDb c los d 0 0 rest sf ≠ linkGainDb c los d 1 1 rest sf := by
    intro cls a c h hp los d rest sf hsf heq
    obtain ⟨σl, σn, cl, p1, p2, -, -, -, e⟩ := linkGainDb_ok h
    rw [e _ _ _ _ _ _ hsf, e _ _ _ _ _ _ hsf, hp] at heq
    injection heq with heq
    cases los
    · simp at heq; linarith
    · simp at heq; linarith
  refine ⟨fun H => ?_, key⟩
  set a : ScenarioArgs := { exArgs 2000000000 "uplink" 50 with enableShadowFading := false } with ha
  obtain ⟨c, h⟩ := mkScenario_ok .urban (a := a) (by simp [ha, exArgs]) (by simp [ha, exArgs, Spec.SBand]; norm_num) rfl rfl
    (by simp [ha, exArgs]; norm_num) (by simp [ha, exArgs]; norm_num)
  exact key _ _ c h rfl true 1 0 1 (by norm_num) (H _ _ c h rfl true 1 0 0 1 1 0 1 1 (by norm_num) (by norm_num))

/-! ### C54 -/

/-- Deviation of the gain in dB from the gain without any shadow fading. -/
noncomputable def shadowDeviation (a : ScenarioArgs) (cl : ℝ) (los : Bool) (d rest gainDb : ℝ) : ℝ :=
  gainDb - (if a.enablePathloss then -(freeSpaceLoss a.carrierFrequency d + (if los then 0 else cl) + rest) else 0)

/-- The full claim of C54: with shadow fading enabled, for every UT `u` the deviation of the gain is normal with the table
deviation. The draws are those of the LSPs and the two of the basic path loss. -/
def C54_statement : Prop :=
  ∀ (cls : ScenarioClass) (a : ScenarioArgs) (c : Config), mkScenario cls a = .ok c → a.enableShadowFading = true →
    ∀ (U : ℕ) (los indoor : Fin U → Bool) (x y : Fin U → ℝ) (nb : Fin U → Bool) (_ : ∀ u, ¬ (los u = true ∧ indoor u = true))
    (S : LspSetup c los indoor x y nb) (Ω : Type) (_ : MeasurableSpace Ω) (P : Measure Ω) (_ : IsProbabilityMeasure P)
    (z : (Fin U × Fin 7) ⊕ Bool → Ω → ℝ), Spec.StandardNormal P z →
    ∀ (u : Fin U) (d rest σ cl : ℝ) (G : Ω → ℝ), c.getReal .psigmaSF (los u) = .ok σ → c.rowReal c.paramsNlos .pCL = .ok cl →
      (∀ ω, linkGainDb c (los u) d (z (.inr true) ω) (z (.inr false) ω) rest
        (S.sample (fun v k => z (.inl (v, k)) ω) u).sf = .ok (G ω)) →
      HasLaw (fun ω => shadowDeviation a cl (los u) d rest (G ω)) (gaussianReal 0 (σ ^ 2).toNNReal) P

/-- C54, what the code achieves: the deviation is normal with zero mean; its variance is that of the table when path loss is
disabled, and twice that of the table when path loss is enabled. Missing: a single draw with path loss enabled, see
`C54_violated`. -/
theorem C54_shadow_fading_partial (h : mkScenario cls a = .ok c) (hse : a.enableShadowFading = true)
    {U : ℕ} {los indoor : Fin U → Bool} {x y : Fin U → ℝ} {nb : Fin U → Bool} (hli : ∀ u, ¬ (los u = true ∧ indoor u = true))
    (S : LspSetup c los indoor x y nb) {Ω : Type} [MeasurableSpace Ω] {P : Measure Ω} [IsProbabilityMeasure P]
    {z : (Fin U × Fin 7) ⊕ Bool → Ω → ℝ} (hz : Spec.StandardNormal P z) (u : Fin U) (d rest σ cl : ℝ) (G : Ω → ℝ)
    (hσ : c.getReal .psigmaSF (los u) = .ok σ) (hcl : c.rowReal c.paramsNlos .pCL = .ok cl)
    (hG : ∀ ω, linkGainDb c (los u) d (z (.inr true) ω) (z (.inr false) ω) rest
        (S.sample (fun v k => z (.inl (v, k)) ω) u).sf = .ok (G ω)) :
    HasLaw (fun ω => shadowDeviation a cl (los u) d rest (G ω))
      (gaussianReal 0 (if a.enablePathloss then 2 * σ ^ 2 else σ ^ 2).toNNReal) P := by
  obtain ⟨σl, σn, cl', p1, p2, p3, e1, e2, hcl', eb⟩ := basicLoss_ok h
  have hb := mkScenario_built h
  have hcc : cl' = cl := by have := hcl'.symm.trans hcl; simpa using this
  subst hcc
  have hσ' : σ = if los u then σl else σn := by
    cases hlu : los u
    · rw [hlu] at hσ; have := hσ.symm.trans e2; simpa using this
    · rw [hlu] at hσ; have := hσ.symm.trans e1; simpa using this
  have hσpos : 0 < σ := by rw [hσ']; split <;> assumption
  obtain ⟨τ, hτ, -, -, -, -, d3, -⟩ := lspLogStd_ok h (los u) (nb u)
  have hτS : S.std u = τ := by have := (S.std_ok u).symm.trans hτ; simpa using this
  have hτ3 : 10 * τ 3 = σ := by have := d3.symm.trans hσ; simpa using this
  obtain ⟨μ, _, _, _, _, hμ, -, -, -, -, -, -, -, -, h3, -⟩ := lspLogMean_ok h (los u)
  have hμS : S.mean u = μ := by have := (S.mean_ok u).symm.trans hμ; simpa using this
  -- shadow fading in dB
  choose R hR hL using S.cross_ok
  choose C hC hS using S.spatial_ok
  have hCuu : C 3 u u = 1 := by
    obtain ⟨C', D, e, -, -, hd, -⟩ := C28_spatial_correlation (x := x) (y := y) h hli 3
    have : C 3 = C' := by have := (hC 3).symm.trans e; simpa using this
    rw [this]; exact hd u
  have hRd : ∀ v, R v 3 3 = 1 := fun v => by
    obtain ⟨R', e, hd, -⟩ := C05_cross_correlation_cholesky h (los v)
    have : R v = R' := by have := (hR v).symm.trans e; simpa using this
    rw [this]; exact hd 3
  set b : Fin U × Fin 7 → ℝ := fun p => S.crossSqrt p.1 3 p.2 * S.spatialSqrt 3 u p.1 with hbdef
  have hb1 : ∑ p, b p ^ 2 = 1 := by
    have := correlateDraws_coef hL S.spatialSqrt u u 3 3
    simp only [hRd, one_mul, (hS 3).prod, hCuu] at this
    simpa only [sq, hbdef] using this
  have hsf : ∀ s : Fin U → Fin 7 → ℝ, 10 * log10 (S.sample s u).sf = σ * ∑ p, b p * s p.1 p.2 := by
    intro s
    have h1 := sample_log S s u 3 0 (by rw [hμS, h3]) (WithTop.coe_lt_top _)
    have h2 : (S.sample s u).get 3 = (S.sample s u).sf := rfl
    rw [h2] at h1
    rw [h1, hτS, correlateDraws_lin, ← hτ3]
    ring
  -- deviation as a linear combination
  set w : (Fin U × Fin 7) ⊕ Bool → ℝ := Sum.elim (fun p => σ * b p)
    (fun l => if a.enablePathloss ∧ l = los u then -σ else 0) with hw
  have hdev : (fun ω => shadowDeviation a cl' (los u) d rest (G ω)) = fun ω => ∑ k, w k * z k ω := by
    funext ω
    have hpos : 0 < (S.sample (fun v k => z (.inl (v, k)) ω) u).sf := (C26_lsp_ranges h S _ u).2.1
    have e := hG ω
    have eg : G ω = (if a.enablePathloss then -(freeSpaceLoss a.carrierFrequency d + (if los u then z (.inr true) ω * σl
        else z (.inr false) ω * σn + cl') + rest) else 0) + 10 * log10 (S.sample (fun v k => z (.inl (v, k)) ω) u).sf := by
      unfold linkGainDb at e
      rw [eb, hb.pl_eq, hb.sf_eq, hb.fc_eq, hse] at e
      change Except.ok (10 * log10 (step12Gain _ _ _ _ ^ 2)) = Except.ok (G ω) at e
      injection e with e
      rw [← e, (C52_step12_gain _ _ _ _ hpos).2]
      cases los u <;> simp [add_assoc]
    rw [eg, hsf]
    unfold shadowDeviation
    rw [Fintype.sum_sum_type]
    simp only [hw, Sum.elim_inl, Sum.elim_inr, Fintype.sum_bool, Finset.mul_sum]
    rw [hσ']
    cases hlu : los u <;> cases hp : a.enablePathloss <;> simp [mul_assoc] <;> ring
  rw [hdev]
  have := StandardNormal.law_lin hz w
  have hsum : ∑ k, w k ^ 2 = if a.enablePathloss then 2 * σ ^ 2 else σ ^ 2 := by
    rw [Fintype.sum_sum_type]
    simp only [hw, Sum.elim_inl, Sum.elim_inr, Fintype.sum_bool, mul_pow, ← Finset.mul_sum, hb1]
    cases hlu : los u <;> cases hp : a.enablePathloss <;> simp <;> ring
  rwa [hsum] at this

/-- A single LoS UT with both components enabled: the variance is twice that of the table. -/
theorem C54_violated : ¬ C54_statement := by
  intro H
  obtain ⟨c, h⟩ := exArgs_ok .urban true false 50 (by norm_num) (by norm_num)
  have hb := mkScenario_built h
  have hli : ∀ u : Fin 1, ¬ ((fun _ : Fin 1 => true) u = true ∧ (fun _ : Fin 1 => false) u = true) := by simp
  obtain ⟨S⟩ := lspSetup_exists (x := fun _ : Fin 1 => (0 : ℝ)) (y := fun _ => 0) h hli (fun m n _ _ _ => Subsingleton.elim m n)
    (fun _ => true)
  obtain ⟨P, hP, hz⟩ := exists_standardNormal ((Fin 1 × Fin 7) ⊕ Bool)
  obtain ⟨σl, σn, cl, p1, p2, p3, e1, e2, hcl, eb⟩ := basicLoss_ok h
  set G : ((Fin 1 × Fin 7) ⊕ Bool → ℝ) → ℝ := fun ω => 10 * log10 (step12Gain c.enablePathloss c.enableShadowFading
    (freeSpaceLoss c.carrierFrequency 1 + ω (.inr true) * σl + 0) (S.sample (fun v k => ω (.inl (v, k))) 0).sf ^ 2) with hG
  have hG' : ∀ ω : (Fin 1 × Fin 7) ⊕ Bool → ℝ, linkGainDb c true 1 (ω (.inr true)) (ω (.inr false)) 0
      (S.sample (fun v k => ω (.inl (v, k))) 0).sf = .ok (G ω) := by
    intro ω
    unfold linkGainDb
    rw [eb]; rfl
  have l1 := H _ _ c h rfl 1 _ _ _ _ _ hli S _ _ P hP _ hz 0 1 0 σl cl G e1 hcl hG'
  have l2 := C54_shadow_fading_partial h rfl hli S hz 0 1 0 σl cl G e1 hcl hG'
  have hv := l1.variance_eq.symm.trans l2.variance_eq
  rw [variance_id_gaussianReal, variance_id_gaussianReal] at hv
  have ep : (exArgs (if false = true then 20000000000 else 2000000000) (if true = true then "uplink" else "downlink") 50).enablePathloss = true := rfl
  rw [ep, if_pos rfl, Real.coe_toNNReal _ (by positivity), Real.coe_toNNReal _ (by positivity)] at hv
  have : 0 < σl ^ 2 := by positivity
  linarith

/-- The hypotheses of the C54 theorem are met by the construction in `C54_violated`; here with path loss disabled. -/
example : ∃ (a : ScenarioArgs) (c : Config), mkScenario .urban a = .ok c ∧ a.enableShadowFading = true ∧ a.enablePathloss = false := by
  set a : ScenarioArgs := { exArgs 2000000000 "uplink" 50 with enablePathloss := false } with ha
  obtain ⟨c, h⟩ := mkScenario_ok .urban (a := a) (by simp [ha, exArgs]) (by simp [ha, exArgs, Spec.SBand]; norm_num) rfl rfl
    (by simp [ha, exArgs]; norm_num) (by simp [ha, exArgs]; norm_num)
  exact ⟨a, c, h, rfl, rfl⟩

/-! ### C55 -/

theorem log10_lt {p q : ℝ} (hp : 0 < p) (h : p < q) : log10 p < log10 q := by
  unfold log10
  have : 0 < Real.log 10 := Real.log_pos (by norm_num)
  exact div_lt_div_of_pos_right (Real.log_lt_log hp h) this

/-- C55: the basic path loss is the LoS formula, plus a positive clutter loss in NLoS; it grows strictly with the distance,
doubling the distance adds `20 log10 2` dB; it grows strictly with the carrier frequency within a band for equal draws, and
over both bands when the shadow fading draw is zero. -/
theorem C55_basic_pathloss (h : mkScenario cls a = .ok c) :
    ∃ σ : Bool → ℝ, ∃ cl : ℝ, 0 < cl ∧ c.rowReal c.paramsNlos .pCL = .ok cl ∧ (∀ los, c.getReal .psigmaSF los = .ok (σ los)) ∧
    ∃ pl : Bool → ℝ → ℝ → ℝ → ℝ, (∀ los d zl zn, basicLoss c los d zl zn = .ok (pl los d zl zn)) ∧
      (∀ d zl zn, pl true d zl zn = 32.45 + 20 * (Real.log (a.carrierFrequency / 1000000000) / Real.log 10) +
        20 * (Real.log d / Real.log 10) + σ true * zl) ∧
      (∀ d zl zn, pl false d zl zn = 32.45 + 20 * (Real.log (a.carrierFrequency / 1000000000) / Real.log 10) +
        20 * (Real.log d / Real.log 10) + σ false * zn + cl) ∧
      (∀ los zl zn d d', 0 < d → d < d' → pl los d zl zn < pl los d' zl zn) ∧
      (∀ los zl zn d, 0 < d → pl los (2 * d) zl zn = pl los d zl zn + 20 * (Real.log 2 / Real.log 10)) ∧
      (∀ a' c', mkScenario cls a' = .ok c' → a'.direction = a.direction → a'.elevationAngle = a.elevationAngle →
        a.carrierFrequency < a'.carrierFrequency → ∀ los d zl zn, 
          ((Spec.SBand a.carrierFrequency ↔ Spec.SBand a'.carrierFrequency) ∨ (zl = 0 ∧ zn = 0)) →
          ∃ v, basicLoss c' los d zl zn = .ok v ∧ pl los d zl zn < v) := by
  have hb := mkScenario_built h
  obtain ⟨σl, σn, cl, p1, p2, p3, e1, e2, hcl, eb⟩ := basicLoss_ok h
  have hfs : ∀ d, freeSpaceLoss c.carrierFrequency d = 32.45 + 20 * (Real.log (a.carrierFrequency / 1000000000) / Real.log 10) +
        20 * (Real.log d / Real.log 10) := by
    intro d; unfold freeSpaceLoss log10; rw [hb.fc_eq]; norm_num
  refine ⟨fun los => if los then σl else σn, cl, p3, hcl, fun los => by cases los <;> simp [e1, e2], _, eb, ?_, ?_, ?_, ?_, ?_⟩
  · intro d zl zn; simp [hfs, mul_comm]
  · intro d zl zn; simp [hfs, mul_comm]
  · intro los zl zn d d' hd hlt
    have := log10_lt hd hlt
    cases los <;> simp [freeSpaceLoss] <;> linarith
  · intro los zl zn d hd
    have h2 : log10 (2 * d) = log10 2 + log10 d := by
      unfold log10; rw [Real.log_mul (by norm_num) hd.ne']; ring
    have h3 : Real.log 2 / Real.log 10 = log10 2 := rfl
    rw [h3]
    cases los <;> simp [freeSpaceLoss, h2] <;> ring
  · intro a' c' h' hdir hel hlt los d zl zn hz
    have hb' := mkScenario_built h'
    obtain ⟨σl', σn', cl', p1', p2', p3', e1', e2', hcl', eb'⟩ := basicLoss_ok h'
    refine ⟨_, eb' los d zl zn, ?_⟩
    have hfpos : 0 < a.carrierFrequency := by
      rcases hb.fc_ok with h1 | h1 <;> [have := h1.1; have := h1.1] <;> linarith
    have hf : freeSpaceLoss c.carrierFrequency d < freeSpaceLoss c'.carrierFrequency d := by
      rw [hb.fc_eq, hb'.fc_eq]
      unfold freeSpaceLoss
      have := log10_lt (p := a.carrierFrequency / 10 ^ 9) (q := a'.carrierFrequency / 10 ^ 9) (by positivity)
        (div_lt_div_of_pos_right hlt (by positivity))
      linarith
    obtain ⟨s, u, hk, hs, hu, t1, t2⟩ := built_rows h
    obtain ⟨s', u', hk', hs', hu', t1', t2'⟩ := built_rows h'
    have hkk : c'.angleKey = c.angleKey := by unfold Config.angleKey; rw [hb.el_eq, hb'.el_eq, hel]
    have huu : u' = u := by
      rw [hdir] at hu'
      cases u <;> cases u' <;> simp_all
    by_cases hss : s' = s
    · have q1 : c'.paramsLos = c.paramsLos := by rw [t1, t1', hss, huu]
      have q2 : c'.paramsNlos = c.paramsNlos := by rw [t2, t2', hss, huu]
      have g : ∀ l, c'.getReal .psigmaSF l = c.getReal .psigmaSF l := by
        intro l; unfold Config.getReal Config.getParam Config.lookupParam; rw [q1, q2, hkk]
      have r : c'.rowReal c'.paramsNlos .pCL = c.rowReal c.paramsNlos .pCL := by
        unfold Config.rowReal; rw [q2, hkk]
      have x1 : σl' = σl := by have := e1'.symm.trans ((g true).trans e1); simpa using this
      have x2 : σn' = σn := by have := e2'.symm.trans ((g false).trans e2); simpa using this
      have x3 : cl' = cl := by have := hcl'.symm.trans (r.trans hcl); simpa using this
      rw [x1, x2, x3]
      cases los <;> simp <;> linarith
    · -- S band to Ka band
      rcases hz with hz | ⟨hz1, hz2⟩
      · exfalso
        apply hss
        cases s <;> cases s' <;> simp_all
      · have hs1 : s = true ∧ s' = false := by
          cases s <;> cases s' <;> simp_all
          have := hb.fc_ok
          rcases this with h1 | h1
          · exact absurd h1 (by simpa using hs)
          · have := h1.1
            have h2 := hs'.2
            linarith
        have hle : cl ≤ cl' := by
          have t := tableAll_spec cl_band_cells cls true true u hk
          have t := of_decide_eq_true t
          obtain ⟨n1, l1, -⟩ := cellIs_spec (tableAll_spec cl_cells cls false true u hk)
          obtain ⟨n2, l2, -⟩ := cellIs_spec (tableAll_spec cl_cells cls false false u hk)
          have m1 : milliAt (tableOf cls false true u) .pCL c.angleKey = n1 := by simp [milliAt, l1]
          have m2 : milliAt (tableOf cls false false u) .pCL c.angleKey = n2 := by simp [milliAt, l2]
          rw [m1, m2] at t
          have y1 : c.rowReal c.paramsNlos .pCL = .ok ((n1 : ℝ) / 1000) := rowReal_of (by decide) (by rw [t2, hs1.1]; exact l1)
          have y2 : c'.rowReal c'.paramsNlos .pCL = .ok ((n2 : ℝ) / 1000) :=
            rowReal_of (by decide) (by rw [t2', hs1.2, huu, hkk]; exact l2)
          have z1 : cl = (n1 : ℝ) / 1000 := by have := hcl.symm.trans y1; simpa using this
          have z2 : cl' = (n2 : ℝ) / 1000 := by have := hcl'.symm.trans y2; simpa using this
          have t' : (n1 : ℝ) ≤ n2 := by exact_mod_cast t
          rw [z1, z2]; linarith
        rw [hz1, hz2]
        cases los <;> simp <;> linarith

/-- C55 applies. -/
example : (∃ c, mkScenario .urban (exArgs 2000000000 "uplink" 45) = .ok c) ∧ (∃ c, mkScenario .urban (exArgs 20000000000 "uplink" 45) = .ok c) := by
  constructor
  · simpa using exArgs_ok .urban true false 45 (by norm_num) (by norm_num)
  · simpa using exArgs_ok .urban true true 45 (by norm_num) (by norm_num)

/-! ### C56 -/

/-- A physically meaningful atmosphere and ground antenna. -/
structure Atmosphere.Physical (at' : Atmosphere) : Prop where
  temperature : 200 ≤ at'.temperature
  pressure : 0 < at'.pressure
  vapor : 0 ≤ at'.vaporDensity
  humidity : 0 ≤ at'.humidity
  diameter : 0 ≤ at'.diameter
  efficiency : 0 ≤ at'.efficiency ∧ at'.efficiency ≤ 1

/-- The full claim of C56. -/
def C56_statement : Prop :=
  ∀ (cls : ScenarioClass) (a : ScenarioArgs) (c : Config), mkScenario cls a = .ok c → ∀ (at' : Atmosphere), at'.Physical →
    ∃ g s : ℝ, gasLoss (c.carrierFrequency / 10 ^ 9) c.elevationAngle at' = .ok g ∧
      scintLoss (c.carrierFrequency / 10 ^ 9) c.elevationAngle at' = .ok (some s) ∧ 0 ≤ g ∧ 0 ≤ s ∧ 0 ≤ entryLoss ∧
      ∀ b, totalLoss b g (some s) entryLoss = some (b + g + s + entryLoss)

theorem built_freq (h : mkScenario cls a = .ok c) : 1.9 ≤ c.carrierFrequency / 10 ^ 9 ∧ c.carrierFrequency / 10 ^ 9 ≤ 40 := by
  have hb := mkScenario_built h
  rw [hb.fc_eq]
  rcases hb.fc_ok with h1 | h1
  · have := h1.1; have := h1.2; constructor
    · rw [le_div_iff₀ (by positivity)]; norm_num; linarith
    · rw [div_le_iff₀ (by positivity)]; norm_num; linarith
  · have := h1.1; have := h1.2; constructor
    · rw [le_div_iff₀ (by positivity)]; norm_num; linarith
    · rw [div_le_iff₀ (by positivity)]; norm_num; linarith

theorem built_sin (h : mkScenario cls a = .ok c) : 0 < Real.sin (deg2rad c.elevationAngle) := by
  have hb := mkScenario_built h
  rw [hb.el_eq]
  exact sin_el_pos (by linarith [hb.el_lo]) hb.el_hi

/-- C56, what holds: the total is the sum; the gas loss is positive for every atmosphere, the entry loss is zero; the
scintillation loss is a non-negative number in S band and, in Ka band, for ground antennas with squared effective diameter up to
6.48 m^2 (the defaults: 3.6 m, 50 %). Missing: larger antennas, see `C56_threshold` (Props/Scint), `C56_violated`. -/
theorem C56_losses_partial (h : mkScenario cls a = .ok c) {at' : Atmosphere} (hp : at'.Physical)
    (hD : Spec.SBand a.carrierFrequency ∨ at'.efficiency * at'.diameter ^ 2 ≤ 6.48) :
    ∃ g s : ℝ, gasLoss (c.carrierFrequency / 10 ^ 9) c.elevationAngle at' = .ok g ∧
      scintLoss (c.carrierFrequency / 10 ^ 9) c.elevationAngle at' = .ok (some s) ∧ 0 < g ∧ 0 ≤ s ∧ 0 ≤ entryLoss ∧
      ∀ b, totalLoss b g (some s) entryLoss = some (b + g + s + entryLoss) := by
  have hb := mkScenario_built h
  obtain ⟨f1, f2⟩ := built_freq h
  have hs := built_sin h
  set f := c.carrierFrequency / 10 ^ 9 with hf
  have hT : 0 < at'.temperature := by linarith [hp.temperature]
  obtain ⟨g1, g2, eg⟩ := gasLoss_ok (f := f) (el := c.elevationAngle) (a := at') (by linarith) f2 hT hp.pressure hp.vapor hs
  have hgpos := div_pos (add_pos_of_pos_of_nonneg g1 g2) hs
  suffices hsc : ∃ s, scintLoss f c.elevationAngle at' = .ok (some s) ∧ 0 ≤ s by
    obtain ⟨s, e, h0⟩ := hsc
    exact ⟨_, s, eg, e, hgpos, h0, le_refl _, fun b => rfl⟩
  by_cases h6 : 6 ≤ f
  · unfold scintLoss
    rw [if_pos h6]
    dsimp only
    rw [if_neg (by
      push Not
      exact ⟨by linarith [hp.temperature], hT.ne', hp.efficiency.1⟩)]
    have hD' : at'.efficiency * at'.diameter ^ 2 ≤ 6.48 := by
      rcases hD with h1 | h1
      · exfalso
        have := h1.2
        rw [hf, hb.fc_eq, le_div_iff₀ (by positivity)] at h6
        norm_num at h6; linarith
      · exact h1
    have hx : 0 ≤ 1.22 * (Real.sqrt at'.efficiency * at'.diameter) ^ 2 * f / scintPathLength c.elevationAngle ∧
        1.22 * (Real.sqrt at'.efficiency * at'.diameter) ^ 2 * f / scintPathLength c.elevationAngle ≤ 0.224 := by
      set sn := Real.sin (deg2rad c.elevationAngle)
      have hsn1 : sn ≤ 1 := Real.sin_le_one _
      have hq : Real.sqrt (sn ^ 2 + 2.35e-4 + sn) ≤ 1.4145 := by
        apply Real.sqrt_le_iff.2; constructor
        · norm_num
        · nlinarith
      have hqp : 0 < Real.sqrt (sn ^ 2 + 2.35e-4 + sn) := Real.sqrt_pos.2 (by positivity)
      have hL : scintPathLength c.elevationAngle = 2 * 1000 / Real.sqrt (sn ^ 2 + 2.35e-4 + sn) := rfl
      rw [hL, mul_pow, Real.sq_sqrt hp.efficiency.1]
      have hE : 0 ≤ at'.efficiency * at'.diameter ^ 2 := mul_nonneg hp.efficiency.1 (sq_nonneg _)
      have hf0 : 0 ≤ f := by linarith
      constructor
      · positivity
      · rw [div_div_eq_mul_div, div_le_iff₀ (by norm_num)]
        calc 1.22 * (at'.efficiency * at'.diameter ^ 2) * f * Real.sqrt (sn ^ 2 + 2.35e-4 + sn)
            ≤ 1.22 * 6.48 * 40 * 1.4145 := by gcongr
          _ ≤ 0.224 * (2 * 1000) := by norm_num
    have hr := scintRadicand_pos hx.1 hx.2
    rw [if_neg (not_lt.2 hr.le)]
    exact ⟨_, rfl, abs_nonneg _⟩
  · unfold scintLoss
    rw [if_neg h6]
    have : 0 ≤ f / 4 := by linarith
    exact ⟨_, rfl, by positivity⟩

/-- The default atmosphere meets the hypotheses in every band. -/
example : (⟨47, 0.41, 40, 1020, 273, 7.5, 50, 3.6, 0.5⟩ : Atmosphere).Physical ∧
    (⟨47, 0.41, 40, 1020, 273, 7.5, 50, 3.6, 0.5⟩ : Atmosphere).efficiency *
      (⟨47, 0.41, 40, 1020, 273, 7.5, 50, 3.6, 0.5⟩ : Atmosphere).diameter ^ 2 ≤ 6.48 := by
  refine ⟨⟨?_, ?_, ?_, ?_, ?_, ?_⟩, ?_⟩ <;> norm_num

/-- A 20 GHz link at 90 degrees with a 200 m ground antenna: the scintillation loss is not a number. -/
theorem scint_nan : ∃ (c : Config) (at' : Atmosphere), mkScenario .urban (exArgs 20000000000 "uplink" 90) = .ok c ∧ at'.Physical ∧
    scintLoss (c.carrierFrequency / 10 ^ 9) c.elevationAngle at' = .ok none := by
  obtain ⟨c, h⟩ : ∃ c, mkScenario .urban (exArgs 20000000000 "uplink" 90) = .ok c := by
    simpa using exArgs_ok .urban true true 90 (by norm_num) (by norm_num)
  have hb := mkScenario_built h
  refine ⟨c, ⟨47, 0.41, 40, 1020, 273, 7.5, 50, 200, 0.5⟩, h,
    ⟨by norm_num, by norm_num, by norm_num, by norm_num, by norm_num, by norm_num⟩, ?_⟩
  have hf : c.carrierFrequency / 10 ^ 9 = 20 := by rw [hb.fc_eq]; simp [exArgs]; norm_num
  have hel : c.elevationAngle = 90 := hb.el_eq
  have hsin : Real.sin (deg2rad 90) = 1 := by
    rw [show deg2rad 90 = Real.pi / 2 by unfold deg2rad; ring, Real.sin_pi_div_two]
  rw [hf, hel]
  unfold scintLoss
  rw [if_pos (by norm_num)]
  dsimp only
  rw [if_neg (by norm_num)]
  have hL : scintPathLength 90 ≤ 2000 := by
    unfold scintPathLength
    rw [hsin]
    have : 1 ≤ Real.sqrt (1 ^ 2 + 2.35e-4 + 1) := Real.one_le_sqrt.2 (by norm_num)
    rw [div_le_iff₀ (by linarith)]; linarith
  have hL0 : 0 < scintPathLength 90 := by unfold scintPathLength; rw [hsin]; positivity
  have hx : 100 ≤ 1.22 * (Real.sqrt 0.5 * 200) ^ 2 * 20 / scintPathLength 90 := by
    rw [mul_pow, Real.sq_sqrt (by norm_num), le_div_iff₀ hL0]
    norm_num; linarith
  rw [if_pos (scintRadicand_neg hx)]

/-- C56 fails: the scintillation loss may not be a number. -/
theorem C56_violated : ¬ C56_statement := by
  intro H
  obtain ⟨c, at', h, hp, e⟩ := scint_nan
  obtain ⟨g, s, -, hs, -⟩ := H _ _ c h at' hp
  rw [e] at hs
  simp at hs

/-! ### C57 -/

/-- The ITU-R P.618 effective path length for a turbulent layer of 1000 m. -/
noncomputable def ituPathLength (el : ℝ) : ℝ :=
  2 * 1000 / (Real.sqrt (Real.sin (el * Real.pi / 180) ^ 2 + 2.35e-4) + Real.sin (el * Real.pi / 180))

/-- The full claim of C57. -/
def C57_statement : Prop := ∀ el : ℝ, 10 ≤ el → el ≤ 90 → scintPathLength el = ituPathLength el

/-- C57: the code agrees with ITU-R P.618 exactly at the elevation where `sin + 2 sqrt(sin^2 + 2.35e-4) = 1` (about 19.5
degrees); below, its length is shorter, above, longer. Missing: all other elevations, see `C57_violated`. -/
theorem C57_path_length_partial {el : ℝ} (h1 : 10 ≤ el) (h2 : el ≤ 90) :
    let s := Real.sin (el * Real.pi / 180)
    let q := s + 2 * Real.sqrt (s ^ 2 + 2.35e-4)
    (scintPathLength el = ituPathLength el ↔ q = 1) ∧ (scintPathLength el < ituPathLength el ↔ q < 1) ∧
    (ituPathLength el < scintPathLength el ↔ 1 < q) := by
  intro s q
  have hs : 0 < s := by
    have := sin_el_pos (by linarith : (0 : ℝ) < el) h2
    rwa [show deg2rad el = el * Real.pi / 180 by unfold deg2rad; ring] at this
  have hr := Real.sqrt_pos.2 (show 0 < s ^ 2 + 2.35e-4 by positivity)
  have er := Real.sq_sqrt (show 0 ≤ s ^ 2 + 2.35e-4 by positivity)
  set r := Real.sqrt (s ^ 2 + 2.35e-4)
  have hw := Real.sqrt_pos.2 (show 0 < s ^ 2 + 2.35e-4 + s by positivity)
  have ew := Real.sq_sqrt (show 0 ≤ s ^ 2 + 2.35e-4 + s by positivity)
  have e1 : scintPathLength el = 2 * 1000 / Real.sqrt (s ^ 2 + 2.35e-4 + s) := by
    unfold scintPathLength; rw [show deg2rad el = el * Real.pi / 180 by unfold deg2rad; ring]
  have e2 : ituPathLength el = 2 * 1000 / (r + s) := rfl
  set w := Real.sqrt (s ^ 2 + 2.35e-4 + s)
  have hq : q = s + 2 * r := rfl
  have hlt : w < r + s ↔ 1 < q := by
    rw [hq]
    constructor
    · intro h; nlinarith
    · intro h; nlinarith
  have hgt : r + s < w ↔ q < 1 := by
    rw [hq]
    constructor
    · intro h; nlinarith
    · intro h; nlinarith
  have l1 : scintPathLength el < ituPathLength el ↔ r + s < w := by
    rw [e1, e2, div_lt_div_iff_of_pos_left (by norm_num) hw (by positivity)]
  have l2 : ituPathLength el < scintPathLength el ↔ w < r + s := by
    rw [e1, e2, div_lt_div_iff_of_pos_left (by norm_num) (by positivity) hw]
  refine ⟨?_, l1.trans hgt, l2.trans hlt⟩
  constructor
  · intro h
    have n1 := fun x => (ne_of_lt (l1.2 (hgt.2 x))) h
    have n2 := fun x => (ne_of_lt (l2.2 (hlt.2 x))) h.symm
    exact le_antisymm (not_lt.1 n2) (not_lt.1 n1)
  · intro h
    have n1 := fun x => (ne_of_lt ((l1.trans hgt).1 x)) h
    have n2 := fun x => (ne_of_gt ((l2.trans hlt).1 x)) h
    exact le_antisymm (not_lt.1 n2) (not_lt.1 n1)

/-- At zenith the lengths differ. -/
theorem C57_violated : ¬ C57_statement := by
  intro H
  have := (C57_path_length_partial (el := 90) (by norm_num) (by norm_num)).1.1 (H 90 (by norm_num) (by norm_num))
  rw [show (90 : ℝ) * Real.pi / 180 = Real.pi / 2 by ring, Real.sin_pi_div_two] at this
  have h2 := Real.sqrt_pos.2 (show (0 : ℝ) < 1 ^ 2 + 2.35e-4 by norm_num)
  linarith

/-- C57's partial theorem applies at 45 degrees. -/
example : (10 : ℝ) ≤ 45 ∧ (45 : ℝ) ≤ 90 := by norm_num

end OpenNTN
