import Verif.Lemmas.Rayleigh
import Verif.Props.Fading
import Verif.Props.Statistics

/-
C169: taps of a TDL channel fade like Rayleigh and Rice. C170: no path of a scenario fades more than that.
-/
namespace OpenNTN

open Classical MeasureTheory ProbabilityTheory

/-- A tap as a function of the phases of its sinusoids: mean value, and phasors of equal length around it. -/
theorem tdlCoeff_around {a : TdlArgs} {t : Tdl} (h : tdlInit a = .ok t) {B R T : ℕ} (w : TdlDraws B R T t.params.powers.length t.numSinusoids) (fs : ℝ)
    (b : Fin B) (r : Fin R) (x : Fin T) (c : Fin t.params.powers.length) (s : ℕ) :
    let H (phases : Fin t.numSinusoids → ℝ) := tdlCoeff t (fun p => t.params.powers.get p) { w with phi := fun _ _ _ _ k => phases k } fs b r x c s
    ∃ u : Fin t.numSinusoids → ℂ, (∀ k, ‖u k‖ = Real.sqrt (t.params.powers.get c / t.numSinusoids)) ∧
      (∫ phases, H phases ∂(Measure.pi fun _ => uniformPhase)) = tdlSpecular t (w.doppler b) (w.phi0 b) (s / fs) c ∧
      ∀ phases, H phases = tdlSpecular t (w.doppler b) (w.phi0 b) (s / fs) c + ∑ k, u k * Complex.exp ((phases k : ℂ) * Complex.I) := by
  intro H
  have hpos := (stored_powers h).1 _ (List.get_mem _ c)
  refine ⟨fun k => ((Real.sqrt (t.params.powers.get c) * (1 / Real.sqrt t.numSinusoids) : ℝ) : ℂ) *
        Complex.exp ((w.doppler b * ((s : ℝ) / fs) * Real.cos (2 * Real.pi / t.numSinusoids * ((k.val : ℝ) + 1) + w.theta b c k) : ℝ) * Complex.I), ?_, ?_, ?_⟩
  · intro k
    rw [norm_mul, Complex.norm_exp_ofReal_mul_I, mul_one, Complex.norm_real, Real.norm_eq_abs, abs_of_nonneg (by positivity), Real.sqrt_div hpos.le]
    ring
  · simp only [H, tdlCoeff_phasors]
    exact average_mean _ _
  · intro phases
    simp only [H, tdlCoeff_phasors]

theorem share_eq (q l : ℝ) (hq : 0 < q) (hl : 0 ≤ l) : (q + l) / (l / q + 1) = q := by
  have h : l / q + 1 = (q + l) / q := by
    rw [add_div, div_self hq.ne', add_comm]
  have : q + l ≠ 0 := by positivity
  rw [h, div_div_eq_mul_div, mul_div_cancel_left₀ _ this]

/-- The specular part has its share of the reported power. -/
theorem tdlSpecular_power {a : TdlArgs} {t : Tdl} (h : tdlInit a = .ok t) (d p tm : ℝ) (c : Fin t.params.powers.length) :
    ∃ mp, t.meanPowers = .ok mp ∧ ∃ P, mp[c.val]? = some P ∧ 0 < t.params.powers.get c ∧
      (t.params.los = false ∨ c.val ≠ 0 → t.params.powers.get c = P ∧ tdlSpecular t d p tm c = 0) ∧
      (t.params.los = true → c.val = 0 → ∃ K, t.kFactor = .ok K ∧ 0 ≤ K ∧ t.params.powers.get c = P / (K + 1) ∧
        ‖tdlSpecular t d p tm c‖ ^ 2 = P * K / (K + 1)) := by
  obtain ⟨mp, hmp, -, h1, h2, h3⟩ := reported_powers h
  have hpos := (stored_powers h).1 _ (List.get_mem _ c)
  refine ⟨mp, hmp, ?_⟩
  by_cases hc : t.params.los = false ∨ c.val ≠ 0
  · refine ⟨_, h1 c hc, hpos, fun _ => ⟨rfl, ?_⟩, fun e1 e2 => ?_⟩
    · rcases hc with hc | hc
      · simp [tdlSpecular, h2 hc]
      · simp [tdlSpecular, hc]
    · rcases hc with hc | hc
      · rw [hc] at e1; cases e1
      · exact absurd e2 hc
  · have hlos : t.params.los = true := by
      cases hh : t.params.los
      · exact absurd (.inl hh) hc
      · rfl
    have hc0 : c.val = 0 := by
      by_contra e
      exact hc (.inr e)
    obtain ⟨l, hlp, hl0, hall⟩ := h3 hlos
    obtain ⟨hp0, hmp0, hK⟩ := hall c hc0
    have hne := hp0.ne'
    refine ⟨_, by rw [hc0]; exact hmp0, hpos, fun e => absurd e hc, fun _ _ => ⟨_, hK, by positivity, ?_, ?_⟩⟩
    · exact (share_eq _ _ hpos hl0).symm
    · simp only [tdlSpecular, hc0, if_true, hlp, Option.map_some, Option.getD_some]
      rw [norm_mul, Complex.norm_exp_ofReal_mul_I, mul_one, Complex.norm_real, Real.norm_eq_abs, abs_of_nonneg (Real.sqrt_nonneg _), Real.sq_sqrt hl0]
      rw [mul_div_right_comm, share_eq _ _ hpos hl0, mul_div_cancel₀ _ hne]

/-- C169. Over independent uniform phases, whatever the other draws, the fourth moment of a tap with `N` sinusoids is that of Rayleigh fading of the
reported mean power, twice its square, up to a share `1/N`; that of the first tap of a LoS model is the one of Rice fading with the reported K-factor,
up to the same share of the scattered part. -/
theorem C169_moment {a : TdlArgs} {t : Tdl} (h : tdlInit a = .ok t) {B R T : ℕ} (w : TdlDraws B R T t.params.powers.length t.numSinusoids) (fs : ℝ)
    (b : Fin B) (r : Fin R) (x : Fin T) (c : Fin t.params.powers.length) (s : ℕ) :
    let moment := ∫ phases : Fin t.numSinusoids → ℝ, ‖tdlCoeff t (fun p => t.params.powers.get p)
        { w with phi := fun _ _ _ _ k => phases k } fs b r x c s‖ ^ 4 ∂(Measure.pi fun _ => uniformPhase)
    ∃ mp, t.meanPowers = .ok mp ∧ ∃ P, mp[c.val]? = some P ∧
      (t.params.los = false ∨ c.val ≠ 0 → moment = (2 - 1 / a.numSinusoids) * P ^ 2) ∧
      (t.params.los = true → c.val = 0 → ∃ K, t.kFactor = .ok K ∧ 0 ≤ K ∧
        moment = (K ^ 2 + 4 * K + (2 - 1 / a.numSinusoids)) * (P / (K + 1)) ^ 2) := by
  intro moment
  obtain ⟨tab, spread, -, -, -, hN, hN0, -⟩ := tdlInit_ok h
  obtain ⟨u, hu, -, hH⟩ := tdlCoeff_around h w fs b r x c s
  obtain ⟨mp, hmp, P, hP, hpos, h1, h2⟩ := tdlSpecular_power h (w.doppler b) (w.phi0 b) (s / fs) c
  have hNr : (0 : ℝ) < t.numSinusoids := by rw [hN]; exact_mod_cast Nat.pos_of_ne_zero hN0
  have hm : moment = ‖tdlSpecular t (w.doppler b) (w.phi0 b) (s / fs) c‖ ^ 4 + 4 * ‖tdlSpecular t (w.doppler b) (w.phi0 b) (s / fs) c‖ ^ 2 *
      t.params.powers.get c + (2 - 1 / a.numSinusoids) * t.params.powers.get c ^ 2 := by
    simp only [moment, hH, average_fourth, hu]
    have e4 : Real.sqrt (t.params.powers.get c / t.numSinusoids) ^ 4 = (t.params.powers.get c / t.numSinusoids) ^ 2 := by
      rw [show (4 : ℕ) = 2 * 2 from rfl, pow_mul, Real.sq_sqrt (by positivity)]
    rw [e4, Real.sq_sqrt (by positivity), Finset.sum_const, Finset.sum_const, Finset.card_univ, Fintype.card_fin, nsmul_eq_mul, nsmul_eq_mul, ← hN]
    generalize t.params.powers.get c = q
    field_simp
    ring
  refine ⟨mp, hmp, P, hP, fun hc => ?_, fun hlos hc => ?_⟩
  · obtain ⟨e1, e2⟩ := h1 hc
    rw [hm, e1, e2]
    simp
  · obtain ⟨K, hK, hK0, e1, e2⟩ := h2 hlos hc
    refine ⟨K, hK, hK0, ?_⟩
    rw [hm, show (4 : ℕ) = 2 * 2 from rfl, pow_mul, e2, e1]
    field_simp

/-- C169, continued: with a growing number of sinusoids a tap, without its mean value, becomes circular complex normal, with the reported mean power,
or the share `1/(K+1)` of it in the first tap of a LoS model. The probability that its power is at most `y` tends to that of Rayleigh fading. The mean
value is zero except in the first tap of a LoS model, where its power is the share `K/(K+1)`. -/
theorem C169_limit {a : TdlArgs} {t : ℕ → Tdl} (h : ∀ n, tdlInit { a with numSinusoids := n + 1 } = .ok (t n)) {B R T : ℕ}
    (w : ∀ n, TdlDraws B R T (t n).params.powers.length (t n).numSinusoids) (fs : ℝ) (b : Fin B) (r : Fin R) (x : Fin T)
    (c : ∀ n, Fin (t n).params.powers.length) (tap : ℕ) (hc : ∀ n, (c n).val = tap) (s : ℕ) :
    let H n (phases : Fin (t n).numSinusoids → ℝ) := tdlCoeff (t n) (fun p => (t n).params.powers.get p)
        { w n with phi := fun _ _ _ _ k => phases k } fs b r x (c n) s
    let mean n : ℂ := ∫ phases, H n phases ∂(Measure.pi fun _ => uniformPhase)
    ∃ mp P S, (∀ n, (t n).meanPowers = .ok mp) ∧ mp[tap]? = some P ∧
      ((∀ n, (t n).params.los = false) ∨ tap ≠ 0 → S = P ∧ ∀ n, mean n = 0) ∧
      ((∀ n, (t n).params.los = true) → tap = 0 → ∃ K, (∀ n, (t n).kFactor = .ok K) ∧ 0 ≤ K ∧ S = P / (K + 1) ∧ ∀ n, ‖mean n‖ ^ 2 = P * K / (K + 1)) ∧
      TendstoInDistribution (fun n phases => H n phases - mean n) Filter.atTop (id : ℂ → ℂ) (fun _ => Measure.pi fun _ => uniformPhase)
        (Spec.circularNormal S) ∧
      ∀ y, 0 ≤ y → Filter.Tendsto (fun n => (Measure.pi fun _ => uniformPhase).real {phases | ‖H n phases - mean n‖ ^ 2 ≤ y}) Filter.atTop
        (nhds (1 - Real.exp (-y / S))) := by
  intro H mean
  -- all objects hold the same parameters
  have hpar : ∀ n, (t n).params = (t 0).params := by
    intro n
    obtain ⟨tab, spread, hf, hl, -⟩ := tdlInit_ok (h n)
    obtain ⟨tab', spread', hf', hl', -⟩ := tdlInit_ok (h 0)
    dsimp only at hf hf'
    rw [hf] at hf'
    cases hf'
    rw [hl] at hl'
    exact Except.ok.inj hl'
  have hmp : ∀ n, (t n).meanPowers = (t 0).meanPowers := fun n => by unfold Tdl.meanPowers; rw [hpar n]
  have hkf : ∀ n, (t n).kFactor = (t 0).kFactor := fun n => by unfold Tdl.kFactor; rw [hpar n]
  have hS : ∀ n, (t n).params.powers.get (c n) = (t 0).params.powers.get (c 0) := by
    intro n
    have h1 : (t n).params.powers[(c n).val]? = some ((t n).params.powers.get (c n)) := by simp
    have h2 : (t 0).params.powers[(c 0).val]? = some ((t 0).params.powers.get (c 0)) := by simp
    have h3 : (t n).params.powers[(c n).val]? = (t 0).params.powers[(c 0).val]? := by rw [hc n, hc 0, hpar n]
    rw [h3, h2] at h1
    exact (Option.some.inj h1).symm
  have hN : ∀ n, (t n).numSinusoids = n + 1 := fun n => (tdlInit_ok (h n)).choose_spec.choose_spec.2.2.2.1
  choose u hu hmean hH using fun n => tdlCoeff_around (h n) (w n) fs b r x (c n) s
  obtain ⟨mp, hmp0, P, hP, hpos, h1, h2⟩ := tdlSpecular_power (h 0) ((w 0).doppler b) ((w 0).phi0 b) (s / fs) (c 0)
  have hdiff : ∀ n (phases : Fin (t n).numSinusoids → ℝ), H n phases - mean n = ∑ k, u n k * Complex.exp ((phases k : ℂ) * Complex.I) := by
    intro n phases
    simp only [mean, H, hmean n, hH n, add_sub_cancel_left]
  have hlim := phasorSum_limit ((t 0).params.powers.get (c 0)) hpos (fun n => (t n).numSinusoids) hN u (fun n k => by rw [hu n k, hS n])
  have hspec : ∀ n, ∃ mp, (t n).meanPowers = .ok mp ∧ ∃ P, mp[(c n).val]? = some P ∧ 0 < (t n).params.powers.get (c n) ∧
      ((t n).params.los = false ∨ (c n).val ≠ 0 → (t n).params.powers.get (c n) = P ∧
        tdlSpecular (t n) ((w n).doppler b) ((w n).phi0 b) (s / fs) (c n) = 0) ∧
      ((t n).params.los = true → (c n).val = 0 → ∃ K, (t n).kFactor = .ok K ∧ 0 ≤ K ∧ (t n).params.powers.get (c n) = P / (K + 1) ∧
        ‖tdlSpecular (t n) ((w n).doppler b) ((w n).phi0 b) (s / fs) (c n)‖ ^ 2 = P * K / (K + 1)) := fun n =>
    tdlSpecular_power (h n) _ _ _ (c n)
  refine ⟨mp, P, (t 0).params.powers.get (c 0), fun n => (hmp n).trans hmp0, by rw [← hc 0]; exact hP, fun hcc => ?_, fun hlos h0 => ?_, ?_, ?_⟩
  · have hcn : ∀ n, (t n).params.los = false ∨ (c n).val ≠ 0 := fun n => hcc.imp (fun e => e n) fun e => by rw [hc n]; exact e
    refine ⟨(h1 (hcn 0)).1, fun n => ?_⟩
    obtain ⟨_, _, _, _, _, g1, -⟩ := hspec n
    exact (hmean n).trans (g1 (hcn n)).2
  · obtain ⟨K, hK, hK0, e1, -⟩ := h2 (hlos 0) ((hc 0).trans h0)
    refine ⟨K, fun n => (hkf n).trans hK, hK0, e1, fun n => ?_⟩
    obtain ⟨mp', hmp', P', hP', -, -, g2⟩ := hspec n
    obtain ⟨K', hK', -, -, e2⟩ := g2 (hlos n) ((hc n).trans h0)
    rw [hmp n, hmp0] at hmp'
    cases hmp'
    rw [hc n, ← hc 0, hP] at hP'
    cases hP'
    rw [hkf n, hK] at hK'
    cases hK'
    show ‖mean n‖ ^ 2 = _
    rw [show mean n = _ from hmean n, e2]
  · simp only [hdiff]
    exact hlim.1
  · simp only [hdiff]
    exact hlim.2

/-- Both kinds of model exist for every number of sinusoids, and have a first tap. -/
example (m : String) (hm : m = "A" ∨ m = "D") : ∃ t : ℕ → Tdl,
    (∀ n, tdlInit { model := m, delaySpread := 3e-7, carrierFrequency := 2e9, numSinusoids := n + 1 } = .ok (t n)) ∧
    (∀ n, (t n).params.los = decide (m = "D")) ∧ ∃ c : ∀ n, Fin (t n).params.powers.length, ∀ n, (c n).val = 0 := by
  have hv : ∀ n, Spec.TdlValid { model := m, delaySpread := 3e-7, carrierFrequency := 2e9, numSinusoids := n + 1 } := fun n =>
    ⟨by norm_num, by norm_num, by norm_num, by simp, by norm_num⟩
  have h1 : ∀ n, ∃ t, tdlInit { model := m, delaySpread := 3e-7, carrierFrequency := 2e9, numSinusoids := n + 1 } = .ok t := fun n => by
    obtain ⟨t, h, -⟩ := (C79_names_partial _ (hv n)).1 (by rcases hm with rfl | rfl <;> simp [Spec.tdlNames])
      (by rcases hm with rfl | rfl <;> simp)
    exact ⟨t, h⟩
  choose t ht using h1
  have h2 : ∀ n, (t n).params.los = decide (m = "D") ∧ 0 < (t n).params.powers.length := by
    intro n
    obtain ⟨tab, spread, hf, hl, -⟩ := tdlInit_ok (ht n)
    rcases hm with rfl | rfl
    · simp only [tdlFile, if_true] at hf
      cases hf
      simp only [tdlLoad, tdlA] at hl
      rw [← Except.ok.inj hl]
      simp
    · simp only [tdlFile] at hf
      simp at hf
      rw [← hf.1] at hl
      simp only [tdlLoad, tdlD] at hl
      rw [← Except.ok.inj hl]
      simp
  exact ⟨t, ht, fun n => (h2 n).1, fun n => ⟨0, (h2 n).2⟩, fun _ => rfl⟩

/-! ### C170: fading of the paths of a scenario -/

/-- C170. Over independent uniform phases, given the rays: the power of a path between two antennas varies at most as much as in Rice fading of the
same mean power and the same constant part. So it varies at most as much as in Rayleigh fading. Equality would need that no single ray contributes. -/
theorem C170_fading {n : ℕ} (g : CoeffGen) (l : LinkTopo) (k : ℝ) (r : LinkRays (n + 2)) (cDs : ℝ) (q : Fin (n + 6)) (u s : ℕ) (t : ℝ) :
    let h (x : Fin (n + 2) × Fin raysPerCluster × Fin 4 → ℝ) := (coeffCall g l k r cDs fun c m i => x (c, m, i)).1 q u s t
    let power := ∫ x, ‖h x‖ ^ 2 ∂(Measure.pi fun _ => uniformPhase)
    let constant := ‖∫ x, h x ∂(Measure.pi fun _ => uniformPhase)‖ ^ 2
    ∫ x, (‖h x‖ ^ 2 - power) ^ 2 ∂(Measure.pi fun _ => uniformPhase) ≤ power ^ 2 - constant ^ 2 ∧
      (l.los = false ∨ q ≠ 0 → constant = 0) ∧
      (power ≠ constant → ∫ x, (‖h x‖ ^ 2 - power) ^ 2 ∂(Measure.pi fun _ => uniformPhase) < power ^ 2 - constant ^ 2) := by
  intro h power constant
  obtain ⟨strong, path, -, -, -, -, h5⟩ := coeffCall_phasors g l k r cDs
  obtain ⟨z, c, hz, hh⟩ : ∃ (z : ℂ) (c : Fin (n + 2) × Fin raysPerCluster × Fin 4 → ℂ), (l.los = false ∨ q ≠ 0 → z = 0) ∧
      ∀ x, h x = z + ∑ p, c p * Complex.exp ((x p : ℂ) * Complex.I) := by
    refine ⟨_, _, ?_, fun x => h5 x q u s t⟩
    intro hc
    rw [if_neg]
    rintro ⟨e1, e2⟩
    rcases hc with hc | hc
    · rw [hc] at e1; cases e1
    · exact hc e2
  have hpow : power = ‖z‖ ^ 2 + ∑ p, ‖c p‖ ^ 2 := by
    simp only [power, hh]
    exact average_power z c
  have hcon : constant = ‖z‖ ^ 2 := by
    simp only [constant, hh]
    rw [average_mean]
  have hvar : ∫ x, (‖h x‖ ^ 2 - power) ^ 2 ∂(Measure.pi fun _ => uniformPhase) = power ^ 2 - constant ^ 2 - ∑ p, ‖c p‖ ^ 4 := by
    have e : ∀ x, (‖h x‖ ^ 2 - power) ^ 2 = ‖h x‖ ^ 4 - 2 * power * ‖h x‖ ^ 2 + power ^ 2 := fun x => by ring
    simp_rw [e]
    have i4 : Integrable (fun x => ‖h x‖ ^ 4) (Measure.pi fun _ => uniformPhase) := by
      simp only [hh]
      exact phasorSum_integrable z c 4
    have i2 : Integrable (fun x => ‖h x‖ ^ 2) (Measure.pi fun _ => uniformPhase) := by
      simp only [hh]
      exact phasorSum_integrable z c 2
    have i3 := i2.const_mul (2 * power)
    have i1 : Integrable (fun x => ‖h x‖ ^ 4 - 2 * power * ‖h x‖ ^ 2) (Measure.pi fun _ => uniformPhase) := i4.sub i3
    rw [integral_add i1 (integrable_const _), integral_sub i4 i3, integral_const_mul, integral_const, probReal_univ, one_smul]
    have e4 : ∫ x, ‖h x‖ ^ 4 ∂(Measure.pi fun _ => uniformPhase) =
        ‖z‖ ^ 4 + 4 * ‖z‖ ^ 2 * (∑ k, ‖c k‖ ^ 2) + 2 * (∑ k, ‖c k‖ ^ 2) ^ 2 - ∑ k, ‖c k‖ ^ 4 := by
      simp only [hh]
      exact average_fourth z c
    rw [e4, show ∫ x, ‖h x‖ ^ 2 ∂(Measure.pi fun _ => uniformPhase) = power from rfl, hpow, hcon]
    ring
  have hnn : 0 ≤ ∑ p, ‖c p‖ ^ 4 := Finset.sum_nonneg fun p _ => by positivity
  refine ⟨by rw [hvar]; linarith, fun hc => by rw [hcon, hz hc]; simp, fun hne => ?_⟩
  rw [hvar]
  have : 0 < ∑ p, ‖c p‖ ^ 4 := by
    rcases hnn.lt_or_eq with e | e
    · exact e
    · exfalso
      apply hne
      have hall := (Finset.sum_eq_zero_iff_of_nonneg fun p _ => by positivity).1 e.symm
      rw [hpow, hcon, Finset.sum_eq_zero, add_zero]
      intro p hp
      have := pow_eq_zero_iff (n := 4) (by norm_num) |>.1 (hall p hp)
      rw [this]
      norm_num
  linarith

/-- The elements of an array of isotropic antennas radiate everywhere. -/
theorem field_omni {fc : ℝ} {arr : PanelArray} (h : mkAntenna "single" "V" "omni" fc = .ok arr) (o : Fin 3 → ℝ) (θ φ : ℝ) (u : ℕ) :
    fieldVector arr o θ φ u 0 ^ 2 + fieldVector arr o θ φ u 1 ^ 2 = 1 := by
  norm_num [mkAntenna, mkArray, ArrayArgs.elementH, ArrayArgs.elementV, ArrayArgs.panelH, ArrayArgs.panelV, ArrayArgs.numPanels, patternOf,
    Except.map] at h
  subst h
  simp only [fieldVector, if_true]
  rw [l2g_norm, (C61_patterns _ _ 0).2.2.2.2.2.2.2.2]
  exact (C61_patterns _ _ 0).2.2.2.2.1

/-- Without LoS there is a path on which the power differs from the constant part, so that the last inequality of C170 applies. -/
example (g : CoeffGen) (hr : mkAntenna "single" "V" "omni" 2e9 = .ok g.rx) (ht : mkAntenna "single" "V" "omni" 2e9 = .ok g.tx) (l : LinkTopo)
    (hl : l.los = false) : ∃ q, ∫ x, ‖(coeffCall g l 10 exLinkRays 0 fun c m i => x (c, m, i)).1 q 0 0 0‖ ^ 2 ∂(Measure.pi fun _ => uniformPhase) ≠
      ‖∫ x, (coeffCall g l 10 exLinkRays 0 fun c m i => x (c, m, i)).1 q 0 0 0 ∂(Measure.pi fun _ => uniformPhase)‖ ^ 2 := by
  obtain ⟨strong, path, -, -, -, -, H⟩ := C100_average g l 10 exLinkRays 0 (fun c => by fin_cases c <;> norm_num [exLinkRays])
    (fun _ _ => by norm_num [exLinkRays]) (by norm_num)
  refine ⟨path 0 0, ?_⟩
  have hz := (C170_fading g l 10 exLinkRays 0 (path 0 0) 0 0 0).2.1 (Or.inl hl)
  have hp := H (path 0 0) 0 0 0
  simp only at hz hp
  rw [hz, hp, hl]
  have hnn : ∀ c m, 0 ≤ exLinkRays.powers c / 20 * Spec.rayGain (exLinkRays.xpr c m) (fieldVector g.rx l.rxOri (exLinkRays.zoa c m) (exLinkRays.aoa c m) 0)
      (Spec.faraday g.fc l.bsHeight (fieldVector g.tx l.txOri (exLinkRays.zod c m) (exLinkRays.aod c m) 0)) := fun c m =>
    mul_nonneg (div_nonneg (by fin_cases c <;> norm_num [exLinkRays]) (by norm_num)) (rayGain_le (by norm_num [exLinkRays]) _ _).1
  have hpos : 0 < exLinkRays.powers 0 / 20 * Spec.rayGain (exLinkRays.xpr 0 0) (fieldVector g.rx l.rxOri (exLinkRays.zoa 0 0) (exLinkRays.aoa 0 0) 0)
      (Spec.faraday g.fc l.bsHeight (fieldVector g.tx l.txOri (exLinkRays.zod 0 0) (exLinkRays.aod 0 0) 0)) := by
    have e1 := field_omni hr l.rxOri (exLinkRays.zoa 0 0) (exLinkRays.aoa 0 0) 0
    have e2 := field_omni ht l.txOri (exLinkRays.zod 0 0) (exLinkRays.aod 0 0) 0
    rw [← faraday_norm g.fc l.bsHeight] at e2
    refine mul_pos (by norm_num [exLinkRays]) ?_
    generalize fieldVector g.rx l.rxOri (exLinkRays.zoa 0 0) (exLinkRays.aoa 0 0) 0 = a at e1
    generalize Spec.faraday g.fc l.bsHeight (fieldVector g.tx l.txOri (exLinkRays.zod 0 0) (exLinkRays.aod 0 0) 0) = b at e2
    have hx : exLinkRays.xpr 0 0 = 100 := rfl
    rw [hx]
    unfold Spec.rayGain
    have : (a 0 ^ 2 + a 1 ^ 2) * (b 0 ^ 2 + b 1 ^ 2) = 1 := by rw [e1, e2, one_mul]
    nlinarith [sq_nonneg (a 0 * b 0), sq_nonneg (a 1 * b 1)]
  have hsum := Finset.single_le_sum (f := fun c => ∑ m, if path c m = path 0 0 then exLinkRays.powers c / 20 *
    Spec.rayGain (exLinkRays.xpr c m) (fieldVector g.rx l.rxOri (exLinkRays.zoa c m) (exLinkRays.aoa c m) 0)
      (Spec.faraday g.fc l.bsHeight (fieldVector g.tx l.txOri (exLinkRays.zod c m) (exLinkRays.aod c m) 0)) else 0)
    (fun c _ => Finset.sum_nonneg fun m _ => by split_ifs; exacts [hnn c m, le_rfl]) (Finset.mem_univ 0)
  have hsum2 := Finset.single_le_sum (f := fun m => if path 0 m = path 0 0 then exLinkRays.powers 0 / 20 *
    Spec.rayGain (exLinkRays.xpr 0 m) (fieldVector g.rx l.rxOri (exLinkRays.zoa 0 m) (exLinkRays.aoa 0 m) 0)
      (Spec.faraday g.fc l.bsHeight (fieldVector g.tx l.txOri (exLinkRays.zod 0 m) (exLinkRays.aod 0 m) 0)) else 0)
    (fun m _ => by split_ifs; exacts [hnn 0 m, le_rfl]) (Finset.mem_univ 0)
  simp only [if_true] at hsum2
  simp only [Bool.false_eq_true, if_false]
  exact (lt_of_lt_of_le hpos (hsum2.trans hsum)).ne'

end OpenNTN
