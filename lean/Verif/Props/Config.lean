import Verif.Lemmas.ConfigTable
import Verif.Lemmas.CrossCorr

/-
Properties C01-C09: construction and parameter tables.
-/
namespace OpenNTN

/-- An array argument by the carrier frequency it was built for, `none` for something that is not a panel array. -/
noncomputable def arrayFor : Option ℝ → ArrayArg
  | none => .other
  | some f => panelFor f

/-- C01: construction succeeds exactly for the documented configurations; otherwise an assertion fails. -/
theorem C01_construct_iff (cls : ScenarioClass) (dir : String) (fc el : ℝ) (utC bsC : Option ℝ) (pl sf dop : Bool) :
    let a : ScenarioArgs := ⟨fc, arrayFor utC, arrayFor bsC, dir, el, pl, sf, dop⟩
    ((∃ c, mkScenario cls a = .ok c) ↔ Spec.Admissible dir fc el utC bsC) ∧
    (¬ Spec.Admissible dir fc el utC bsC → mkScenario cls a = .error .assertion) := by
  intro a
  have hfc : (Spec.SBand fc ∨ Spec.KaBand fc) → fc ≠ 0 := by
    rintro (h | h) h0 <;> rw [h0] at h <;> exact absurd h.1 (by norm_num)
  have harr : ∀ o : Option ℝ, fc ≠ 0 → (arrayFor o = .panel (speedOfLight / fc) ↔ o = some fc) := by
    intro o h0
    have hc : speedOfLight ≠ 0 := by norm_num [speedOfLight]
    cases o with
    | none => simp [arrayFor]
    | some f =>
      simp only [arrayFor, panelFor, ArrayArg.panel.injEq, Option.some.injEq]
      constructor
      · intro h
        by_cases hf : f = 0
        · rw [hf, div_zero] at h
          exact absurd h.symm (div_ne_zero hc h0)
        · field_simp at h
          exact h.symm
      · rintro rfl; rfl
  have key : Spec.Admissible dir fc el utC bsC ↔ ((a.direction = "uplink" ∨ a.direction = "downlink") ∧
        (Spec.SBand a.carrierFrequency ∨ Spec.KaBand a.carrierFrequency) ∧
        a.utArray = .panel (speedOfLight / a.carrierFrequency) ∧
        a.bsArray = .panel (speedOfLight / a.carrierFrequency) ∧
        10 ≤ a.elevationAngle ∧ a.elevationAngle ≤ 90) := by
    unfold Spec.Admissible
    constructor
    · rintro ⟨h1, h2, h3, h4, h5⟩
      exact ⟨h1, h2, (harr _ (hfc h2)).2 h3, (harr _ (hfc h2)).2 h4, h5⟩
    · rintro ⟨h1, h2, h3, h4, h5⟩
      exact ⟨h1, h2, (harr _ (hfc h2)).1 h3, (harr _ (hfc h2)).1 h4, h5⟩
  rcases mkScenario_spec cls a with ⟨c, h, hb⟩ | ⟨h, hn⟩
  · have hadm : Spec.Admissible dir fc el utC bsC :=
      key.2 ⟨hb.dir_ok, hb.fc_ok, hb.ut_ok, hb.bs_ok, hb.el_lo, hb.el_hi⟩
    exact ⟨⟨fun _ => hadm, fun _ => ⟨c, h⟩⟩, fun hn => absurd hadm hn⟩
  · refine ⟨⟨?_, fun hadm => absurd (key.1 hadm) hn⟩, fun _ => h⟩
    rintro ⟨c, hc⟩
    rw [h] at hc; exact absurd hc (by simp)

/-- Both sides of C01 occur. -/
example : Spec.Admissible "uplink" 2000000000 45 (some 2000000000) (some 2000000000) ∧
    ¬ Spec.Admissible "uplink" 2000000000 45 (some 2000000000) none ∧
    ¬ Spec.Admissible "uplink" 5000000000 45 (some 5000000000) (some 5000000000) := by
  refine ⟨⟨Or.inl rfl, Or.inl ⟨by norm_num, by norm_num⟩, rfl, rfl, by norm_num, by norm_num⟩, ?_, ?_⟩
  · rintro ⟨-, -, -, h, -⟩; simp at h
  · rintro ⟨-, h | h, -⟩ <;> simp [Spec.SBand, Spec.KaBand] at h <;> norm_num at h

/-- C02: all lookups use the same table row, which is the one nearest to the requested elevation. -/
theorem C02_nearest_row {cls : ScenarioClass} {a : ScenarioArgs} {c : Config} (h : mkScenario cls a = .ok c) :
    ∃ row : ℤ, Spec.IsNearestRow a.elevationAngle row ∧
      (∀ p ∈ requestedParams, p ≠ .pCPhiNLoS → p ≠ .pCThetaNLoS → ∀ los : Bool, ∃ cell,
        lookupAngle (if los then c.paramsLos else c.paramsNlos) p row = .ok cell ∧ c.getParam p los = .ok cell.val) ∧
      (∃ cell, lookupAngle c.paramsLos .pnumClusters row = .ok cell ∧ c.numClustersLos = .ok cell.toInt) ∧
      (∃ cell, lookupAngle c.paramsNlos .pnumClusters row = .ok cell ∧ c.numClustersNlos = .ok cell.toInt) ∧
      (∃ cell, lookupAngle c.paramsLos .pLoSp row = .ok cell ∧ c.losProbability = .ok cell.val) := by
  have hb := mkScenario_built h
  obtain ⟨s, u, hk, -, -, e1, e2⟩ := built_rows h
  have hnear := angleKey_nearest c (hb.el_eq ▸ hb.el_lo) (hb.el_eq ▸ hb.el_hi)
  rw [hb.el_eq] at hnear
  have hang : ∀ (p : Param) (f : ParamFile), p ≠ .pCPhiNLoS → p ≠ .pCThetaNLoS →
      lookupAt f p c.angleKey = lookupAngle f p c.angleKey := by
    intro p f h1 h2
    simp [lookupAt, h1, h2]
  refine ⟨c.angleKey, hnear, ?_, ?_, ?_, ?_⟩
  · intro p hp h1 h2 los
    have hc := List.all_eq_true.1 requested_cells p hp
    obtain ⟨vl, hl⟩ := isOk_spec (tableAll_spec hc cls true s u hk)
    obtain ⟨vn, hn⟩ := isOk_spec (tableAll_spec hc cls false s u hk)
    rw [← e1] at hl; rw [← e2] at hn
    rw [getParam_ok hl hn]
    rw [hang p _ h1 h2] at hl hn
    cases los
    · exact ⟨vn, hn, rfl⟩
    · exact ⟨vl, hl, rfl⟩
  · obtain ⟨n, hn, -⟩ := cellIs_spec (tableAll_spec (finite_cell (p := .pnumClusters) (by decide)) cls true s u hk)
    rw [← e1, hang _ _ (by decide) (by decide)] at hn
    exact ⟨_, hn, by unfold Config.numClustersLos; rw [hn]⟩
  · obtain ⟨n, hn, -⟩ := cellIs_spec (tableAll_spec (finite_cell (p := .pnumClusters) (by decide)) cls false s u hk)
    rw [← e2, hang _ _ (by decide) (by decide)] at hn
    exact ⟨_, hn, by unfold Config.numClustersNlos; rw [hn]⟩
  · obtain ⟨n, hn, -⟩ := cellIs_spec (tableAll_spec (finite_cell (p := .pLoSp) (by decide)) cls true s u hk)
    rw [← e1, hang _ _ (by decide) (by decide)] at hn
    exact ⟨_, hn, by unfold Config.losProbability; rw [hn]⟩

/-- C02 is not vacuous: a configuration at 45 degrees (a tie) uses row 40. -/
example : Spec.IsNearestRow 45 40 ∧ ¬ Spec.IsNearestRow 45 50 ∧ ∃ c, mkScenario .urban (exArgs 2000000000 "uplink" 45) = .ok c := by
  refine ⟨⟨4, by norm_num, by norm_num, by norm_num, by norm_num, fun _ => by decide⟩, ?_, ?_⟩
  · rintro ⟨k, hk, -, -, -, h⟩
    have : k = 5 := by omega
    subst this
    exact absurd (h (by norm_num)) (by decide)
  · simpa using exArgs_ok .urban true false 45 (by norm_num) (by norm_num)

/-- C03: nothing that the simulation looks up is missing. -/
theorem C03_lookups_succeed {cls : ScenarioClass} {a : ScenarioArgs} {c : Config} (h : mkScenario cls a = .ok c) :
    (∀ p ∈ requestedParams, ∀ los, ∃ v, c.getParam p los = .ok v) ∧
    (∃ n, c.numClustersLos = .ok n) ∧ (∃ n, c.numClustersNlos = .ok n) ∧ (∃ n, c.numClustersMax = .ok n) ∧
    (∃ v, c.losProbability = .ok v) ∧ (∃ v, lookupAngle c.paramsNlos .pCL c.angleKey = .ok v) ∧
    (∃ v, lookupAngle c.paramsLos .psigmaSF c.angleKey = .ok v) ∧
    (∃ v, lookupAngle c.paramsNlos .psigmaSF c.angleKey = .ok v) := by
  obtain ⟨s, u, hk, -, -, e1, e2⟩ := built_rows h
  obtain ⟨row, -, h1, ⟨cl, hcl, h2⟩, ⟨cn, hcn, h3⟩, ⟨cp, -, h4⟩⟩ := C02_nearest_row h
  obtain ⟨n1, hn1, -⟩ := cellIs_spec (tableAll_spec (finite_cell (p := .pnumClusters) (by decide)) cls true s u hk)
  obtain ⟨n2, hn2, -⟩ := cellIs_spec (tableAll_spec (finite_cell (p := .pnumClusters) (by decide)) cls false s u hk)
  rw [← e1] at hn1; rw [← e2] at hn2
  refine ⟨?_, ⟨_, h2⟩, ⟨_, h3⟩, ⟨max (Cell.m n1).toInt (Cell.m n2).toInt, ?_⟩, ⟨_, h4⟩, ?_, ?_, ?_⟩
  · intro p hp los
    have hc := List.all_eq_true.1 requested_cells p hp
    obtain ⟨vl, hl⟩ := isOk_spec (tableAll_spec hc cls true s u hk)
    obtain ⟨vn, hn⟩ := isOk_spec (tableAll_spec hc cls false s u hk)
    rw [← e1] at hl; rw [← e2] at hn
    exact ⟨_, getParam_ok hl hn los⟩
  · unfold Config.numClustersMax
    have a1 : lookupAngle c.paramsLos .pnumClusters c.angleKey = .ok (.m n1) := hn1
    have a2 : lookupAngle c.paramsNlos .pnumClusters c.angleKey = .ok (.m n2) := hn2
    rw [a1, a2]
  · obtain ⟨n, hn, -⟩ := cellIs_spec (tableAll_spec cl_cells cls true s u hk)
    rw [← e2] at hn; exact ⟨_, hn⟩
  · obtain ⟨n, hn, -⟩ := cellIs_spec (tableAll_spec (finite_cell (p := .psigmaSF) (by decide)) cls true s u hk)
    rw [← e1] at hn; exact ⟨_, hn⟩
  · obtain ⟨n, hn, -⟩ := cellIs_spec (tableAll_spec (finite_cell (p := .psigmaSF) (by decide)) cls false s u hk)
    rw [← e2] at hn; exact ⟨_, hn⟩

example : (∃ c, mkScenario .denseUrban (exArgs 20000000000 "downlink" 90) = .ok c) ∧ requestedParams.length = 51 :=
  ⟨by simpa using exArgs_ok .denseUrban false true 90 (by norm_num) (by norm_num), rfl⟩

/-- C04: values used by an accepted configuration are physically admissible. -/
theorem C04_admissible_values {cls : ScenarioClass} {a : ScenarioArgs} {c : Config} (h : mkScenario cls a = .ok c) :
    (∃ p : ℝ, c.losProbability = .ok (p : WithBot ℝ) ∧ 0 < p ∧ p < 1) ∧
    (∃ n, c.numClustersLos = .ok n ∧ 2 ≤ n ∧ n ≤ 4) ∧ (∃ n, c.numClustersNlos = .ok n ∧ 2 ≤ n ∧ n ≤ 4) ∧
    (∃ cell, ∃ x : ℝ, lookupAngle c.paramsNlos .pCL c.angleKey = .ok cell ∧ cell.val = (x : WithBot ℝ) ∧ 0 < x) ∧
    ∀ los : Bool,
      (∃ x : ℝ, c.getReal .prTau los = .ok x ∧ 1 < x) ∧
      (∃ x : ℝ, c.getReal .pzeta los = .ok x ∧ 0 ≤ x) ∧
      (∀ p ∈ [Param.pcorrDistDS, .pcorrDistASD, .pcorrDistASA, .pcorrDistSF, .pcorrDistK, .pcorrDistZSA, .pcorrDistZSD,
          .pCPhiNLoS, .pCThetaNLoS], ∃ x : ℝ, c.getReal p los = .ok x ∧ 0 < x) ∧
      (∀ p ∈ [Param.psigmaDS, .psigmaASD, .psigmaASA, .psigmaSF, .psigmaK, .psigmaZSA, .psigmaZSD, .psigmaXPR,
          .pcASD, .pcASA, .pcZSA, .pcDS], ∃ x : ℝ, c.getReal p los = .ok x ∧ 0 ≤ x) ∧
      (∀ e ∈ crossEntries, ∃ x : ℝ, c.getReal e.1 los = .ok x ∧ -1 ≤ x ∧ x ≤ 1) := by
  obtain ⟨s, u, hk, -, -, e1, e2⟩ := built_rows h
  have fin : ∀ p ∈ finiteParams, ∀ los, ∃ n : ℤ, cellRange p n = true ∧ c.getReal p los = .ok ((n : ℝ) / 1000) :=
    fun p hp los => getReal_check h p _ (finite_cell hp) los
  refine ⟨?_, ?_, ?_, ?_, fun los => ⟨?_, ?_, ?_, ?_, ?_⟩⟩
  · obtain ⟨n, hn, hP⟩ := cellIs_spec (tableAll_spec (finite_cell (p := .pLoSp) (by decide)) cls true s u hk)
    rw [← e1] at hn
    have hn' : lookupAngle c.paramsLos .pLoSp c.angleKey = .ok (.m n) := hn
    simp only [cellRange, Bool.and_eq_true, decide_eq_true_eq] at hP
    have h1 : (0 : ℝ) < n := by exact_mod_cast hP.1
    have h2 : (n : ℝ) < 1000 := by exact_mod_cast hP.2
    exact ⟨(n : ℝ) / 1000, by unfold Config.losProbability; rw [hn']; rfl, by linarith, by linarith⟩
  · obtain ⟨n, hn, hP⟩ := cellIs_spec (tableAll_spec (finite_cell (p := .pnumClusters) (by decide)) cls true s u hk)
    rw [← e1] at hn
    have hn' : lookupAngle c.paramsLos .pnumClusters c.angleKey = .ok (.m n) := hn
    simp only [cellRange, Bool.and_eq_true, decide_eq_true_eq] at hP
    refine ⟨n / 1000, by unfold Config.numClustersLos; rw [hn']; rfl, by omega, by omega⟩
  · obtain ⟨n, hn, hP⟩ := cellIs_spec (tableAll_spec (finite_cell (p := .pnumClusters) (by decide)) cls false s u hk)
    rw [← e2] at hn
    have hn' : lookupAngle c.paramsNlos .pnumClusters c.angleKey = .ok (.m n) := hn
    simp only [cellRange, Bool.and_eq_true, decide_eq_true_eq] at hP
    refine ⟨n / 1000, by unfold Config.numClustersNlos; rw [hn']; rfl, by omega, by omega⟩
  · obtain ⟨n, hn, hP⟩ := cellIs_spec (tableAll_spec cl_cells cls true s u hk)
    rw [← e2] at hn
    simp only [decide_eq_true_eq] at hP
    have h1 : (0 : ℝ) < n := by exact_mod_cast hP
    exact ⟨.m n, (n : ℝ) / 1000, hn, rfl, by linarith⟩
  · obtain ⟨n, hP, e⟩ := fin .prTau (by decide) los
    simp only [cellRange, decide_eq_true_eq] at hP
    have h1 : (1000 : ℝ) < n := by exact_mod_cast hP
    exact ⟨_, e, by linarith⟩
  · obtain ⟨n, hP, e⟩ := fin .pzeta (by decide) los
    simp only [cellRange, decide_eq_true_eq] at hP
    have h1 : (0 : ℝ) ≤ n := by exact_mod_cast hP
    exact ⟨_, e, by linarith⟩
  · intro p hp
    obtain ⟨n, hP, e⟩ := fin p (by revert hp; revert p; decide) los
    have h1 : (0 : ℤ) < n := by
      simp only [List.mem_cons, List.not_mem_nil, or_false] at hp
      rcases hp with rfl | rfl | rfl | rfl | rfl | rfl | rfl | rfl | rfl <;>
        simpa only [cellRange, decide_eq_true_eq] using hP
    have h1 : (0 : ℝ) < n := by exact_mod_cast h1
    exact ⟨_, e, by linarith⟩
  · intro p hp
    obtain ⟨n, hP, e⟩ := fin p (by revert hp; revert p; decide) los
    have h1 : (0 : ℤ) ≤ n := by
      simp only [List.mem_cons, List.not_mem_nil, or_false] at hp
      rcases hp with rfl | rfl | rfl | rfl | rfl | rfl | rfl | rfl | rfl | rfl | rfl | rfl <;>
        simpa only [cellRange, decide_eq_true_eq] using hP
    have h1 : (0 : ℝ) ≤ n := by exact_mod_cast h1
    exact ⟨_, e, by linarith⟩
  · intro e he
    obtain ⟨n, hP, e'⟩ := getReal_check h e.1 isUnit (corr_cells e he) los
    simp only [isUnit, Bool.and_eq_true, decide_eq_true_eq] at hP
    have h1 : (-1000 : ℝ) ≤ n := by exact_mod_cast hP.1
    have h2 : (n : ℝ) ≤ 1000 := by exact_mod_cast hP.2
    exact ⟨_, e', by linarith, by linarith⟩

example : ∃ c, mkScenario .subUrban (exArgs 20000000000 "uplink" 10) = .ok c := by
  simpa using exArgs_ok .subUrban true true 10 (by norm_num) (by norm_num)

/-- C05: the cross-correlation matrix of every accepted configuration is a positive definite correlation matrix and has a
(unique) Cholesky factor. -/
theorem C05_cross_correlation_cholesky {cls : ScenarioClass} {a : ScenarioArgs} {c : Config} (h : mkScenario cls a = .ok c)
    (los : Bool) : ∃ R, crossLspCorrelation c los = .ok R ∧ (∀ i, R i i = 1) ∧ (∀ i j, R i j = R j i) ∧
      (∀ x : Fin 7 → ℝ, x ≠ 0 → 0 < ∑ i, ∑ j, R i j * x i * x j) ∧
      ∃ L : Fin 7 → Fin 7 → ℝ, IsCholesky R L ∧ ∀ L', IsCholesky R L' → L' = L := by
  obtain ⟨s, u, -, -, hk, -, hR⟩ := crossLspCorrelation_table h los
  set M := crossInt (fun p => milliAt (tableOf cls los s u) p c.angleKey) with hM
  have hsym : ∀ i j, M i j = M j i := by
    intro i j
    simp only [hM, crossInt]
    congr 1
    · funext s e
      congr 2
      unfold addMask
      rw [add_comm]
      congr 1 <;> exact if_congr and_comm rfl rfl
    · exact if_congr eq_comm rfl rfl
  have hpd := pdCheck_sound 7 M hsym (tableAll_spec cross_pd_table cls los s u hk)
  have hpd' : ∀ x : Fin 7 → ℝ, x ≠ 0 → 0 < quad (fun i j => (M i j : ℝ) / 1000) x := by
    intro x hx
    have := hpd x hx
    have e : quad (fun i j => (M i j : ℝ) / 1000) x = quad (fun i j => (M i j : ℝ)) x / 1000 := by
      unfold quad
      rw [Finset.sum_div]
      refine Finset.sum_congr rfl fun i _ => ?_
      rw [Finset.sum_div]
      exact Finset.sum_congr rfl fun j _ => by ring
    rw [e]; linarith
  obtain ⟨L, hL⟩ := exists_cholesky 7 _ (fun i j => by rw [hsym]) hpd'
  refine ⟨_, hR, ?_, fun i j => by rw [hsym], hpd', L, hL, fun L' hL' => cholesky_unique hL' hL⟩
  intro i
  have : M i i = 1000 := by
    simp only [hM, crossInt]
    fin_cases i <;> simp [crossEntries, addMask]
  rw [this]; norm_num

example : ∃ c, mkScenario .urban (exArgs 2000000000 "downlink" 33) = .ok c := by
  simpa using exArgs_ok .urban false false 33 (by norm_num) (by norm_num)

/-- Names of the seven large-scale parameters, in the order of the LSP axis. -/
def lspNames : Fin 7 → String := ![ "DS", "ASD", "ASA", "SF", "K", "ZSA", "ZSD"]

/-- All parameter names. -/
def allParams : List Param :=
  [.pCL, .pCPhiNLoS, .pCThetaNLoS, .pLoSp, .pcASA, .pcASD, .pcDS, .pcZSA, .pcorrASAvsDS, .pcorrASAvsK, .pcorrASAvsSF, .pcorrASDvsASA, .pcorrASDvsDS, .pcorrASDvsK, .pcorrASDvsSF, .pcorrDSvsK, .pcorrDSvsSF, .pcorrDistASA, .pcorrDistASD, .pcorrDistDS, .pcorrDistK, .pcorrDistSF, .pcorrDistZSA, .pcorrDistZSD, .pcorrSFvsK, .pcorrZSAvsASA, .pcorrZSAvsASD, .pcorrZSAvsDS, .pcorrZSAvsK, .pcorrZSAvsSF, .pcorrZSDvsASA, .pcorrZSDvsASD, .pcorrZSDvsDS, .pcorrZSDvsK, .pcorrZSDvsSF, .pcorrZSDvsZSA, .pmuASA, .pmuASD, .pmuDS, .pmuK, .pmuXPR, .pmuZSA, .pmuZSD, .pnumClusters, .prTau, .psigmaASA, .psigmaASD, .psigmaDS, .psigmaK, .psigmaSF, .psigmaXPR, .psigmaZSA, .psigmaZSD, .pzeta]

theorem mem_allParams (p : Param) : p ∈ allParams := by cases p <;> decide

theorem pairName_unique : ∀ i j : Fin 7, i ≠ j → ∃ r, allParams.filter (fun p =>
    decide (p.name = "corr" ++ lspNames i ++ "vs" ++ lspNames j ∨ p.name = "corr" ++ lspNames j ++ "vs" ++ lspNames i)) = [r] := by
  have h : ∀ i j : Fin 7, i ≠ j → (allParams.filter (fun p =>
      decide (p.name = "corr" ++ lspNames i ++ "vs" ++ lspNames j ∨ p.name = "corr" ++ lspNames j ++ "vs" ++ lspNames i))).length = 1 := by
    decide +kernel
  exact fun i j hij => List.length_eq_one_iff.1 (h i j hij)

/-- C06: the entry for two parameters is the table coefficient named after exactly these two, at both places, and there is
only one such coefficient. -/
theorem C06_pair_coefficients {cls : ScenarioClass} {a : ScenarioArgs} {c : Config} (h : mkScenario cls a = .ok c)
    (los : Bool) : ∃ R, crossLspCorrelation c los = .ok R ∧ ∀ i j : Fin 7, i ≠ j →
      ∃! p : Param, (p.name = "corr" ++ lspNames i ++ "vs" ++ lspNames j ∨ p.name = "corr" ++ lspNames j ++ "vs" ++ lspNames i) ∧
        c.getReal p los = .ok (R i j) ∧ c.getReal p los = .ok (R j i) := by
  obtain ⟨s, u, -, -, hk, hv, hR⟩ := crossLspCorrelation_table h los
  refine ⟨_, hR, ?_⟩
  set w := fun p => milliAt (tableOf cls los s u) p c.angleKey with hw
  -- the coefficient of each pair
  have pick : ∀ i j : Fin 7, i ≠ j → ∃ e ∈ crossEntries,
      (e.1.name = "corr" ++ lspNames i ++ "vs" ++ lspNames j ∨ e.1.name = "corr" ++ lspNames j ++ "vs" ++ lspNames i) ∧
      crossEntries.filter (fun e' => (e'.2.1 = i ∧ e'.2.2 = j) ∨ (e'.2.1 = j ∧ e'.2.2 = i)) = [e] ∧ e.2.1 ≠ e.2.2 := by
    decide +kernel
  have uniq : ∀ i j : Fin 7, i ≠ j → ∀ p q : Param,
      (p.name = "corr" ++ lspNames i ++ "vs" ++ lspNames j ∨ p.name = "corr" ++ lspNames j ++ "vs" ++ lspNames i) →
      (q.name = "corr" ++ lspNames i ++ "vs" ++ lspNames j ∨ q.name = "corr" ++ lspNames j ++ "vs" ++ lspNames i) → p = q := by
    intro i j hij p q hp hq
    obtain ⟨r, hr⟩ := pairName_unique i j hij
    have h1 : p ∈ [r] := by rw [← hr]; exact List.mem_filter.2 ⟨mem_allParams p, by simpa using hp⟩
    have h2 : q ∈ [r] := by rw [← hr]; exact List.mem_filter.2 ⟨mem_allParams q, by simpa using hq⟩
    rw [List.mem_singleton] at h1 h2
    rw [h1, h2]
  have foldl_filter : ∀ (i j : Fin 7) (l : List (Param × Fin 7 × Fin 7)) (x : ℤ), i ≠ j →
      l.foldl (fun s e => s + w e.1 * addMask e.2.1 e.2.2 i j) x = x +
        ((l.filter (fun e' => (e'.2.1 = i ∧ e'.2.2 = j) ∨ (e'.2.1 = j ∧ e'.2.2 = i))).map (fun e => w e.1)).sum := by
    intro i j l
    induction l with
    | nil => intro x _; simp
    | cons e l ih =>
      intro x hij
      rw [List.foldl_cons, ih _ hij]
      by_cases h1 : (e.2.1 = i ∧ e.2.2 = j)
      · have h2 : ¬ (i = e.2.2 ∧ j = e.2.1) := by rintro ⟨a1, a2⟩; exact hij (a1.trans h1.2)
        rw [List.filter_cons_of_pos (by simp [h1])]
        simp only [addMask, h1.1, h1.2, if_true, List.map_cons, List.sum_cons, and_self]
        rw [if_neg (fun hh => hij hh.1)]; ring
      · by_cases h2 : (e.2.1 = j ∧ e.2.2 = i)
        · rw [List.filter_cons_of_pos (by simp [h2])]
          simp only [addMask, h2.1, h2.2, if_true, List.map_cons, List.sum_cons, and_self]
          rw [if_neg (fun hh => hij hh.1)]; ring
        · rw [List.filter_cons_of_neg (by simp only [decide_eq_true_eq]; tauto)]
          have n1 : ¬ (i = e.2.1 ∧ j = e.2.2) := by rintro ⟨a1, a2⟩; exact h1 ⟨a1.symm, a2.symm⟩
          have n2 : ¬ (i = e.2.2 ∧ j = e.2.1) := by rintro ⟨a1, a2⟩; exact h2 ⟨a2.symm, a1.symm⟩
          simp only [addMask, n1, n2, if_false]; ring
  have entry : ∀ i j : Fin 7, i ≠ j → ∀ e, crossEntries.filter
      (fun e' => (e'.2.1 = i ∧ e'.2.2 = j) ∨ (e'.2.1 = j ∧ e'.2.2 = i)) = [e] → crossInt w i j = w e.1 := by
    intro i j hij e he
    unfold crossInt
    rw [foldl_filter i j _ _ hij, he, if_neg hij]; simp
  intro i j hij
  obtain ⟨e, he, hname, hf, -⟩ := pick i j hij
  obtain ⟨e', -, -, hf', -⟩ := pick j i hij.symm
  have hee : e' = e := by
    have : crossEntries.filter (fun e' => (e'.2.1 = i ∧ e'.2.2 = j) ∨ (e'.2.1 = j ∧ e'.2.2 = i)) =
      crossEntries.filter (fun e' => (e'.2.1 = j ∧ e'.2.2 = i) ∨ (e'.2.1 = i ∧ e'.2.2 = j)) := by
      congr 1; funext x; rw [decide_eq_decide]; exact or_comm
    rw [hf, hf'] at this
    injection this with h1 _; exact h1.symm
  refine ⟨e.1, ⟨hname, ?_, ?_⟩, ?_⟩
  · rw [hv e he, entry i j hij e hf]
  · rw [hv e he, entry j i hij.symm e' hf', hee]
  · rintro q ⟨hq, -⟩
    exact uniq i j hij q e.1 hq hname

/-- C06 for tables with any content: if each coefficient named after two parameters is a number, then the matrix exists and has these
numbers at both places of the pair, and ones on the diagonal. -/
theorem C06_any_tables (c : Config) (los : Bool) (v : Fin 7 → Fin 7 → ℝ) (hsymm : ∀ i j, v i j = v j i)
    (hv : ∀ (i j : Fin 7) (p : Param), i ≠ j → p.name = "corr" ++ lspNames i ++ "vs" ++ lspNames j → c.getReal p los = .ok (v i j)) :
    ∃ R, crossLspCorrelation c los = .ok R ∧ ∀ i j, R i j = if i = j then 1 else v i j := by
  have key : ∀ e ∈ crossEntries, c.getReal e.1 los = .ok (v e.2.1 e.2.2) := by
    intro e he
    have : e.2.1 ≠ e.2.2 ∧ (e.1.name = "corr" ++ lspNames e.2.1 ++ "vs" ++ lspNames e.2.2 ∨
        e.1.name = "corr" ++ lspNames e.2.2 ++ "vs" ++ lspNames e.2.1) := by
      revert e; decide +kernel
    rcases this with ⟨h1, h | h⟩
    · exact hv _ _ _ h1 h
    · rw [hsymm]; exact hv _ _ _ (Ne.symm h1) h
  have fold : ∀ (l : List (Param × Fin 7 × Fin 7)) (m : Fin 7 → Fin 7 → ℝ), (∀ e ∈ l, c.getReal e.1 los = .ok (v e.2.1 e.2.2)) →
      l.foldl (addParam c los) (.ok m) = .ok fun i j => m i j + (l.map fun e => v e.2.1 e.2.2 * addMask e.2.1 e.2.2 i j).sum := by
    intro l
    induction l with
    | nil => intro m _; simp
    | cons e l ih =>
      intro m hl
      rw [List.foldl_cons, show addParam c los (.ok m) e = .ok (fun i j => m i j + v e.2.1 e.2.2 * addMask e.2.1 e.2.2 i j) by
        unfold addParam; rw [hl e (by simp)], ih _ (fun e' h' => hl e' (by simp [h']))]
      congr 1; funext i j; simp [add_assoc]
  refine ⟨_, fold _ _ key, fun i j => ?_⟩
  simp only [crossEntries, List.map_cons, List.map_nil, List.sum_cons, List.sum_nil]
  fin_cases i <;> fin_cases j <;> simp [addMask] <;> exact hsymm _ _

/-- The tables of an accepted configuration meet the hypotheses of `C06_any_tables`. -/
example : ∃ (c : Config) (v : Fin 7 → Fin 7 → ℝ), (∀ i j, v i j = v j i) ∧ ∀ (i j : Fin 7) (p : Param), i ≠ j →
    p.name = "corr" ++ lspNames i ++ "vs" ++ lspNames j → c.getReal p true = .ok (v i j) := by
  obtain ⟨c, hc⟩ : ∃ c, mkScenario .urban (exArgs 2000000000 "downlink" 33) = .ok c := by
    simpa using exArgs_ok .urban false false 33 (by norm_num) (by norm_num)
  obtain ⟨R, -, hR⟩ := C06_pair_coefficients hc true
  refine ⟨c, R, fun i j => ?_, fun i j p hij hp => ?_⟩
  · by_cases hij : i = j
    · rw [hij]
    · obtain ⟨p, ⟨-, h1, h2⟩, -⟩ := hR i j hij
      rw [h1] at h2; exact Except.ok.inj h2
  · obtain ⟨q, ⟨hq, h1, -⟩, -⟩ := hR i j hij
    obtain ⟨r, hr⟩ := pairName_unique i j hij
    have e1 : p ∈ [r] := by rw [← hr]; exact List.mem_filter.2 ⟨mem_allParams p, by simp [hp]⟩
    have e2 : q ∈ [r] := by rw [← hr]; exact List.mem_filter.2 ⟨mem_allParams q, by simpa using hq⟩
    rw [List.mem_singleton] at e1 e2
    rw [e1, ← e2]; exact h1

/-- C07: the file opened is the one named after class, LoS state, band and direction, and its content is what is used. -/
theorem C07_parameter_file {cls : ScenarioClass} {a : ScenarioArgs} {c : Config} (h : mkScenario cls a = .ok c) :
    ∃ s u : Bool, (s = true ↔ a.carrierFrequency ≤ 4000000000) ∧ (u = true ↔ a.direction = "uplink") ∧
      (u = false ↔ a.direction = "downlink") ∧
      losFile cls a.direction a.carrierFrequency = .ok (Spec.fileName (scenarioPrefix cls) true s u) ∧
      nlosFile cls a.direction a.carrierFrequency = .ok (Spec.fileName (scenarioPrefix cls) false s u) ∧
      readParamFile (Spec.fileName (scenarioPrefix cls) true s u) = some c.paramsLos ∧
      readParamFile (Spec.fileName (scenarioPrefix cls) false s u) = some c.paramsNlos := by
  classical
  have hb := mkScenario_built h
  obtain ⟨s, u, h1, h2, h3, h4⟩ := hb.los_eq
  have hco := (carrierOk_iff _).2 hb.fc_ok
  have es : decide (Spec.SBand a.carrierFrequency) = s := by
    cases s <;> simp_all
  have eu : decide (a.direction = "uplink") = u := by
    cases u <;> simp_all
  refine ⟨s, u, ?_, h2, ?_, ?_, ?_, ?_, ?_⟩
  · rw [h1]
    constructor
    · exact fun hs => hs.2
    · intro hle
      rcases hb.fc_ok with hs | hs
      · exact hs
      · exact absurd (le_trans hs.1 hle) (by norm_num)
  · rcases hb.dir_ok with hd | hd <;> cases u <;> simp_all
  · rw [losFile_eq cls _ _ hco, es, eu]
  · rw [nlosFile_eq cls _ _ hco, es, eu]
  · rw [readParamFile_fileName, h3]
  · rw [readParamFile_fileName, h4]

/-- C07: different combinations never share a file. -/
theorem C07_files_distinct (cls cls' : ScenarioClass) (l l' s s' u u' : Bool)
    (h : Spec.fileName (scenarioPrefix cls) l s u = Spec.fileName (scenarioPrefix cls') l' s' u') :
    cls = cls' ∧ l = l' ∧ s = s' ∧ u = u' := by
  have key : (classes.all fun c => classes.all fun c' => bools.all fun l => bools.all fun l' => bools.all fun s =>
      bools.all fun s' => bools.all fun u => bools.all fun u' =>
      !decide (Spec.fileName (scenarioPrefix c) l s u = Spec.fileName (scenarioPrefix c') l' s' u') ||
      decide (c = c' ∧ l = l' ∧ s = s' ∧ u = u')) = true := by decide +kernel
  simp only [List.all_eq_true] at key
  have := key cls (mem_classes _) cls' (mem_classes _) l (mem_bools _) l' (mem_bools _) s (mem_bools _) s' (mem_bools _)
    u (mem_bools _) u' (mem_bools _)
  simpa [h] using this

example : Spec.fileName (scenarioPrefix .subUrban) false true true = "Sub_Urban_NLOS_S_band_UL.json" := rfl

/-- Rows are monotone in the elevation. -/
theorem nearestRow_mono {e e' : ℝ} {r r' : ℤ} (h : Spec.IsNearestRow e r) (h' : Spec.IsNearestRow e' r') (hee : e ≤ e') :
    r ≤ r' := by
  obtain ⟨k, rfl, -, -, hd, ht⟩ := h
  obtain ⟨k', rfl, -, -, hd', ht'⟩ := h'
  by_contra hlt
  have hk : k' + 1 ≤ k := by omega
  have hk' : (k' : ℝ) + 1 ≤ k := by exact_mod_cast hk
  have h1 := abs_le.1 hd
  have h2 := abs_le.1 hd'
  push_cast at h1 h2 ht ht' hd hd'
  have e1 : (10 : ℝ) * k - e = 5 := by linarith [h1.2, h2.1]
  have e2 : (10 : ℝ) * k' - e' = -5 := by linarith [h1.2, h2.1]
  have e3 : (k : ℝ) = k' + 1 := by linarith
  have e3' : k = k' + 1 := by exact_mod_cast e3
  have p1 := ht (by rw [e1]; norm_num)
  have p2 := ht' (by rw [e2]; norm_num)
  rw [e3', Int.even_add_one] at p1
  exact p1 p2

/-- C08: for two configurations of the same class (any bands and directions), the LoS probability at the higher elevation is
at least the one at the lower elevation; in particular it is the same at equal elevations. -/
theorem C08_los_monotone {cls : ScenarioClass} {a a' : ScenarioArgs} {c c' : Config} (h : mkScenario cls a = .ok c)
    (h' : mkScenario cls a' = .ok c') (hle : a.elevationAngle ≤ a'.elevationAngle) :
    ∃ p p' : ℝ, c.losProbability = .ok (p : WithBot ℝ) ∧ c'.losProbability = .ok (p' : WithBot ℝ) ∧ p ≤ p' := by
  have hb := mkScenario_built h
  have hb' := mkScenario_built h'
  obtain ⟨s, u, hk, -, -, e1, -⟩ := built_rows h
  obtain ⟨s', u', hk', -, -, e1', -⟩ := built_rows h'
  have hn := angleKey_nearest c (hb.el_eq ▸ hb.el_lo) (hb.el_eq ▸ hb.el_hi)
  have hn' := angleKey_nearest c' (hb'.el_eq ▸ hb'.el_lo) (hb'.el_eq ▸ hb'.el_hi)
  rw [hb.el_eq] at hn
  rw [hb'.el_eq] at hn'
  have hrow := nearestRow_mono hn hn' hle
  obtain ⟨n, hc, -⟩ := cellIs_spec (tableAll_spec (finite_cell (p := .pLoSp) (by decide)) cls true s u hk)
  obtain ⟨n', hc', -⟩ := cellIs_spec (tableAll_spec (finite_cell (p := .pLoSp) (by decide)) cls true s' u' hk')
  have hm := tableAll_spec losp_cells cls true s u hk
  simp only [List.all_eq_true] at hm
  have hm' := hm c'.angleKey hk' s' (mem_bools _) u' (mem_bools _)
  simp only [hrow, decide_true, Bool.not_true, Bool.false_or, decide_eq_true_eq] at hm'
  simp only [milliAt, hc, hc'] at hm'
  have hm'' : (n : ℝ) ≤ n' := by exact_mod_cast hm'
  rw [← e1] at hc
  rw [← e1'] at hc'
  have hc : lookupAngle c.paramsLos .pLoSp c.angleKey = .ok (.m n) := hc
  have hc' : lookupAngle c'.paramsLos .pLoSp c'.angleKey = .ok (.m n') := hc'
  refine ⟨(n : ℝ) / 1000, (n' : ℝ) / 1000, ?_, ?_, by linarith⟩
  · unfold Config.losProbability; rw [hc]; rfl
  · unfold Config.losProbability; rw [hc']; rfl

/-- C08 applies across bands and directions. -/
example : (∃ c, mkScenario .urban (exArgs 2000000000 "downlink" 33) = .ok c) ∧
    (∃ c, mkScenario .urban (exArgs 20000000000 "uplink" 71) = .ok c) :=
  ⟨by simpa using exArgs_ok .urban false false 33 (by norm_num) (by norm_num),
   by simpa using exArgs_ok .urban true true 71 (by norm_num) (by norm_num)⟩

/-- Number of clusters of a link state. -/
noncomputable def Config.numClusters (c : Config) (los : Bool) : Except Err Int :=
  if los then c.numClustersLos else c.numClustersNlos

/-- C09, the property: different cluster counts come with different azimuth scaling constants. -/
def C09_statement : Prop :=
  ∀ (cls : ScenarioClass) (a a' : ScenarioArgs) (c c' : Config) (los los' : Bool) (n n' : ℤ) (x x' : ℝ),
    mkScenario cls a = .ok c → mkScenario cls a' = .ok c' →
    c.numClusters los = .ok n → c'.numClusters los' = .ok n' →
    c.getReal .pCPhiNLoS los = .ok x → c'.getReal .pCPhiNLoS los' = .ok x' → n ≠ n' → x ≠ x'

/-- C09 holds for the dense urban scenario (missing: the two other scenarios, where it is false). -/
theorem C09_scaling_constant_partial (a a' : ScenarioArgs) (c c' : Config) (los los' : Bool) (n n' : ℤ) (x x' : ℝ)
    (h : mkScenario .denseUrban a = .ok c) (h' : mkScenario .denseUrban a' = .ok c')
    (hn : c.numClusters los = .ok n) (hn' : c'.numClusters los' = .ok n')
    (hx : c.getReal .pCPhiNLoS los = .ok x) (hx' : c'.getReal .pCPhiNLoS los' = .ok x') (hne : n ≠ n') : x ≠ x' := by
  have tab : tableAll (fun _ l s u k => cellIs (fun m => decide (m = if l then 680 else 779))
      (lookupAt (tableOf .denseUrban l s u) .pCPhiNLoS k) && cellIs (fun m => decide (m = if l then 3000 else 4000))
      (lookupAt (tableOf .denseUrban l s u) .pnumClusters k)) = true := by decide +kernel
  have main : ∀ (a : ScenarioArgs) (c : Config) (los : Bool) (n : ℤ) (x : ℝ), mkScenario .denseUrban a = .ok c →
      c.numClusters los = .ok n → c.getReal .pCPhiNLoS los = .ok x →
      n = (if los then 3 else 4) ∧ x = (if los then 0.68 else 0.779) := by
    intro a c los n x h hn hx
    obtain ⟨s, u, hk, -, -, e1, e2⟩ := built_rows h
    have t1 := tableAll_spec tab .denseUrban true s u hk
    have t2 := tableAll_spec tab .denseUrban false s u hk
    rw [Bool.and_eq_true] at t1 t2
    obtain ⟨m1, hm1, q1⟩ := cellIs_spec t1.1
    obtain ⟨m2, hm2, q2⟩ := cellIs_spec t2.1
    obtain ⟨m3, hm3, q3⟩ := cellIs_spec t1.2
    obtain ⟨m4, hm4, q4⟩ := cellIs_spec t2.2
    rw [← e1] at hm1 hm3
    rw [← e2] at hm2 hm4
    rw [getReal_ok hm1 hm2] at hx
    simp only [decide_eq_true_eq] at q1 q2 q3 q4
    have hm3 : lookupAngle c.paramsLos .pnumClusters c.angleKey = .ok (.m m3) := hm3
    have hm4 : lookupAngle c.paramsNlos .pnumClusters c.angleKey = .ok (.m m4) := hm4
    unfold Config.numClusters Config.numClustersLos Config.numClustersNlos at hn
    rw [hm3, hm4] at hn
    subst q1 q2 q3 q4
    cases los
    · simp only [Bool.false_eq_true, if_false, Except.ok.injEq] at hn hx ⊢
      exact ⟨by rw [← hn]; rfl, by rw [← hx]; norm_num⟩
    · simp only [if_true, Except.ok.injEq] at hn hx ⊢
      exact ⟨by rw [← hn]; rfl, by rw [← hx]; norm_num⟩
  obtain ⟨r1, r2⟩ := main a c los n x h hn hx
  obtain ⟨r3, r4⟩ := main a' c' los' n' x' h' hn' hx'
  rw [r2, r4]
  rw [r1, r3] at hne
  cases los <;> cases los' <;> simp_all <;> norm_num

/-- Both cluster counts occur in the dense urban scenario. -/
example : ∃ c, mkScenario .denseUrban (exArgs 2000000000 "uplink" 50) = .ok c ∧ c.numClusters true = .ok 3 ∧ c.numClusters false = .ok 4 := by
  obtain ⟨c, h⟩ := exArgs_ok .denseUrban true false 50 (by norm_num) (by norm_num)
  obtain ⟨s, u, hk, -, -, e1, e2⟩ := built_rows h
  refine ⟨c, by simpa using h, ?_, ?_⟩
  · simp only [Config.numClusters, if_true, Config.numClustersLos, e1]
    simp only [rows, List.mem_cons, List.not_mem_nil, or_false] at hk
    rcases hk with k | k | k | k | k | k | k | k | k <;> rw [k] <;> cases s <;> cases u <;> rfl
  · simp only [Config.numClusters, Bool.false_eq_true, if_false, Config.numClustersNlos, e2]
    simp only [rows, List.mem_cons, List.not_mem_nil, or_false] at hk
    rcases hk with k | k | k | k | k | k | k | k | k <;> rw [k] <;> cases s <;> cases u <;> rfl

/-- C09 fails: in the sub-urban scenario the LoS state has three clusters at 10 degrees and two at 80 degrees, with the same
scaling constant 0.68. -/
theorem C09_scaling_constant_violated : ¬ C09_statement := by
  intro H
  obtain ⟨c, h⟩ := exArgs_ok .subUrban true false 10 (by norm_num) (by norm_num)
  obtain ⟨c', h'⟩ := exArgs_ok .subUrban true false 80 (by norm_num) (by norm_num)
  have hb := mkScenario_built h
  have hb' := mkScenario_built h'
  have key : c.angleKey = 10 := by
    obtain ⟨k, hk, k1, k9, hd, -⟩ := angleKey_nearest c (hb.el_eq ▸ hb.el_lo) (hb.el_eq ▸ hb.el_hi)
    have : c.elevationAngle = 10 := hb.el_eq
    rw [this, hk] at hd
    have h1 := abs_le.1 hd
    push_cast at h1
    have : (k : ℝ) < 2 := by linarith [h1.2]
    have : k < 2 := by exact_mod_cast this
    omega
  have key' : c'.angleKey = 80 := by
    obtain ⟨k, hk, k1, k9, hd, -⟩ := angleKey_nearest c' (hb'.el_eq ▸ hb'.el_lo) (hb'.el_eq ▸ hb'.el_hi)
    have : c'.elevationAngle = 80 := hb'.el_eq
    rw [this, hk] at hd
    have h1 := abs_le.1 hd
    push_cast at h1
    have l1 : (k : ℝ) < 9 := by linarith [h1.2]
    have l2 : (7 : ℝ) < k := by linarith [h1.1]
    have : k < 9 := by exact_mod_cast l1
    have : 7 < k := by exact_mod_cast l2
    omega
  obtain ⟨s, u, -, -, -, e1, e2⟩ := built_rows h
  obtain ⟨s', u', -, -, -, e1', e2'⟩ := built_rows h'
  have n1 : c.numClusters true = .ok 3 := by
    simp only [Config.numClusters, if_true, Config.numClustersLos, key, e1]
    cases s <;> cases u <;> rfl
  have n2 : c'.numClusters true = .ok 2 := by
    simp only [Config.numClusters, if_true, Config.numClustersLos, key', e1']
    cases s' <;> cases u' <;> rfl
  have x1 : c.getReal .pCPhiNLoS true = .ok ((680 : ℤ) / 1000) := by
    have hl : lookupAt c.paramsLos .pCPhiNLoS c.angleKey = .ok (.m 680) := by
      rw [e1]; cases s <;> cases u <;> rfl
    have hn : lookupAt c.paramsNlos .pCPhiNLoS c.angleKey = .ok (.m 779) := by
      rw [e2]; cases s <;> cases u <;> rfl
    exact getReal_ok hl hn true
  have x2 : c'.getReal .pCPhiNLoS true = .ok ((680 : ℤ) / 1000) := by
    have hl : lookupAt c'.paramsLos .pCPhiNLoS c'.angleKey = .ok (.m 680) := by
      rw [e1']; cases s' <;> cases u' <;> rfl
    have hn : lookupAt c'.paramsNlos .pCPhiNLoS c'.angleKey = .ok (.m 779) := by
      rw [e2']; cases s' <;> cases u' <;> rfl
    exact getReal_ok hl hn true
  exact H .subUrban _ _ c c' true true 3 2 _ _ h h' n1 n2 x1 x2 (by norm_num) rfl

end OpenNTN
