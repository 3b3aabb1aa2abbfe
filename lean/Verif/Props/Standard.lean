import Verif.Lemmas.Standard
import Verif.Props.Config
import Verif.Props.Lsp
import Verif.Props.Pathloss

/-
Properties C104-C109: the numbers used are those of TR 38.811, as recorded in `Spec/Standard.lean`.
-/
namespace OpenNTN

variable {cls : ScenarioClass} {a : ScenarioArgs} {c : Config}

/-- `x` is the recorded value, in units of `1/unit`, up to `tol`. -/
def Spec.Agrees (tol unit : ℝ) (x : WithBot ℝ) : Option ℤ → Prop
  | none => x = ⊥
  | some n => ∃ y : ℝ, x = y ∧ |y - (n : ℝ) / 1000 / unit| ≤ tol

/-- The table row, band and direction of a request, independent of the code. -/
structure Spec.Request (fc el : ℝ) (dir : String) (row : ℤ) (s u : Bool) : Prop where
  row : Spec.IsNearestRow el row
  band : s = true ↔ Spec.SBand fc
  dir : u = true ↔ dir = "uplink"

theorem nearestRow_unique {e : ℝ} {r r' : ℤ} (h : Spec.IsNearestRow e r) (h' : Spec.IsNearestRow e r') : r = r' :=
  le_antisymm (nearestRow_mono h h' le_rfl) (nearestRow_mono h' h le_rfl)

/-- The row and files of the model are those of the request. -/
theorem request_tables (h : mkScenario cls a = .ok c) {row : ℤ} {s u : Bool}
    (q : Spec.Request a.carrierFrequency a.elevationAngle a.direction row s u) :
    c.angleKey = row ∧ row ∈ rows ∧ c.paramsLos = tableOf cls true s u ∧ c.paramsNlos = tableOf cls false s u := by
  have hb := mkScenario_built h
  obtain ⟨s', u', hk, hs, hu, e1, e2⟩ := built_rows h
  have hn := angleKey_nearest c (hb.el_eq ▸ hb.el_lo) (hb.el_eq ▸ hb.el_hi)
  rw [hb.el_eq] at hn
  have hr := nearestRow_unique hn q.row
  have es : s' = s := Bool.eq_iff_iff.2 (hs.trans q.band.symm)
  have eu : u' = u := Bool.eq_iff_iff.2 (hu.trans q.dir.symm)
  rw [es, eu] at e1 e2
  exact ⟨hr, hr ▸ hk, e1, e2⟩

theorem getParam_cell (h : mkScenario cls a = .ok c) {row : ℤ} {s u : Bool}
    (q : Spec.Request a.carrierFrequency a.elevationAngle a.direction row s u) {p : Param} {los : Bool} {x : WithBot ℝ}
    (hx : c.getParam p los = .ok x) : ∃ v, lookupAt (tableOf cls los s u) p row = .ok v ∧ x = v.val := by
  obtain ⟨hr, -, e1, e2⟩ := request_tables h q
  unfold Config.getParam at hx
  rw [lookupParam_eq, lookupParam_eq, hr, e1, e2] at hx
  split at hx
  · simp at hx
  · rename_i vl hl
    split at hx
    · simp at hx
    · rename_i vn hn
      injection hx with hx
      cases los
      · exact ⟨vn, hn, hx.symm⟩
      · exact ⟨vl, hl, hx.symm⟩

theorem agree_spec {tol : ℤ} {v : Cell} {r : Option (Option ℤ)} (h : agree tol (.ok v) r = true) :
    ∃ r', r = some r' ∧ Spec.Agrees ((tol : ℝ) / 1000) 1 v.val r' := by
  match v, r, h with
  | .m n, some (some r), h =>
    refine ⟨_, rfl, (n : ℝ) / 1000, rfl, ?_⟩
    have h' : |n - r| ≤ tol := by simpa [agree] using h
    have h2 : |(n : ℝ) - r| ≤ tol := by exact_mod_cast h'
    rw [div_one, ← sub_div, abs_div, abs_of_pos (show (0 : ℝ) < 1000 by norm_num)]
    gcongr
  | .ninf, some none, _ => exact ⟨_, rfl, rfl⟩

theorem same_spec {v : Cell} {r : Option ℤ} (h : same (.ok v) r = true) : ∃ n : ℤ, r = some n ∧ v.val = ((n : ℝ) / 1000 : ℝ) := by
  match v, r, h with
  | .m n, some r, h =>
    have : n = r := by simpa [same] using h
    subst this
    exact ⟨_, rfl, rfl⟩

theorem getParam_same (h : mkScenario cls a = .ok c) {row : ℤ} {s u : Bool}
    (q : Spec.Request a.carrierFrequency a.elevationAngle a.direction row s u) {p : Param} {los : Bool} {x : ℝ}
    (hx : c.getReal p los = .ok x) {r : Option ℤ} (hr : same (lookupAt (tableOf cls los s u) p row) r = true) :
    r = some ⌊1000 * x⌋ ∧ ∃ n : ℤ, r = some n ∧ x = (n : ℝ) / 1000 := by
  obtain ⟨v, hv, hxv⟩ := getParam_cell h q (getReal_getParam hx)
  rw [hv] at hr
  obtain ⟨n, hn, hval⟩ := same_spec hr
  rw [hval] at hxv
  have hxn : x = (n : ℝ) / 1000 := by exact_mod_cast hxv
  refine ⟨?_, n, hn, hxn⟩
  rw [hn, hxn]
  congr 1
  rw [mul_div_cancel₀ _ (by norm_num : (1000 : ℝ) ≠ 0), Int.floor_intCast]

/-- C104: for every accepted configuration the means and deviations handed to the sampler are the recorded ones; exactly,
except in the nine listed cells, where they differ by at most the tolerance 0.1 of the test suite. The K-factor is in units
of 10 dB. -/
theorem C104_distributions (h : mkScenario cls a = .ok c) {row : ℤ} {s u : Bool}
    (q : Spec.Request a.carrierFrequency a.elevationAngle a.direction row s u) (los nb : Bool) :
    ∃ (m : Fin 7 → WithBot ℝ) (d : Fin 7 → ℝ), lspLogMean c los = .ok m ∧ lspLogStd c los nb = .ok d ∧
      ∀ i : Fin 7, i ≠ 3 → (i = 4 → los = true) → ∃ rm rd : Option ℤ,
        Spec.atRow (Spec.meanRec (areaOf cls) los s u i) row = some rm ∧
        Spec.atRow (Spec.devRec (areaOf cls) los s u i) row = some rd ∧
        Spec.Agrees (if (true, areaOf cls, los, s, u, row, (i : ℕ)) ∈ differing then 1 / 10 else 0) (if i = 4 then 10 else 1) (m i) rm ∧
        Spec.Agrees (if (false, areaOf cls, los, s, u, row, (i : ℕ)) ∈ differing then 1 / 10 else 0) (if i = 4 then 10 else 1) (d i : ℝ) rd := by
  obtain ⟨σ, hσ, -, d0, d1, d2, d3, d4, d5, d6⟩ := lspLogStd_ok h los nb
  obtain ⟨μ, m0, m2, m4, m5, hμ, f0, f2, f4, f5, f1, f6, h0, h2, h3, h4, h5⟩ := lspLogMean_ok h los
  refine ⟨μ, σ, hμ, hσ, ?_⟩
  obtain ⟨-, hrow, -, -⟩ := request_tables h q
  have key : ∀ i : Fin 7, i ≠ 3 → (i = 4 → los = true) → ∀ x y : WithBot ℝ, c.getParam (muParam i) los = .ok x →
      c.getParam (sigmaParam i) los = .ok y → ∃ rm rd : Option ℤ,
        Spec.atRow (Spec.meanRec (areaOf cls) los s u i) row = some rm ∧
        Spec.atRow (Spec.devRec (areaOf cls) los s u i) row = some rd ∧
        Spec.Agrees ((cellTol true (areaOf cls) los s u row i : ℝ) / 1000) 1 x rm ∧
        Spec.Agrees ((cellTol false (areaOf cls) los s u row i : ℝ) / 1000) 1 y rd := by
    intro i hi hk x y hx hy
    have hcov : ¬ ((decide (i = 4) && !los) = true) := by
      intro hh; simp only [Bool.and_eq_true, decide_eq_true_eq, Bool.not_eq_true'] at hh
      rw [hk hh.1] at hh; simp at hh
    have t1 := tableAll_spec (mean_table i hi) cls los s u hrow
    have t2 := tableAll_spec (dev_table i hi) cls los s u hrow
    simp only [Bool.or_eq_true, hcov, Bool.false_eq_true, false_or] at t1 t2
    obtain ⟨v, hv, rfl⟩ := getParam_cell h q hx
    obtain ⟨w, hw, rfl⟩ := getParam_cell h q hy
    rw [hv] at t1; rw [hw] at t2
    obtain ⟨rm, e1, g1⟩ := agree_spec t1
    obtain ⟨rd, e2, g2⟩ := agree_spec t2
    exact ⟨rm, rd, e1, e2, g1, g2⟩
  have tol : ∀ (b : Bool) (i : ℕ), ((cellTol b (areaOf cls) los s u row i : ℤ) : ℝ) / 1000 =
      if (b, areaOf cls, los, s, u, row, i) ∈ differing then 1 / 10 else 0 := by
    intro b i
    unfold cellTol
    split_ifs <;> norm_num
  have plain : ∀ i : Fin 7, i ≠ 3 → i ≠ 4 → c.getParam (muParam i) los = .ok (μ i) → c.getReal (sigmaParam i) los = .ok (σ i) →
      ∃ rm rd : Option ℤ,
        Spec.atRow (Spec.meanRec (areaOf cls) los s u i) row = some rm ∧
        Spec.atRow (Spec.devRec (areaOf cls) los s u i) row = some rd ∧
        Spec.Agrees (if (true, areaOf cls, los, s, u, row, (i : ℕ)) ∈ differing then 1 / 10 else 0) (if i = 4 then 10 else 1) (μ i) rm ∧
        Spec.Agrees (if (false, areaOf cls, los, s, u, row, (i : ℕ)) ∈ differing then 1 / 10 else 0) (if i = 4 then 10 else 1) (σ i : ℝ) rd := by
    intro i hi hi4 hx hy
    have := key i hi (fun e => absurd e hi4) _ _ hx (getReal_getParam hy)
    rw [tol, tol] at this
    rw [if_neg hi4]
    exact this
  intro i hi hk
  fin_cases i
  · exact plain 0 (by decide) (by decide) (by rw [h0]; exact getReal_getParam f0) d0
  · exact plain 1 (by decide) (by decide) f1 d1
  · exact plain 2 (by decide) (by decide) (by rw [h2]; exact getReal_getParam f2) d2
  · exact absurd rfl hi
  · obtain ⟨rm, rd, e1, e2, g1, g2⟩ := key 4 (by decide) hk _ _ (getReal_getParam f4) (getReal_getParam d4)
    have no : ∀ b, (b, areaOf cls, los, s, u, row, ((4 : Fin 7) : ℕ)) ∉ differing := by
      intro b; simp [differing]
    rw [tol, if_neg (no true)] at g1
    rw [tol, if_neg (no false)] at g2
    refine ⟨rm, rd, e1, e2, ?_, ?_⟩
    · show Spec.Agrees (if (true, areaOf cls, los, s, u, row, ((4 : Fin 7) : ℕ)) ∈ differing then 1 / 10 else 0) 10 (μ 4) rm
      rw [if_neg (no true), h4]
      cases rm with
      | none => exact absurd g1 (WithBot.coe_ne_bot)
      | some n =>
        obtain ⟨y, hy, hle⟩ := g1
        have hy' : 10 * m4 = y := by exact_mod_cast hy
        refine ⟨m4, rfl, ?_⟩
        have : y - (n : ℝ) / 1000 / 1 = 0 := abs_nonpos_iff.1 hle
        have e : m4 - (n : ℝ) / 1000 / 10 = 0 := by rw [← hy'] at this; linarith
        rw [e]; simp
    · show Spec.Agrees (if (false, areaOf cls, los, s, u, row, ((4 : Fin 7) : ℕ)) ∈ differing then 1 / 10 else 0) 10 (σ 4 : ℝ) rd
      rw [if_neg (no false)]
      cases rd with
      | none => exact absurd g2 (WithBot.coe_ne_bot)
      | some n =>
        obtain ⟨y, hy, hle⟩ := g2
        have hy' : 10 * σ 4 = y := by exact_mod_cast hy
        refine ⟨σ 4, rfl, ?_⟩
        have : y - (n : ℝ) / 1000 / 1 = 0 := abs_nonpos_iff.1 hle
        have e : σ 4 - (n : ℝ) / 1000 / 10 = 0 := by rw [← hy'] at this; linarith
        rw [e]; simp
  · exact plain 5 (by decide) (by decide) (by rw [h5]; exact getReal_getParam f5) d5
  · exact plain 6 (by decide) (by decide) f6 d6

/-- A request at 44 degrees uses the records of row 40: dense urban, LoS, S band, uplink, delay spread -7.73. -/
example : Spec.Request 2000000000 44 "uplink" 40 true true ∧
    (∃ c, mkScenario .denseUrban (exArgs 2000000000 "uplink" 44) = .ok c) ∧
    Spec.atRow (Spec.meanRec (areaOf .denseUrban) true true true 0) 40 = some (some (-7730)) := by
  refine ⟨⟨⟨4, by norm_num, by norm_num, by norm_num, by norm_num [abs_le], fun _ => by decide⟩, ?_, by simp⟩, ?_, rfl⟩
  · simp only [Spec.SBand, true_iff]; norm_num
  · simpa using exArgs_ok .denseUrban true false 44 (by norm_num) (by norm_num)

/-- C105: the cross-correlation matrix has the recorded coefficient for every pair of parameters, at both places, and a unit
diagonal. -/
theorem C105_cross_correlations (h : mkScenario cls a = .ok c) {row : ℤ} {s u : Bool}
    (q : Spec.Request a.carrierFrequency a.elevationAngle a.direction row s u) (los : Bool) :
    ∃ R, crossLspCorrelation c los = .ok R ∧ (∀ i, R i i = 1) ∧
      ∀ i j : Fin 7, i ≠ j → ∃ e ∈ Spec.crossRec (areaOf cls) los s u, ∃ n : ℤ,
        ((e.1 = i ∧ e.2.1 = j) ∨ (e.1 = j ∧ e.2.1 = i)) ∧ Spec.atRow e.2.2 row = some n ∧ R i j = (n : ℝ) / 1000 := by
  obtain ⟨s', u', hs, hu, hk, -, hR⟩ := crossLspCorrelation_table h los
  obtain ⟨hr, hrow, -, -⟩ := request_tables h q
  have es : s' = s := Bool.eq_iff_iff.2 (hs.trans q.band.symm)
  have eu : u' = u := Bool.eq_iff_iff.2 (hu.trans q.dir.symm)
  subst es; subst eu
  rw [hr] at hR
  refine ⟨_, hR, ?_, ?_⟩
  · intro i
    have : ∀ (w : Param → ℤ) (i : Fin 7), crossInt w i i = 1000 := by
      intro w i
      fin_cases i <;> simp [crossInt, crossEntries, addMask]
    simp only [this]; norm_num
  · intro i j hij
    have hp := cross_pairs cls los s' u' i j hij
    obtain ⟨e, he, hpair⟩ := List.any_eq_true.1 hp
    have hpair' : (e.1 = i ∧ e.2.1 = j) ∨ (e.1 = j ∧ e.2.1 = i) := by simpa using hpair
    have ht := List.all_eq_true.1 (tableAll_spec cross_table cls los s' u' hrow) e he
    simp only [Bool.and_eq_true, decide_eq_true_eq] at ht
    refine ⟨e, he, crossInt (fun p => milliAt (tableOf cls los s' u') p row) i j, hpair', ?_, rfl⟩
    rcases hpair' with ⟨e1, e2⟩ | ⟨e1, e2⟩
    · rw [ht.1, e1, e2]; simp
    · rw [ht.2, e1, e2]; simp

example : (0, 2, List.replicate 9 800) ∈ (Spec.crossRec .urban true true true) ∨
    (2, 0, List.replicate 9 800) ∈ (Spec.crossRec .urban true true true) := by decide +kernel

/-- C106: two UTs in the same state are correlated by `exp(-d/D)` with the recorded correlation distance `D` of the state. -/
theorem C106_correlation_distances (h : mkScenario cls a = .ok c) {U : ℕ} {los indoor : Fin U → Bool} {x y : Fin U → ℝ}
    (hli : ∀ u, ¬ (los u = true ∧ indoor u = true)) (i : Fin 7) :
    ∃ (C : Fin U → Fin U → ℝ) (nl nn : ℤ), spatialCorrelationOf c los indoor x y i = .ok C ∧
      (Spec.corrDistRec true)[(i : ℕ)]? = some nl ∧ (Spec.corrDistRec false)[(i : ℕ)]? = some nn ∧
      ∀ m n, C m n = Spec.spatialCorr (fun u => Spec.utState (los u) (indoor u))
        (fun st => if st = .los then (nl : ℝ) / 1000 else (nn : ℝ) / 1000) x y m n := by
  obtain ⟨C, D, hC, hD, -, -, hs⟩ := C28_spatial_correlation (x := x) (y := y) h hli i
  obtain ⟨s, u, hk, hs', hu', -, -⟩ := built_rows h
  have hb := mkScenario_built h
  have hn := angleKey_nearest c (hb.el_eq ▸ hb.el_lo) (hb.el_eq ▸ hb.el_hi)
  rw [hb.el_eq] at hn
  have q : Spec.Request a.carrierFrequency a.elevationAngle a.direction c.angleKey s u := ⟨hn, hs', hu'⟩
  have g : ∀ l st, decide (st = Spec.UtState.los) = l → ∃ n : ℤ, (Spec.corrDistRec l)[(i : ℕ)]? = some n ∧ D st = (n : ℝ) / 1000 := by
    intro l st hl
    have hx := (hD st).2
    rw [hl] at hx
    obtain ⟨-, n, e1, e2⟩ := getParam_same h q hx (tableAll_spec (corrDist_table i) cls l s u hk)
    exact ⟨n, e1, e2⟩
  obtain ⟨nl, el, dl⟩ := g true .los (by simp)
  obtain ⟨nn, en, dn⟩ := g false .nlos (by simp)
  obtain ⟨ni, ei, di⟩ := g false .indoor (by simp)
  have : ni = nn := by have := ei.symm.trans en; simpa using this
  subst this
  refine ⟨C, nl, ni, hC, el, en, ?_⟩
  have hDD : D = fun st => if st = .los then (nl : ℝ) / 1000 else (ni : ℝ) / 1000 := by
    funext st; cases st <;> simp [dl, dn, di]
  intro m n
  rw [hs, hDD]

example : (Spec.corrDistRec true)[4]? = some 12000 ∧ (Spec.corrDistRec false)[4]? = some 1000 ∧
    ∃ c, mkScenario .urban (exArgs 2000000000 "uplink" 45) = .ok c := by
  refine ⟨rfl, rfl, ?_⟩
  simpa using exArgs_ok .urban true false 45 (by norm_num) (by norm_num)

/-- C107: the LoS probability is that of TR 38.811 Table 6.6.1-1. -/
theorem C107_los_probability (h : mkScenario cls a = .ok c) {row : ℤ} {s u : Bool}
    (q : Spec.Request a.carrierFrequency a.elevationAngle a.direction row s u) :
    ∃ n : ℤ, Spec.atRow (Spec.losProbRec (areaOf cls)) row = some n ∧ c.losProbability = .ok (((n : ℝ) / 1000 : ℝ) : WithBot ℝ) := by
  obtain ⟨hr, hrow, e1, -⟩ := request_tables h q
  have ht := tableAll_spec losProb_table cls true s u hrow
  obtain ⟨n, hn, -⟩ := cellIs_spec (tableAll_spec (finite_cell (p := .pLoSp) (by decide)) cls true s u hrow)
  rw [hn] at ht
  obtain ⟨n', e, hv⟩ := same_spec ht
  refine ⟨n', e, ?_⟩
  have hn' : lookupAngle (tableOf cls true s u) .pLoSp row = .ok (.m n) := by simpa [lookupAt] using hn
  unfold Config.losProbability
  rw [hr, e1, hn']
  simp only [hv]

example : Spec.atRow (Spec.losProbRec (areaOf .urban)) 50 = some 726 := rfl

/-- C108: clutter loss and shadow fading are those of TR 38.811 Tables 6.6.2-1 to 6.6.2-3: the loss beyond free space is
`σ z` in LoS and `CL + σ z` in NLoS, for the standard normal number `z` drawn for the link, and the same `σ` scales the
shadow fading of the large-scale parameters (in units of 10 dB). -/
theorem C108_clutter_shadow (h : mkScenario cls a = .ok c) {row : ℤ} {s u : Bool}
    (q : Spec.Request a.carrierFrequency a.elevationAngle a.direction row s u) :
    ∃ cl σl σn : ℤ, Spec.atRow (Spec.clutterRec (areaOf cls) s) row = some cl ∧
      Spec.atRow (Spec.shadowRec (areaOf cls) true s) row = some σl ∧ Spec.atRow (Spec.shadowRec (areaOf cls) false s) row = some σn ∧
      (∀ d zl zn, basicLoss c true d zl zn = .ok (32.45 + 20 * (Real.log (a.carrierFrequency / 1000000000) / Real.log 10) +
        20 * (Real.log d / Real.log 10) + (σl : ℝ) / 1000 * zl)) ∧
      (∀ d zl zn, basicLoss c false d zl zn = .ok (32.45 + 20 * (Real.log (a.carrierFrequency / 1000000000) / Real.log 10) +
        20 * (Real.log d / Real.log 10) + (σn : ℝ) / 1000 * zn + (cl : ℝ) / 1000)) ∧
      ∀ los nb, ∃ d, lspLogStd c los nb = .ok d ∧ 10 * d 3 = ((if los then σl else σn : ℤ) : ℝ) / 1000 := by
  obtain ⟨hr, hrow, e1, e2⟩ := request_tables h q
  obtain ⟨σ, cl, -, hcl, hσ, pl, hpl, ht, hf, -⟩ := C55_basic_pathloss h
  obtain ⟨-, nl, r1, v1⟩ := getParam_same h q (hσ true) (tableAll_spec shadow_table cls true s u hrow)
  obtain ⟨-, nn, r2, v2⟩ := getParam_same h q (hσ false) (tableAll_spec shadow_table cls false s u hrow)
  have hc : ∃ n : ℤ, Spec.atRow (Spec.clutterRec (areaOf cls) s) row = some n ∧ cl = (n : ℝ) / 1000 := by
    have ht := tableAll_spec clutter_table cls true s u hrow
    obtain ⟨n, hn, -⟩ := cellIs_spec (tableAll_spec cl_cells cls true s u hrow)
    rw [hn] at ht
    obtain ⟨n', e, hv⟩ := same_spec ht
    refine ⟨n', e, ?_⟩
    have hn' : lookupAngle (tableOf cls false s u) .pCL row = .ok (.m n) := by simpa [lookupAt] using hn
    unfold Config.rowReal at hcl
    rw [hr, e2, hn'] at hcl
    simp only [hv] at hcl
    injection hcl with hcl
    exact hcl.symm
  obtain ⟨n, r3, v3⟩ := hc
  refine ⟨n, nl, nn, r3, r1, r2, ?_, ?_, ?_⟩
  · intro d zl zn; rw [hpl, ht, v1]
  · intro d zl zn; rw [hpl, hf, v2, v3]
  · intro los nb
    obtain ⟨d, hd, -, -, -, -, d3, -⟩ := lspLogStd_ok h los nb
    refine ⟨d, hd, ?_⟩
    have := (hσ los).symm.trans d3
    have e : σ los = 10 * d 3 := by simpa using this
    rw [← e]
    cases los
    · exact v2
    · exact v1

example : Spec.atRow (Spec.clutterRec (areaOf .subUrban) true) 20 = some 18170 ∧
    Spec.atRow (Spec.shadowRec (areaOf .subUrban) false true) 20 = some 9080 := ⟨rfl, rfl⟩

/-- C109: the delay scaling parameter is the recorded one. -/
theorem C109_delay_scaling (h : mkScenario cls a = .ok c) {row : ℤ} {s u : Bool}
    (q : Spec.Request a.carrierFrequency a.elevationAngle a.direction row s u) (los : Bool) :
    ∃ n : ℤ, Spec.atRow (Spec.rTauRec (areaOf cls) los s) row = some n ∧ c.getReal .prTau los = .ok ((n : ℝ) / 1000) := by
  obtain ⟨hr, hrow, e1, e2⟩ := request_tables h q
  obtain ⟨n, -, hx⟩ := getReal_check h .prTau _ (finite_cell (p := .prTau) (by decide)) los
  obtain ⟨-, m, r1, v1⟩ := getParam_same h q hx (tableAll_spec rTau_table cls los s u hrow)
  exact ⟨m, r1, by rw [hx, v1]⟩

example : Spec.atRow (Spec.rTauRec (areaOf .subUrban) true true) 30 = some 3500 := rfl

/-- Everything that describes the satellite end of the link: departure spreads and their correlations. -/
def satelliteSide : List Param :=
  [.pmuASD, .psigmaASD, .pmuZSD, .psigmaZSD, .pcorrASDvsDS, .pcorrASDvsSF, .pcorrASDvsASA, .pcorrASDvsK, .pcorrZSDvsSF,
   .pcorrZSDvsK, .pcorrZSDvsDS, .pcorrZSDvsASD, .pcorrZSAvsASD, .pcorrZSDvsASA, .pcorrZSDvsZSA]

theorem direction_table : (allParams.all fun p => decide (p ∈ satelliteSide) ||
    tableAll (fun cl l s _ k => match lookupAt (tableOf cl l s true) p k, lookupAt (tableOf cl l s false) p k with
      | .ok v, .ok w => decide (v = w)
      | .error e, .error e' => decide (e = e')
      | _, _ => false)) = true := by decide +kernel

/-- C110: uplink and downlink of the same link differ only in what describes the satellite end: every other parameter, the
number of clusters, the LoS probability and the basic path loss are the same. -/
theorem C110_directions {a' : ScenarioArgs} {c' : Config} (h : mkScenario cls a = .ok c) (h' : mkScenario cls a' = .ok c')
    (hu : a.direction = "uplink") (hd : a'.direction = "downlink") (hf : a.carrierFrequency = a'.carrierFrequency)
    (he : a.elevationAngle = a'.elevationAngle) :
    (∀ p los, p ∉ satelliteSide → c.getParam p los = c'.getParam p los) ∧
    c.numClustersLos = c'.numClustersLos ∧ c.numClustersNlos = c'.numClustersNlos ∧ c.losProbability = c'.losProbability ∧
    ∀ los d zl zn, basicLoss c los d zl zn = basicLoss c' los d zl zn := by
  obtain ⟨s, u, hk, hs, hu1, e1, e2⟩ := built_rows h
  have hb := mkScenario_built h
  have hn := angleKey_nearest c (hb.el_eq ▸ hb.el_lo) (hb.el_eq ▸ hb.el_hi)
  rw [hb.el_eq] at hn
  have eu : u = true := hu1.2 hu
  subst eu
  have q' : Spec.Request a'.carrierFrequency a'.elevationAngle a'.direction c.angleKey s false :=
    ⟨he ▸ hn, hf ▸ hs, by simp [hd]⟩
  obtain ⟨hr', -, e1', e2'⟩ := request_tables h' q'
  have cells : ∀ p, p ∉ satelliteSide → ∀ l, lookupAt (tableOf cls l s true) p c.angleKey = lookupAt (tableOf cls l s false) p c.angleKey := by
    intro p hp l
    have ht := List.all_eq_true.1 direction_table p (mem_allParams p)
    simp only [Bool.or_eq_true, decide_eq_true_eq, hp, false_or] at ht
    have := tableAll_spec ht cls l s true hk
    revert this
    cases lookupAt (tableOf cls l s true) p c.angleKey <;> cases lookupAt (tableOf cls l s false) p c.angleKey <;> simp
  have ang : ∀ p : Param, p ∉ satelliteSide → p ≠ .pCPhiNLoS → p ≠ .pCThetaNLoS → ∀ l,
      lookupAngle (tableOf cls l s true) p c.angleKey = lookupAngle (tableOf cls l s false) p c.angleKey := by
    intro p hp n1 n2 l
    have := cells p hp l
    simpa [lookupAt, n1, n2] using this
  refine ⟨?_, ?_, ?_, ?_, ?_⟩
  · intro p los hp
    unfold Config.getParam
    rw [lookupParam_eq, lookupParam_eq, lookupParam_eq, lookupParam_eq, hr', e1, e2, e1', e2', cells p hp true, cells p hp false]
  · unfold Config.numClustersLos
    rw [hr', e1, e1', ang _ (by decide) (by decide) (by decide) true]
  · unfold Config.numClustersNlos
    rw [hr', e2, e2', ang _ (by decide) (by decide) (by decide) false]
  · unfold Config.losProbability
    rw [hr', e1, e1', ang _ (by decide) (by decide) (by decide) true]
  · intro los d zl zn
    have hb' := mkScenario_built h'
    unfold basicLoss Config.rowReal basicLossWith
    rw [hr', e1, e2, e1', e2', ang .pCL (by decide) (by decide) (by decide) false,
      ang .psigmaSF (by decide) (by decide) (by decide) true, ang .psigmaSF (by decide) (by decide) (by decide) false,
      hb.fc_eq, hb'.fc_eq, hf]

/-- The satellite end really differs: the mean azimuth spread of departure is finite in uplink and `-inf` in downlink. -/
example : (∃ c, mkScenario .urban (exArgs 2000000000 "uplink" 45) = .ok c) ∧
    (∃ c, mkScenario .urban (exArgs 2000000000 "downlink" 45) = .ok c) ∧
    lookupAt (tableOf .urban true true true) .pmuASD 40 ≠ lookupAt (tableOf .urban true true false) .pmuASD 40 := by
  refine ⟨?_, ?_, ?_⟩
  · simpa using exArgs_ok .urban true false 45 (by norm_num) (by norm_num)
  · simpa using exArgs_ok .urban false false 45 (by norm_num) (by norm_num)
  · intro hh; injection hh with hh; exact absurd hh (by decide)

end OpenNTN
