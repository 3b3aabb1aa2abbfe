import Verif.Props.Cir2
import Mathlib.Algebra.Polynomial.Roots

/-
C134: with normal draws, a generated channel consists of numbers with probability one.
-/
namespace OpenNTN

open Classical Spec MeasureTheory ProbabilityTheory

variable {cls : ScenarioClass} {sa : ScenarioArgs} {c : Config}

/-- None of the three scaling polynomials of a LoS link vanishes. -/
def ScalingsNonzero (k : ℝ) : Prop :=
  delayScaling (10 * log10 k) ≠ 0 ∧ cPhiScaling (10 * log10 k) ≠ 0 ∧ cThetaScaling (10 * log10 k) ≠ 0

theorem cubic_roots (a b e d : ℝ) (ha : a ≠ 0) : {x : ℝ | a + b * x + e * x ^ 2 + d * x ^ 3 = 0}.Finite := by
  let p : Polynomial ℝ := .C a + .C b * .X + .C e * .X ^ 2 + .C d * .X ^ 3
  have hp : p ≠ 0 := by
    intro h
    have := congrArg (Polynomial.eval 0) h
    simp [p] at this
    exact ha this
  refine (p.roots.toFinset.finite_toSet).subset fun x hx => ?_
  simp only [Finset.mem_coe, Multiset.mem_toFinset, Polynomial.mem_roots hp, Polynomial.IsRoot.def]
  simpa [p] using hx

theorem scaling_roots : {x : ℝ | delayScaling x = 0 ∨ cPhiScaling x = 0 ∨ cThetaScaling x = 0}.Finite := by
  have h1 := cubic_roots 0.7705 (-0.0433) 0.0002 0.000017 (by norm_num)
  have h2 := cubic_roots 1.1035 (-0.028) (-0.002) 0.0001 (by norm_num)
  have h3 := cubic_roots 1.3086 0.0339 (-0.0077) 0.0002 (by norm_num)
  refine (h1.union (h2.union h3)).subset fun x hx => ?_
  simp only [Set.mem_setOf_eq, Set.mem_union, delayScaling, cPhiScaling, cThetaScaling] at hx ⊢
  rcases hx with hx | hx | hx
  · left; linarith
  · right; left; linarith
  · right; right; linarith

/-- The deviation of the K-factor of LoS links is positive. -/
theorem sigmaK_pos (h : mkScenario cls sa = .ok c) : ∃ x, c.getReal .psigmaK true = .ok x ∧ 0 < x := by
  obtain ⟨s, u, -, hP, e⟩ := getReal_table h .psigmaK (fun _ l _ _ n => if l then decide (0 < n) else true) (by decide +kernel) true
  refine ⟨_, e, ?_⟩
  have : (0 : ℤ) < milliAt (tableOf cls true s u) .psigmaK c.angleKey := by simpa using hP
  have : (0 : ℝ) < (milliAt (tableOf cls true s u) .psigmaK c.angleKey : ℝ) := by exact_mod_cast this
  positivity

section
variable {U : ℕ} {los indoor : Fin U → Bool} {x y : Fin U → ℝ} {nb nb' : Fin U → Bool}

/-- The K-factor of a LoS link avoids the roots with probability one. -/
theorem kFactor_almost_surely (h : mkScenario cls sa = .ok c) (S : LspSetup c los indoor x y nb) {Ω : Type*} [MeasurableSpace Ω]
    {P : Measure Ω} [IsProbabilityMeasure P] {s : Fin U × Fin 7 → Ω → ℝ} (hs : StandardNormal P s) (u : Fin U) (hu : los u = true) :
    ∀ᵐ ω ∂P, ScalingsNonzero (S.sample (fun v k => s (v, k) ω) u).kFactor := by
  obtain ⟨-, -, -, ⟨m, -, hm⟩, hσ⟩ := C27_tabulated_mean_deviation h S u
  obtain ⟨σ, e, hσ0⟩ := sigmaK_pos h
  rw [hu, e] at hσ
  have hσ : σ = 10 * S.std u 4 := Except.ok.inj hσ
  have hpos : 0 < S.std u 4 := by linarith
  set a : Fin U × Fin 7 → ℝ := fun p => S.crossSqrt p.1 4 p.2 * S.spatialSqrt 4 u p.1 with ha
  have law := StandardNormal.law_lin hs a
  have hv : (∑ k, a k ^ 2).toNNReal ≠ 0 := by
    obtain ⟨R, -, hR⟩ := S.cross_ok u
    obtain ⟨C, -, hC⟩ := S.spatial_ok 4
    have h0 : 0 < a (u, 4) ^ 2 := by
      have := mul_pos (hR.diag 4) (hC.diag u)
      rw [ha]; positivity
    have h1 : a (u, 4) ^ 2 ≤ ∑ k, a k ^ 2 := Finset.single_le_sum (f := fun k => a k ^ 2) (fun k _ => sq_nonneg _) (Finset.mem_univ _)
    simp only [ne_eq, Real.toNNReal_eq_zero, not_le]
    linarith
  -- the bad values of the linear combination
  have hfin : {t : ℝ | 10 * (S.std u 4 * t + m) ∈ {x : ℝ | delayScaling x = 0 ∨ cPhiScaling x = 0 ∨ cThetaScaling x = 0}}.Finite := by
    refine scaling_roots.preimage fun t _ t' _ ht => ?_
    have : S.std u 4 * (t - t') = 0 := by linarith
    rcases mul_eq_zero.1 this with h | h <;> linarith
  have hnull : P {ω | ∑ k, a k * s k ω ∈ {t : ℝ | 10 * (S.std u 4 * t + m) ∈ {x : ℝ | delayScaling x = 0 ∨ cPhiScaling x = 0 ∨ cThetaScaling x = 0}}} = 0 := by
    have := nullSingletonClass_gaussianReal (μ := 0) hv
    have h0 := hfin.measure_zero (gaussianReal 0 (∑ k, a k ^ 2).toNNReal)
    rw [← law.map_eq, Measure.map_apply_of_aemeasurable law.aemeasurable hfin.measurableSet] at h0
    exact h0
  have hae := (ae_iff (p := fun ω => ∑ k, a k * s k ω ∉ {t : ℝ | 10 * (S.std u 4 * t + m) ∈ {x : ℝ | delayScaling x = 0 ∨ cPhiScaling x = 0 ∨ cThetaScaling x = 0}})).2 (by
    simpa only [not_not] using hnull)
  filter_upwards [hae] with ω hω
  have hk : 10 * log10 (S.sample (fun v k => s (v, k) ω) u).kFactor = 10 * (S.std u 4 * ∑ k, a k * s k ω + m) := by
    have := sample_log S (fun v k => s (v, k) ω) u 4 m hm (by exact WithTop.coe_lt_top _)
    change log10 (S.sample _ u).kFactor = _ at this
    rw [this, correlateDraws_lin]
    ring
  unfold ScalingsNonzero
  rw [hk]
  simp only [Set.mem_setOf_eq, not_or] at hω
  exact hω

/-- The sampler is determined by the topology, apart from the selection of the shadow fading deviation. -/
theorem sample_kFactor_unique (h : mkScenario cls sa = .ok c) (S : LspSetup c los indoor x y nb) (S' : LspSetup c los indoor x y nb')
    (s : Fin U → Fin 7 → ℝ) (u : Fin U) : (S.sample s u).kFactor = (S'.sample s u).kFactor := by
  have e1 : S.crossSqrt = S'.crossSqrt := funext fun v => by
    obtain ⟨R, e, hR⟩ := S.cross_ok v
    obtain ⟨R', e', hR'⟩ := S'.cross_ok v
    rw [e] at e'; cases e'
    exact cholesky_unique hR hR'
  have e2 : S.spatialSqrt = S'.spatialSqrt := funext fun i => by
    obtain ⟨R, e, hR⟩ := S.spatial_ok i
    obtain ⟨R', e', hR'⟩ := S'.spatial_ok i
    rw [e] at e'; cases e'
    exact cholesky_unique hR hR'
  have e3 : S.mean u = S'.mean u := Except.ok.inj ((S.mean_ok u).symm.trans (S'.mean_ok u))
  have e4 : S.std u 4 = S'.std u 4 := by
    have h1 := (C27_tabulated_mean_deviation h S u).2.2.2.2
    have h2 := (C27_tabulated_mean_deviation h S' u).2.2.2.2
    rw [h1] at h2
    have := Except.ok.inj h2
    linarith
  unfold LspSetup.sample lspOf
  dsimp only
  rw [e1, e2, e3, e4]

end

section
variable {B N U M : ℕ} [NeZero B] [NeZero N] [NeZero M]

/-- Ray generation is defined on outdoor links unless the K-factor is a root of a scaling polynomial. -/
theorem raysCall_defined_roots (h : mkScenario cls sa = .ok c) (i : RayInputs B N U) (w : RayDraws B N U M) (b : Fin B) (n : Fin N) (u : Fin U)
    (act : ℕ) (hact : 0 < act) (hmask : IsOutdoorMask act fun k : Fin M => i.mask b n u k) (hds : 0 < (i.lsp b n u).ds)
    (hk : 0 < (i.lsp b n u).kFactor) (hdb : i.los b n u = true → ScalingsNonzero (i.lsp b n u).kFactor) :
    ∃ L, raysCall c i w b n u = .ok L := by
  have hA := (C04_admissible_values h).2.2.2.2 (i.los b n u)
  obtain ⟨rt, hrt, -⟩ := hA.1
  have e1 : ∃ d un, clusterDelays c (i.los b n u) (i.lsp b n u).ds (i.lsp b n u).kFactor (fun k : Fin M => i.mask b n u k)
      (w.delay b n u) = .ok (d, un) := by
    unfold clusterDelays kFactorDb
    rw [hrt, if_pos hk]
    rcases hl : i.los b n u
    · exact ⟨_, _, rfl⟩
    · simp only [bind, Except.bind, if_true, if_neg (hdb hl).1]
      exact ⟨_, _, rfl⟩
  obtain ⟨d, un, e1⟩ := e1
  obtain ⟨p, q, e2, -, hq, -⟩ := C34_powers h (i.los b n u) (i.lsp b n u).ds (i.lsp b n u).kFactor act
    (fun k : Fin M => i.mask b n u k) un (w.shadow b n u) hds hk hact hmask
  have hc := hA.2.2.2.1
  obtain ⟨caa, f1, -⟩ := hc .pcASA (by simp)
  obtain ⟨cad, f2, -⟩ := hc .pcASD (by simp)
  obtain ⟨cza, f3, -⟩ := hc .pcZSA (by simp)
  obtain ⟨sx, f4, -⟩ := hc .psigmaXPR (by simp)
  obtain ⟨mx, -, f5⟩ := getReal_check h .pmuXPR _ (finite_cell (p := .pmuXPR) (by decide)) (i.los b n u)
  obtain ⟨rel, hrel⟩ := relativePower_ok hq
  have az : ∀ spread a (sg : Fin M → Bool) z, ∃ cl, azimuthClusters c (i.los b n u) spread (i.lsp b n u).kFactor a q sg z = .ok cl := by
    intro spread a sg z
    obtain ⟨x, hx, hx0⟩ := hA.2.2.1 .pCPhiNLoS (by simp)
    unfold azimuthClusters cPhi kFactorDb
    rw [hx, hrel, if_pos hk]
    rcases hl : i.los b n u
    · simp only [bind, Except.bind, Bool.false_eq_true, if_false, if_neg hx0.ne']
      exact ⟨_, rfl⟩
    · simp only [bind, Except.bind, if_true, if_neg (mul_ne_zero hx0.ne' (hdb hl).2.1)]
      exact ⟨_, rfl⟩
  have ze : ∀ spread (sg : Fin M → Bool) z, ∃ cl,
      zenithDeviation c (i.los b n u) (i.indoor b u) spread (i.lsp b n u).kFactor q sg z = .ok cl := by
    intro spread sg z
    obtain ⟨x, hx, hx0⟩ := hA.2.2.1 .pCThetaNLoS (by simp)
    unfold zenithDeviation cTheta kFactorDb
    rw [hx, hrel, if_pos hk]
    rcases hl : (i.los b n u && !i.indoor b u)
    · simp only [bind, Except.bind, Bool.false_eq_true, if_false, if_neg hx0.ne']
      exact ⟨_, rfl⟩
    · have hl' : i.los b n u = true := by simp only [Bool.and_eq_true] at hl; exact hl.1
      simp only [bind, Except.bind, if_true, if_neg (mul_ne_zero hx0.ne' (hdb hl').2.2)]
      exact ⟨_, rfl⟩
  obtain ⟨aoa, g1⟩ := az (i.lsp b n u).asa (i.angles b n u).aoa (w.signAoa b n) (w.aoa b n u)
  obtain ⟨aod, g2⟩ := az (departureSpread (i.bsHeight 0 0) (i.lsp b n u).asd) (i.angles b n u).aod (w.signAod b n) (w.aod b n u)
  obtain ⟨zoa, g3⟩ := ze (i.lsp b n u).zsa (w.signZoa b n) (w.zoa b n u)
  obtain ⟨zod, g4⟩ := ze (departureSpread (i.bsHeight 0 0) (i.lsp b n u).zsd) (w.signZod b n) (w.zod b n u)
  unfold raysCall azimuthOfArrival azimuthOfDeparture zenithOfArrival zenithOfDeparture crossPolarization
  simp only [bind, Except.bind, e1, e2, f1, f2, f3, f4, f5, g1, g2, g3, g4]
  exact ⟨_, rfl⟩

end

section
variable {B U : ℕ} [NeZero B] {always : Bool} {log : List (ChanEvent B 1 U)} {s : ChanState B 1 U}

/-- The channel of every outdoor UT consists of numbers. -/
def Spec.OutdoorNumbers {n : ℕ} (indoor : PerUt B U Bool) : CirOut B 1 U n ⊕ CirOut B U 1 n → Prop
  | .inl o => ∀ b u, indoor b u = false →
      (∀ ra ta q k, ∃ z : ℂ, o.h b u ra 0 ta q k = .ok z) ∧ ∀ q, ∃ d : ℝ, o.delays b u 0 q = .ok d
  | .inr o => ∀ b u, indoor b u = false →
      (∀ ra ta q k, ∃ z : ℂ, o.h b 0 ra u ta q k = .ok z) ∧ ∀ q, ∃ d : ℝ, o.delays b 0 u q = .ok d

theorem numbers_of_scalings {n : ℕ} (h : mkScenario cls sa = .ok c) (r : ChanReach c always log s) (hap : Apart log)
    (hs : ∃ e ∈ log, ChanEvent.succeeded e) (ut bs : PanelArray) (fs : ℝ) (w : CirDraws B 1 U (n + 2))
    (hk : ∀ i, callInputs always s w.lsp = .ok i → ∀ b u, i.los b 0 u = true → ScalingsNonzero (i.lsp b 0 u).kFactor) :
    ∃ out indoor, cirCall c always ut bs fs s w = .ok out ∧ s.topo.inState = some indoor ∧ OutdoorNumbers indoor out := by
  obtain ⟨i, ri, out, indoor, hi, -, ri1, ri2, ri3, hcall, q7, -, hm, hdl, hul⟩ := generation_numbers h r hap hs ut bs fs w
  have hrays : ∀ b u, indoor b u = false → ∃ L, raysCall c ri w.rays b 0 u = .ok L := by
    intro b u hin
    obtain ⟨hds, hk0⟩ := channel_lsp h r hap w.lsp i hi b 0 u
    obtain ⟨act, ha, hm⟩ := hm b u hin
    exact raysCall_defined_roots h ri w.rays b 0 u act ha (fun k => by rw [ri2]; exact hm k) (by rw [ri1]; exact hds)
      (by rw [ri1]; exact hk0) (by rw [ri1, ri3]; exact hk i hi b u)
  refine ⟨out, indoor, hcall, q7, ?_⟩
  rcases (mkScenario_built h).dir_ok with hd | hd
  · obtain ⟨o, rfl, hn⟩ := hul hd
    intro b u hin
    obtain ⟨L, hL⟩ := hrays b u hin
    obtain ⟨h1, g, l, k, L', cd, phi, hcd, h2, hd'⟩ := hn b u L hL
    exact ⟨h1, fun q => ⟨_, h2 q⟩⟩
  · obtain ⟨o, rfl, hn⟩ := hdl hd
    intro b u hin
    obtain ⟨L, hL⟩ := hrays b u hin
    obtain ⟨h1, g, l, k, L', cd, phi, hcd, h2, hd'⟩ := hn b u L hL
    exact ⟨h1, fun q => ⟨_, h2 q⟩⟩

omit [NeZero B] in
/-- The draws of one example and BS out of those of a batch. -/
theorem StandardNormal.slice {Ω : Type*} [MeasurableSpace Ω] {P : Measure Ω} {z : Fin B × Fin U × Fin 7 → Ω → ℝ} (hz : StandardNormal P z)
    (b : Fin B) : StandardNormal P (fun p : Fin U × Fin 7 => z (b, p)) :=
  ⟨fun p => hz.law (b, p), hz.indep.precomp (g := fun p => (b, p)) fun _ _ h => (Prod.mk.inj h).2⟩

/-- Large scale parameters sampled for a topology avoid the roots with probability one. -/
theorem sample_almost_surely (h : mkScenario cls sa = .ok c) (t : TopoState B 1 U) {Ω : Type*} [MeasurableSpace Ω] {P : Measure Ω}
    [IsProbabilityMeasure P] {z : Fin B × Fin U × Fin 7 → Ω → ℝ} (hz : StandardNormal P z) :
    ∀ᵐ ω ∂P, ∀ l, IsSampleOf c t (fun b _ u i => z (b, u, i) ω) l → ∀ los, t.los = some los → ∀ b u, los b 0 u = true →
      ScalingsNonzero (l b 0 u).kFactor := by
  by_cases hex : ∃ z' l', IsSampleOf c t z' l'
  swap
  · exact Filter.Eventually.of_forall fun ω l hl => absurd ⟨_, _, hl⟩ hex
  obtain ⟨z', l', los, indoor, ut, e1, e2, e3, hS⟩ := hex
  choose near S hS using hS
  have : ∀ᵐ ω ∂P, ∀ b u, los b 0 u = true → ScalingsNonzero ((S b 0).sample (fun v k => z (b, v, k) ω) u).kFactor := by
    rw [ae_all_iff]; intro b
    rw [ae_all_iff]; intro u
    by_cases hl : los b 0 u = true
    · filter_upwards [kFactor_almost_surely h (S b 0) (StandardNormal.slice hz b) u hl] with ω hω _ using hω
    · exact Filter.Eventually.of_forall fun ω hh => absurd hh hl
  filter_upwards [this] with ω hω l hl los' hlos' b u hb
  obtain ⟨los2, indoor2, ut2, f1, f2, f3, hS2⟩ := hl
  rw [e1] at f1 hlos'
  rw [e2] at f2
  rw [e3] at f3
  cases f1; cases f2; cases f3; cases hlos'
  obtain ⟨near2, S2, hS2⟩ := hS2 b 0
  rw [hS2, sample_kFactor_unique h S2 (S b 0)]
  exact hω b u hb

/-- Calls that do not redraw leave the LoS states alone. -/
theorem los_kept (h : mkScenario cls sa = .ok c) {pre post : List (ChanEvent B 1 U)} {se s'' : ChanState B 1 U}
    (re : ChanReach c always post se) (r : ChanReach c always (pre ++ post) s'') (hap : Apart (pre ++ post))
    (hpre : ∀ e ∈ pre, ¬ ChanEvent.redraws e) : s''.topo.los = se.topo.los := by
  induction pre generalizing s'' with
  | nil => rw [ChanReach.unique r re]
  | cons e pre ih =>
    have hap' : Apart (pre ++ post) := fun a d z x ut hm => hap a d z x ut (List.mem_cons_of_mem _ hm)
    have hready := (channel_ready h rfl r hap).1
    rw [List.cons_append] at r
    cases r with
    | generate z r => exact ih r hap' fun e he => hpre e (List.mem_cons_of_mem _ he)
    | @topology _ s a d zz r =>
      have ih := ih r hap' fun e he => hpre e (List.mem_cons_of_mem _ he)
      have hn := hpre _ List.mem_cons_self
      obtain ⟨tl, rt, -⟩ := r.topo
      rcases chanSet_cases (always := always) h rt a d zz with ⟨e, e1, e2⟩ | ⟨e1, e2⟩ | ⟨e1, -, los, indoor, ut, mean, std, near, F, hst, hF, hc⟩
      · rcases hready a d zz _ List.mem_cons_self with hh | hh
        · rw [e2] at hh; cases hh
        · rw [e2] at hh
          cases hh
          rw [e2]
          dsimp only
          rw [(C11_assertion_partial h rt a.toTopo d).2.1 e1]
          exact ih
      · rw [e2]
        obtain ⟨-, -, q, -⟩ := C12_derived_fresh_partial h rt a.toTopo d false e1
        exact (q rfl).los.trans ih
      · rcases hready a d zz _ List.mem_cons_self with hh | hh
        · rw [hh] at hn
          obtain ⟨-, q, -⟩ := C12_derived_fresh_partial h rt a.toTopo d true e1
          exact absurd ((toTopo_relocates a d _).1 (q.1 rfl)) hn
        · rcases hc with ⟨G, hG, mask, -, e2⟩ | ⟨-, e2⟩ <;> rw [e2] at hh <;> cases hh

/-- C134, parameters drawn in every generation call: in any state after a successful `set_topology` call on one BS and UTs at different
planar positions, and for all values of the other draws, the channels of all outdoor UTs consist of numbers with probability one. -/
theorem C134_almost_surely_finite {n : ℕ} (h : mkScenario cls sa = .ok c) (r : ChanReach c true log s) (hap : Apart log)
    (hs : ∃ e ∈ log, ChanEvent.succeeded e) (ut bs : PanelArray) (fs : ℝ) {Ω : Type*} [MeasurableSpace Ω] {P : Measure Ω}
    [IsProbabilityMeasure P] {z : Fin B × Fin U × Fin 7 → Ω → ℝ} (hz : StandardNormal P z) :
    ∀ᵐ ω ∂P, ∀ w : CirDraws B 1 U (n + 2), (∀ b m u i, w.lsp b m u i = z (b, u, i) ω) →
      ∃ out indoor, cirCall c true ut bs fs s w = .ok out ∧ s.topo.inState = some indoor ∧ OutdoorNumbers indoor out := by
  filter_upwards [sample_almost_surely h s.topo hz] with ω hω w hw
  have hw : w.lsp = fun b _ u i => z (b, u, i) ω := by funext b m u i; exact hw b m u i
  refine numbers_of_scalings h r hap hs ut bs fs w fun i hi b u hb => ?_
  obtain ⟨i', -, -, -, hi', -, -, -, -, -, -, hlos, -⟩ := generation_numbers h r hap hs ut bs fs w
  rw [hi] at hi'; cases hi'
  have := (C17_lsp_fresh h r).2.2 (channel_ready h rfl r hap).1 _ i hi
  rw [hw] at this
  exact hω _ this _ hlos b u hb

/-- C134, parameters drawn by `set_topology`: with probability one over the draws of a call that redraws them, the channels of all
outdoor UTs consist of numbers in all generation calls until the parameters are drawn again. -/
theorem C134_almost_surely_finite_frozen {n : ℕ} (h : mkScenario cls sa = .ok c) (r : ChanReach c false log s) (a : ChanArgs B 1 U)
    (d : TopoDraws B 1 U) (ut bs : PanelArray) (fs : ℝ) {Ω : Type*} [MeasurableSpace Ω] {P : Measure Ω}
    [IsProbabilityMeasure P] {z : Fin B × Fin U × Fin 7 → Ω → ℝ} (hz : StandardNormal P z) :
    ∀ᵐ ω ∂P, ∀ (pre : List (ChanEvent B 1 U)) (s' : ChanState B 1 U),
      let call : ChanEvent B 1 U := .topology a d (fun b _ u i => z (b, u, i) ω) (.ok ())
      ChanEvent.redraws call → (∀ e ∈ pre, ¬ ChanEvent.redraws e) → ChanReach c false (pre ++ call :: log) s' → Apart (pre ++ call :: log) →
      ∀ w : CirDraws B 1 U (n + 2), ∃ out indoor, cirCall c false ut bs fs s' w = .ok out ∧ s'.topo.inState = some indoor ∧
        OutdoorNumbers indoor out := by
  filter_upwards [sample_almost_surely h (setTopology c s.topo a.toTopo d).1 hz] with ω hω pre s' call hre hpre r' hap w
  have hsucc : ∃ e ∈ pre ++ call :: log, ChanEvent.succeeded e := ⟨call, by simp, trivial⟩
  refine numbers_of_scalings h r' hap hsucc ut bs fs w fun i hi b u hb => ?_
  obtain ⟨i', -, -, -, hi', -, -, -, -, -, -, hlos, -⟩ := generation_numbers h r' hap hsucc ut bs fs w
  rw [hi] at hi'; cases hi'
  obtain ⟨pre', a', d', z', post, q1, q2, q3, se, rse, -, hsample⟩ := (C16_lsp_frozen h r').2.2.2 w.lsp i hi
  -- the redrawing call found by C16 is `call`
  have hsplit : ∀ (p p' : List (ChanEvent B 1 U)) (e e' : ChanEvent B 1 U) (l l' : List (ChanEvent B 1 U)), p ++ e :: l = p' ++ e' :: l' →
      ChanEvent.redraws e → ChanEvent.redraws e' → (∀ x ∈ p, ¬ ChanEvent.redraws x) → (∀ x ∈ p', ¬ ChanEvent.redraws x) → e = e' ∧ l = l' := by
    intro p
    induction p with
    | nil =>
      intro p' e e' l l' hh h1 h2 h3 h4
      cases p' with
      | nil => simpa using hh
      | cons x p' =>
        simp only [List.nil_append, List.cons_append, List.cons.injEq] at hh
        exact absurd (hh.1 ▸ h1) (h4 x List.mem_cons_self)
    | cons y p ih =>
      intro p' e e' l l' hh h1 h2 h3 h4
      cases p' with
      | nil =>
        simp only [List.nil_append, List.cons_append, List.cons.injEq] at hh
        exact absurd (hh.1 ▸ h2) (h3 y List.mem_cons_self)
      | cons x p' =>
        simp only [List.cons_append, List.cons.injEq] at hh
        exact ih p' e e' l l' hh.2 h1 h2 (fun x hx => h3 x (List.mem_cons_of_mem _ hx)) fun x hx => h4 x (List.mem_cons_of_mem _ hx)
  obtain ⟨he, rfl⟩ := hsplit _ _ _ _ _ _ q1 hre q2 hpre q3
  simp only [call, ChanEvent.topology.injEq, and_true] at he
  obtain ⟨rfl, rfl, rfl⟩ := he
  have hse : se.topo = (setTopology c s.topo a.toTopo d).1 := by
    generalize hL : ChanEvent.topology a d (fun b (_ : Fin 1) u i => z (b, u, i) ω) (Except.ok ()) :: log = L at rse
    cases rse with
    | init => cases hL
    | generate => cases hL
    | topology a1 d1 z1 r1 =>
      injection hL with h1 h2
      injection h1 with h3 h4 h5 _
      subst h2 h3 h4 h5
      rw [chanSetTopology_topo, r1.unique r]
  rw [hse] at hsample
  have hlos' := los_kept h rse r' hap hpre
  rw [hlos, hse] at hlos'
  exact hω _ hsample _ hlos'.symm b u hb

/-- Such draws exist, and the hypotheses of C134 are met after the complete call of `exChan_ok`. -/
example : ∃ (P : Measure (Fin 2 × Fin 3 × Fin 7 → ℝ)) (c : Config) (log : List (ChanEvent 2 1 3)) (s : ChanState 2 1 3),
    IsProbabilityMeasure P ∧ StandardNormal P (fun k ω => ω k) ∧ mkScenario .urban (exArgs 2000000000 "uplink" 50) = .ok c ∧
    ChanReach c true log s ∧ Apart log ∧ ∃ e ∈ log, ChanEvent.succeeded e := by
  obtain ⟨P, hP, hn⟩ := exists_standardNormal (Fin 2 × Fin 3 × Fin 7)
  obtain ⟨c, hc⟩ := exConfig
  have r := ChanReach.topology (exChan 2 1 3) (exDraws 2 1 3) (exZ 2 1 3) (ChanReach.init (c := c) (always := true))
  rw [exChan_ok hc true 2 3] at r
  exact ⟨P, c, _, _, hP, hn, hc, r, exChan_apart 2 1 3 _ _ _, _, List.mem_cons_self, trivial⟩

/-- For the second theorem: the call redraws and succeeds whatever is drawn, here as the first call, followed by a generation call. -/
example : ∃ c, mkScenario .urban (exArgs 2000000000 "uplink" 50) = .ok c ∧ ∀ z : PerLink 2 1 3 (Fin 7 → ℝ),
    let call : ChanEvent 2 1 3 := .topology (exChan 2 1 3) (exDraws 2 1 3) z (.ok ())
    ChanEvent.redraws call ∧ ∃ e s', ¬ ChanEvent.redraws e ∧ ChanReach c false ([e] ++ [call]) s' ∧ Apart ([e] ++ [call]) := by
  obtain ⟨c, hc⟩ := exConfig
  refine ⟨c, hc, fun z => ?_⟩
  have r := ChanReach.topology (exChan 2 1 3) (exDraws 2 1 3) z (ChanReach.init (c := c) (always := false))
  have e : (chanSetTopology c false (ChanState.init c) (exChan 2 1 3) (exDraws 2 1 3) z).2 = .ok () := by
    rcases (channel_ready hc rfl r (exChan_apart 2 1 3 _ _ _)).1 _ _ _ _ List.mem_cons_self with e | e
    · exact e
    · skip
      rcases chanSet_cases (always := false) (s := ChanState.init c) hc .init (exChan 2 1 3) (exDraws 2 1 3) z with
        ⟨x, e1, e2⟩ | ⟨e1, e2⟩ | ⟨-, -, los, indoor, ut, mean, std, near, F, hst, hF, hh⟩
      · have := complete_call hc (exChan 2 1 3).toTopo (exDraws 2 1 3) (toTopo_physical _) rfl rfl
        change (setTopology c (TopoState.init c) _ _).2 = _ at e1
        rw [this] at e1; cases e1
      · rw [e2]
      · rcases hh with ⟨G, hG, mask, -, e2⟩ | ⟨hG, e2⟩
        · rw [e2]
        · rw [e2] at e; cases e
  rw [e] at r
  refine ⟨Or.inl (by simp [exChan]), .generate z _, _, fun hh => hh, .generate z r, ?_⟩
  intro a d zz x ut hm
  refine exChan_apart 2 1 3 (exDraws 2 1 3) z (.ok ()) a d zz x ut ?_
  simpa using hm

end

end OpenNTN
