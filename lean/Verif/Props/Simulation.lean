import Mathlib.MeasureTheory.Measure.Prod
import Verif.Spec.Simulation
import Verif.Props.AlmostSure
import Verif.Props.Construct
import Verif.Props.ConstructArray
import Verif.Props.DropLaw

/-
Property C199: the simulations of the example notebooks run.
-/
namespace OpenNTN

open MeasureTheory ProbabilityTheory Classical Spec

variable {B U : ℕ}

/-- A uniform number has no preferred value. -/
theorem uniform_atomless {a b : ℝ} (h : a < b) (x : ℝ) : Spec.uniform a b {x} = 0 := by
  unfold Spec.uniform
  rw [if_pos h, Measure.smul_apply, Measure.restrict_apply (measurableSet_singleton x)]
  have : volume ({x} ∩ Set.Ico a b) = 0 := measure_mono_null Set.inter_subset_left Real.volume_singleton
  rw [this, smul_zero]

/-- A number without preferred values differs from an independent one. -/
theorem independent_ne {Ω : Type*} [MeasurableSpace Ω] {P : Measure Ω} [IsProbabilityMeasure P] {X Y : Ω → ℝ} {μ ν : Measure ℝ} [IsProbabilityMeasure μ]
    [IsProbabilityMeasure ν] (hX : HasLaw X μ P) (hY : HasLaw Y ν P) (hi : IndepFun X Y P) (hν : ∀ x, ν {x} = 0) : ∀ᵐ ω ∂P, X ω ≠ Y ω := by
  have hj := (indepFun_iff_map_prod_eq_prod_map_map hX.aemeasurable hY.aemeasurable).1 hi
  rw [hX.map_eq, hY.map_eq] at hj
  have hm : MeasurableSet {q : ℝ × ℝ | q.1 = q.2} := measurableSet_eq_fun measurable_fst measurable_snd
  have h0 : (μ.prod ν) {q : ℝ × ℝ | q.1 = q.2} = 0 := by
    rw [Measure.measure_prod_null hm]
    refine Filter.Eventually.of_forall fun x => ?_
    have : Prod.mk x ⁻¹' {q : ℝ × ℝ | q.1 = q.2} = {x} := by ext y; simp [eq_comm]
    simp only [this, Pi.zero_apply]
    exact hν x
  rw [← hj, Measure.map_apply_of_aemeasurable (hX.aemeasurable.prodMk hY.aemeasurable) hm] at h0
  rw [ae_iff]
  simpa using h0

/-- Almost surely no UT is below the satellite and no two UTs of an example have the same first coordinate. -/
theorem drop_apart {scenario : String} {a : GenArgs} {p : GenParams} (hp : setScenarioParameters scenario a = .ok p) (hh : 0 ≤ p.bsHeight)
    (h0 : 0 < p.elevation) (h1 : p.elevation ≤ 90) (hi : 0 < p.isd) (hz : p.minUtHeight ≤ p.maxUtHeight) (hv : p.minUtVelocity ≤ p.maxUtVelocity)
    {Ω : Type*} [MeasurableSpace Ω] {P : Measure Ω} [IsProbabilityMeasure P] {w : Ω → DropDraws B U} (hw : DropRandom P w) :
    ∀ᵐ ω ∂P, ∃ t, genSingleSector scenario a (w ω) = .ok t ∧ (∀ b u, t.inState b u = false) ∧ (∀ b u, (t.utLoc b u).x ≠ 0) ∧
      ∀ b u v, (t.utLoc b u).x = (t.utLoc b v).x → u = v := by
  obtain ⟨c, F, hind, hc, hF, hgen⟩ := C145_drop_partial hp hh h0 h1 hi.le hz hv hw
  have hab : -p.isd / 2 < p.isd / 2 := by linarith
  have := uniform_probability (-p.isd / 2) (p.isd / 2)
  have := uniform_probability 0 (groundDistance p.bsHeight p.elevation)
  have e1 : ∀ᵐ ω ∂P, ∀ b u, -c ω ≠ F ((b, u), .dx) ω := by
    rw [ae_all_iff]; intro b
    rw [ae_all_iff]; intro u
    have hcm := hc.aemeasurable
    have : IsProbabilityMeasure (P.map fun ω => -c ω) := Measure.isProbabilityMeasure_map (by fun_prop)
    have h := hind.indepFun (i := none) (j := some ((b, u), .dx)) (by simp)
    exact independent_ne (X := fun ω => -c ω) (μ := P.map fun ω => -c ω) ⟨by fun_prop, rfl⟩ (hF b u).1 (h.comp measurable_neg measurable_id)
      (uniform_atomless hab)
  have e2 : ∀ᵐ ω ∂P, ∀ b u v, u ≠ v → F ((b, u), .dx) ω ≠ F ((b, v), .dx) ω := by
    rw [ae_all_iff]; intro b
    rw [ae_all_iff]; intro u
    rw [ae_all_iff]; intro v
    by_cases huv : u = v
    · exact Filter.Eventually.of_forall fun ω h => absurd huv h
    have h := hind.indepFun (i := some ((b, u), .dx)) (j := some ((b, v), .dx)) (by simp [huv])
    filter_upwards [independent_ne (hF b u).1 (hF b v).1 h (uniform_atomless hab)] with ω hω _ using hω
  filter_upwards [hgen, e1, e2] with ω hω h1 h2
  obtain ⟨t, ht, hut⟩ := hω
  refine ⟨t, ht, fun b u => (hut b u).2.2.1, fun b u => ?_, fun b u v e => ?_⟩
  · rw [(hut b u).1]
    intro e
    exact h1 b u (by linarith [show c ω + F ((b, u), .dx) ω = 0 from e])
  · rw [(hut b u).1, (hut b v).1] at e
    by_contra hne
    exact h2 b u v hne (add_left_cancel e)

/-- If everybody is outdoors, the numbers of outdoor UTs are all numbers. -/
theorem numbers_of_outdoor {n : ℕ} {indoor : PerUt B U Bool} (hin : ∀ b u, indoor b u = false) {out : CirOut B 1 U n ⊕ CirOut B U 1 n}
    (h : OutdoorNumbers indoor out) : Numbers out := by
  cases out with
  | inl o => exact fun b u => h b u (hin b u)
  | inr o => exact fun b u => h b u (hin b u)

/-- The direction of an impulse response is that of the configuration. -/
theorem cirCall_directed {n : ℕ} [NeZero B] {c : Config} {always : Bool} {ut bs : PanelArray} {fs : ℝ} {s : ChanState B 1 U}
    {w : CirDraws B 1 U (n + 2)} {out : CirOut B 1 U (n + 6) ⊕ CirOut B U 1 (n + 6)} (h : cirCall c always ut bs fs s w = .ok out)
    (hd : c.direction = "uplink" ∨ c.direction = "downlink") : Directed c.direction out := by
  unfold cirCall at h
  obtain ⟨i, -, h⟩ := except_bind_ok h
  obtain ⟨ri, -, h⟩ := except_bind_ok h
  rw [if_neg (by simp)] at h
  obtain ⟨pl, -, h⟩ := except_bind_ok h
  dsimp only at h
  split_ifs at h with hu
  · cases h; exact hu
  · cases h; exact hd.resolve_left hu

/-- Any simulation: with a channel model for any configuration, a topology of a known scenario with a satellite above the horizon, and draws of the documented
laws, almost surely everything returns and the impulse response consists of numbers, in the configured direction. -/
theorem C199_simulation {n : ℕ} [NeZero B] {cls : ScenarioClass} {sa : ScenarioArgs} {v : MadeObjects} (h : mkScenario cls sa = .ok v.model.scenario.config)
    {scenario : String} {a : GenArgs} {p : GenParams} (hp : setScenarioParameters scenario a = .ok p) (hh : 0 ≤ p.bsHeight)
    (h0 : 0 < p.elevation) (h1 : p.elevation ≤ 90) (hi : 0 < p.isd) (hz : p.minUtHeight ≤ p.maxUtHeight) (hv0 : 0 ≤ p.minUtVelocity)
    (hv : p.minUtVelocity ≤ p.maxUtVelocity) (fs : ℝ)
    {Ω : Type*} [MeasurableSpace Ω] {P : Measure Ω} [IsProbabilityMeasure P] {w : Ω → DropDraws B U} (hw : DropRandom P w) :
    ∀ᵐ ω ∂P, ∃ t, genSingleSector scenario a (w ω) = .ok t ∧
      ∀ (d : TopoDraws B 1 U) (Ω' : Type) (_ : MeasurableSpace Ω') (Q : Measure Ω') (z : Fin B × Fin U × Fin 7 → Ω' → ℝ),
        IsProbabilityMeasure Q → StandardNormal Q z → ∀ᵐ ω' ∂Q, ∀ w' : CirDraws B 1 U (n + 2),
          (v.model.alwaysGenerateLsp = true → ∀ b m u i, w'.lsp b m u i = z (b, u, i) ω') →
          ∃ out, v.simulate fs t d (fun b _ u i => z (b, u, i) ω') w' = .ok out ∧ Directed sa.direction out ∧ Numbers out := by
  filter_upwards [drop_apart hp hh h0 h1 hi hz hv hw, dropRandom_unit hw] with ω ⟨t, ht, hin, hx, hap⟩ hunit
  refine ⟨t, ht, fun d Ω' _ Q z hQ hzn => ?_⟩
  have hU : UnitDraws { w ω with sector := fun _ _ => 0 } :=
    ⟨hunit none, fun b u => hunit (some ((b, u), .dx)), fun b u => hunit (some ((b, u), .dy)), fun b u => by norm_num,
      fun b u => hunit (some ((b, u), .height)), fun b u => hunit (some ((b, u), .indoor)), fun b u => hunit (some ((b, u), .angle)),
      fun b u => hunit (some ((b, u), .speed))⟩
  obtain ⟨t', ht', -, -, hacc⟩ := C70_accepted h hp _ hU hh h0 h1 hz hv0 hv
  have : genSingleSector scenario a { w ω with sector := fun _ _ => 0 } = genSingleSector scenario a (w ω) := rfl
  rw [this, ht] at ht'
  cases ht'
  obtain ⟨ori, hori, hset', hset⟩ := hacc fun b u hb => hx b u hb.1
  have hset := hset fun b u v e _ => hap b u v e
  have hor : t.orientations = .ok ori := by
    have hex : ∀ b u, ∃ o, t.utOri b u = .ok o := fun b u => ⟨_, hori b u⟩
    unfold GenTopology.orientations
    rw [dif_pos hex]
    congr 1
    funext b u
    exact (Except.ok.inj ((hori b u).symm.trans (Classical.choose_spec (hex b u)))).symm
  generalize hal : v.model.alwaysGenerateLsp = always
  have hsim : ∀ z' (w' : CirDraws B 1 U (n + 2)), v.simulate fs t d z' w' =
      cirCall v.model.scenario.config always v.ut.array v.bs.array fs
        (chanSetTopology v.model.scenario.config always (ChanState.init v.model.scenario.config) (t.args ori) d z').1 w' := by
    intro z' w'
    unfold MadeObjects.simulate
    rw [hor, hal]
    dsimp only
    rw [hset always d z']
  have hreach : ∀ z', ChanReach v.model.scenario.config always [ChanEvent.topology (t.args ori) d z' (.ok ())]
      (chanSetTopology v.model.scenario.config always (ChanState.init v.model.scenario.config) (t.args ori) d z').1 := by
    intro z'
    have r := ChanReach.topology (t.args ori) d z' (ChanReach.init (c := v.model.scenario.config) (always := always))
    rwa [hset always d z'] at r
  have hA : ∀ z', Apart [ChanEvent.topology (t.args ori) d z' (.ok ())] := by
    intro z' a' d' z'' x' ut hm hut
    rw [List.mem_singleton] at hm
    injection hm with hm
    subst hm
    cases hut
    exact fun b u v e _ => hap b u v e
  have hstate : ∀ z', (chanSetTopology v.model.scenario.config always (ChanState.init v.model.scenario.config) (t.args ori) d z').1.topo.inState = some t.inState := by
    intro z'
    rw [chanSetTopology_topo]
    have r := TopoReach.call (t.args ori).toTopo d (TopoReach.init (c := v.model.scenario.config))
    have := (C10_arguments_persist_partial h r).1.inState
    rw [show (ChanState.init v.model.scenario.config : ChanState B 1 U).topo = TopoState.init v.model.scenario.config from rfl, this, hset' d]
    simp [latest, TopoCall.accepted, ChanArgs.toTopo, GenTopology.args]
  have hdir := (mkScenario_built h).dir_eq
  have hdok := (mkScenario_built h).dir_ok
  have close : ∀ z' (w' : CirDraws B 1 U (n + 2)), (∃ out indoor,
      cirCall v.model.scenario.config always v.ut.array v.bs.array fs
        (chanSetTopology v.model.scenario.config always (ChanState.init v.model.scenario.config) (t.args ori) d z').1 w' = .ok out ∧
      (chanSetTopology v.model.scenario.config always (ChanState.init v.model.scenario.config) (t.args ori) d z').1.topo.inState = some indoor ∧ OutdoorNumbers indoor out) →
      ∃ out, v.simulate fs t d z' w' = .ok out ∧ Directed sa.direction out ∧ Numbers out := by
    rintro z' w' ⟨out, indoor, ho, hi', hn⟩
    rw [hstate z'] at hi'
    cases hi'
    exact ⟨out, (hsim z' w').trans ho, hdir ▸ cirCall_directed ho (by rw [hdir]; exact hdok), numbers_of_outdoor hin hn⟩
  cases always with
  | false =>
    filter_upwards [C134_almost_surely_finite_frozen (n := n) h (ChanReach.init (B := B) (U := U)) (t.args ori) d v.ut.array v.bs.array fs hzn]
      with ω' hω' w' _
    exact close _ _ (hω' [] _ (Or.inl (by simp [GenTopology.args])) (by simp) (hreach _) (hA _) w')
  | true =>
    let r : TopoState B 1 U := (setTopology v.model.scenario.config (TopoState.init v.model.scenario.config) (t.args ori).toTopo d).1
    have ht : ∀ z', (chanSetTopology v.model.scenario.config true (ChanState.init v.model.scenario.config) (t.args ori) d z').1.topo = r := fun z' => chanSetTopology_topo _ _ _ _
    filter_upwards [sample_almost_surely h r hzn] with ω' hω' w' hw'
    have hw' : w'.lsp = fun b _ u i => z (b, u, i) ω' := by funext b m u i; exact hw' rfl b m u i
    set z' : PerLink B 1 U (Fin 7 → ℝ) := fun b _ u i => z (b, u, i) ω'
    have hs : ∃ e ∈ [ChanEvent.topology (t.args ori) d z' (.ok ())], ChanEvent.succeeded e := ⟨_, List.mem_singleton_self _, trivial⟩
    refine close _ _ (numbers_of_scalings h (hreach z') (hA z') hs _ _ fs w' fun i hi' b u hb => ?_)
    obtain ⟨i', -, -, -, hi'', -, -, -, -, -, -, hlos, -⟩ := generation_numbers h (hreach z') (hA z') hs v.ut.array v.bs.array fs w'
    rw [hi'] at hi''; cases hi''
    have := (C17_lsp_fresh h (hreach z')).2.2 (channel_ready h rfl (hreach z') (hA z')).1 _ i hi'
    rw [hw', ht] at this
    rw [ht] at hlos
    exact hω' _ this _ hlos b u hb

/-- A single element is made by `Antenna`. -/
theorem singleElement_ok {pattern : String} (hp : pattern = "omni" ∨ pattern = "aperture") (fc : ℝ) :
    ∃ o, ArrayKind.make .antenna (singleElement pattern fc) = .ok o ∧ o.lambda0 = speedOfLight / fc := by
  obtain ⟨arr, ha⟩ := (C111_constructor ⟨1, 1, "single", "V", pattern, fc, 1, 1, none, none, none, none⟩).1.2
    ⟨by rcases hp with rfl | rfl <;> simp [DocumentedArray], by simp [PanelsApart], by simp [PanelsApart], by norm_num, by norm_num⟩
  unfold ArrayKind.make antennaCall arrayCall arrayInit
  simp [pyCall, fillParams, antennaSignature, arraySignature, singleElement, List.lookup, NamedArgs.value, toSize_one, PyArg.toNum, PyArg.toOption,
    PyArg.toText, bind, Except.bind, ha]

/-- And by `AntennaArray` with one row and one column. -/
theorem oneByOne_ok {pattern : String} (hp : pattern = "omni" ∨ pattern = "aperture") (fc : ℝ) :
    ∃ o, ArrayKind.make .antennaArray (oneByOne pattern fc) = .ok o ∧ o.lambda0 = speedOfLight / fc := by
  obtain ⟨arr, ha⟩ := (C111_constructor ⟨1, 1, "single", "V", pattern, fc, 1, 1, none, none, none, none⟩).1.2
    ⟨by rcases hp with rfl | rfl <;> simp [DocumentedArray], by simp [PanelsApart], by simp [PanelsApart], by norm_num, by norm_num⟩
  unfold ArrayKind.make antennaArrayCall arrayCall arrayInit
  simp [pyCall, fillParams, antennaArraySignature, arraySignature, oneByOne, singleElement, List.lookup, NamedArgs.value, toSize_one, PyArg.toNum,
    PyArg.toOption, PyArg.toText, bind, Except.bind, ha]

/-- Rows of dually polarised elements are made by `AntennaArray`. -/
theorem dualRow_ok {type : String} (hp : type = "VH" ∨ type = "cross") (fc : ℝ) :
    ∃ o, ArrayKind.make .antennaArray (dualRow type fc) = .ok o ∧ o.lambda0 = speedOfLight / fc := by
  obtain ⟨arr, ha⟩ := (C111_constructor ⟨1, 4, "dual", type, "38.901", fc, 1, 1, none, none, none, none⟩).1.2
    ⟨by rcases hp with rfl | rfl <;> simp [DocumentedArray], by simp [PanelsApart], by simp [PanelsApart], by norm_num, by norm_num⟩
  unfold ArrayKind.make antennaArrayCall arrayCall arrayInit
  simp [pyCall, fillParams, antennaArraySignature, arraySignature, dualRow, List.lookup, NamedArgs.value, toSize_one, toSize_four, PyArg.toNum,
    PyArg.toOption, PyArg.toText, bind, Except.bind, ha]

/-- The channel model of a notebook can be made if arrays and options fit. -/
theorem build_ok {nb : Notebook} {fc el : ℝ} {dir : String} (hut : ∃ o, nb.utKind.make nb.ut = .ok o ∧ o.lambda0 = speedOfLight / fc)
    (hbs : ∃ o, nb.bsKind.make nb.bs = .ok o ∧ o.lambda0 = speedOfLight / fc) (hn : (nb.options.map Prod.fst).Nodup)
    (hm : ∀ a ∈ nb.options, a.1 ∈ ["carrier_frequency", "direction", "elevation_angle", "enable_pathloss", "enable_shadow_fading", "doppler_enabled"])
    (hf : ("carrier_frequency", .num fc) ∈ nb.options) (hd : ("direction", .str dir) ∈ nb.options) (he : ("elevation_angle", .num el) ∈ nb.options)
    (hfc : SBand fc ∨ KaBand fc) (hdir : dir = "uplink" ∨ dir = "downlink") (e1 : 10 ≤ el) (e2 : el ≤ 90) :
    ∃ v sa, nb.build = .ok v ∧ mkScenario nb.cls sa = .ok v.model.scenario.config ∧ sa.direction = dir ∧ v.model.alwaysGenerateLsp = false := by
  obtain ⟨ut, hut, hl⟩ := hut
  obtain ⟨bs, hbs, hl'⟩ := hbs
  have hnd : ((("ut_array", ut.arg) :: ("bs_array", bs.arg) :: nb.options : NamedArgs).map Prod.fst).Nodup := by
    have : ∀ n ∈ nb.options.map Prod.fst, n ∈ ["carrier_frequency", "direction", "elevation_angle", "enable_pathloss", "enable_shadow_fading",
        "doppler_enabled"] := by
      intro n hn
      obtain ⟨a, ha, rfl⟩ := List.mem_map.1 hn
      exact hm a ha
    simp only [List.map_cons, List.nodup_cons, List.mem_cons, not_or]
    exact ⟨⟨by decide, fun h => absurd (this _ h) (by decide)⟩, fun h => absurd (this _ h) (by decide), hn⟩
  have hwf : WellFormed [] (("ut_array", ut.arg) :: ("bs_array", bs.arg) :: nb.options) := by
    refine ⟨by simp, ?_, by simp⟩
    intro a ha
    rcases List.mem_cons.1 ha with rfl | ha
    · simp [parameters]
    rcases List.mem_cons.1 ha with rfl | ha
    · simp [parameters]
    · have := hm a ha
      revert this
      generalize a.1 = k
      revert k
      decide
  have hsuit : Suitable [] (("ut_array", ut.arg) :: ("bs_array", bs.arg) :: nb.options) := by
    refine ⟨⟨fc, .num fc, dir, el, .num el, Or.inr (by simp [hf]), Or.inl rfl, hfc, Or.inr ?_, Or.inr ?_, Or.inr (by simp [hd]), hdir,
      Or.inr (by simp [he]), Or.inl rfl, e1, e2⟩, ?_⟩
    · simp [ArrayObject.arg, hl, panelFor]
    · simp [ArrayObject.arg, hl', panelFor]
    · rintro n x hnn (⟨i, -, h⟩ | h)
      · simp at h
      · simp only [List.mem_cons, Prod.mk.injEq] at h
        rcases h with ⟨rfl, -⟩ | ⟨rfl, -⟩ | h
        · simp at hnn
        · simp at hnn
        · have := hm _ h
          rcases hnn with rfl | rfl <;> simp at this
  obtain ⟨m, hcall⟩ := (C193_accepted_partial nb.cls [] _ hnd).2 ⟨hwf, hsuit⟩
  obtain ⟨-, val, hval, hfin⟩ := channel_ok hnd hcall
  obtain ⟨fc', el', width, height, config, -, -, -, -, hmk, hme⟩ := finish_ok hfin
  have vd : val "direction" = .str dir :=
    receives_unique hnd hwf (by decide) (hval _ (by decide)) (passes_receives (Or.inr (by simp [hd])))
  have va : val "always_generate_lsp" = .bool false := by
    refine receives_unique hnd hwf (by decide) (hval _ (by decide)) (Or.inr ⟨?_, .lsp⟩)
    rintro x (⟨i, -, h⟩ | h)
    · simp at h
    · simp only [List.mem_cons, Prod.mk.injEq] at h
      rcases h with ⟨h, -⟩ | ⟨h, -⟩ | h
      · exact absurd h (by decide)
      · exact absurd h (by decide)
      · exact absurd (hm _ h) (by simp)
  refine ⟨⟨ut, bs, m⟩, _, ?_, by dsimp only; rw [hme]; exact hmk, ?_, ?_⟩
  · unfold Notebook.build
    rw [hut, hbs]
    dsimp only
    rw [hcall]
  · dsimp only; rw [vd]; rfl
  · dsimp only; rw [hme]; dsimp only; rw [va]; rfl

/-- What the generator makes of the sizes and options of the notebooks. -/
theorem sector_ok (name : String) (B U : ℕ) (opt : NamedArgs) (a : GenArgs)
    (ho : (opt = [] ∧ a = {}) ∨ (∃ h, opt = [("bs_height", .num h)] ∧ a = { bsHeight := some h }) ∨
      ∃ h el, opt = [("bs_height", .num h), ("elevation_angle", .num el)] ∧ a = { bsHeight := some h, elevation := some el })
    (draws : ∀ B U : ℕ, DropDraws B U) (t : GenTopology B U) (ht : genSingleSector name a (draws B U) = .ok t) :
    sectorCall [] ([("batch_size", .num B), ("num_ut", .num U), ("scenario", .str name)] ++ opt) draws = .ok ⟨B, U, t⟩ := by
  unfold sectorCall genArgsOf sectorParamsCall
  rcases ho with ⟨rfl, rfl⟩ | ⟨h, rfl, rfl⟩ | ⟨h, el, rfl, rfl⟩ <;>
  simp [pyCall, fillParams, sectorSignature, paramsSignature, List.lookup, NamedArgs.value, toSize_nat, PyArg.toNum, PyArg.toOption,
    PyArg.toText, bind, Except.bind, ht]

/-- The parameters of generated topologies with the options of the notebooks. -/
structure GenFits (p : GenParams) : Prop where
  height : 0 ≤ p.bsHeight
  el_pos : 0 < p.elevation
  el_le : p.elevation ≤ 90
  isd : 0 < p.isd
  ut : p.minUtHeight ≤ p.maxUtHeight
  vel_pos : 0 ≤ p.minUtVelocity
  vel : p.minUtVelocity ≤ p.maxUtVelocity

theorem gen_fits {name : String} (hn : name = "dur" ∨ name = "urb" ∨ name = "sur") {a : GenArgs}
    (ha : a = {} ∨ (∃ h, 0 ≤ h ∧ a = { bsHeight := some h }) ∨ ∃ h el, 0 ≤ h ∧ 0 < el ∧ el ≤ 90 ∧ a = { bsHeight := some h, elevation := some el }) :
    ∃ p, setScenarioParameters name a = .ok p ∧ GenFits p := by
  rcases hn with rfl | rfl | rfl <;> rcases ha with rfl | ⟨h, h0, rfl⟩ | ⟨h, el, h0, h1, h2, rfl⟩ <;>
  · refine ⟨_, by simp [setScenarioParameters, scenarioDefaults]; rfl, ?_⟩
    constructor <;> dsimp only [Option.getD] <;> first | assumption | norm_num

/-- What every notebook has: objects that can be made, and a topology that can be generated. -/
theorem notebook_parts {nb : Notebook} {B U : ℕ} (h : InNotebook nb B U) :
    ∃ v sa dir name opt a p, nb.build = .ok v ∧ mkScenario nb.cls sa = .ok v.model.scenario.config ∧ sa.direction = dir ∧ ("direction", .str dir) ∈ nb.options ∧
      v.model.alwaysGenerateLsp = false ∧ nb.sector = [("batch_size", .num B), ("num_ut", .num U), ("scenario", .str name)] ++ opt ∧
      ((opt = [] ∧ a = {}) ∨ (∃ h, opt = [("bs_height", .num h)] ∧ a = { bsHeight := some h }) ∨
        ∃ h el, opt = [("bs_height", .num h), ("elevation_angle", .num el)] ∧ a = { bsHeight := some h, elevation := some el }) ∧
      setScenarioParameters name a = .ok p ∧ GenFits p := by
  have hname : ∀ {cls name}, Scenario cls name → name = "dur" ∨ name = "urb" ∨ name = "sur" := by
    rintro cls name (⟨-, rfl⟩ | ⟨-, rfl⟩ | ⟨-, rfl⟩) <;> simp
  have cond : ∀ (cls : ScenarioClass) (name : String), (name = "dur" ∨ name = "urb" ∨ name = "sur") → ∀ (el height : ℝ) (b : Bool) (U B : ℕ) (fc : ℝ), 10 ≤ el → el ≤ 90 →
      0 ≤ height → (SBand fc ∨ KaBand fc) → ∃ v sa dir name' opt a p, (condHist cls name el height b U B fc).build = .ok v ∧
        mkScenario cls sa = .ok v.model.scenario.config ∧ sa.direction = dir ∧ ("direction", .str dir) ∈ (condHist cls name el height b U B fc).options ∧
        v.model.alwaysGenerateLsp = false ∧
        (condHist cls name el height b U B fc).sector = [("batch_size", .num B), ("num_ut", .num U), ("scenario", .str name')] ++ opt ∧
        ((opt = [] ∧ a = {}) ∨ (∃ h, opt = [("bs_height", .num h)] ∧ a = { bsHeight := some h }) ∨
          ∃ h el, opt = [("bs_height", .num h), ("elevation_angle", .num el)] ∧ a = { bsHeight := some h, elevation := some el }) ∧
        setScenarioParameters name' a = .ok p ∧ GenFits p := by
    intro cls name hn el height b U B fc e1 e2 hh hfc
    obtain ⟨v, sa, h1, h2, h3, h4⟩ := build_ok (nb := condHist cls name el height b U B fc) (fc := fc) (el := el) (dir := "uplink")
      (singleElement_ok (Or.inl rfl) fc) (dualRow_ok (Or.inl rfl) fc) (by simp [condHist]) (by simp [condHist]) (by simp [condHist]) (by simp [condHist])
      (by simp [condHist]) hfc (Or.inl rfl) e1 e2
    obtain ⟨p, hp, hfit⟩ := gen_fits hn (Or.inr (Or.inl ⟨height, hh, rfl⟩))
    exact ⟨v, sa, _, name, [("bs_height", .num height)], _, p, h1, h2, h3, by simp [condHist], h4, rfl, Or.inr (Or.inl ⟨height, rfl, rfl⟩), hp, hfit⟩
  cases h with
  | berFirst =>
    obtain ⟨v, sa, h1, h2, h3, h4⟩ := build_ok (nb := berFirst) (fc := 3.5e9) (el := 50) (dir := "downlink") (oneByOne_ok (Or.inl rfl) _)
      (oneByOne_ok (Or.inr rfl) _) (by simp [berFirst]) (by simp [berFirst]) (by simp [berFirst]) (by simp [berFirst]) (by simp [berFirst])
      (Or.inl ⟨by norm_num, by norm_num⟩) (Or.inr rfl) (by norm_num) (by norm_num)
    obtain ⟨p, hp, hfit⟩ := gen_fits (name := "dur") (Or.inl rfl) (Or.inl rfl)
    exact ⟨v, sa, _, "dur", [], {}, p, h1, h2, h3, by simp [berFirst], h4, rfl, Or.inl ⟨rfl, rfl⟩, hp, hfit⟩
  | @berModel cls name h =>
    obtain ⟨v, sa, h1, h2, h3, h4⟩ := build_ok (nb := berModel cls name) (fc := 3.5e9) (el := 50) (dir := "downlink") (oneByOne_ok (Or.inl rfl) _)
      (oneByOne_ok (Or.inr rfl) _) (by simp [berModel]) (by simp [berModel]) (by simp [berModel]) (by simp [berModel]) (by simp [berModel])
      (Or.inl ⟨by norm_num, by norm_num⟩) (Or.inr rfl) (by norm_num) (by norm_num)
    obtain ⟨p, hp, hfit⟩ := gen_fits (hname h) (Or.inr (Or.inl ⟨600000, by norm_num, rfl⟩))
    exact ⟨v, sa, _, name, [("bs_height", .num 600000)], _, p, h1, h2, h3, by simp [berModel], h4, rfl, Or.inr (Or.inl ⟨600000, rfl, rfl⟩), hp, hfit⟩
  | zenith =>
    obtain ⟨v, sa, h1, h2, h3, h4⟩ := build_ok (nb := freqResponse 2e9 [("elevation_angle", .num 90)]) (fc := 2e9) (el := 80) (dir := "uplink")
      (singleElement_ok (Or.inl rfl) _) (dualRow_ok (Or.inl rfl) _) (by simp [freqResponse]) (by simp [freqResponse]) (by simp [freqResponse]) (by simp [freqResponse])
      (by simp [freqResponse]) (Or.inl ⟨by norm_num, by norm_num⟩) (Or.inl rfl) (by norm_num) (by norm_num)
    obtain ⟨p, hp, hfit⟩ := gen_fits (name := "dur") (Or.inl rfl) (Or.inr (Or.inr ⟨600000, 90, by norm_num, by norm_num, by norm_num, rfl⟩))
    exact ⟨v, sa, _, "dur", [("bs_height", .num 600000), ("elevation_angle", .num 90)], _, p, h1, h2, h3, by simp [freqResponse], h4, rfl,
      Or.inr (Or.inr ⟨600000, 90, rfl, rfl⟩), hp, hfit⟩
  | large =>
    obtain ⟨v, sa, h1, h2, h3, h4⟩ := build_ok (nb := freqResponse 40e9 []) (fc := 40e9) (el := 80) (dir := "uplink")
      (singleElement_ok (Or.inl rfl) _) (dualRow_ok (Or.inl rfl) _) (by simp [freqResponse]) (by simp [freqResponse]) (by simp [freqResponse]) (by simp [freqResponse])
      (by simp [freqResponse]) (Or.inr ⟨by norm_num, by norm_num⟩) (Or.inl rfl) (by norm_num) (by norm_num)
    obtain ⟨p, hp, hfit⟩ := gen_fits (name := "dur") (Or.inl rfl) (Or.inr (Or.inl ⟨600000, by norm_num, rfl⟩))
    exact ⟨v, sa, _, "dur", [("bs_height", .num 600000)], _, p, h1, h2, h3, by simp [freqResponse], h4, rfl, Or.inr (Or.inl ⟨600000, rfl, rfl⟩), hp, hfit⟩
  | scenarios h => exact cond _ _ (hname h) _ _ _ _ _ _ (by norm_num) (by norm_num) (by norm_num) (Or.inl ⟨by norm_num, by norm_num⟩)
  | heights h =>
    exact cond _ _ (Or.inl rfl) _ _ _ _ _ _ (by norm_num) (by norm_num) (by simp at h; rcases h with rfl | rfl | rfl <;> norm_num)
      (Or.inl ⟨by norm_num, by norm_num⟩)
  | elevations h =>
    simp only [List.mem_cons, List.not_mem_nil, or_false] at h
    exact cond _ _ (Or.inl rfl) _ _ _ _ _ _ (by rcases h with rfl | rfl | rfl | rfl | rfl <;> norm_num)
      (by rcases h with rfl | rfl | rfl | rfl | rfl <;> norm_num) (by norm_num) (Or.inl ⟨by norm_num, by norm_num⟩)
  | doppler b => exact cond _ _ (Or.inl rfl) _ _ _ _ _ _ (by norm_num) (by norm_num) (by norm_num) (Or.inl ⟨by norm_num, by norm_num⟩)
  | uts h => exact cond _ _ (Or.inl rfl) _ _ _ _ _ _ (by norm_num) (by norm_num) (by norm_num) (Or.inl ⟨by norm_num, by norm_num⟩)
  | frequencies h =>
    simp only [List.mem_cons, List.not_mem_nil, or_false] at h
    refine cond _ _ (Or.inl rfl) _ _ _ _ _ _ (by norm_num) (by norm_num) (by norm_num) ?_
    rcases h with rfl | rfl | rfl | rfl
    · exact Or.inl ⟨by norm_num, by norm_num⟩
    · exact Or.inl ⟨by norm_num, by norm_num⟩
    · exact Or.inr ⟨by norm_num, by norm_num⟩
    · exact Or.inr ⟨by norm_num, by norm_num⟩
  | training =>
    obtain ⟨v, sa, h1, h2, h3, h4⟩ := build_ok (nb := neural .denseUrban "dur" 128) (fc := 30e9) (el := 80) (dir := "uplink") (oneByOne_ok (Or.inl rfl) _)
      (dualRow_ok (Or.inr rfl) _) (by simp [neural]) (by simp [neural]) (by simp [neural]) (by simp [neural]) (by simp [neural])
      (Or.inr ⟨by norm_num, by norm_num⟩) (Or.inl rfl) (by norm_num) (by norm_num)
    obtain ⟨p, hp, hfit⟩ := gen_fits (name := "dur") (Or.inl rfl) (Or.inl rfl)
    exact ⟨v, sa, _, "dur", [], {}, p, h1, h2, h3, by simp [neural], h4, rfl, Or.inl ⟨rfl, rfl⟩, hp, hfit⟩
  | first =>
    obtain ⟨v, sa, h1, h2, h3, h4⟩ := build_ok (nb := neural .denseUrban "dur" 1) (fc := 30e9) (el := 80) (dir := "uplink") (oneByOne_ok (Or.inl rfl) _)
      (dualRow_ok (Or.inr rfl) _) (by simp [neural]) (by simp [neural]) (by simp [neural]) (by simp [neural]) (by simp [neural])
      (Or.inr ⟨by norm_num, by norm_num⟩) (Or.inl rfl) (by norm_num) (by norm_num)
    obtain ⟨p, hp, hfit⟩ := gen_fits (name := "dur") (Or.inl rfl) (Or.inl rfl)
    exact ⟨v, sa, _, "dur", [], {}, p, h1, h2, h3, by simp [neural], h4, rfl, Or.inl ⟨rfl, rfl⟩, hp, hfit⟩

/-- C199. Every simulation of the example notebooks runs: arrays and channel model are made; for almost all draws of the generator the topology is
made, with the sizes asked for; and, whatever LoS states are drawn, with probability one `set_topology` and the generation call return, and the impulse
response, which is for the direction asked for, consists of numbers for all examples, UTs, antennas, paths and time samples. -/
theorem C199_notebooks {n : ℕ} [NeZero B] {nb : Notebook} (h : InNotebook nb B U) (fs : ℝ) :
    ∃ v dir, nb.build = .ok v ∧ ("direction", .str dir) ∈ nb.options ∧
      ∀ (Ω : Type) (_ : MeasurableSpace Ω) (P : Measure Ω) (draws : Ω → ∀ B U : ℕ, DropDraws B U), IsProbabilityMeasure P →
        DropRandom P (fun ω => draws ω B U) → ∀ᵐ ω ∂P, ∃ t : GenTopology B U, sectorCall [] nb.sector (draws ω) = .ok ⟨B, U, t⟩ ∧
          ∀ (d : TopoDraws B 1 U) (Ω' : Type) (_ : MeasurableSpace Ω') (Q : Measure Ω') (z : Fin B × Fin U × Fin 7 → Ω' → ℝ),
            IsProbabilityMeasure Q → StandardNormal Q z → ∀ᵐ ω' ∂Q, ∀ w : CirDraws B 1 U (n + 2),
              ∃ out, v.simulate fs t d (fun b _ u i => z (b, u, i) ω') w = .ok out ∧ Directed dir out ∧ Numbers out := by
  obtain ⟨v, sa, dir, name, opt, a, p, hb, hmk, hsd, hd, hal, hsec, hopt, hp, hfit⟩ := notebook_parts h
  refine ⟨v, dir, hb, hd, fun Ω _ P draws hP hw => ?_⟩
  filter_upwards [C199_simulation (n := n) hmk hp hfit.height hfit.el_pos hfit.el_le hfit.isd hfit.ut hfit.vel_pos hfit.vel fs hw] with ω ⟨t, ht, hω⟩
  refine ⟨t, ?_, fun d Ω' _ Q z hQ hz => ?_⟩
  · rw [hsec]
    exact sector_ok name B U opt a hopt (draws ω) t ht
  · filter_upwards [hω d Ω' _ Q z hQ hz] with ω' hω' w
    rw [← hsd]
    exact hω' w fun e => by rw [hal] at e; cases e

/-- The draws assumed exist: independent uniform numbers for the generator. -/
example : ∃ (P : Measure (Drop 16 1 → ℝ)) (_ : IsProbabilityMeasure P), DropRandom P (dropDraws : (Drop 16 1 → ℝ) → DropDraws 16 1) := by
  obtain ⟨P, hP, hw⟩ := exists_dropRandom 16 1
  exact ⟨P, hP, hw⟩

end OpenNTN
