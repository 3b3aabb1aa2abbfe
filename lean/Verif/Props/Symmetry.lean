import Verif.Spec.Symmetry
import Verif.Props.Channel
import Verif.Props.Cir
import Verif.Lemmas.PosDef

/-
C122, C123: a batch is the collection of its examples, and the horizontal position of the scene does not matter.
-/
namespace OpenNTN

open Classical Spec

variable {B B' N U : ℕ} [NeZero B] [NeZero B'] {cls : ScenarioClass} {sa : ScenarioArgs} {c : Config} {always : Bool}
  {ι : Fin B' → Fin B} {v : Fin B' → ℝ × ℝ}

/-! ### The scenario -/

omit [NeZero B] [NeZero B'] in
theorem andThen_move {r : Step B N U} {f : TopoState B N U → Step B N U} {r' : Step B' N U} {f' : TopoState B' N U → Step B' N U}
    (hr : r' = (topoState ι v r.1, r.2)) (hf : ∀ s, f' (topoState ι v s) = (topoState ι v (f s).1, (f s).2)) :
    r'.andThen f' = (topoState ι v (r.andThen f).1, (r.andThen f).2) := by
  subst hr
  unfold Step.andThen
  rcases h : r.2 with _ | e <;> simp only [hf]

theorem distance2d_displaced (p q : Vec3) (w : ℝ × ℝ) : distance2d (displaced p w) (displaced q w) = distance2d p q := by
  simp only [distance2d, displaced, add_sub_add_right_eq_sub]

theorem losAngles_displaced (p q : Vec3) (w : ℝ × ℝ) : losAngles (displaced p w) (displaced q w) = losAngles p q := by
  have := distance2d_displaced p q w
  simp only [losAngles, this]
  simp only [displaced, add_sub_add_right_eq_sub]

theorem utDistance2d_displaced {K : ℕ} (p : Fin K → Vec3) (w : ℝ × ℝ) :
    utDistance2d (fun u => (displaced (p u) w).x) (fun u => (displaced (p u) w).y) = utDistance2d (fun u => (p u).x) (fun u => (p u).y) := by
  funext i j
  simp only [utDistance2d, displaced, add_sub_add_right_eq_sub]

/-- Example 0 of the selection has the altitude of example 0 of the batch. -/
def SameAltitude (ι : Fin B' → Fin B) (bs : Option (PerBs B N Vec3)) : Prop := ∀ p, bs = some p → ∀ n, (p (ι 0) n).z = (p 0 n).z

theorem computeDistances_move (s : TopoState B N U) (hz : SameAltitude ι s.bsLoc) :
    computeDistances c (topoState ι v s) = (topoState ι v (computeDistances c s).1, (computeDistances c s).2) := by
  unfold computeDistances
  rcases h1 : s.utLoc with _ | ut <;> rcases h2 : s.bsLoc with _ | bs <;> simp only [topoState, h1, h2, Option.map_some, Option.map_none]
  by_cases hN : N = 1
  · simp only [hN, dite_true, h1, h2, Option.map_some, Prod.mk.injEq, TopoState.mk.injEq, Option.some.injEq, true_and, and_true]
    refine ⟨?_, ?_, ?_, ?_⟩
    · funext b n u; exact distance2d_displaced _ _ _
    · funext b n u; exact congrArg _ (hz bs h2 _)
    · funext b n u; exact losAngles_displaced _ _ _
    · funext b; exact utDistance2d_displaced (ut (ι b)) (v b)
  · simp only [hN, dite_false, h1, h2, Option.map_some, Prod.mk.injEq, TopoState.mk.injEq, Option.some.injEq, true_and, and_true]
    funext b n u; exact distance2d_displaced _ _ _

omit [NeZero B] [NeZero B'] in
theorem sampleIndoorDistance_move (d : TopoDraws B N U) (s : TopoState B N U) : sampleIndoorDistance (topoDraws ι d) (topoState ι v s) =
    (topoState ι v (sampleIndoorDistance d s).1, (sampleIndoorDistance d s).2) := by
  unfold sampleIndoorDistance
  rcases h1 : s.inState with _ | i <;> rcases h2 : s.distance2d with _ | d2 <;> rcases h3 : s.distance3d with _ | d3 <;>
    simp only [topoState, h1, h2, h3, Option.map_some, Option.map_none] <;> rfl

omit [NeZero B] [NeZero B'] in
theorem sampleLos_move (d : TopoDraws B N U) (s : TopoState B N U) : sampleLos c (topoDraws ι d) (topoState ι v s) =
    (topoState ι v (sampleLos c d s).1, (sampleLos c d s).2) := by
  unfold sampleLos
  rcases h1 : s.inState with _ | i <;> rcases h2 : s.requestedLos with _ | r <;>
    simp only [topoState, h1, h2, Option.map_some, Option.map_none] <;> try rfl
  rcases h3 : c.losProbability with e | p
  · simp only [h1, h2, Option.map_some]
  · cases p with
    | bot => simp only [h1, h2, Option.map_some]
    | coe p => simp only [h1, h2, Option.map_some, Option.some.injEq, Prod.mk.injEq]; exact ⟨rfl, trivial⟩

omit [NeZero B] [NeZero B'] in
theorem computeLsp_move (s : TopoState B N U) : computeLspLogMeanStd c (topoState ι v s) =
    (topoState ι v (computeLspLogMeanStd c s).1, (computeLspLogMeanStd c s).2) := by
  unfold computeLspLogMeanStd
  rcases h1 : s.utLoc with _ | ut <;> rcases h2 : s.bsLoc with _ | bs <;> rcases h3 : s.los with _ | los <;>
    rcases h4 : s.distance2d with _ | d2 <;> simp only [topoState, h1, h2, h3, h4, Option.map_some, Option.map_none]
  rcases bothStates (lspLogMean c) with e | mean
  · simp only [h1, h2, h3, h4, Option.map_some]
  rcases bothStates (fun near => bothStates fun l => lspLogStd c l near) with e | std
  · simp only [h1, h2, h3, h4, Option.map_some]
  · simp only [h1, h2, h3, h4, Option.map_some]
    rfl

omit [NeZero B] [NeZero B'] in
theorem computePathlossBasic_move (d : TopoDraws B N U) (s : TopoState B N U) : computePathlossBasic c (topoDraws ι d) (topoState ι v s) =
    (topoState ι v (computePathlossBasic c d s).1, (computePathlossBasic c d s).2) := by
  unfold computePathlossBasic
  rcases h1 : s.distance3d with _ | d3 <;> rcases h2 : s.los with _ | los <;>
    simp only [topoState, h1, h2, Option.map_some, Option.map_none]
  rcases c.rowReal c.paramsNlos .pCL with e | cl <;> rcases c.rowReal c.paramsLos .psigmaSF with e | sl <;>
    rcases c.rowReal c.paramsNlos .psigmaSF with e | sn <;> simp only [h1, h2, Option.map_some] <;> rfl

omit [NeZero B] [NeZero B'] in
theorem computePathlossGas_move (s : TopoState B N U) : computePathlossGas c (topoState ι v s) =
    (topoState ι v (computePathlossGas c s).1, (computePathlossGas c s).2) := by
  unfold computePathlossGas
  rcases h1 : s.atmosphere with _ | a <;> rcases h2 : s.los with _ | los <;>
    simp only [topoState, h1, h2, Option.map_some, Option.map_none]
  rcases gasLoss (c.carrierFrequency / 10 ^ 9) c.elevationAngle a with e | g <;> simp only [h1, h2, Option.map_some] <;> rfl

omit [NeZero B] [NeZero B'] in
theorem computePathlossEntry_move (s : TopoState B N U) : computePathlossEntry (topoState ι v s) =
    (topoState ι v (computePathlossEntry s).1, (computePathlossEntry s).2) := by
  unfold computePathlossEntry
  rcases h2 : s.los with _ | los <;> simp only [topoState, h2, Option.map_some, Option.map_none] <;> rfl

omit [NeZero B] [NeZero B'] in
theorem computePathlossScint_move (s : TopoState B N U) : computePathlossScint c (topoState ι v s) =
    (topoState ι v (computePathlossScint c s).1, (computePathlossScint c s).2) := by
  unfold computePathlossScint
  rcases h1 : s.atmosphere with _ | a <;> rcases h2 : s.los with _ | los <;>
    simp only [topoState, h1, h2, Option.map_some, Option.map_none]
  rcases scintLoss (c.carrierFrequency / 10 ^ 9) c.elevationAngle a with e | g <;> simp only [h1, h2, Option.map_some] <;> rfl

theorem updateTopology_move (d : TopoDraws B N U) (s : TopoState B N U) (hz : SameAltitude ι s.bsLoc) :
    updateTopology c (topoDraws ι d) (topoState ι v s) = (topoState ι v (updateTopology c d s).1, (updateTopology c d s).2) := by
  unfold updateTopology
  exact andThen_move (andThen_move (andThen_move (andThen_move (andThen_move (andThen_move (andThen_move (computeDistances_move s hz)
    (sampleIndoorDistance_move d)) (sampleLos_move d)) computeLsp_move) (computePathlossBasic_move d)) computePathlossGas_move)
    computePathlossEntry_move) computePathlossScint_move

omit [NeZero B] [NeZero B'] in
theorem storeArgs_move (s : TopoState B N U) (a : TopoArgs B N U) :
    storeArgs (topoState ι v s) (topoArgs ι v a) = topoState ι v (storeArgs s a) := by
  have h : ∀ {α β : Type} (f : α → β) (x y : Option α), assign (x.map f) (y.map f) = (assign x y).map f := by
    intro α β f x y; cases x <;> rfl
  simp only [storeArgs, topoState, topoArgs, h, TopoState.mk.injEq, true_and, and_true]
  rfl

/-- `set_topology` of the scenario. -/
theorem setTopology_move (s : TopoState B N U) (a : TopoArgs B N U) (d : TopoDraws B N U) (hz : SameAltitude ι (assign a.bsLoc s.bsLoc)) :
    setTopology c (topoState ι v s) (topoArgs ι v a) (topoDraws ι d) =
      (topoState ι v (setTopology c s a d).1, (setTopology c s a d).2) := by
  have h1 : assertsHold (topoState ι v s) (topoArgs ι v a) = assertsHold s a := by
    simp only [assertsHold, topoState, topoArgs, Option.isSome_map]
  have h2 : needForUpdate (topoArgs ι v a) = needForUpdate a := by
    simp only [needForUpdate, topoArgs, Option.isSome_map]
  unfold setTopology
  rw [h1, h2, storeArgs_move]
  by_cases ha : assertsHold s a
  · rw [if_pos ha, if_pos ha]
    dsimp only
    by_cases hn : needForUpdate a
    · rw [if_pos hn, if_pos hn, updateTopology_move d (storeArgs s a) hz]
      rcases updateTopology c d (storeArgs s a) with ⟨t, _ | e⟩ <;> rfl
    · rw [if_neg hn, if_neg hn]
  · rw [if_neg ha, if_neg ha]

/-! ### The channel model -/

omit [NeZero B] [NeZero B'] in
theorem crossFactors_move {los : PerLink B N U Bool} {F : PerLink B N U (Fin 7 → Fin 7 → ℝ)} (h : crossFactors c los = .ok F) :
    crossFactors c (los ∘ ι) = .ok (F ∘ ι) := by
  unfold crossFactors at h
  split at h
  · next hex =>
    cases h
    have hex' : ∃ F : PerLink B' N U (Fin 7 → Fin 7 → ℝ), ∀ b n u, ∃ R, crossLspCorrelation c ((los ∘ ι) b n u) = .ok R ∧ IsCholesky R (F b n u) :=
      ⟨hex.choose ∘ ι, fun b n u => hex.choose_spec (ι b) n u⟩
    unfold crossFactors
    rw [dif_pos hex']
    congr 1
    funext b n u
    obtain ⟨R, e, hR⟩ := hex'.choose_spec b n u
    obtain ⟨R', e', hR'⟩ := hex.choose_spec (ι b) n u
    have : R = R' := by
      have := e.symm.trans e'
      injection this
    subst this
    exact cholesky_unique hR hR'
  · cases h

omit [NeZero B] [NeZero B'] in
theorem spatialCorrelation_displaced (los indoor : Fin U → Bool) (p : Fin U → Vec3) (w : ℝ × ℝ) (i : Fin 7) :
    spatialCorrelationOf c los indoor (fun u => (displaced (p u) w).x) (fun u => (displaced (p u) w).y) i =
      spatialCorrelationOf c los indoor (fun u => (p u).x) (fun u => (p u).y) i := by
  simp only [spatialCorrelationOf, utDistance2d_displaced]

omit [NeZero B] [NeZero B'] in
theorem spatialFactors_move {los : PerLink B N U Bool} {indoor : PerUt B U Bool} {ut : PerUt B U Vec3}
    {F : PerBs B N (Fin 7 → Fin U → Fin U → ℝ)} (h : spatialFactors c los indoor ut = .ok F) :
    spatialFactors c (los ∘ ι) (indoor ∘ ι) (places ι v ut) = .ok (F ∘ ι) := by
  unfold spatialFactors at h
  split at h
  · next hex =>
    cases h
    have hex' : ∃ F : PerBs B' N (Fin 7 → Fin U → Fin U → ℝ), ∀ b n i, ∃ C, spatialCorrelationOf c ((los ∘ ι) b n) ((indoor ∘ ι) b)
        (fun u => (places ι v ut b u).x) (fun u => (places ι v ut b u).y) i = .ok C ∧ IsCholesky C (F b n i) := by
      refine ⟨hex.choose ∘ ι, fun b n i => ?_⟩
      obtain ⟨C, e, hC⟩ := hex.choose_spec (ι b) n i
      exact ⟨C, (spatialCorrelation_displaced _ _ (ut (ι b)) (v b) i).trans e, hC⟩
    unfold spatialFactors
    rw [dif_pos hex']
    congr 1
    funext b n i
    obtain ⟨R, e, hR⟩ := hex'.choose_spec b n i
    obtain ⟨R', e', hR'⟩ := hex.choose_spec (ι b) n i
    have : R = R' := by
      have := e.symm.trans ((spatialCorrelation_displaced _ _ (ut (ι b)) (v b) i).trans e')
      injection this
    subst this
    exact cholesky_unique hR hR'
  · cases h

omit [NeZero B] [NeZero B'] in
theorem spatialFactors_fails (hs : Function.Surjective ι) {los : PerLink B N U Bool} {indoor : PerUt B U Bool} {ut : PerUt B U Vec3}
    {e : Err} (h : spatialFactors c los indoor ut = .error e) :
    spatialFactors c (los ∘ ι) (indoor ∘ ι) (places ι v ut) = .error e := by
  unfold spatialFactors at h
  split at h
  · cases h
  · next hex =>
    unfold spatialFactors
    rw [dif_neg]
    · injection h with h; rw [h]
    rintro ⟨F, hF⟩
    refine hex ⟨F ∘ Function.surjInv hs, fun b n i => ?_⟩
    obtain ⟨C, e, hC⟩ := hF (Function.surjInv hs b) n i
    refine ⟨C, ?_, hC⟩
    have e2 := (spatialCorrelation_displaced _ _ (ut (ι (Function.surjInv hs b))) (v (Function.surjInv hs b)) i).symm.trans e
    simp only [Function.comp, Function.surjInv_eq hs] at e2
    exact e2

omit [NeZero B] [NeZero B'] in
theorem sampleLsp_move (s : ChanState B N U) (z : PerLink B N U (Fin 7 → ℝ)) :
    sampleLsp (chanState ι v s) (z ∘ ι) = (sampleLsp s z).map (· ∘ ι) := by
  unfold sampleLsp
  rcases h1 : s.crossSqrt with _ | F <;> rcases h2 : s.spatialSqrt with _ | G <;> rcases h3 : s.topo.lspMean with _ | m <;>
    rcases h4 : s.topo.lspStd with _ | sd <;> simp only [chanState, topoState, h1, h2, h3, h4, Option.map_some, Option.map_none] <;> rfl

omit [NeZero B'] in
/-- The step of `set_topology` after the update of the scenario: it succeeds in a selection if it does for the batch. -/
theorem chanUpdate_move (h : mkScenario cls sa = .ok c) (s : ChanState B N U) (z : PerLink B N U (Fin 7 → ℝ))
    (hok : Function.Surjective ι ∨ (chanUpdate c always s z).2 ≠ some .invalidArgument) :
    chanUpdate c always (chanState ι v s) (z ∘ ι) = (chanState ι v (chanUpdate c always s z).1, (chanUpdate c always s z).2) := by
  have key : lspCallback c (chanState ι v s) = (chanState ι v (lspCallback c s).1, (lspCallback c s).2) := by
    unfold lspCallback
    rcases h1 : s.topo.los with _ | los <;> rcases h2 : s.topo.inState with _ | ind <;> rcases h3 : s.topo.utLoc with _ | ut <;>
      simp only [chanState, topoState, h1, h2, h3, Option.map_some, Option.map_none]
    obtain ⟨F, hF, -⟩ := crossFactors_ok h los
    rw [hF, crossFactors_move hF]
    dsimp only
    rcases hG : spatialFactors c los ind ut with e | G
    · have hs : Function.Surjective ι := by
        refine hok.resolve_right fun hn => hn ?_
        have he : e = .invalidArgument := by
          unfold spatialFactors at hG
          split at hG
          · cases hG
          · cases hG; rfl
        have e1 : lspCallback c s = ({ s with crossSqrt := some F }, some e) := by
          unfold lspCallback; simp only [h1, h2, h3, hF, hG]
        unfold chanUpdate
        rw [e1, he]
      rw [spatialFactors_fails hs hG]
      simp only [h1, h2, h3, Option.map_some]
    · rw [spatialFactors_move hG]
      simp only [h1, h2, h3, Option.map_some]
  have key2 : ∀ s : ChanState B N U, rayCallback c (chanState ι v s) = (chanState ι v (rayCallback c s).1, (rayCallback c s).2) := by
    intro s
    unfold rayCallback
    rcases h1 : s.topo.los with _ | los <;> rcases h2 : s.topo.inState with _ | ind <;>
      simp only [chanState, topoState, h1, h2, Option.map_some, Option.map_none]
    rcases c.numClustersLos with e | nl <;> rcases c.numClustersNlos with e | nn <;> simp only [h1, h2, Option.map_some] <;> rfl
  unfold chanUpdate
  rw [key]
  rcases lspCallback c s with ⟨s1, _ | e⟩
  · dsimp only
    rw [key2]
    rcases rayCallback c s1 with ⟨s2, _ | e⟩
    · dsimp only
      cases always
      · simp only [Bool.false_eq_true, if_false, sampleLsp_move]
        rcases sampleLsp s2 z with e | l <;> rfl
      · rfl
    · rfl
  · rfl

/-- `set_topology` of the channel model. -/
theorem chanSetTopology_move (h : mkScenario cls sa = .ok c) (s : ChanState B N U) (a : ChanArgs B N U) (d : TopoDraws B N U)
    (z : PerLink B N U (Fin 7 → ℝ)) (hz : SameAltitude ι (assign a.bsLoc s.topo.bsLoc))
    (hok : Function.Surjective ι ∨ (chanSetTopology c always s a d z).2 ≠ .error .invalidArgument) :
    chanSetTopology c always (chanState ι v s) (chanArgs ι v a) (topoDraws ι d) (z ∘ ι) =
      (chanState ι v (chanSetTopology c always s a d z).1, (chanSetTopology c always s a d z).2) := by
  have e : setTopology c (chanState ι v s).topo (chanArgs ι v a).toTopo (topoDraws ι d) =
      (topoState ι v (setTopology c s.topo a.toTopo d).1, (setTopology c s.topo a.toTopo d).2) :=
    setTopology_move (a := a.toTopo) s.topo d hz
  unfold chanSetTopology at hok ⊢
  rw [e]
  rcases hr : setTopology c s.topo a.toTopo d with ⟨t, e | _ | _⟩
  · rfl
  · rfl
  · rw [hr] at hok
    dsimp only at hok ⊢
    have k : chanUpdate c always { chanState ι v s with topo := topoState ι v t } (z ∘ ι) =
        (chanState ι v (chanUpdate c always { s with topo := t } z).1, (chanUpdate c always { s with topo := t } z).2) := by
      refine chanUpdate_move (v := v) h { s with topo := t } z (hok.imp id fun hn hh => hn ?_)
      rw [hh]
    rw [k]
    rcases chanUpdate c always { s with topo := t } z with ⟨s2, _ | e⟩ <;> rfl

omit [NeZero B] [NeZero B'] in
/-- What a call works on. -/
theorem callInputs_move (s : ChanState B N U) (z : PerLink B N U (Fin 7 → ℝ)) :
    callInputs always (chanState ι v s) (z ∘ ι) = (callInputs always s z).map (callValues ι v) := by
  unfold callInputs
  cases always
  · simp only [Bool.false_eq_true, if_false, chanState, topoState]
    rcases s.lsp with _ | l
    · rfl
    rcases s.mask with _ | m
    · rfl
    rcases s.topo.los with _ | m
    · rfl
    rcases s.topo.angles with _ | m
    · rfl
    rcases s.topo.distance3d with _ | m
    · rfl
    rcases s.topo.utVel with _ | m
    · rfl
    rcases s.topo.utOri with _ | m
    · rfl
    rcases s.topo.bsOri with _ | m
    · rfl
    rcases s.topo.bsLoc with _ | m
    · rfl
    rfl
  · simp only [if_true, sampleLsp_move]
    rcases sampleLsp s z with e | l
    · rfl
    simp only [Except.map, chanState, topoState]
    rcases s.mask with _ | m
    · rfl
    rcases s.topo.los with _ | m
    · rfl
    rcases s.topo.angles with _ | m
    · rfl
    rcases s.topo.distance3d with _ | m
    · rfl
    rcases s.topo.utVel with _ | m
    · rfl
    rcases s.topo.utOri with _ | m
    · rfl
    rcases s.topo.bsOri with _ | m
    · rfl
    rcases s.topo.bsLoc with _ | m
    · rfl
    rfl

/-- Histories. -/
theorem reach_move (h : mkScenario cls sa = .ok c) {log : List (ChanEvent B N U)} {s : ChanState B N U} (r : ChanReach c always log s)
    (hz : ∀ a d z x, ChanEvent.topology a d z x ∈ log → SameAltitude ι a.bsLoc)
    (hok : Function.Surjective ι ∨ ∀ a d z x, ChanEvent.topology a d z x ∈ log → x ≠ .error .invalidArgument) :
    ChanReach c always (log.map (chanEvent ι v)) (chanState ι v s) ∧ SameAltitude ι s.topo.bsLoc := by
  induction r with
  | init => exact ⟨.init, fun p hp => by cases hp⟩
  | @topology log s a d z r ih =>
    obtain ⟨ih1, ih2⟩ := ih (fun a d z x hm => hz a d z x (List.mem_cons_of_mem _ hm))
      (hok.imp id fun hn a d z x hm => hn a d z x (List.mem_cons_of_mem _ hm))
    have ha := hz a d z _ List.mem_cons_self
    have hassign : SameAltitude ι (assign a.bsLoc s.topo.bsLoc) := by
      rcases hb : a.bsLoc with _ | p
      · exact ih2
      · rw [hb] at ha; exact ha
    have e := chanSetTopology_move (v := v) (always := always) h s a d z hassign (hok.imp id fun hn => hn a d z _ List.mem_cons_self)
    have r' := ChanReach.topology (chanArgs ι v a) (topoDraws ι d) (z ∘ ι) ih1
    rw [e] at r'
    refine ⟨r', ?_⟩
    rw [chanSetTopology_topo]
    rcases setTopology_cases h s.topo a.toTopo d with ⟨-, e⟩ | ⟨-, -, e⟩ | ⟨-, -, hb, -⟩
    · rw [e]; exact ih2
    · rw [e]; exact hassign
    · rw [hb.bsLoc]; exact hassign
  | @generate log s z r ih =>
    obtain ⟨ih1, ih2⟩ := ih (fun a d z x hm => hz a d z x (List.mem_cons_of_mem _ hm))
      (hok.imp id fun hn a d z x hm => hn a d z x (List.mem_cons_of_mem _ hm))
    have r' := ChanReach.generate (z ∘ ι) ih1
    rw [callInputs_move] at r'
    exact ⟨r', ih2⟩

/-- A call. -/
theorem cirCall_move {n : ℕ} [NeZero N] {utArray bsArray : PanelArray} {fs : ℝ} (s : ChanState B N U) (w : CirDraws B N U (n + 2))
    (hz : SameAltitude ι s.topo.bsLoc) :
    cirCall c always utArray bsArray fs (chanState ι v s) (cirDraws ι w) =
      (cirCall c always utArray bsArray fs s w).map (Sum.map (cirOut ι) (cirOut ι)) := by
  unfold cirCall
  rw [show (cirDraws ι w).lsp = w.lsp ∘ ι from rfl, callInputs_move]
  rcases h1 : callInputs always s w.lsp with e | i
  · rfl
  have hbs : s.topo.bsLoc = some i.bsLoc := by
    unfold callInputs at h1
    split at h1
    · cases h1
    · split at h1
      · next e => cases h1; exact e
      · cases h1
  have hri : rayInputs (chanState ι v s).topo (callValues ι v i) = (rayInputs s.topo i).map fun q =>
      { lsp := q.lsp ∘ ι, mask := q.mask ∘ ι, los := q.los ∘ ι, indoor := q.indoor ∘ ι, angles := q.angles ∘ ι,
        bsHeight := q.bsHeight ∘ ι, meanZsd := q.meanZsd ∘ ι, zodOff := q.zodOff ∘ ι } := by
    unfold rayInputs
    simp only [chanState, topoState]
    rcases s.topo.inState with _ | m
    · rfl
    rcases s.topo.lspMean with _ | m
    · rfl
    rcases s.topo.zodOff with _ | m
    · rfl
    rfl
  have hpl : stepPathloss c (chanState ι v s).topo = (stepPathloss c s.topo).map (· ∘ ι) := by
    unfold stepPathloss
    split
    · unfold samplePathloss
      simp only [chanState, topoState]
      rcases s.topo.plBasic with _ | m
      · rfl
      rcases s.topo.plGas with _ | m
      · rfl
      rcases s.topo.plScint with _ | m
      · rfl
      rcases s.topo.plEntry with _ | m
      · rfl
      rfl
    · rfl
  simp only [Except.map, bind, Except.bind, hri, hpl]
  rcases h2 : rayInputs s.topo i with e | ri
  · rfl
  simp only
  by_cases hN : N = 1
  · simp only [hN, ne_eq, not_true_eq_false, if_false]
    rcases h3 : stepPathloss c s.topo with e | pl
    · rfl
    have hb : (callValues ι v i).bsLoc 0 0 = displaced (i.bsLoc (ι 0) 0) (v 0) := rfl
    have hh : ((callValues ι v i).bsLoc 0 0).z = (i.bsLoc 0 0).z := hz _ hbs 0
    have hri0 : ri.bsHeight = fun b n => (i.bsLoc b n).z := by
      unfold rayInputs at h2
      split at h2
      · cases h2; rfl
      · cases h2
    have hr : ∀ b n u, raysCall c
        ⟨ri.lsp ∘ ι, ri.mask ∘ ι, ri.los ∘ ι, ri.indoor ∘ ι, ri.angles ∘ ι, ri.bsHeight ∘ ι, ri.meanZsd ∘ ι, ri.zodOff ∘ ι⟩
        (cirDraws ι w).rays b n u = raysCall c ri w.rays (ι b) n u := by
      intro b n u
      have e0 : (ri.bsHeight ∘ ι) 0 0 = ri.bsHeight 0 0 := by rw [hri0]; exact hh
      unfold raysCall
      dsimp only
      rw [e0]
      rfl
    have hr' := funext fun b => funext fun n => funext fun u => hr b n u
    simp only [hh]
    rw [hr']
    by_cases hd : c.direction = "uplink"
    · simp only [hd, if_true]
      rfl
    · simp only [hd, if_false]
      rfl
  · simp only [hN, ne_eq, not_false_eq_true, if_true]

/-! ### C122 -/

/-- The full claim of C122: after any calls of `set_topology` that succeeded, the examples selected by `ι`, simulated on their own with
the same draws, give the same outcomes, attributes and impulse responses. -/
def C122_statement : Prop :=
  ∀ (B B' N U n : ℕ) [NeZero B] [NeZero B'] [NeZero N] (cls : ScenarioClass) (sa : ScenarioArgs) (c : Config) (always : Bool),
    mkScenario cls sa = .ok c → ∀ (ι : Fin B' → Fin B) (log : List (ChanEvent B N U)) (s : ChanState B N U), ChanReach c always log s →
      (∀ a d z x, ChanEvent.topology a d z x ∈ log → x = .ok ()) →
      ChanReach c always (log.map (chanEvent ι 0)) (chanState ι 0 s) ∧
      ∀ (utArray bsArray : PanelArray) (fs : ℝ) (w : CirDraws B N U (n + 2)),
        cirCall c always utArray bsArray fs (chanState ι 0 s) (cirDraws ι w) =
          (cirCall c always utArray bsArray fs s w).map (Sum.map (cirOut ι) (cirOut ι))

/-- C122, what holds: the claim is true if example 0 of the selection always has the altitude of example 0 of the batch. If the
selection leaves out no example, calls that failed may be among the history as well (a call fails for the whole batch if the
correlation matrix of one example has no Cholesky factor). Missing: other altitudes, see `C122_violated`. -/
theorem C122_batch_partial {n : ℕ} [NeZero N] (h : mkScenario cls sa = .ok c) {log : List (ChanEvent B N U)} {s : ChanState B N U}
    (r : ChanReach c always log s)
    (hz : ∀ a d z x p, ChanEvent.topology a d z x ∈ log → a.bsLoc = some p → ∀ k, (p (ι 0) k).z = (p 0 k).z)
    (hok : Function.Surjective ι ∨ ∀ a d z x, ChanEvent.topology a d z x ∈ log → x ≠ .error .invalidArgument) :
    ChanReach c always (log.map (chanEvent ι 0)) (chanState ι 0 s) ∧
    ∀ (utArray bsArray : PanelArray) (fs : ℝ) (w : CirDraws B N U (n + 2)),
      cirCall c always utArray bsArray fs (chanState ι 0 s) (cirDraws ι w) =
        (cirCall c always utArray bsArray fs s w).map (Sum.map (cirOut ι) (cirOut ι)) := by
  obtain ⟨h1, h2⟩ := reach_move (v := 0) h r (fun a d z x hm p hp => hz a d z x p hm hp) hok
  exact ⟨h1, fun utArray bsArray fs w => cirCall_move s w h2⟩

/-- A batch of two topologies with satellites at 600 km and 1200 km. -/
noncomputable def exAltitudes : ChanArgs 2 1 1 :=
  { exChan 2 1 1 with bsLoc := some fun b _ => ⟨0, 0, if b = 0 then 600000 else 1200000⟩ }

theorem exAltitudes_ok (h : mkScenario cls sa = .ok c) (always : Bool) :
    (chanSetTopology c always (ChanState.init c) exAltitudes (exDraws 2 1 1) (exZ 2 1 1)).2 = .ok () := by
  have r := ChanReach.topology exAltitudes (exDraws 2 1 1) (exZ 2 1 1) (ChanReach.init (c := c) (always := always))
  have ap : Apart [ChanEvent.topology exAltitudes (exDraws 2 1 1) (exZ 2 1 1)
      (chanSetTopology c always (ChanState.init c) exAltitudes (exDraws 2 1 1) (exZ 2 1 1)).2] := by
    intro a d z x ut hm hut b u v hx _
    exact Subsingleton.elim _ _
  rcases (channel_ready h rfl r ap).1 _ _ _ _ List.mem_cons_self with e | e
  · exact e
  · have := complete_call h exAltitudes.toTopo (exDraws 2 1 1) (toTopo_physical _) rfl rfl
    rcases chanSet_cases (always := always) (s := ChanState.init c) h .init exAltitudes (exDraws 2 1 1) (exZ 2 1 1) with
      ⟨_, e1, -⟩ | ⟨e1, -⟩ | ⟨-, -, los, indoor, ut, mean, std, near, F, hst, hF, hc⟩
    · change (setTopology c (TopoState.init c) _ _).2 = _ at e1
      rw [this] at e1; cases e1
    · change (setTopology c (TopoState.init c) _ _).2 = _ at e1
      rw [this] at e1; cases e1
    · rcases hc with ⟨G, hG, mask, -, e2⟩ | ⟨hG, e2⟩
      · rw [e2]
      · rw [e2] at e; cases e

/-- C122 fails: the second example of that batch, simulated on its own, is farther away. -/
theorem C122_violated : ¬ C122_statement := by
  intro H
  obtain ⟨c, hc⟩ := exConfig
  have r := ChanReach.topology exAltitudes (exDraws 2 1 1) (exZ 2 1 1) (ChanReach.init (c := c) (always := false))
  have e := exAltitudes_ok hc false
  have e' := complete_call hc exAltitudes.toTopo (exDraws 2 1 1) (toTopo_physical _) rfl rfl
  have htopo := chanSetTopology_topo (c := c) (always := false) (ChanState.init c) exAltitudes (exDraws 2 1 1) (exZ 2 1 1)
  have rt := TopoReach.call exAltitudes.toTopo (exDraws 2 1 1) (TopoReach.init (c := c))
  have hacc : TopoCall.accepted ((exAltitudes.toTopo, exDraws 2 1 1,
      (setTopology c (TopoState.init c) exAltitudes.toTopo (exDraws 2 1 1)).2) : TopoCall 2 1 1) := by
    rw [TopoCall.accepted, e']; simp
  have hbs : (setTopology c (TopoState.init c) exAltitudes.toTopo (exDraws 2 1 1)).1.bsLoc = exAltitudes.bsLoc := by
    rw [((C10_arguments_persist_partial hc rt).1).bsLoc, latest_cons_counted hacc]; rfl
  obtain ⟨d3, hd⟩ : ∃ d3, (setTopology c (TopoState.init c) exAltitudes.toTopo (exDraws 2 1 1)).1.distance3d = some d3 := by
    rcases fresh_invariant hc rfl rt with ⟨hh, -⟩ | ⟨-, e, -, ut, bs', i, -, -, -, -, -, q6, -, q8⟩
    · exact absurd hacc (hh _ List.mem_cons_self)
    · obtain ⟨d3', h1, -⟩ := q8.distance3d
      exact ⟨d3', h1⟩
  have hfirst := distance3d_first hc rfl rt hd hbs 1 0 0
  obtain ⟨r', -⟩ := H 2 1 1 1 0 _ _ c false hc (fun _ => 1) _ _ r (fun a d z x hm => by
    rw [List.mem_singleton] at hm
    injection hm with h1 h2 h3 h4
    exact h4.trans e)
  obtain ⟨tl, rt', -⟩ := r'.topo
  have hd' : (chanState (fun _ : Fin 1 => (1 : Fin 2)) 0
      (chanSetTopology c false (ChanState.init c) exAltitudes (exDraws 2 1 1) (exZ 2 1 1)).1).topo.distance3d =
      some (d3 ∘ fun _ : Fin 1 => (1 : Fin 2)) := by
    simp only [chanState, topoState]
    rw [htopo]
    change Option.map _ (setTopology c (TopoState.init c) _ _).1.distance3d = _
    rw [hd]; rfl
  have hb' : (chanState (fun _ : Fin 1 => (1 : Fin 2)) 0
      (chanSetTopology c false (ChanState.init c) exAltitudes (exDraws 2 1 1) (exZ 2 1 1)).1).topo.bsLoc =
      some fun _ _ => ⟨0 + 0, 0 + 0, 1200000⟩ := by
    simp only [chanState, topoState]
    rw [htopo]
    change Option.map _ (setTopology c (TopoState.init c) _ _).1.bsLoc = _
    rw [hbs]
    simp only [exAltitudes, Option.map_some, Option.some.injEq]
    funext b k
    simp [places, displaced]
  have h2 := distance3d_first hc rfl rt' hd' hb' 0 0 0
  simp only [Function.comp] at h2
  rw [hfirst] at h2
  have hel := (mkScenario_built hc).el_eq
  have := (C21_slant_range (el := c.elevationAngle) (h := 600000) (by rw [hel]; norm_num [exArgs]) (by rw [hel]; norm_num [exArgs])
    (by norm_num)).2.2.2.2.2.2.2 1200000 (by norm_num)
  simp at h2
  linarith

/-- The hypotheses of the C122 theorem are met by the second example of a batch of three with two UTs each, and an impulse response is
generated for the batch. -/
example (h : mkScenario cls sa = .ok c) : ∃ (log : List (ChanEvent 3 1 2)) (s : ChanState 3 1 2), ChanReach c always log s ∧ log ≠ [] ∧
    (∀ a d z x p, ChanEvent.topology a d z x ∈ log → a.bsLoc = some p → ∀ k, (p 1 k).z = (p 0 k).z) ∧
    (∀ a d z x, ChanEvent.topology a d z x ∈ log → x ≠ .error .invalidArgument) ∧ ∃ i, callInputs always s (exZ 3 1 2) = .ok i := by
  have r := ChanReach.topology (exChan 3 1 2) (exDraws 3 1 2) (exZ 3 1 2) (ChanReach.init (c := c) (always := always))
  have e := exChan_ok h always 3 2
  rw [e] at r
  refine ⟨_, _, r, by simp, ?_, ?_, (C18_generation_possible_partial h rfl r (exChan_apart 3 1 2 _ _ _) _).2 ⟨_, List.mem_cons_self, trivial⟩⟩
  · intro a d z x p hm hp k
    rw [List.mem_singleton] at hm
    injection hm with hm
    subst hm
    cases hp
    rfl
  · intro a d z x hm
    rw [List.mem_singleton] at hm
    injection hm with _ _ _ hm
    subst hm
    simp

/-! ### C123 -/

/-- C123: displacing UTs and satellites horizontally, in each example of the batch by a vector of its own, changes no outcome of
`set_topology`, no attribute but the positions and no impulse response, over any history (failed calls included). -/
theorem C123_displacement {n : ℕ} [NeZero N] (h : mkScenario cls sa = .ok c) (v : Fin B → ℝ × ℝ) {log : List (ChanEvent B N U)}
    {s : ChanState B N U} (r : ChanReach c always log s) :
    ChanReach c always (log.map (chanEvent id v)) (chanState id v s) ∧
    ∀ (utArray bsArray : PanelArray) (fs : ℝ) (w : CirDraws B N U (n + 2)),
      cirCall c always utArray bsArray fs (chanState id v s) w = cirCall c always utArray bsArray fs s w := by
  obtain ⟨h1, h2⟩ := reach_move (ι := id) (v := v) h r (fun a d z x hm p hp _ => rfl) (.inl Function.surjective_id)
  refine ⟨h1, fun utArray bsArray fs w => ?_⟩
  have := cirCall_move (ι := id) (v := v) (c := c) (always := always) (utArray := utArray) (bsArray := bsArray) (fs := fs) s w h2
  refine this.trans ?_
  rcases cirCall c always utArray bsArray fs s w with e | o | o <;> rfl

/-- Such a history, displaced by 250 km: the positions are others, and a channel can be generated in both. -/
example (h : mkScenario cls sa = .ok c) : ∃ (log : List (ChanEvent 2 1 3)) (s : ChanState 2 1 3) (v : Fin 2 → ℝ × ℝ),
    ChanReach c always log s ∧ (chanState id v s).topo.utLoc ≠ s.topo.utLoc ∧ ∃ i, callInputs always s (exZ 2 1 3) = .ok i := by
  have r := ChanReach.topology (exChan 2 1 3) (exDraws 2 1 3) (exZ 2 1 3) (ChanReach.init (c := c) (always := always))
  have e := exChan_ok h always 2 3
  have e' := complete_call h (exChan 2 1 3).toTopo (exDraws 2 1 3) (toTopo_physical _) rfl rfl
  have htopo := chanSetTopology_topo (c := c) (always := always) (ChanState.init c) (exChan 2 1 3) (exDraws 2 1 3) (exZ 2 1 3)
  have hut : (setTopology c (TopoState.init c) (exChan 2 1 3).toTopo (exDraws 2 1 3)).1.utLoc = (exChan 2 1 3).utLoc := by
    have rt := TopoReach.call (exChan 2 1 3).toTopo (exDraws 2 1 3) (TopoReach.init (c := c))
    have hacc : TopoCall.accepted (((exChan 2 1 3).toTopo, exDraws 2 1 3,
        (setTopology c (TopoState.init c) (exChan 2 1 3).toTopo (exDraws 2 1 3)).2) : TopoCall 2 1 3) := by
      rw [TopoCall.accepted, e']; simp
    rw [((C10_arguments_persist_partial h rt).1).utLoc, latest_cons_counted hacc]; rfl
  rw [e] at r
  refine ⟨_, _, fun _ => (250000, 0), r, ?_,
    (C18_generation_possible_partial h rfl r (exChan_apart 2 1 3 _ _ _) _).2 ⟨_, List.mem_cons_self, trivial⟩⟩
  rw [htopo]
  change Option.map _ _ ≠ _
  rw [htopo]
  change Option.map _ (setTopology c (TopoState.init c) _ _).1.utLoc ≠ (setTopology c (TopoState.init c) _ _).1.utLoc
  rw [hut]
  simp only [exChan, Option.map_some, ne_eq, Option.some.injEq]
  intro hh
  have := congrArg Vec3.x (congrFun (congrFun hh 0) 0)
  simp [places, displaced] at this

end OpenNTN
