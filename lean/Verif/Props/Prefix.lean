import Verif.Spec.Prefix
import Verif.Props.Symmetry

/-
C135: removing the last UTs changes nothing for the others.
-/
namespace OpenNTN

open Classical Spec

variable {B N U U' : ℕ} [NeZero B] {cls : ScenarioClass} {sa : ScenarioArgs} {c : Config} {always : Bool} {κ : Fin U' → Fin U}

/-! ### The scenario -/

omit [NeZero B] in
theorem andThen_fewer {r : Step B N U} {f : TopoState B N U → Step B N U} {r' : Step B N U'} {f' : TopoState B N U' → Step B N U'}
    (hr : r' = (fewerTopo κ r.1, r.2)) (hf : ∀ s, f' (fewerTopo κ s) = (fewerTopo κ (f s).1, (f s).2)) :
    r'.andThen f' = (fewerTopo κ (r.andThen f).1, (r.andThen f).2) := by
  subst hr
  unfold Step.andThen
  rcases h : r.2 with _ | e <;> simp only [hf]

theorem computeDistances_fewer (s : TopoState B N U) :
    computeDistances c (fewerTopo κ s) = (fewerTopo κ (computeDistances c s).1, (computeDistances c s).2) := by
  unfold computeDistances
  rcases h1 : s.utLoc with _ | ut <;> rcases h2 : s.bsLoc with _ | bs <;> simp only [fewerTopo, h1, h2, Option.map_some, Option.map_none]
  by_cases hN : N = 1
  · simp only [hN, dite_true, h1, h2, Option.map_some]
    rfl
  · simp only [hN, dite_false, h1, h2, Option.map_some]
    rfl

omit [NeZero B] in
theorem sampleIndoorDistance_fewer (d : TopoDraws B N U) (s : TopoState B N U) : sampleIndoorDistance (fewerTopoDraws κ d) (fewerTopo κ s) =
    (fewerTopo κ (sampleIndoorDistance d s).1, (sampleIndoorDistance d s).2) := by
  unfold sampleIndoorDistance
  rcases h1 : s.inState with _ | i <;> rcases h2 : s.distance2d with _ | d2 <;> rcases h3 : s.distance3d with _ | d3 <;>
    simp only [fewerTopo, h1, h2, h3, Option.map_some, Option.map_none] <;> rfl

omit [NeZero B] in
theorem sampleLos_fewer (d : TopoDraws B N U) (s : TopoState B N U) : sampleLos c (fewerTopoDraws κ d) (fewerTopo κ s) =
    (fewerTopo κ (sampleLos c d s).1, (sampleLos c d s).2) := by
  unfold sampleLos
  rcases h1 : s.inState with _ | i <;> rcases h2 : s.requestedLos with _ | r <;>
    simp only [fewerTopo, h1, h2, Option.map_some, Option.map_none] <;> try rfl
  rcases h3 : c.losProbability with e | p
  · simp only [h1, h2, Option.map_some]
  · cases p with
    | bot => simp only [h1, h2, Option.map_some]
    | coe p => simp only [h1, h2, Option.map_some, Option.some.injEq, Prod.mk.injEq]; exact ⟨rfl, trivial⟩

omit [NeZero B] in
theorem computeLsp_fewer (s : TopoState B N U) : computeLspLogMeanStd c (fewerTopo κ s) =
    (fewerTopo κ (computeLspLogMeanStd c s).1, (computeLspLogMeanStd c s).2) := by
  unfold computeLspLogMeanStd
  rcases h1 : s.utLoc with _ | ut <;> rcases h2 : s.bsLoc with _ | bs <;> rcases h3 : s.los with _ | los <;>
    rcases h4 : s.distance2d with _ | d2 <;> simp only [fewerTopo, h1, h2, h3, h4, Option.map_some, Option.map_none]
  rcases bothStates (lspLogMean c) with e | mean
  · simp only [h1, h2, h3, h4, Option.map_some]
  rcases bothStates (fun near => bothStates fun l => lspLogStd c l near) with e | std
  · simp only [h1, h2, h3, h4, Option.map_some]
  · simp only [h1, h2, h3, h4, Option.map_some]
    rfl

omit [NeZero B] in
theorem computePathlossBasic_fewer (d : TopoDraws B N U) (s : TopoState B N U) : computePathlossBasic c (fewerTopoDraws κ d) (fewerTopo κ s) =
    (fewerTopo κ (computePathlossBasic c d s).1, (computePathlossBasic c d s).2) := by
  unfold computePathlossBasic
  rcases h1 : s.distance3d with _ | d3 <;> rcases h2 : s.los with _ | los <;>
    simp only [fewerTopo, h1, h2, Option.map_some, Option.map_none]
  rcases c.rowReal c.paramsNlos .pCL with e | cl <;> rcases c.rowReal c.paramsLos .psigmaSF with e | sl <;>
    rcases c.rowReal c.paramsNlos .psigmaSF with e | sn <;> simp only [h1, h2, Option.map_some] <;> rfl

omit [NeZero B] in
theorem computePathlossGas_fewer (s : TopoState B N U) : computePathlossGas c (fewerTopo κ s) =
    (fewerTopo κ (computePathlossGas c s).1, (computePathlossGas c s).2) := by
  unfold computePathlossGas
  rcases h1 : s.atmosphere with _ | a <;> rcases h2 : s.los with _ | los <;>
    simp only [fewerTopo, h1, h2, Option.map_some, Option.map_none]
  rcases gasLoss (c.carrierFrequency / 10 ^ 9) c.elevationAngle a with e | g <;> simp only [h1, h2, Option.map_some] <;> rfl

omit [NeZero B] in
theorem computePathlossEntry_fewer (s : TopoState B N U) : computePathlossEntry (fewerTopo κ s) =
    (fewerTopo κ (computePathlossEntry s).1, (computePathlossEntry s).2) := by
  unfold computePathlossEntry
  rcases h2 : s.los with _ | los <;> simp only [fewerTopo, h2, Option.map_some, Option.map_none] <;> rfl

omit [NeZero B] in
theorem computePathlossScint_fewer (s : TopoState B N U) : computePathlossScint c (fewerTopo κ s) =
    (fewerTopo κ (computePathlossScint c s).1, (computePathlossScint c s).2) := by
  unfold computePathlossScint
  rcases h1 : s.atmosphere with _ | a <;> rcases h2 : s.los with _ | los <;>
    simp only [fewerTopo, h1, h2, Option.map_some, Option.map_none]
  rcases scintLoss (c.carrierFrequency / 10 ^ 9) c.elevationAngle a with e | g <;> simp only [h1, h2, Option.map_some] <;> rfl

theorem updateTopology_fewer (d : TopoDraws B N U) (s : TopoState B N U) :
    updateTopology c (fewerTopoDraws κ d) (fewerTopo κ s) = (fewerTopo κ (updateTopology c d s).1, (updateTopology c d s).2) := by
  unfold updateTopology
  exact andThen_fewer (andThen_fewer (andThen_fewer (andThen_fewer (andThen_fewer (andThen_fewer (andThen_fewer (computeDistances_fewer s)
    (sampleIndoorDistance_fewer d)) (sampleLos_fewer d)) computeLsp_fewer) (computePathlossBasic_fewer d)) computePathlossGas_fewer)
    computePathlossEntry_fewer) computePathlossScint_fewer

omit [NeZero B] in
theorem storeArgs_fewer (s : TopoState B N U) (a : TopoArgs B N U) :
    storeArgs (fewerTopo κ s) (fewerTopoArgs κ a) = fewerTopo κ (storeArgs s a) := by
  have h : ∀ {α β : Type} (f : α → β) (x y : Option α), assign (x.map f) (y.map f) = (assign x y).map f := by
    intro α β f x y; cases x <;> rfl
  simp only [storeArgs, fewerTopo, fewerTopoArgs, h, TopoState.mk.injEq, true_and, and_true]
  rfl

/-- `set_topology` of the scenario. -/
theorem setTopology_fewer (s : TopoState B N U) (a : TopoArgs B N U) (d : TopoDraws B N U) :
    setTopology c (fewerTopo κ s) (fewerTopoArgs κ a) (fewerTopoDraws κ d) =
      (fewerTopo κ (setTopology c s a d).1, (setTopology c s a d).2) := by
  have h1 : assertsHold (fewerTopo κ s) (fewerTopoArgs κ a) = assertsHold s a := by
    simp only [assertsHold, fewerTopo, fewerTopoArgs, Option.isSome_map]
  have h2 : needForUpdate (fewerTopoArgs κ a) = needForUpdate a := by
    simp only [needForUpdate, fewerTopoArgs, Option.isSome_map]
  unfold setTopology
  rw [h1, h2, storeArgs_fewer]
  by_cases ha : assertsHold s a
  · rw [if_pos ha, if_pos ha]
    dsimp only
    by_cases hn : needForUpdate a
    · rw [if_pos hn, if_pos hn, updateTopology_fewer d (storeArgs s a)]
      rcases updateTopology c d (storeArgs s a) with ⟨t, _ | e⟩ <;> rfl
    · rw [if_neg hn, if_neg hn]
  · rw [if_neg ha, if_neg ha]

/-! ### The channel model -/

omit [NeZero B] in
theorem crossFactors_fewer {los : PerLink B N U Bool} {F : PerLink B N U (Fin 7 → Fin 7 → ℝ)} (h : crossFactors c los = .ok F) :
    crossFactors c (linksOf κ los) = .ok (linksOf κ F) := by
  unfold crossFactors at h
  split at h
  · next hex =>
    cases h
    have hex' : ∃ F : PerLink B N U' (Fin 7 → Fin 7 → ℝ), ∀ b n u, ∃ R, crossLspCorrelation c (linksOf κ los b n u) = .ok R ∧
        IsCholesky R (F b n u) := ⟨linksOf κ hex.choose, fun b n u => hex.choose_spec b n (κ u)⟩
    unfold crossFactors
    rw [dif_pos hex']
    congr 1
    funext b n u
    obtain ⟨R, e, hR⟩ := hex'.choose_spec b n u
    obtain ⟨R', e', hR'⟩ := hex.choose_spec b n (κ u)
    have : R = R' := by
      have := e.symm.trans e'
      injection this
    subst this
    exact cholesky_unique hR hR'
  · cases h

/-- A sum over all UTs of which those that were removed contribute nothing. -/
theorem sum_castLE (hU : U' ≤ U) (f : Fin U → ℝ) (h0 : ∀ v : Fin U, U' ≤ v → f v = 0) : ∑ v, f v = ∑ v : Fin U', f (Fin.castLE hU v) := by
  refine (Finset.sum_of_injOn (Fin.castLE hU) (fun a _ b _ hab => Fin.castLE_injective hU hab) (fun _ _ => Finset.mem_coe.2 (Finset.mem_univ _))
    (fun v _ hv => h0 v ?_) (fun _ _ => rfl)).symm
  by_contra hlt
  exact hv ⟨⟨v, not_le.1 hlt⟩, Finset.mem_coe.2 (Finset.mem_univ _), rfl⟩

/-- The factor of a leading submatrix is the leading part of the factor. -/
theorem cholesky_prefix (hU : U' ≤ U) {A L : Fin U → Fin U → ℝ} (h : IsCholesky A L) :
    IsCholesky (fun u v => A (Fin.castLE hU u) (Fin.castLE hU v)) fun u v => L (Fin.castLE hU u) (Fin.castLE hU v) where
  lower := fun i j hij => h.lower _ _ hij
  diag := fun i => h.diag _
  prod := fun i j => by
    rw [← h.prod, sum_castLE hU]
    intro v hv
    rw [h.lower (Fin.castLE hU i) v (show (i : ℕ) < v from lt_of_lt_of_le i.2 hv), zero_mul]

omit [NeZero B] in
theorem spatialCorrelation_fewer (hκ : Function.Injective κ) {los indoor : Fin U → Bool} {x y : Fin U → ℝ} {i : Fin 7} {C : Fin U → Fin U → ℝ}
    (h : spatialCorrelationOf c los indoor x y i = .ok C) :
    spatialCorrelationOf c (fun u => los (κ u)) (fun u => indoor (κ u)) (fun u => x (κ u)) (fun u => y (κ u)) i =
      .ok fun u v => C (κ u) (κ v) := by
  unfold spatialCorrelationOf at h ⊢
  rcases h1 : c.getReal (corrDistParam i) true with e | dl <;> rcases h2 : c.getReal (corrDistParam i) false with e' | dn <;>
    rw [h1, h2] at h <;> cases h
  refine congrArg Except.ok ?_
  funext u v
  simp only [spatialCorrelation, spatialFilter, utDistance2d, hκ.eq_iff]

omit [NeZero B] in
theorem spatialFactors_fewer (hU : U' ≤ U) {los : PerLink B N U Bool} {indoor : PerUt B U Bool} {ut : PerUt B U Vec3}
    {F : PerBs B N (Fin 7 → Fin U → Fin U → ℝ)} (h : spatialFactors c los indoor ut = .ok F) :
    spatialFactors c (linksOf (Fin.castLE hU) los) (utsOf (Fin.castLE hU) indoor) (utsOf (Fin.castLE hU) ut) =
      .ok fun b n i u v => F b n i (Fin.castLE hU u) (Fin.castLE hU v) := by
  unfold spatialFactors at h
  split at h
  · next hex =>
    cases h
    have hex' : ∃ F : PerBs B N (Fin 7 → Fin U' → Fin U' → ℝ), ∀ b n i, ∃ C,
        spatialCorrelationOf c (linksOf (Fin.castLE hU) los b n) (utsOf (Fin.castLE hU) indoor b) (fun u => (utsOf (Fin.castLE hU) ut b u).x)
          (fun u => (utsOf (Fin.castLE hU) ut b u).y) i = .ok C ∧ IsCholesky C (F b n i) := by
      refine ⟨fun b n i u v => hex.choose b n i (Fin.castLE hU u) (Fin.castLE hU v), fun b n i => ?_⟩
      obtain ⟨C, e, hC⟩ := hex.choose_spec b n i
      exact ⟨_, spatialCorrelation_fewer (Fin.castLE_injective hU) e, cholesky_prefix hU hC⟩
    unfold spatialFactors
    rw [dif_pos hex']
    congr 1
    funext b n i
    obtain ⟨R, e, hR⟩ := hex'.choose_spec b n i
    obtain ⟨R', e', hR'⟩ := hex.choose_spec b n i
    have := e.symm.trans (spatialCorrelation_fewer (Fin.castLE_injective hU) e')
    injection this with this
    subst this
    exact cholesky_unique hR (cholesky_prefix hU hR')
  · cases h

/-- The spatial factors, where they exist, are lower triangular. -/
def LowerFactors (s : ChanState B N U) : Prop := ∀ G, s.spatialSqrt = some G → ∀ b n i u v, u < v → G b n i u v = 0

omit [NeZero B] in
theorem sampleLsp_fewer (hU : U' ≤ U) (s : ChanState B N U) (hl : LowerFactors s) (z : PerLink B N U (Fin 7 → ℝ)) :
    sampleLsp (fewerChan (Fin.castLE hU) s) (linksOf (Fin.castLE hU) z) = (sampleLsp s z).map (linksOf (Fin.castLE hU)) := by
  unfold sampleLsp
  rcases h1 : s.crossSqrt with _ | F <;> rcases h2 : s.spatialSqrt with _ | G <;> rcases h3 : s.topo.lspMean with _ | m <;>
    rcases h4 : s.topo.lspStd with _ | sd <;> simp only [fewerChan, fewerTopo, h1, h2, h3, h4, Option.map_some, Option.map_none] <;> try rfl
  simp only [Except.map, Except.ok.injEq]
  funext b n u
  simp only [linksOf]
  congr 1
  funext i
  simp only [correlateDraws]
  refine (sum_castLE hU (fun v => (∑ j, F b n v i j * z b n v j) * G b n i (Fin.castLE hU u) v) fun v hv => ?_).symm
  rw [hl G h2 b n i _ v (show (u : ℕ) < v from lt_of_lt_of_le u.2 hv), mul_zero]

omit [NeZero B] in
theorem spatialFactors_lower {los : PerLink B N U Bool} {indoor : PerUt B U Bool} {ut : PerUt B U Vec3}
    {G : PerBs B N (Fin 7 → Fin U → Fin U → ℝ)} (h : spatialFactors c los indoor ut = .ok G) : ∀ b n i u v, u < v → G b n i u v = 0 := by
  unfold spatialFactors at h
  split at h
  · next hex =>
    cases h
    intro b n i
    obtain ⟨C, -, hC⟩ := hex.choose_spec b n i
    exact hC.lower
  · cases h

omit [NeZero B] in
theorem lspCallback_lower (s : ChanState B N U) (hl : LowerFactors s) : LowerFactors (lspCallback c s).1 := by
  unfold lspCallback
  rcases h1 : s.topo.los with _ | los <;> rcases h2 : s.topo.inState with _ | ind <;> rcases h3 : s.topo.utLoc with _ | ut <;> try exact hl
  dsimp only
  rcases crossFactors c los with e | F
  · exact hl
  dsimp only
  rcases hG : spatialFactors c los ind ut with e | G
  · exact hl
  · intro G' hG'
    cases hG'
    exact spatialFactors_lower hG

omit [NeZero B] in
theorem rayCallback_lower (s : ChanState B N U) (hl : LowerFactors s) : LowerFactors (rayCallback c s).1 := by
  unfold rayCallback
  rcases h1 : s.topo.los with _ | los <;> rcases h2 : s.topo.inState with _ | ind <;> try exact hl
  dsimp only
  rcases c.numClustersLos with e | nl <;> rcases c.numClustersNlos with e | nn <;> exact hl

omit [NeZero B] in
theorem chanUpdate_lower (s : ChanState B N U) (hl : LowerFactors s) (z : PerLink B N U (Fin 7 → ℝ)) :
    LowerFactors (chanUpdate c always s z).1 := by
  unfold chanUpdate
  have k1 := lspCallback_lower (c := c) s hl
  rcases h1 : lspCallback c s with ⟨s1, _ | e⟩ <;> rw [h1] at k1
  · have k2 := rayCallback_lower (c := c) s1 k1
    dsimp only
    rcases h2 : rayCallback c s1 with ⟨s2, _ | e⟩ <;> rw [h2] at k2
    · dsimp only
      split
      · exact k2
      · rcases sampleLsp s2 z with e | l <;> exact k2
    · exact k2
  · exact k1

theorem chanSetTopology_lower (s : ChanState B N U) (hl : LowerFactors s) (a : ChanArgs B N U) (d : TopoDraws B N U)
    (z : PerLink B N U (Fin 7 → ℝ)) : LowerFactors (chanSetTopology c always s a d z).1 := by
  unfold chanSetTopology
  dsimp only
  rcases setTopology c s.topo a.toTopo d with ⟨t, e | _ | _⟩
  · exact hl
  · exact hl
  · have k := chanUpdate_lower (c := c) (always := always) { s with topo := t } hl z
    dsimp only
    rcases e : chanUpdate c always { s with topo := t } z with ⟨s2, _ | e⟩ <;> rw [e] at k <;> exact k

/-- The step of `set_topology` after the update of the scenario: it succeeds with fewer UTs if it does with more. -/
theorem chanUpdate_fewer (h : mkScenario cls sa = .ok c) (hU : U' ≤ U) (s : ChanState B N U) (hl : LowerFactors s)
    (z : PerLink B N U (Fin 7 → ℝ)) (hok : (chanUpdate c always s z).2 ≠ some .invalidArgument) :
    chanUpdate c always (fewerChan (Fin.castLE hU) s) (linksOf (Fin.castLE hU) z) =
      (fewerChan (Fin.castLE hU) (chanUpdate c always s z).1, (chanUpdate c always s z).2) := by
  have key : lspCallback c (fewerChan (Fin.castLE hU) s) = (fewerChan (Fin.castLE hU) (lspCallback c s).1, (lspCallback c s).2) := by
    unfold lspCallback
    rcases h1 : s.topo.los with _ | los <;> rcases h2 : s.topo.inState with _ | ind <;> rcases h3 : s.topo.utLoc with _ | ut <;>
      simp only [fewerChan, fewerTopo, h1, h2, h3, Option.map_some, Option.map_none]
    obtain ⟨F, hF, -⟩ := crossFactors_ok h los
    rw [hF, crossFactors_fewer hF]
    dsimp only
    rcases hG : spatialFactors c los ind ut with e | G
    · refine absurd ?_ hok
      have he : e = .invalidArgument := by
        unfold spatialFactors at hG
        split at hG
        · cases hG
        · cases hG; rfl
      have e1 : lspCallback c s = ({ s with crossSqrt := some F }, some e) := by
        unfold lspCallback; simp only [h1, h2, h3, hF, hG]
      unfold chanUpdate
      rw [e1, he]
    · rw [spatialFactors_fewer hU hG]
      simp only [h1, h2, h3, Option.map_some]
  have key2 : ∀ s : ChanState B N U, rayCallback c (fewerChan (Fin.castLE hU) s) =
      (fewerChan (Fin.castLE hU) (rayCallback c s).1, (rayCallback c s).2) := by
    intro s
    unfold rayCallback
    rcases h1 : s.topo.los with _ | los <;> rcases h2 : s.topo.inState with _ | ind <;>
      simp only [fewerChan, fewerTopo, h1, h2, Option.map_some, Option.map_none]
    rcases c.numClustersLos with e | nl <;> rcases c.numClustersNlos with e | nn <;> simp only [h1, h2, Option.map_some] <;> rfl
  have k1 := lspCallback_lower (c := c) s hl
  unfold chanUpdate
  rw [key]
  rcases e1 : lspCallback c s with ⟨s1, _ | e⟩ <;> rw [e1] at k1
  · dsimp only
    rw [key2]
    have k2 := rayCallback_lower (c := c) s1 k1
    rcases e2 : rayCallback c s1 with ⟨s2, _ | e⟩ <;> rw [e2] at k2
    · dsimp only
      cases always
      · simp only [Bool.false_eq_true, if_false, sampleLsp_fewer hU s2 k2]
        rcases sampleLsp s2 z with e | l <;> rfl
      · rfl

/-- `set_topology` of the channel model. -/
theorem chanSetTopology_fewer (h : mkScenario cls sa = .ok c) (hU : U' ≤ U) (s : ChanState B N U) (hl : LowerFactors s) (a : ChanArgs B N U)
    (d : TopoDraws B N U) (z : PerLink B N U (Fin 7 → ℝ)) (hok : (chanSetTopology c always s a d z).2 ≠ .error .invalidArgument) :
    chanSetTopology c always (fewerChan (Fin.castLE hU) s) (fewerChanArgs (Fin.castLE hU) a) (fewerTopoDraws (Fin.castLE hU) d)
        (linksOf (Fin.castLE hU) z) =
      (fewerChan (Fin.castLE hU) (chanSetTopology c always s a d z).1, (chanSetTopology c always s a d z).2) := by
  have e : setTopology c (fewerChan (Fin.castLE hU) s).topo (fewerChanArgs (Fin.castLE hU) a).toTopo (fewerTopoDraws (Fin.castLE hU) d) =
      (fewerTopo (Fin.castLE hU) (setTopology c s.topo a.toTopo d).1, (setTopology c s.topo a.toTopo d).2) :=
    setTopology_fewer s.topo a.toTopo d
  unfold chanSetTopology at hok ⊢
  rw [e]
  rcases hr : setTopology c s.topo a.toTopo d with ⟨t, e | _ | _⟩
  · rfl
  · rfl
  · rw [hr] at hok
    dsimp only at hok ⊢
    have k : chanUpdate c always { fewerChan (Fin.castLE hU) s with topo := fewerTopo (Fin.castLE hU) t } (linksOf (Fin.castLE hU) z) =
        (fewerChan (Fin.castLE hU) (chanUpdate c always { s with topo := t } z).1, (chanUpdate c always { s with topo := t } z).2) := by
      refine chanUpdate_fewer h hU { s with topo := t } hl z fun hh => hok ?_
      rw [hh]
    rw [k]
    rcases chanUpdate c always { s with topo := t } z with ⟨s2, _ | e⟩ <;> rfl

omit [NeZero B] in
/-- What a call works on. -/
theorem callInputs_fewer (hU : U' ≤ U) (s : ChanState B N U) (hl : LowerFactors s) (z : PerLink B N U (Fin 7 → ℝ)) :
    callInputs always (fewerChan (Fin.castLE hU) s) (linksOf (Fin.castLE hU) z) =
      (callInputs always s z).map (fewerValues (Fin.castLE hU)) := by
  unfold callInputs
  cases always
  · simp only [Bool.false_eq_true, if_false, fewerChan, fewerTopo]
    rcases s.lsp with _ | l
    · rfl
    rcases s.mask with _ | m
    · rfl
    rcases s.topo.los with _ | m
    · rfl
    rcases s.topo.angles with _ | m
    · rfl
    rcases s.topo.distance3d with _ | m
    · rfl
    rcases s.topo.utVel with _ | m
    · rfl
    rcases s.topo.utOri with _ | m
    · rfl
    rcases s.topo.bsOri with _ | m
    · rfl
    rcases s.topo.bsLoc with _ | m
    · rfl
    rfl
  · simp only [if_true, sampleLsp_fewer hU s hl]
    rcases sampleLsp s z with e | l
    · rfl
    simp only [Except.map, fewerChan, fewerTopo]
    rcases s.mask with _ | m
    · rfl
    rcases s.topo.los with _ | m
    · rfl
    rcases s.topo.angles with _ | m
    · rfl
    rcases s.topo.distance3d with _ | m
    · rfl
    rcases s.topo.utVel with _ | m
    · rfl
    rcases s.topo.utOri with _ | m
    · rfl
    rcases s.topo.bsOri with _ | m
    · rfl
    rcases s.topo.bsLoc with _ | m
    · rfl
    rfl

/-- Histories. -/
theorem reach_fewer (h : mkScenario cls sa = .ok c) (hU : U' ≤ U) {log : List (ChanEvent B N U)} {s : ChanState B N U}
    (r : ChanReach c always log s) (hok : ∀ a d z x, ChanEvent.topology a d z x ∈ log → x ≠ .error .invalidArgument) :
    ChanReach c always (log.map (fewerEvent (Fin.castLE hU))) (fewerChan (Fin.castLE hU) s) ∧ LowerFactors s := by
  induction r with
  | init => exact ⟨.init, fun G hG => by cases hG⟩
  | @topology log s a d z r ih =>
    obtain ⟨ih1, ih2⟩ := ih fun a d z x hm => hok a d z x (List.mem_cons_of_mem _ hm)
    have e := chanSetTopology_fewer (always := always) h hU s ih2 a d z (hok a d z _ List.mem_cons_self)
    have r' := ChanReach.topology (fewerChanArgs (Fin.castLE hU) a) (fewerTopoDraws (Fin.castLE hU) d) (linksOf (Fin.castLE hU) z) ih1
    rw [e] at r'
    exact ⟨r', chanSetTopology_lower s ih2 a d z⟩
  | @generate log s z r ih =>
    obtain ⟨ih1, ih2⟩ := ih fun a d z x hm => hok a d z x (List.mem_cons_of_mem _ hm)
    have r' := ChanReach.generate (linksOf (Fin.castLE hU) z) ih1
    rw [callInputs_fewer hU s ih2] at r'
    exact ⟨r', ih2⟩

/-- A call. -/
theorem cirCall_fewer {n : ℕ} [NeZero N] (hU : U' ≤ U) {utArray bsArray : PanelArray} {fs : ℝ} (s : ChanState B N U) (hl : LowerFactors s)
    (w : CirDraws B N U (n + 2)) :
    cirCall c always utArray bsArray fs (fewerChan (Fin.castLE hU) s) (fewerDraws (Fin.castLE hU) w) =
      (cirCall c always utArray bsArray fs s w).map (Sum.map (fewerDown (Fin.castLE hU)) (fewerUp (Fin.castLE hU))) := by
  unfold cirCall
  rw [show (fewerDraws (Fin.castLE hU) w).lsp = linksOf (Fin.castLE hU) w.lsp from rfl, callInputs_fewer hU s hl]
  rcases h1 : callInputs always s w.lsp with e | i
  · rfl
  have hri : rayInputs (fewerChan (Fin.castLE hU) s).topo (fewerValues (Fin.castLE hU) i) = (rayInputs s.topo i).map fun q =>
      { lsp := linksOf (Fin.castLE hU) q.lsp, mask := linksOf (Fin.castLE hU) q.mask, los := linksOf (Fin.castLE hU) q.los,
        indoor := utsOf (Fin.castLE hU) q.indoor, angles := linksOf (Fin.castLE hU) q.angles,
        bsHeight := q.bsHeight, meanZsd := linksOf (Fin.castLE hU) q.meanZsd, zodOff := linksOf (Fin.castLE hU) q.zodOff } := by
    unfold rayInputs
    simp only [fewerChan, fewerTopo]
    rcases s.topo.inState with _ | m
    · rfl
    rcases s.topo.lspMean with _ | m
    · rfl
    rcases s.topo.zodOff with _ | m
    · rfl
    rfl
  have hpl : stepPathloss c (fewerChan (Fin.castLE hU) s).topo = (stepPathloss c s.topo).map (linksOf (Fin.castLE hU)) := by
    unfold stepPathloss
    split
    · unfold samplePathloss
      simp only [fewerChan, fewerTopo]
      rcases s.topo.plBasic with _ | m
      · rfl
      rcases s.topo.plGas with _ | m
      · rfl
      rcases s.topo.plScint with _ | m
      · rfl
      rcases s.topo.plEntry with _ | m
      · rfl
      rfl
    · rfl
  simp only [Except.map, bind, Except.bind, hri, hpl]
  rcases h2 : rayInputs s.topo i with e | ri
  · rfl
  simp only
  by_cases hN : N = 1
  · simp only [hN, ne_eq, not_true_eq_false, if_false]
    rcases h3 : stepPathloss c s.topo with e | pl
    · rfl
    by_cases hd : c.direction = "uplink"
    · simp only [hd, if_true]
      rfl
    · simp only [hd, if_false]
      rfl
  · simp only [hN, ne_eq, not_false_eq_true, if_true]

/-! ### C135 -/

/-- C135: after any calls, the first `U'` UTs simulated on their own with the same draws give the same outcomes, attributes and impulse
responses, provided that no call failed because a correlation matrix was not positive definite. -/
theorem C135_last_uts_removed {n : ℕ} [NeZero N] (h : mkScenario cls sa = .ok c) (hU : U' ≤ U) {log : List (ChanEvent B N U)}
    {s : ChanState B N U} (r : ChanReach c always log s)
    (hok : ∀ a d z x, ChanEvent.topology a d z x ∈ log → x ≠ .error .invalidArgument) :
    ChanReach c always (log.map (fewerEvent (Fin.castLE hU))) (fewerChan (Fin.castLE hU) s) ∧
    ∀ (utArray bsArray : PanelArray) (fs : ℝ) (w : CirDraws B N U (n + 2)),
      cirCall c always utArray bsArray fs (fewerChan (Fin.castLE hU) s) (fewerDraws (Fin.castLE hU) w) =
        (cirCall c always utArray bsArray fs s w).map (Sum.map (fewerDown (Fin.castLE hU)) (fewerUp (Fin.castLE hU))) := by
  obtain ⟨h1, h2⟩ := reach_fewer h hU r hok
  exact ⟨h1, fun _ _ _ w => cirCall_fewer hU s h2 w⟩

/-- Such a history with two examples and three UTs, of which the last is removed; a channel can be generated for all and for the rest. -/
example (h : mkScenario cls sa = .ok c) : ∃ (log : List (ChanEvent 2 1 3)) (s : ChanState 2 1 3), ChanReach c always log s ∧
    (∀ a d z x, ChanEvent.topology a d z x ∈ log → x ≠ .error .invalidArgument) ∧ (∃ i, callInputs always s (exZ 2 1 3) = .ok i) ∧
    ∃ i, callInputs always (fewerChan (Fin.castLE (by norm_num : 2 ≤ 3)) s) (exZ 2 1 2) = .ok i := by
  have r := ChanReach.topology (exChan 2 1 3) (exDraws 2 1 3) (exZ 2 1 3) (ChanReach.init (c := c) (always := always))
  have e := exChan_ok h always 2 3
  rw [e] at r
  have hn : ∀ a d z x, ChanEvent.topology a d z x ∈ [ChanEvent.topology (exChan 2 1 3) (exDraws 2 1 3) (exZ 2 1 3) (.ok ())] →
      x ≠ .error .invalidArgument := by
    intro a d z x hm
    rw [List.mem_singleton] at hm
    injection hm with _ _ _ hm
    rw [hm]; exact fun hh => by cases hh
  obtain ⟨i, hi⟩ := (C18_generation_possible_partial h rfl r (exChan_apart 2 1 3 _ _ _) (exZ 2 1 3)).2 ⟨_, List.mem_cons_self, trivial⟩
  refine ⟨_, _, r, hn, ⟨i, hi⟩, fewerValues (Fin.castLE (by norm_num)) i, ?_⟩
  have := callInputs_fewer (always := always) (by norm_num : 2 ≤ 3) _ (reach_fewer h (by norm_num : 2 ≤ 3) r hn).2 (exZ 2 1 3)
  rw [hi] at this
  exact this

end OpenNTN
