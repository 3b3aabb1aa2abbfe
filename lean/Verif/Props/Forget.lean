import Verif.Props.Channel
import Verif.Props.Doppler

/-
C126: a complete topology call leaves no trace of earlier calls.
-/
namespace OpenNTN

open Classical Spec

variable {B N U : ℕ} [NeZero B] {cls : ScenarioClass} {sa : ScenarioArgs} {c : Config} {always : Bool}

/-- All arguments that the first call needs are passed. -/
structure Spec.CompleteCall (a : ChanArgs B N U) : Prop where
  utLoc : a.utLoc ≠ none
  bsLoc : a.bsLoc ≠ none
  utOri : a.utOri ≠ none
  bsOri : a.bsOri ≠ none
  utVel : a.utVel ≠ none
  inState : a.inState ≠ none

/-- The part of the update after the LoS states are known. -/
theorem updateLosses_forgets (d : TopoDraws B N U) {s t : TopoState B N U} (los : PerLink B N U Bool) (hl : s.los = some los)
    (x16 x17 x18 x19 x20 x21 x22 x23)
    (ht : t = ⟨s.utLoc, s.bsLoc, s.utOri, s.bsOri, s.utVel, s.inState, s.requestedLos, s.doppler, s.atmosphere, s.distance2d, s.distance3d, s.angles,
      s.utDistance, s.indoorDist, s.los, x16, x17, x18, x19, x20, x21, x22, x23⟩) :
    let f := fun s : TopoState B N U => (((((computeLspLogMeanStd c s).andThen (computePathlossBasic c d)).andThen (computePathlossGas c)).andThen
      computePathlossEntry).andThen (computePathlossScint c))
    (f s).2 = (f t).2 ∧ ((f s).2 = none → (f s).1 = (f t).1) := by
  obtain ⟨a1, a2, a3, a4, a5, a6, a7, a8, a9, a10, a11, a12, a13, a14, a15, a16, a17, a18, a19, a20, a21, a22, a23⟩ := s
  dsimp only at hl ht
  subst hl ht
  dsimp only
  unfold computeLspLogMeanStd
  rcases a1 with _ | ut
  · simp [Step.andThen]
  rcases a2 with _ | bs
  · simp [Step.andThen]
  rcases a10 with _ | d2
  · simp [Step.andThen]
  rcases h1 : bothStates (lspLogMean c) with e | mean
  · simp [Step.andThen]
  rcases h2 : bothStates (fun near => bothStates fun l => lspLogStd c l near) with e | std
  · simp [Step.andThen]
  simp only [Step.andThen, computePathlossBasic]
  rcases a11 with _ | d3
  · simp
  rcases h3 : c.rowReal c.paramsNlos .pCL with e | cl
  · simp
  rcases h4 : c.rowReal c.paramsLos .psigmaSF with e | sl
  · simp
  rcases h5 : c.rowReal c.paramsNlos .psigmaSF with e | sn
  · simp
  simp only [computePathlossGas]
  rcases a9 with _ | at'
  · simp
  rcases h6 : gasLoss (c.carrierFrequency / 10 ^ 9) c.elevationAngle at' with e | g
  · simp [h6]
  simp only [computePathlossEntry, computePathlossScint]
  rcases h7 : scintLoss (c.carrierFrequency / 10 ^ 9) c.elevationAngle at' with e | v
  · simp [h6, h7]
  · simp [h6, h7]

/-- The update only depends on the arguments stored. -/
theorem updateTopology_forgets (d : TopoDraws B N U) {s t : TopoState B N U} (h1 : s.utLoc = t.utLoc) (h2 : s.bsLoc = t.bsLoc)
    (h3 : s.utOri = t.utOri) (h4 : s.bsOri = t.bsOri) (h5 : s.utVel = t.utVel) (h6 : s.inState = t.inState)
    (h7 : s.requestedLos = t.requestedLos) (h8 : s.doppler = t.doppler) (h9 : s.atmosphere = t.atmosphere) :
    (updateTopology c d s).2 = (updateTopology c d t).2 ∧
    ((updateTopology c d s).2 = none → (updateTopology c d s).1 = (updateTopology c d t).1) := by
  obtain ⟨a1, a2, a3, a4, a5, a6, a7, a8, a9, a10, a11, a12, a13, a14, a15, a16, a17, a18, a19, a20, a21, a22, a23⟩ := s
  obtain ⟨b1, b2, b3, b4, b5, b6, b7, b8, b9, b10, b11, b12, b13, b14, b15, b16, b17, b18, b19, b20, b21, b22, b23⟩ := t
  dsimp only at h1 h2 h3 h4 h5 h6 h7 h8 h9
  subst h1 h2 h3 h4 h5 h6 h7 h8 h9
  unfold updateTopology
  rcases a1 with _ | ut
  · simp [computeDistances, Step.andThen]
  rcases a2 with _ | bs
  · simp [computeDistances, Step.andThen]
  by_cases hN : N = 1
  swap
  · simp [computeDistances, Step.andThen, hN]
  simp only [computeDistances, hN, dif_pos, Step.andThen]
  rcases a6 with _ | i
  · simp [sampleIndoorDistance]
  simp only [sampleIndoorDistance, sampleLos]
  rcases a7 with _ | rq
  · rcases hp : c.losProbability with e | p
    · simp
    rcases p with _ | p
    · simp
    exact updateLosses_forgets d _ rfl _ _ _ _ _ _ _ _ rfl
  · exact updateLosses_forgets d _ rfl _ _ _ _ _ _ _ _ rfl

/-- C126 for the scenario. A call that passes locations, orientations, velocities and indoor states of all devices, on any two states
that agree in the LoS request and the Doppler switch unless these are passed as well, has the same outcome; if it returns, the resulting
states are the same. -/
theorem C126_scenario_forgets (s t : TopoState B N U) (a : TopoArgs B N U) (d : TopoDraws B N U)
    (h1 : a.utLoc ≠ none) (h2 : a.bsLoc ≠ none) (h3 : a.utOri ≠ none) (h4 : a.bsOri ≠ none) (h5 : a.utVel ≠ none) (h6 : a.inState ≠ none)
    (h7 : a.los ≠ none ∨ s.requestedLos = t.requestedLos) (h8 : a.doppler ≠ none ∨ s.doppler = t.doppler) :
    (setTopology c s a d).2 = (setTopology c t a d).2 ∧
    ∀ r, (setTopology c s a d).2 = .ok r → (setTopology c s a d).1 = (setTopology c t a d).1 := by
  have as : ∀ {α : Type} {x y z : Option α}, x ≠ none → assign x y = assign x z := by
    intro α x y z hx
    rcases x with _ | v
    · exact absurd rfl hx
    · rfl
  have ha : ∀ s : TopoState B N U, assertsHold s a = true := by
    intro s
    unfold assertsHold
    simp [Option.isSome_iff_ne_none, h1, h2, h3, h4, h5, h6]
  have hn : needForUpdate a = true := by
    unfold needForUpdate
    simp [Option.isSome_iff_ne_none, h1]
  obtain ⟨u1, u2⟩ := updateTopology_forgets (c := c) d (s := storeArgs s a) (t := storeArgs t a) (as h1) (as h2) (as h3) (as h4) (as h5) (as h6)
    (by
      rcases h7 with h7 | h7
      · exact as h7
      · simp only [storeArgs, h7])
    (by
      rcases h8 with h8 | h8
      · rcases hd : a.doppler with _ | v
        · exact absurd hd h8
        · simp only [storeArgs, hd]
      · simp only [storeArgs, h8])
    rfl
  unfold setTopology
  rw [if_pos (ha s), if_pos (ha t)]
  dsimp only
  rw [if_pos hn, if_pos hn]
  rcases e1 : updateTopology c d (storeArgs s a) with ⟨s2, _ | e⟩ <;> rcases e2 : updateTopology c d (storeArgs t a) with ⟨t2, _ | e'⟩ <;>
    rw [e1, e2] at u1 u2 <;> dsimp only at u1 u2 ⊢
  · exact ⟨rfl, fun _ _ => u2 rfl⟩
  · cases u1
  · cases u1
  · cases u1
    exact ⟨rfl, fun _ h => by cases h⟩

/-- The part after the scenario was updated only depends on the scenario. -/
theorem chanUpdate_forgets {s t : ChanState B N U} (h1 : s.topo = t.topo) (h2 : always = true → s.lsp = t.lsp)
    (z : PerLink B N U (Fin 7 → ℝ)) :
    (chanUpdate c always s z).2 = (chanUpdate c always t z).2 ∧
    ((chanUpdate c always s z).2 = none → { (chanUpdate c always s z).1 with called := true } = { (chanUpdate c always t z).1 with called := true }) := by
  obtain ⟨tp, a2, a3, a4, a5, a6⟩ := s
  obtain ⟨tp', b2, b3, b4, b5, b6⟩ := t
  dsimp only at h1 h2
  subst h1
  unfold chanUpdate lspCallback
  rcases e1 : tp.los with _ | los
  · simp
  rcases e2 : tp.inState with _ | ind
  · simp
  rcases e3 : tp.utLoc with _ | ut
  · simp
  dsimp only
  rcases e4 : crossFactors c los with e | F
  · simp
  rcases e5 : spatialFactors c los ind ut with e | G
  · simp [e5]
  dsimp only
  unfold rayCallback
  simp only [e1, e2]
  rcases e6 : c.numClustersLos with e | nl
  · simp
  rcases e7 : c.numClustersNlos with e | nn
  · simp
  dsimp only
  cases always
  · simp only [sampleLsp, Bool.false_eq_true, if_false]
    rcases e8 : tp.lspMean with _ | m
    · simp
    rcases e9 : tp.lspStd with _ | sd
    · simp
    simp
  · simp [h2 rfl]

/-- Without stored large scale parameters they are never stored. -/
theorem always_lsp {log : List (ChanEvent B N U)} {s : ChanState B N U} (r : ChanReach c true log s) : s.lsp = none := by
  induction r with
  | init => rfl
  | generate z r ih => exact ih
  | @topology log s a d z r ih =>
    have h1 : ∀ t : ChanState B N U, (lspCallback c t).1.lsp = t.lsp := by
      intro t
      unfold lspCallback
      split
      · split
        · rfl
        · dsimp only; split <;> rfl
      · rfl
    have h2 : ∀ t : ChanState B N U, (rayCallback c t).1.lsp = t.lsp := by
      intro t
      unfold rayCallback
      split
      · split <;> rfl
      · rfl
    have h3 : ∀ t : ChanState B N U, (chanUpdate c true t z).1.lsp = t.lsp := by
      intro t
      have k1 := h1 t
      unfold chanUpdate
      rcases e1 : lspCallback c t with ⟨t1, _ | e⟩ <;> rw [e1] at k1 <;> dsimp only at k1 ⊢
      · have k2 := h2 t1
        rcases e2 : rayCallback c t1 with ⟨t2, _ | e⟩ <;> rw [e2] at k2 <;> dsimp only at k2 ⊢
        · rw [if_pos rfl]; exact k2.trans k1
        · exact k2.trans k1
      · exact k1
    unfold chanSetTopology
    dsimp only
    split
    · exact ih
    · exact ih
    · split
      · exact (h3 _).trans ih
      · exact (h3 _).trans ih

/-- C126. After a successful `set_topology` call with all of locations, orientations, velocities and indoor states, a channel model is in
the same state whatever was done with it before, provided the call says whether LoS is requested or no earlier call did; and the call
succeeds or fails independently of what was done before. -/
theorem C126_forgets (h : mkScenario cls sa = .ok c) {log log' : List (ChanEvent B N U)} {s s' : ChanState B N U}
    (r : ChanReach c always log s) (r' : ChanReach c always log' s') (a : ChanArgs B N U) (ha : CompleteCall a)
    (hl : a.los ≠ none ∨ ∀ a' d z x, ChanEvent.topology a' d z x ∈ log ++ log' → a'.los = none)
    (d : TopoDraws B N U) (z : PerLink B N U (Fin 7 → ℝ)) :
    (chanSetTopology c always s a d z).2 = (chanSetTopology c always s' a d z).2 ∧
    ((chanSetTopology c always s a d z).2 = .ok () → (chanSetTopology c always s a d z).1 = (chanSetTopology c always s' a d z).1) := by
  have hlos : ∀ {l : List (ChanEvent B N U)} {t : ChanState B N U}, ChanReach c always l t →
      (∀ a' d z x, ChanEvent.topology a' d z x ∈ l → a'.los = none) → t.topo.requestedLos = none := by
    intro l t rt hl
    obtain ⟨tl, q, -, q3⟩ := rt.topo
    rw [(persisted_accepted h q).2]
    refine latest_none_iff.2 fun e he hacc => ?_
    obtain ⟨a', d', z', x, hm, e'⟩ := q3 e he hacc
    rw [e']
    exact hl a' d' z' x hm
  have hdop : ∀ {l : List (ChanEvent B N U)} {t : ChanState B N U}, ChanReach c always l t → t.topo.doppler = sa.dopplerEnabled := by
    intro l t rt
    obtain ⟨tl, q, q2, -⟩ := rt.topo
    rw [doppler_latest h q, latest_none_iff.2 fun e he _ => ?_]
    · rfl
    · obtain ⟨a', e'⟩ := q2 e he
      rw [e']; rfl
  obtain ⟨k1, k2⟩ := C126_scenario_forgets (c := c) s.topo s'.topo a.toTopo d ha.utLoc ha.bsLoc ha.utOri ha.bsOri ha.utVel ha.inState
    (by
      rcases hl with hl | hl
      · exact Or.inl hl
      · refine Or.inr ((hlos r fun a' d z x hm => hl a' d z x (List.mem_append_left _ hm)).trans
          (hlos r' fun a' d z x hm => hl a' d z x (List.mem_append_right _ hm)).symm))
    (Or.inr ((hdop r).trans (hdop r').symm))
  unfold chanSetTopology
  dsimp only
  rw [← k1]
  rcases e : (setTopology c s.topo a.toTopo d).2 with er | b
  · simp
  have k3 := k2 b e
  have hb : b = true := by
    have hn : needForUpdate a.toTopo = true := by
      unfold needForUpdate
      simp [Option.isSome_iff_ne_none, ChanArgs.toTopo, ha.utLoc]
    rcases setTopology_cases h s.topo a.toTopo d with ⟨-, e'⟩ | ⟨-, e1, -⟩ | ⟨-, -, -, -, e', -⟩
    · rw [e'] at e; cases e
    · rw [hn] at e1; cases e1
    · rw [e'] at e
      rcases hu : (updateTopology c d (storeArgs s.topo a.toTopo)).2 with _ | x <;> rw [hu] at e <;> cases e
      rfl
  subst hb
  dsimp only
  obtain ⟨m1, m2⟩ := chanUpdate_forgets (c := c) (always := always) (s := { s with topo := (setTopology c s.topo a.toTopo d).1 })
    (t := { s' with topo := (setTopology c s'.topo a.toTopo d).1 }) k3
    (fun hal => by subst hal; exact (always_lsp r).trans (always_lsp r').symm) z
  rw [← m1]
  rcases hu : (chanUpdate c always { s with topo := (setTopology c s.topo a.toTopo d).1 } z).2 with _ | x
  · exact ⟨rfl, fun _ => m2 hu⟩
  · exact ⟨rfl, fun hh => by cases hh⟩

/-- Two histories to which C126 applies: none, and a successful call. -/
example : ∃ (c : Config) (log : List (ChanEvent 2 1 3)) (s : ChanState 2 1 3), mkScenario .urban (exArgs 2000000000 "uplink" 50) = .ok c ∧
    ChanReach c false log s ∧ ChanReach c false ([] : List (ChanEvent 2 1 3)) (ChanState.init c) ∧ s.topo ≠ (ChanState.init c).topo ∧
    CompleteCall (exChan 2 1 3) ∧ (∀ a' d z x, ChanEvent.topology a' d z x ∈ log ++ [] → a'.los = none) ∧
    (chanSetTopology c false s (exChan 2 1 3) (exDraws 2 1 3) (exZ 2 1 3)).2 = .ok () := by
  obtain ⟨c, hc⟩ := exConfig
  have e := exChan_ok hc false 2 3
  have r := ChanReach.topology (exChan 2 1 3) (exDraws 2 1 3) (exZ 2 1 3) (ChanReach.init (c := c) (always := false))
  have hl : ∀ a' d z x, ChanEvent.topology a' d z x ∈ [ChanEvent.topology (exChan 2 1 3) (exDraws 2 1 3) (exZ 2 1 3)
      (chanSetTopology c false (ChanState.init c) (exChan 2 1 3) (exDraws 2 1 3) (exZ 2 1 3)).2] ++ [] → a'.los = none := by
    intro a' d z x hm
    rw [List.append_nil, List.mem_singleton] at hm
    cases hm; rfl
  have hcc : CompleteCall (exChan 2 1 3) := by constructor <;> exact Option.some_ne_none _
  refine ⟨c, _, _, hc, r, .init, ?_, hcc, hl, ?_⟩
  · intro he
    have hr := (channel_ready hc rfl r (exChan_apart 2 1 3 _ _ _)).2
    rcases hr with ⟨hr, -⟩ | ⟨-, -, -, -, p4, -⟩
    · exact hr _ List.mem_cons_self (by rw [e]; trivial)
    · rw [he] at p4; cases p4
  · rw [(C126_forgets hc r .init (exChan 2 1 3) hcc (Or.inr hl) _ _).1, e]

end OpenNTN
