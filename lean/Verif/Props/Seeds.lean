import Verif.Props.Cir2
import Verif.Props.Antenna

/-
C183: which part of a run is determined by the seed of Sionna's generator (`sionna.phy.config.seed`). Only two places of the code draw from it
(`config.tf_rng`): lsp.py 127 (large scale parameters) and utils.py 533 (LoS states). All others use `tf.random`, which has its own seed.
-/
namespace OpenNTN

open Classical Spec

variable {B N U : ℕ}

/-- The states of two runs of a program on one channel model, in which Sionna's generator has the same seed: the calls have the same arguments and the same
draws from this generator, and any draws from TensorFlow's. (That the second run asks Sionna's generator for the same numbers is C183_seed_partial: both
runs have the same exceptions and the same arguments.) Generation calls do not change the state. -/
inductive Spec.SameSeed [NeZero B] (c : Config) (always : Bool) : ChanState B N U → ChanState B N U → Prop
  | init : SameSeed c always (ChanState.init c) (ChanState.init c)
  | topology {s s' : ChanState B N U} (a : ChanArgs B N U) (d d' : TopoDraws B N U) (z : PerLink B N U (Fin 7 → ℝ)) (h : SameSeed c always s s')
      (hd : d.losU = d'.losU) : SameSeed c always (chanSetTopology c always s a d z).1 (chanSetTopology c always s' a d' z).1

/-- C183. Seeding Sionna's generator makes the channel reproducible: two runs with the same seed return the same coefficients and delays. -/
def C183_statement : Prop :=
  ∀ (B U n : ℕ) [NeZero B] (cls : ScenarioClass) (sa : ScenarioArgs) (c : Config), mkScenario cls sa = .ok c →
  ∀ (always : Bool) (s s' : ChanState B 1 U), Spec.SameSeed c always s s' →
  ∀ (ut bs : PanelArray) (fs : ℝ) (w w' : CirDraws B 1 U (n + 2)), w.lsp = w'.lsp → cirCall c always ut bs fs s w = cirCall c always ut bs fs s' w'

/-- The attributes that do not depend on draws of TensorFlow's generator. -/
def TopoState.forget (t : TopoState B N U) : TopoState B N U := { t with indoorDist := none, plBasic := none }

def Step.Same (r r' : Step B N U) : Prop := r.1.forget = r'.1.forget ∧ r.2 = r'.2

theorem Step.Same.andThen {r r' : Step B N U} (h : Step.Same r r') {f f' : TopoState B N U → Step B N U}
    (hf : ∀ t t', t.forget = t'.forget → Step.Same (f t) (f' t')) : Step.Same (r.andThen f) (r'.andThen f') := by
  unfold Step.andThen
  rw [h.2]
  cases r'.2 with
  | some e => exact ⟨h.1, rfl⟩
  | none => exact hf _ _ h.1

theorem forget_fields {t t' : TopoState B N U} (h : t.forget = t'.forget) :
    ∃ i p, t' = { t with indoorDist := i, plBasic := p } := by
  refine ⟨t'.indoorDist, t'.plBasic, ?_⟩
  cases t; cases t'
  simp only [TopoState.forget, TopoState.mk.injEq] at h ⊢
  simp_all

theorem update_same [NeZero B] (c : Config) {d d' : TopoDraws B N U} (hd : d.losU = d'.losU) {t t' : TopoState B N U} (h : t.forget = t'.forget) :
    Step.Same (updateTopology c d t) (updateTopology c d' t') := by
  unfold updateTopology
  refine Step.Same.andThen (Step.Same.andThen (Step.Same.andThen (Step.Same.andThen (Step.Same.andThen (Step.Same.andThen (Step.Same.andThen ?_ ?_) ?_) ?_) ?_) ?_) ?_) ?_
  · obtain ⟨i, p, rfl⟩ := forget_fields h
    unfold computeDistances
    dsimp only
    split
    · split_ifs <;> exact ⟨rfl, rfl⟩
    · exact ⟨rfl, rfl⟩
  all_goals
    clear h t t'
    intro t t' h
    obtain ⟨i, p, rfl⟩ := forget_fields h
  · unfold sampleIndoorDistance
    dsimp only
    split <;> exact ⟨rfl, rfl⟩
  · unfold sampleLos
    dsimp only
    split
    · exact ⟨rfl, rfl⟩
    · split
      · exact ⟨rfl, rfl⟩
      · split <;> first | exact ⟨rfl, rfl⟩ | (rw [hd]; exact ⟨rfl, rfl⟩)
  · unfold computeLspLogMeanStd
    dsimp only
    split
    · split
      · exact ⟨rfl, rfl⟩
      · split <;> exact ⟨rfl, rfl⟩
    · exact ⟨rfl, rfl⟩
  · unfold computePathlossBasic
    dsimp only
    split
    · split <;> exact ⟨rfl, rfl⟩
    · exact ⟨rfl, rfl⟩
  · unfold computePathlossGas
    dsimp only
    split
    · split <;> exact ⟨rfl, rfl⟩
    · exact ⟨rfl, rfl⟩
  · unfold computePathlossEntry
    dsimp only
    split <;> exact ⟨rfl, rfl⟩
  · unfold computePathlossScint
    dsimp only
    split
    · split <;> exact ⟨rfl, rfl⟩
    · exact ⟨rfl, rfl⟩

theorem setTopology_same [NeZero B] (c : Config) {d d' : TopoDraws B N U} (hd : d.losU = d'.losU) {t t' : TopoState B N U} (h : t.forget = t'.forget)
    (a : TopoArgs B N U) :
    (setTopology c t a d).1.forget = (setTopology c t' a d').1.forget ∧ (setTopology c t a d).2 = (setTopology c t' a d').2 := by
  have hs : (storeArgs t a).forget = (storeArgs t' a).forget := by
    obtain ⟨i, p, rfl⟩ := forget_fields h; rfl
  have ha : assertsHold t a = assertsHold t' a := by
    obtain ⟨i, p, rfl⟩ := forget_fields h; rfl
  have hu := update_same c hd hs
  unfold setTopology
  rw [ha]
  split_ifs
  · dsimp only
    rcases e : updateTopology c d (storeArgs t a) with ⟨q, r⟩
    rcases e' : updateTopology c d' (storeArgs t' a) with ⟨q', r'⟩
    rw [e, e'] at hu
    obtain ⟨hu1, hu2⟩ := hu
    dsimp only at hu1 hu2
    subst hu2
    cases r <;> exact ⟨hu1, rfl⟩
  · exact ⟨hs, rfl⟩
  · exact ⟨h, rfl⟩

/-- The same for a channel model. -/
def ChanState.forget (s : ChanState B N U) : ChanState B N U := { s with topo := s.topo.forget }

theorem chanForget_fields {s s' : ChanState B N U} (h : s.forget = s'.forget) :
    ∃ i p, s' = { s with topo := { s.topo with indoorDist := i, plBasic := p } } := by
  have ht : s.topo.forget = s'.topo.forget := congrArg ChanState.topo h
  obtain ⟨i, p, e⟩ := forget_fields ht
  refine ⟨i, p, ?_⟩
  rw [← e]
  cases s; cases s'
  simp only [ChanState.forget, ChanState.mk.injEq] at h ⊢
  simp_all

theorem chanUpdate_same (c : Config) (always : Bool) {s s' : ChanState B N U} (h : s.forget = s'.forget) (z : PerLink B N U (Fin 7 → ℝ)) :
    (chanUpdate c always s z).1.forget = (chanUpdate c always s' z).1.forget ∧ (chanUpdate c always s z).2 = (chanUpdate c always s' z).2 := by
  have hl : ∀ {s s' : ChanState B N U}, s.forget = s'.forget → (lspCallback c s).1.forget = (lspCallback c s').1.forget ∧ (lspCallback c s).2 = (lspCallback c s').2 := by
    intro s s' h
    obtain ⟨i, p, rfl⟩ := chanForget_fields h
    unfold lspCallback
    dsimp only
    split
    · split
      · exact ⟨rfl, rfl⟩
      · split <;> exact ⟨rfl, rfl⟩
    · exact ⟨rfl, rfl⟩
  have hr : ∀ {s s' : ChanState B N U}, s.forget = s'.forget → (rayCallback c s).1.forget = (rayCallback c s').1.forget ∧ (rayCallback c s).2 = (rayCallback c s').2 := by
    intro s s' h
    obtain ⟨i, p, rfl⟩ := chanForget_fields h
    unfold rayCallback
    dsimp only
    split
    · split <;> exact ⟨rfl, rfl⟩
    · exact ⟨rfl, rfl⟩
  have hq : ∀ {s s' : ChanState B N U}, s.forget = s'.forget → sampleLsp s z = sampleLsp s' z := by
    intro s s' h
    obtain ⟨i, p, rfl⟩ := chanForget_fields h
    rfl
  have h1 := hl h
  unfold chanUpdate
  rcases e : lspCallback c s with ⟨s1, x⟩
  rcases e' : lspCallback c s' with ⟨s1', x'⟩
  rw [e, e'] at h1
  obtain ⟨h1, h2⟩ := h1
  dsimp only at h1 h2
  subst h2
  cases x with
  | some e => exact ⟨h1, rfl⟩
  | none =>
    dsimp only
    have h3 := hr h1
    rcases e : rayCallback c s1 with ⟨s2, x⟩
    rcases e' : rayCallback c s1' with ⟨s2', x'⟩
    rw [e, e'] at h3
    obtain ⟨h3, h4⟩ := h3
    dsimp only at h3 h4
    subst h4
    cases x with
    | some e => exact ⟨h3, rfl⟩
    | none =>
      dsimp only
      split_ifs
      · exact ⟨h3, rfl⟩
      · rw [hq h3]
        obtain ⟨i, p, rfl⟩ := chanForget_fields h3
        split <;> exact ⟨rfl, rfl⟩

theorem chanSet_same [NeZero B] (c : Config) (always : Bool) {s s' : ChanState B N U} (h : s.forget = s'.forget) {d d' : TopoDraws B N U}
    (hd : d.losU = d'.losU) (a : ChanArgs B N U) (z : PerLink B N U (Fin 7 → ℝ)) :
    (chanSetTopology c always s a d z).1.forget = (chanSetTopology c always s' a d' z).1.forget ∧
    (chanSetTopology c always s a d z).2 = (chanSetTopology c always s' a d' z).2 := by
  have ht : s.topo.forget = s'.topo.forget := congrArg ChanState.topo h
  obtain ⟨h1, h2⟩ := setTopology_same c hd ht a.toTopo
  have h3 : ({ s with topo := (setTopology c s.topo a.toTopo d).1 } : ChanState B N U).forget =
      ({ s' with topo := (setTopology c s'.topo a.toTopo d').1 } : ChanState B N U).forget := by
    unfold ChanState.forget
    dsimp only
    rw [h1]
    obtain ⟨i, p, rfl⟩ := chanForget_fields h
    rfl
  unfold chanSetTopology
  dsimp only
  rw [h2]
  rcases (setTopology c s'.topo a.toTopo d').2 with e | b
  · exact ⟨h3, rfl⟩
  · cases b
    · dsimp only
      refine ⟨?_, rfl⟩
      unfold ChanState.forget at h3 ⊢
      simp only [ChanState.mk.injEq] at h3 ⊢
      simp_all
    · dsimp only
      obtain ⟨h4, h5⟩ := chanUpdate_same c always h3 z
      rw [h5]
      split
      · exact ⟨h4, rfl⟩
      · refine ⟨?_, rfl⟩
        unfold ChanState.forget at h4 ⊢
        simp only [ChanState.mk.injEq] at h4 ⊢
        simp_all

/-- C183 for what is drawn from Sionna's generator: two runs with the same seed have the same exceptions in `set_topology`, the same LoS states, geometry and free space loss, and
generation calls use the same LoS states and large scale parameters. So the two runs ask Sionna's generator for the same numbers. -/
theorem C183_seed_partial [NeZero B] (c : Config) (always : Bool) {s s' : ChanState B N U} (h : Spec.SameSeed c always s s') :
    (∀ (a : ChanArgs B N U) (d d' : TopoDraws B N U) (z : PerLink B N U (Fin 7 → ℝ)), d.losU = d'.losU →
      (chanSetTopology c always s a d z).2 = (chanSetTopology c always s' a d' z).2) ∧
    s.topo.los = s'.topo.los ∧ s.topo.distance3d = s'.topo.distance3d ∧ s.topo.angles = s'.topo.angles ∧ s.topo.plFree = s'.topo.plFree ∧
    s.topo.plGas = s'.topo.plGas ∧ s.topo.plScint = s'.topo.plScint ∧ s.topo.requestedLos = s'.topo.requestedLos ∧
    ∀ z, callInputs always s z = callInputs always s' z := by
  have hf : s.forget = s'.forget := by
    induction h with
    | init => rfl
    | topology a d d' z _ hd ih => exact (chanSet_same c always ih hd a z).1
  refine ⟨fun a d d' z hd => (chanSet_same c always hf hd a z).2, ?_⟩
  obtain ⟨i, p, rfl⟩ := chanForget_fields hf
  exact ⟨rfl, rfl, rfl, rfl, rfl, rfl, rfl, fun z => rfl⟩

/-- The sum of the delays of all paths, if the clusters have no delay. -/
noncomputable def subClusterSum (n : ℕ) (cDs : ℝ) : ℝ :=
  ∑ k : Fin (n + 6), if h : k.1 < 6 then subClDelayOffsets ⟨k.1 / 2, by omega⟩ * cDs else 0

theorem paths_sum_zero {n : ℕ} {H : Type} [AddCommMonoid H] (powers delays : Fin (n + 2) → ℝ) (hFull : Fin (n + 2) → Fin raysPerCluster → H) (cDs : ℝ)
    (h0 : ∀ c, delays c = 0) : ∑ q, (reduceNlos powers delays hFull cDs).2 q = subClusterSum n cDs := by
  unfold reduceNlos subClusterSum
  dsimp only
  rw [Equiv.sum_comp (Tuple.sort _) fun k : Fin (n + 6) =>
    if h : k.1 < 6 then delays (Tuple.sort (fun k => -powers k) ⟨k.1 % 2, by omega⟩) + subClDelayOffsets ⟨k.1 / 2, by omega⟩ * cDs
    else delays (Tuple.sort (fun k => -powers k) ⟨k.1 - 6 + 2, by omega⟩)]
  refine Finset.sum_congr rfl fun k _ => ?_
  split_ifs
  · rw [h0, zero_add]
  · rw [h0]

theorem paths_sum_pos {n : ℕ} {H : Type} [AddCommMonoid H] (powers delays : Fin (n + 2) → ℝ) (hFull : Fin (n + 2) → Fin raysPerCluster → H) (cDs : ℝ)
    (h0 : ∀ c, 0 ≤ delays c) {a : Fin (n + 2)} (ha : 0 < delays a) : subClusterSum n cDs < ∑ q, (reduceNlos powers delays hFull cDs).2 q := by
  unfold reduceNlos subClusterSum
  dsimp only
  rw [Equiv.sum_comp (Tuple.sort _) fun k : Fin (n + 6) =>
    if h : k.1 < 6 then delays (Tuple.sort (fun k => -powers k) ⟨k.1 % 2, by omega⟩) + subClDelayOffsets ⟨k.1 / 2, by omega⟩ * cDs
    else delays (Tuple.sort (fun k => -powers k) ⟨k.1 - 6 + 2, by omega⟩)]
  set σ := Tuple.sort fun k => -powers k with hσ
  refine Finset.sum_lt_sum (fun k _ => ?_) ?_
  · split_ifs
    · linarith [h0 (σ ⟨k.1 % 2, by omega⟩)]
    · exact h0 _
  · by_cases hr : (σ.symm a).1 < 2
    · refine ⟨⟨(σ.symm a).1, by omega⟩, Finset.mem_univ _, ?_⟩
      have e : (⟨(σ.symm a).1 % 2, by omega⟩ : Fin (n + 2)) = σ.symm a := Fin.ext (Nat.mod_eq_of_lt hr)
      rw [dif_pos (by simp only; omega), dif_pos (by simp only; omega)]
      simp only [e, Equiv.apply_symm_apply]
      linarith
    · refine ⟨⟨(σ.symm a).1 + 4, by omega⟩, Finset.mem_univ _, ?_⟩
      have e : (⟨(σ.symm a).1 + 4 - 6 + 2, by omega⟩ : Fin (n + 2)) = σ.symm a := Fin.ext (by simp only; omega)
      rw [dif_neg (by simp only; omega), dif_neg (by simp only; omega)]
      simp only [e, Equiv.apply_symm_apply]
      exact ha

variable {cls : ScenarioClass} {sa : ScenarioArgs} {c : Config} {always : Bool}

/-- The delays of an outdoor link without LoS as a function of the uniform draws. -/
theorem delays_of_draws {n : ℕ} [NeZero B] {log : List (ChanEvent B 1 U)} {s : ChanState B 1 U} (h : mkScenario cls sa = .ok c)
    (r : ChanReach c always log s) (hap : Apart log) (hs : ∃ e ∈ log, ChanEvent.succeeded e) (hn : c.numClustersNlos = .ok ((n + 2 : ℕ) : ℤ))
    (ut bs : PanelArray) (fs : ℝ) (z : PerLink B 1 U (Fin 7 → ℝ)) (b : Fin B) (u : Fin U) (indoor : PerUt B U Bool) (los : PerLink B 1 U Bool)
    (hin : s.topo.inState = some indoor) (hout : indoor b u = false) (hl : s.topo.los = some los) (hnl : los b 0 u = false) :
    ∃ a cd : ℝ, 0 < a ∧ ∀ w : CirDraws B 1 U (n + 2), w.lsp = z → ∃ out, cirCall c always ut bs fs s w = .ok out ∧
      ∃ (powers : Fin (n + 2) → ℝ) (hFull : Fin (n + 2) → Fin raysPerCluster → Coeff) (σ : Equiv.Perm (Fin (n + 2))),
      let raw : Fin (n + 2) → ℝ := fun k => -a * Real.log (w.rays.delay b 0 u k)
      let d := (reduceNlos powers (fun k => raw (σ k) - reduceMin raw) hFull cd).2
      (∃ o, out = .inl o ∧ ∀ q, o.delays b u 0 q = .ok (d q)) ∨ (∃ o, out = .inr o ∧ ∀ q, o.delays b 0 u q = .ok (d q)) := by
  obtain ⟨rt, hrt, hrt1⟩ := ((C04_admissible_values h).2.2.2.2 false).1
  obtain ⟨cd, hcd, -⟩ := ((C04_admissible_values h).2.2.2.2 false).2.2.2.1 .pcDS (by simp)
  obtain ⟨i, hi⟩ := (C18_generation_possible_partial h rfl r hap z).2 hs
  obtain ⟨hds, hk⟩ := channel_lsp h r hap z i hi b 0 u
  have hms : s.mask = some i.mask := by
    unfold callInputs at hi
    split at hi
    · cases hi
    · split at hi
      · rename_i hm hl' _ _ _ _ _ _
        cases hi
        exact hm
      · cases hi
  refine ⟨rt * (i.lsp b 0 u).ds, cd * 1e-9, by positivity, fun w hw => ?_⟩
  subst hw
  obtain ⟨i', ri, out, indoor', hi', hri, ri1, ri2, ri3, hcall, hin', hlos', hm, hdl, hul⟩ := generation_numbers h r hap hs ut bs fs w
  rw [hi] at hi'; cases hi'
  rw [hin] at hin'; cases hin'
  rw [hl] at hlos'
  have hlos : los = i.los := Option.some.inj hlos'
  subst hlos
  obtain ⟨nl, nn, -, e2, -, -, -, hmask⟩ := C31_active_clusters h
  rw [hn] at e2
  have e2 : nn = n + 2 := by have := Except.ok.inj e2; exact_mod_cast this.symm
  have hmask' : ∀ k : Fin (n + 2), i.mask b 0 u k = 0 := by
    intro k
    rw [hmask always log s r hap _ _ _ hms hl hin b 0 u hout k, hnl]
    simp only [Bool.false_eq_true, if_false]
    rw [if_pos (by omega)]
  obtain ⟨act, ha, hm⟩ := hm b u hout
  obtain ⟨L, hL⟩ := raysCall_defined h ri w.rays b 0 u act ha (fun k => by rw [ri2]; exact hm k) (by rw [ri1]; exact hds) (by rw [ri1]; exact hk)
    (by rw [ri3, hnl]; intro hf; cases hf)
  obtain ⟨un, -, -, -, -, -, -, -, -, e1, -⟩ := raysCall_ok hL
  rw [ri1, ri2, ri3, hnl] at e1
  unfold clusterDelays at e1
  rw [hrt] at e1
  simp only [bind, Except.bind, Bool.false_eq_true, if_false] at e1
  have e1 : unscaledDelays rt (i.lsp b 0 u).ds (fun k : Fin (n + 2) => i.mask b 0 u k) (w.rays.delay b 0 u) = L.delays :=
    congrArg Prod.fst (Except.ok.inj e1)
  have hraw : rawDelays rt (i.lsp b 0 u).ds (fun k : Fin (n + 2) => i.mask b 0 u k) (w.rays.delay b 0 u) =
      fun k => -(rt * (i.lsp b 0 u).ds) * Real.log (w.rays.delay b 0 u k) := by
    funext k
    unfold rawDelays
    simp only [hmask' k]
    ring
  obtain ⟨σ, hσ⟩ := unscaled_eq rt (i.lsp b 0 u).ds (fun k : Fin (n + 2) => i.mask b 0 u k) (w.rays.delay b 0 u)
  have hd : L.delays = fun k => -(rt * (i.lsp b 0 u).ds) * Real.log (w.rays.delay b 0 u (σ k)) -
      reduceMin fun k => -(rt * (i.lsp b 0 u).ds) * Real.log (w.rays.delay b 0 u k) := by
    rw [← e1]
    funext k
    rw [hσ, hraw]
  obtain ⟨i', ri', hi', hri', hax⟩ := C51_axes c always ut bs fs s w out hcall
  rw [hi] at hi'; cases hi'
  rw [hri] at hri'; cases hri'
  have hpl : c.enablePathloss = true → ∃ pl PL, samplePathloss s.topo = .ok PL ∧ PL b 0 u = .ok pl := by
    intro he
    have hstep : ∃ PL, stepPathloss c s.topo = .ok PL := by
      unfold cirCall at hcall
      simp only [bind, Except.bind, hi, hri] at hcall
      rw [if_neg (by simp)] at hcall
      split at hcall
      · cases hcall
      · rename_i PL hPL
        exact ⟨PL, hPL⟩
    obtain ⟨PL, hPL⟩ := hstep
    rw [stepPathloss, if_pos he] at hPL
    have hne : s.topo ≠ TopoState.init c := by intro e; rw [e] at hl; cases hl
    rcases channel_losses h r with e | ⟨g, v, l1, l2, l3⟩
    · exact absurd e hne
    · unfold samplePathloss at hPL ⊢
      rw [l1, l2, l3] at hPL ⊢
      generalize s.topo.plBasic = pbo at hPL
      rcases pbo with _ | pb
      · dsimp only at hPL; cases hPL
      · exact ⟨_, _, rfl, rfl⟩
  have hpl : ∃ pl, c.enablePathloss = true → ∃ PL, samplePathloss s.topo = .ok PL ∧ PL b 0 u = .ok pl := by
    by_cases he : c.enablePathloss = true
    · obtain ⟨pl, hp⟩ := hpl he
      exact ⟨pl, fun _ => hp⟩
    · exact ⟨0, fun h => absurd h he⟩
  obtain ⟨pl, hpl⟩ := hpl
  have hax := hax b 0 u L cd pl hL (by rw [hnl]; exact hcd) hpl
  refine ⟨out, hcall, ?_⟩
  have hdir : c.direction = "downlink" ∨ c.direction = "uplink" := by
    rw [(mkScenario_built h).dir_eq]
    exact (mkScenario_built h).dir_ok.symm
  rcases hdir with hd1 | hd1
  · obtain ⟨o, ho, -, h2⟩ := hax.1 hd1
    refine ⟨L.powers, nlosRay ⟨c.carrierFrequency, bs, ut⟩ (Spec.endsOf c i w.satDirection b 0 u).toUt L (w.phase b 0 u), σ, .inl ⟨o, ho, fun q => ?_⟩⟩
    rw [h2 q]
    dsimp only
    rw [← hd]
    rfl
  · obtain ⟨o, ho, -, h2⟩ := hax.2 hd1
    refine ⟨L.powers, nlosRay ⟨c.carrierFrequency, ut, bs⟩ (Spec.endsOf c i w.satDirection b 0 u).toBs (Spec.backwards L) (w.phase b u 0), σ, .inr ⟨o, ho, fun q => ?_⟩⟩
    rw [h2 q]
    dsimp only
    rw [← hd]
    rfl

/-- Seeding Sionna's generator never determines the delays of an outdoor link without LoS: whatever happened before, there are draws of TensorFlow's generator, within their range,
for which the delays differ. -/
theorem C183_not_reproducible {n : ℕ} [NeZero B] {log : List (ChanEvent B 1 U)} {s : ChanState B 1 U} (h : mkScenario cls sa = .ok c)
    (r : ChanReach c always log s) (hap : Apart log) (hs : ∃ e ∈ log, ChanEvent.succeeded e) (hn : c.numClustersNlos = .ok ((n + 2 : ℕ) : ℤ))
    (ut bs : PanelArray) (fs : ℝ) (w : CirDraws B 1 U (n + 2)) (b : Fin B) (u : Fin U) (indoor : PerUt B U Bool) (los : PerLink B 1 U Bool)
    (hin : s.topo.inState = some indoor) (hout : indoor b u = false) (hl : s.topo.los = some los) (hnl : los b 0 u = false) :
    ∃ x x' : PerLink B 1 U (Fin (n + 2) → ℝ), (∀ b m u k, x b m u k ∈ Set.Ico 1e-6 1 ∧ x' b m u k ∈ Set.Ico 1e-6 1) ∧
      cirCall c always ut bs fs s { w with rays := { w.rays with delay := x } } ≠
      cirCall c always ut bs fs s { w with rays := { w.rays with delay := x' } } := by
  obtain ⟨a, cd, ha, key⟩ := delays_of_draws h r hap hs hn ut bs fs w.lsp b u indoor los hin hout hl hnl
  refine ⟨fun _ _ _ _ => 1 / 2, fun _ _ _ k => if k = 0 then 1 / 2 else 1 / 4, fun _ _ _ k => ⟨by norm_num, by dsimp only; split_ifs <;> norm_num⟩, fun he => ?_⟩
  obtain ⟨out, h1, p, H, σ, hd⟩ := key { w with rays := { w.rays with delay := fun _ _ _ _ => 1 / 2 } } rfl
  obtain ⟨out', h1', p', H', σ', hd'⟩ := key { w with rays := { w.rays with delay := fun _ _ _ k => if k = 0 then 1 / 2 else 1 / 4 } } rfl
  rw [he, h1'] at h1
  have h1 := (Except.ok.inj h1).symm
  subst h1
  dsimp only at hd hd'
  have hlog2 : 0 < Real.log 2 := Real.log_pos (by norm_num)
  have l2 : Real.log (1 / 2) = -Real.log 2 := by rw [one_div, Real.log_inv]
  have l4 : Real.log (1 / 4) = -(2 * Real.log 2) := by
    rw [one_div, Real.log_inv, show (4 : ℝ) = 2 ^ 2 by norm_num, Real.log_pow]; norm_num
  have hmin : reduceMin (fun _ : Fin (n + 2) => -a * Real.log (1 / 2)) = a * Real.log 2 := by
    obtain ⟨k, hk⟩ := reduceMin_mem (fun _ : Fin (n + 2) => -a * Real.log (1 / 2))
    rw [hk, l2]; ring
  have hmin' : reduceMin (fun k : Fin (n + 2) => -a * Real.log (if k = 0 then 1 / 2 else 1 / 4)) = a * Real.log 2 := by
    refine le_antisymm ?_ ?_
    · have := reduceMin_le (fun k : Fin (n + 2) => -a * Real.log (if k = 0 then 1 / 2 else 1 / 4)) 0
      simp only [if_true] at this
      rw [l2] at this
      linarith
    · obtain ⟨k, hk⟩ := reduceMin_mem (fun k : Fin (n + 2) => -a * Real.log (if k = 0 then 1 / 2 else 1 / 4))
      rw [hk]
      split_ifs
      · rw [l2]; linarith
      · rw [l4]; nlinarith
  have hsum := paths_sum_zero p (fun k => -a * Real.log (1 / 2) - reduceMin (fun _ : Fin (n + 2) => -a * Real.log (1 / 2))) H cd
    (fun c => by rw [hmin, l2]; ring)
  have hsum' := paths_sum_pos p' (fun k => -a * Real.log (if σ' k = 0 then 1 / 2 else 1 / 4) -
      reduceMin (fun k : Fin (n + 2) => -a * Real.log (if k = 0 then 1 / 2 else 1 / 4))) H' cd
    (fun c => by
      rw [hmin']
      split_ifs
      · rw [l2]; linarith
      · rw [l4]; nlinarith) (a := σ'.symm 1) (by
      rw [hmin', Equiv.apply_symm_apply, if_neg (by simp), l4]
      nlinarith)
  rcases hd with ⟨o, rfl, hd⟩ | ⟨o, rfl, hd⟩ <;> rcases hd' with ⟨o', ho, hd'⟩ | ⟨o', ho, hd'⟩
  · cases ho
    have := Finset.sum_congr (s₁ := Finset.univ) rfl fun q _ => Except.ok.inj ((hd q).symm.trans (hd' q))
    rw [hsum] at this
    exact absurd this hsum'.ne
  · cases ho
  · cases ho
  · cases ho
    have := Finset.sum_congr (s₁ := Finset.univ) rfl fun q _ => Except.ok.inj ((hd q).symm.trans (hd' q))
    rw [hsum] at this
    exact absurd this hsum'.ne

/-- The complete call of `exChan` with a request for NLoS. -/
noncomputable def exChanNlos : ChanArgs 1 1 1 := { exChan 1 1 1 with los := some false }

theorem exChanNlos_apart (d : TopoDraws 1 1 1) (z : PerLink 1 1 1 (Fin 7 → ℝ)) (x : Except Err Unit) :
    Apart [ChanEvent.topology exChanNlos d z x] := by
  intro a d z x ut hm hut b u v hx _
  exact Subsingleton.elim _ _

theorem exChanNlos_ok (h : mkScenario cls sa = .ok c) (always : Bool) :
    (chanSetTopology c always (ChanState.init c) exChanNlos (exDraws 1 1 1) (exZ 1 1 1)).2 = .ok () := by
  have r := ChanReach.topology exChanNlos (exDraws 1 1 1) (exZ 1 1 1) (ChanReach.init (c := c) (always := always))
  rcases (channel_ready h rfl r (exChanNlos_apart _ _ _)).1 _ _ _ _ List.mem_cons_self with e | e
  · exact e
  · have := complete_call h exChanNlos.toTopo (exDraws 1 1 1) (toTopo_physical _) rfl rfl
    rcases chanSet_cases (always := always) (s := ChanState.init c) h .init exChanNlos (exDraws 1 1 1) (exZ 1 1 1) with
      ⟨_, e1, -⟩ | ⟨e1, -⟩ | ⟨-, -, los, indoor, ut, mean, std, near, F, hst, hF, hc⟩
    · change (setTopology c (TopoState.init c) _ _).2 = _ at e1
      rw [this] at e1; cases e1
    · change (setTopology c (TopoState.init c) _ _).2 = _ at e1
      rw [this] at e1; cases e1
    · rcases hc with ⟨G, hG, mask, -, e2⟩ | ⟨hG, e2⟩
      · rw [e2]
      · rw [e2] at e; cases e

/-- The hypotheses of C183_not_reproducible are met after one complete call with a request for NLoS. -/
theorem exSeed (h : mkScenario cls sa = .ok c) : ∃ (n : ℕ) (log : List (ChanEvent 1 1 1)) (s : ChanState 1 1 1) (los : PerLink 1 1 1 Bool),
    ChanReach c false log s ∧ Apart log ∧ (∃ e ∈ log, ChanEvent.succeeded e) ∧ c.numClustersNlos = .ok ((n + 2 : ℕ) : ℤ) ∧
    s.topo.inState = some (fun _ _ => false) ∧ s.topo.los = some los ∧ los 0 0 0 = false ∧ Spec.SameSeed c false s s := by
  obtain ⟨nl, nn, -, e2, -, -, hnn, -⟩ := C31_active_clusters h
  have r := ChanReach.topology exChanNlos (exDraws 1 1 1) (exZ 1 1 1) (ChanReach.init (c := c) (always := false))
  have e := exChanNlos_ok h false
  rw [e] at r
  have hres := complete_call h exChanNlos.toTopo (exDraws 1 1 1) (toTopo_physical _) rfl rfl
  have rt := TopoReach.call exChanNlos.toTopo (exDraws 1 1 1) (TopoReach.init (B := 1) (N := 1) (U := 1) (c := c))
  obtain ⟨h1, h2⟩ := C15_los_state h rt
  have hin : (setTopology c (TopoState.init c) exChanNlos.toTopo (exDraws 1 1 1)).1.inState = some fun _ _ => false := by
    rcases setTopology_cases h (TopoState.init c) exChanNlos.toTopo (exDraws 1 1 1) with ⟨e, -⟩ | ⟨-, e, -⟩ | ⟨-, -, b, -⟩
    · cases e
    · cases e
    · exact b.inState
  have hacc : TopoCall.accepted (exChanNlos.toTopo, exDraws 1 1 1, (setTopology c (TopoState.init c) exChanNlos.toTopo (exDraws 1 1 1)).2) := by
    rw [hres]; simp [TopoCall.accepted]
  have hlos : ∃ l, (setTopology c (TopoState.init c) exChanNlos.toTopo (exDraws 1 1 1)).1.los = some l :=
    Option.ne_none_iff_exists'.1 (h2 rfl ⟨_, List.mem_singleton_self _, hacc⟩)
  obtain ⟨l, hl⟩ := hlos
  obtain ⟨_, _, _, i, _, -, -, -, -, hi, -, hq⟩ := h1 l hl
  rw [hin] at hi
  cases hi
  refine ⟨nn - 2, _, _, l, r, exChanNlos_apart _ _ _, ⟨_, List.mem_cons_self, trivial⟩, ?_, ?_, ?_, ?_, .topology _ _ _ _ .init rfl⟩
  · rw [e2, Nat.sub_add_cancel hnn]
  · rw [chanSetTopology_topo]; exact hin
  · rw [chanSetTopology_topo]; exact hl
  · refine (hq 0 0 0).2.1 false ?_ rfl
    rw [latest, if_pos hacc]
    rfl

/-- The code violates C183. -/
theorem C183_violated : ¬ C183_statement := by
  intro H
  obtain ⟨c, hc⟩ := exConfig
  obtain ⟨arr, -⟩ := exArray_ok
  obtain ⟨n, log, s, los, r, hap, hs, hn, hin, hl, hnl, hss⟩ := exSeed hc
  let w : CirDraws 1 1 1 (n + 2) :=
    { lsp := exZ 1 1 1
      rays := ⟨fun _ _ _ _ => 1 / 2, fun _ _ _ _ => 0, fun _ _ _ => true, fun _ _ _ => true, fun _ _ _ => true, fun _ _ _ => true, fun _ _ _ _ => 0,
        fun _ _ _ _ => 0, fun _ _ _ _ => 0, fun _ _ _ _ => 0, fun _ _ _ _ _ => 0, fun _ _ _ _ => 0, fun _ _ _ _ => 0, fun _ _ _ _ => 0, fun _ _ _ _ => 0⟩
      satDirection := fun _ => 0
      phase := fun _ _ _ _ _ _ => 0 }
  obtain ⟨x, x', -, hne⟩ := C183_not_reproducible (n := n) hc r hap hs hn arr arr 1000 w 0 0 _ los hin rfl hl hnl
  exact hne (H 1 1 n .urban _ c hc false s s hss arr arr 1000 _ _ rfl)

/-- The hypotheses of C183_seed_partial and C183_not_reproducible are met by a scenario of the suite after one call. -/
example : ∃ (c : Config) (n : ℕ) (log : List (ChanEvent 1 1 1)) (s : ChanState 1 1 1) (los : PerLink 1 1 1 Bool),
    ChanReach c false log s ∧ Apart log ∧ (∃ e ∈ log, ChanEvent.succeeded e) ∧ c.numClustersNlos = .ok ((n + 2 : ℕ) : ℤ) ∧
    s.topo.inState = some (fun _ _ => false) ∧ s.topo.los = some los ∧ los 0 0 0 = false ∧ Spec.SameSeed c false s s := by
  obtain ⟨c, hc⟩ := exConfig
  exact ⟨c, exSeed hc⟩

end OpenNTN
