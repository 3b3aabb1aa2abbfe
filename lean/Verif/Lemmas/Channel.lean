import Verif.Model.Channel
import Verif.Spec.Channel
import Verif.Props.Topology
import Verif.Props.Lsp

namespace OpenNTN

open Classical Spec

variable {B N U : ℕ} [NeZero B] {cls : ScenarioClass} {sa : ScenarioArgs} {c : Config} {always : Bool}

theorem crossFactors_ok (h : mkScenario cls sa = .ok c) (los : PerLink B N U Bool) :
    ∃ F, crossFactors c los = .ok F ∧ ∀ b n u, ∃ R, crossLspCorrelation c (los b n u) = .ok R ∧ IsCholesky R (F b n u) := by
  have h1 : ∀ l, ∃ L R, crossLspCorrelation c l = .ok R ∧ IsCholesky R L := fun l => by
    obtain ⟨R, e, -, -, -, L, hL, -⟩ := C05_cross_correlation_cholesky h l
    exact ⟨L, R, e, hL⟩
  have hex : ∃ F : PerLink B N U (Fin 7 → Fin 7 → ℝ), ∀ b n u, ∃ R, crossLspCorrelation c (los b n u) = .ok R ∧ IsCholesky R (F b n u) :=
    ⟨fun b n u => (h1 (los b n u)).choose, fun b n u => (h1 (los b n u)).choose_spec⟩
  unfold crossFactors
  rw [dif_pos hex]
  exact ⟨_, rfl, hex.choose_spec⟩

/-- Outcome of the part of `set_topology` after the scenario was updated. -/
theorem chanUpdate_cases (h : mkScenario cls sa = .ok c) (s : ChanState B N U) (z : PerLink B N U (Fin 7 → ℝ))
    {los : PerLink B N U Bool} {indoor : PerUt B U Bool} {ut : PerUt B U Vec3} {mean : PerLink B N U (Fin 7 → WithBot ℝ)}
    {std : PerLink B N U (Fin 7 → ℝ)}
    (h1 : s.topo.los = some los) (h2 : s.topo.inState = some indoor) (h3 : s.topo.utLoc = some ut) (h4 : s.topo.lspMean = some mean)
    (h5 : s.topo.lspStd = some std) :
    ∃ F, (∀ b n u, ∃ R, crossLspCorrelation c (los b n u) = .ok R ∧ IsCholesky R (F b n u)) ∧
    ((∃ G, (∀ b n i, ∃ C, spatialCorrelationOf c (los b n) (indoor b) (fun u => (ut b u).x) (fun u => (ut b u).y) i = .ok C ∧
          IsCholesky C (G b n i)) ∧
        ∃ mask, (∃ nl nn, c.numClustersLos = .ok nl ∧ c.numClustersNlos = .ok nn ∧
          mask = fun b n u => clusterMask nl.toNat nn.toNat (los b n u) (indoor b u)) ∧ chanUpdate c always s z = ({ s with
          crossSqrt := some F
          spatialSqrt := some G
          mask := some mask
          lsp := if always then s.lsp else some fun b n u => lspOf (mean b n u) (std b n u) (correlateDraws (F b n) (G b n) (z b n) u) },
          none)) ∨
     ((¬ ∃ G : PerBs B N (Fin 7 → Fin U → Fin U → ℝ), ∀ b n i, ∃ C,
          spatialCorrelationOf c (los b n) (indoor b) (fun u => (ut b u).x) (fun u => (ut b u).y) i = .ok C ∧ IsCholesky C (G b n i)) ∧
        chanUpdate c always s z = ({ s with crossSqrt := some F }, some .invalidArgument))) := by
  obtain ⟨F, eF, hF⟩ := crossFactors_ok h los
  refine ⟨F, hF, ?_⟩
  obtain ⟨-, ⟨nl, hnl, -⟩, ⟨nn, hnn, -⟩, -⟩ := C04_admissible_values h
  by_cases hex : ∃ G : PerBs B N (Fin 7 → Fin U → Fin U → ℝ), ∀ b n i, ∃ C,
          spatialCorrelationOf c (los b n) (indoor b) (fun u => (ut b u).x) (fun u => (ut b u).y) i = .ok C ∧ IsCholesky C (G b n i)
  · left
    have eG : spatialFactors c los indoor ut = .ok hex.choose := by unfold spatialFactors; rw [dif_pos hex]
    refine ⟨hex.choose, hex.choose_spec, _, ⟨nl, nn, hnl, hnn, rfl⟩, ?_⟩
    have e1 : lspCallback c s = ({ s with crossSqrt := some F, spatialSqrt := some hex.choose }, none) := by
      unfold lspCallback; simp only [h1, h2, h3, eF, eG]
    have e2 : rayCallback c { s with crossSqrt := some F, spatialSqrt := some hex.choose } =
        ({ s with
            crossSqrt := some F
            spatialSqrt := some hex.choose
            mask := some fun b n u => clusterMask nl.toNat nn.toNat (los b n u) (indoor b u) }, none) := by
      unfold rayCallback; simp only [h1, h2, hnl, hnn]
    unfold chanUpdate
    rw [e1]
    dsimp only
    rw [e2]
    dsimp only
    cases always
    · simp only [sampleLsp, h4, h5, if_false, Bool.false_eq_true]
    · simp only [if_true]
  · right
    have eG : spatialFactors c los indoor ut = .error .invalidArgument := by unfold spatialFactors; rw [dif_neg hex]
    refine ⟨hex, ?_⟩
    have e1 : lspCallback c s = ({ s with crossSqrt := some F }, some .invalidArgument) := by
      unfold lspCallback; simp only [h1, h2, h3, eF, eG]
    unfold chanUpdate
    rw [e1]

theorem lspCallback_topo (s : ChanState B N U) : (lspCallback c s).1.topo = s.topo := by
  unfold lspCallback
  split
  · split
    · rfl
    · dsimp only; split <;> rfl
  · rfl

theorem rayCallback_topo (s : ChanState B N U) : (rayCallback c s).1.topo = s.topo := by
  unfold rayCallback
  split
  · split <;> rfl
  · rfl

theorem chanUpdate_topo (s : ChanState B N U) (z : PerLink B N U (Fin 7 → ℝ)) : (chanUpdate c always s z).1.topo = s.topo := by
  have h1 := lspCallback_topo (c := c) s
  unfold chanUpdate
  rcases e1 : lspCallback c s with ⟨s1, _ | e⟩ <;> rw [e1] at h1 <;> dsimp only at h1 ⊢
  · have h2 := rayCallback_topo (c := c) s1
    rcases e2 : rayCallback c s1 with ⟨s2, _ | e⟩ <;> rw [e2] at h2 <;> dsimp only at h2 ⊢
    · split
      · rw [h2, h1]
      · split
        · rw [h2, h1]
        · dsimp only; rw [h2, h1]
    · rw [h2, h1]
  · exact h1

theorem chanSetTopology_topo (s : ChanState B N U) (a : ChanArgs B N U) (d : TopoDraws B N U) (z : PerLink B N U (Fin 7 → ℝ)) :
    (chanSetTopology c always s a d z).1.topo = (setTopology c s.topo a.toTopo d).1 := by
  unfold chanSetTopology
  dsimp only
  split
  · rfl
  · rfl
  · split
    · exact chanUpdate_topo _ z
    · exact chanUpdate_topo _ z

/-- The scenario inside a channel model, with its own log: all its calls come from the channel model. -/
theorem ChanReach.topo {log : List (ChanEvent B N U)} {s : ChanState B N U} (r : ChanReach c always log s) :
    ∃ tl, TopoReach c tl s.topo ∧ (∀ e ∈ tl, ∃ a : ChanArgs B N U, e.1 = a.toTopo) ∧
      (∀ e ∈ tl, TopoCall.accepted e → ∃ a d z x, ChanEvent.topology a d z x ∈ log ∧ e.1 = a.toTopo) := by
  induction r with
  | init => exact ⟨[], .init, fun _ h => (by cases h), fun _ h => (by cases h)⟩
  | @topology log s a d z r ih =>
    obtain ⟨tl, h1, h2, h3⟩ := ih
    refine ⟨(a.toTopo, d, (setTopology c s.topo a.toTopo d).2) :: tl, ?_, ?_, ?_⟩
    · have := TopoReach.call a.toTopo d h1
      have e : (chanSetTopology c always s a d z).1.topo = (setTopology c s.topo a.toTopo d).1 := by
        exact chanSetTopology_topo s a d z
      rw [e]
      exact this
    · intro e he
      rcases List.mem_cons.1 he with rfl | he
      · exact ⟨a, rfl⟩
      · exact h2 e he
    · intro e he ha
      rcases List.mem_cons.1 he with rfl | he
      · exact ⟨a, d, z, _, List.mem_cons_self, rfl⟩
      · obtain ⟨a', d', z', x, hm, e'⟩ := h3 e he ha
        exact ⟨a', d', z', x, List.mem_cons_of_mem _ hm, e'⟩
  | generate z r ih =>
    obtain ⟨tl, h1, h2, h3⟩ := ih
    refine ⟨tl, h1, h2, fun e he ha => ?_⟩
    obtain ⟨a', d', z', x, hm, e'⟩ := h3 e he ha
    exact ⟨a', d', z', x, List.mem_cons_of_mem _ hm, e'⟩

/-- What an updated scenario offers to the samplers. -/
structure TopoStats (c : Config) (t : TopoState B N U) (los : PerLink B N U Bool) (indoor : PerUt B U Bool) (ut : PerUt B U Vec3)
    (mean : PerLink B N U (Fin 7 → WithBot ℝ)) (std : PerLink B N U (Fin 7 → ℝ)) (near : PerLink B N U Bool) : Prop where
  los_eq : t.los = some los
  indoor_eq : t.inState = some indoor
  ut_eq : t.utLoc = some ut
  mean_eq : t.lspMean = some mean
  std_eq : t.lspStd = some std
  excl : ∀ b n u, ¬ (los b n u = true ∧ indoor b u = true)
  mean_ok : ∀ b n u, lspLogMean c (los b n u) = .ok (mean b n u)
  std_ok : ∀ b n u, lspLogStd c (los b n u) (near b n u) = .ok (std b n u)

omit [NeZero B] in
theorem fresh_stats [NeZero B] {t : TopoState B N U} {ut : PerUt B U Vec3} {bs : PerBs B N Vec3} {i : PerUt B U Bool} {req : Option Bool}
    {d : TopoDraws B N U} (h : UpToDate c t ut bs i req d) (h1 : t.inState = some i) (h2 : t.utLoc = some ut) :
    ∃ los mean std near, TopoStats c t los i ut mean std near := by
  obtain ⟨p, los, mean, std, pl, -, e1, e2, e3, -, -, hs⟩ := h.statistics
  have hn : ∀ b n u, ∃ near : Bool, lspLogStd c (los b n u) near = .ok (std b n u) := fun b n u => by
    obtain ⟨-, -, ⟨near, -, e⟩, -⟩ := hs b n u
    exact ⟨near, e⟩
  choose near hnear using hn
  refine ⟨los, mean, std, near, e1, h1, h2, e2, e3, fun b n u hh => ?_, fun b n u => (hs b n u).2.1, hnear⟩
  have := ((hs b n u).1.1 hh.1).1
  rw [hh.2] at this
  cases this

/-- The outcomes of the channel model's `set_topology`. -/
theorem chanSet_cases (h : mkScenario cls sa = .ok c) {s : ChanState B N U} {tl : List (TopoCall B N U)} (r : TopoReach c tl s.topo)
    (a : ChanArgs B N U) (d : TopoDraws B N U) (z : PerLink B N U (Fin 7 → ℝ)) :
    (∃ e, (setTopology c s.topo a.toTopo d).2 = .error e ∧
      chanSetTopology c always s a d z = ({ s with topo := (setTopology c s.topo a.toTopo d).1 }, .error e)) ∨
    ((setTopology c s.topo a.toTopo d).2 = .ok false ∧
      chanSetTopology c always s a d z = ({ s with topo := (setTopology c s.topo a.toTopo d).1, called := true }, .ok ())) ∨
    ((setTopology c s.topo a.toTopo d).2 = .ok true ∧ N = 1 ∧ ∃ los indoor ut mean std near F,
      TopoStats c (setTopology c s.topo a.toTopo d).1 los indoor ut mean std near ∧
      (∀ b n u, ∃ R, crossLspCorrelation c (los b n u) = .ok R ∧ IsCholesky R (F b n u)) ∧
      ((∃ G, (∀ b n i, ∃ C, spatialCorrelationOf c (los b n) (indoor b) (fun u => (ut b u).x) (fun u => (ut b u).y) i = .ok C ∧
            IsCholesky C (G b n i)) ∧
          ∃ mask, (∃ nl nn, c.numClustersLos = .ok nl ∧ c.numClustersNlos = .ok nn ∧
            mask = fun b n u => clusterMask nl.toNat nn.toNat (los b n u) (indoor b u)) ∧ chanSetTopology c always s a d z = ({
            topo := (setTopology c s.topo a.toTopo d).1
            crossSqrt := some F
            spatialSqrt := some G
            mask := some mask
            lsp := if always then s.lsp else
              some fun b n u => lspOf (mean b n u) (std b n u) (correlateDraws (F b n) (G b n) (z b n) u)
            called := true }, .ok ())) ∨
       ((¬ ∃ G : PerBs B N (Fin 7 → Fin U → Fin U → ℝ), ∀ b n i, ∃ C,
            spatialCorrelationOf c (los b n) (indoor b) (fun u => (ut b u).x) (fun u => (ut b u).y) i = .ok C ∧ IsCholesky C (G b n i)) ∧
          chanSetTopology c always s a d z =
            ({ s with topo := (setTopology c s.topo a.toTopo d).1, crossSqrt := some F }, .error .invalidArgument)))) := by
  rcases hr : (setTopology c s.topo a.toTopo d).2 with e | b
  · left
    refine ⟨e, rfl, ?_⟩
    unfold chanSetTopology; dsimp only; rw [hr]
  cases b
  · right; left
    refine ⟨rfl, ?_⟩
    unfold chanSetTopology; dsimp only; rw [hr]
  · right; right
    obtain ⟨q1, -, -, q2⟩ := C12_derived_fresh_partial h r a.toTopo d true hr
    have hN : N = 1 := by by_contra hN; cases q2 hN
    refine ⟨rfl, hN, ?_⟩
    obtain ⟨_, e, _, ut, bs, i, -, -, -, -, h1, h2, h3, hu⟩ := q1 hN
    obtain ⟨los, mean, std, near, hs⟩ := fresh_stats hu h3 h1
    obtain ⟨F, hF, hcases⟩ := chanUpdate_cases (always := always) h { s with topo := (setTopology c s.topo a.toTopo d).1 } z
      hs.los_eq hs.indoor_eq hs.ut_eq hs.mean_eq hs.std_eq
    refine ⟨los, i, ut, mean, std, near, F, hs, hF, ?_⟩
    rcases hcases with ⟨G, hG, mask, hmask, e⟩ | ⟨hG, e⟩
    · left
      refine ⟨G, hG, mask, hmask, ?_⟩
      unfold chanSetTopology
      dsimp only
      rw [hr]
      dsimp only
      rw [e]
    · right
      refine ⟨hG, ?_⟩
      unfold chanSetTopology
      dsimp only
      rw [hr]
      dsimp only
      rw [e]

end OpenNTN
