import Verif.Props.Channel
import Verif.Props.Cir2
import Verif.Props.Angles
import Verif.Props.Geometry

/-
C125: a generation call works on the latest topology.
-/
namespace OpenNTN

open Classical Spec

variable {B U : ℕ} [NeZero B] {cls : ScenarioClass} {sa : ScenarioArgs} {c : Config} {always : Bool} {log : List (ChanEvent B 1 U)}
  {s : ChanState B 1 U}

/-- What an operation passes for an argument of `set_topology`. -/
def Spec.ChanEvent.passed {N : ℕ} {α : Type} (f : ChanArgs B N U → Option α) : ChanEvent B N U → Option α
  | .topology a _ _ _ => f a
  | .generate _ _ => none

/-- With one BS and UTs apart, the attributes of the scenario are the latest arguments of the successful calls of the channel model. -/
theorem channel_latest (h : mkScenario cls sa = .ok c) (r : ChanReach c always log s) (hap : Apart log) :
    s.topo.utLoc = latest ChanEvent.succeeded (ChanEvent.passed (·.utLoc)) log ∧
    s.topo.bsLoc = latest ChanEvent.succeeded (ChanEvent.passed (·.bsLoc)) log ∧
    s.topo.utOri = latest ChanEvent.succeeded (ChanEvent.passed (·.utOri)) log ∧
    s.topo.bsOri = latest ChanEvent.succeeded (ChanEvent.passed (·.bsOri)) log ∧
    s.topo.utVel = latest ChanEvent.succeeded (ChanEvent.passed (·.utVel)) log ∧
    s.topo.inState = latest ChanEvent.succeeded (ChanEvent.passed (·.inState)) log ∧
    s.topo.requestedLos = latest ChanEvent.succeeded (ChanEvent.passed (·.los)) log := by
  suffices ∃ tl, TopoReach c tl s.topo ∧ ∀ {α : Type} (f : TopoArgs B 1 U → Option α),
      latest TopoCall.accepted (fun e => f e.1) tl = latest ChanEvent.succeeded (ChanEvent.passed fun a => f a.toTopo) log by
    obtain ⟨tl, rt, e⟩ := this
    obtain ⟨⟨p1, p2, p3, p4, p5, p6⟩, p7⟩ := persisted_accepted h rt
    exact ⟨p1.trans (e (·.utLoc)), p2.trans (e (·.bsLoc)), p3.trans (e (·.utOri)), p4.trans (e (·.bsOri)), p5.trans (e (·.utVel)),
      p6.trans (e (·.inState)), p7.trans (e (·.los))⟩
  induction r with
  | init => exact ⟨[], .init, fun _ => rfl⟩
  | generate z r ih =>
    obtain ⟨tl, rt, e⟩ := ih fun a d z x ut hm => hap a d z x ut (List.mem_cons_of_mem _ hm)
    refine ⟨tl, rt, fun f => ?_⟩
    rw [e f, latest_cons_not (e := ChanEvent.generate z _) (fun hh => hh)]
  | @topology log s a d z r ih =>
    obtain ⟨tl, rt, e⟩ := ih fun a d z x ut hm => hap a d z x ut (List.mem_cons_of_mem _ hm)
    have hres := (channel_ready h rfl (ChanReach.topology a d z r) hap).1 a d z _ List.mem_cons_self
    refine ⟨(a.toTopo, d, (setTopology c s.topo a.toTopo d).2) :: tl, ?_, fun f => ?_⟩
    · rw [chanSetTopology_topo]
      exact TopoReach.call a.toTopo d rt
    have key : TopoCall.accepted ((a.toTopo, d, (setTopology c s.topo a.toTopo d).2) : TopoCall B 1 U) ↔
        ChanEvent.succeeded (ChanEvent.topology a d z (chanSetTopology c always s a d z).2) := by
      rcases chanSet_cases (always := always) h rt a d z with ⟨er, e1, e2⟩ | ⟨e1, e2⟩ |
          ⟨e1, -, los, indoor, ut, mean, std, near, F, -, -, ⟨G, -, mask, -, e2⟩ | ⟨-, e2⟩⟩
      · rw [e2] at hres ⊢
        rw [TopoCall.accepted, e1]
        rcases hres with hr | hr
        · cases hr
        · cases hr
          exact ⟨fun hh => absurd rfl hh, fun hh => by cases hh⟩
      · rw [e2, TopoCall.accepted, e1]
        exact ⟨fun _ => trivial, fun _ hh => by cases hh⟩
      · rw [e2, TopoCall.accepted, e1]
        exact ⟨fun _ => trivial, fun _ hh => by cases hh⟩
      · rw [e2] at hres
        rcases hres with hr | hr <;> cases hr
    by_cases hk : ChanEvent.succeeded (ChanEvent.topology a d z (chanSetTopology c always s a d z).2)
    · rw [latest_cons_counted hk, latest_cons_counted (key.2 hk), e f]
      rfl
    · rw [latest_cons_not hk, latest_cons_not (fun hh => hk (key.1 hh)), e f]

/-- C125. After a successful `set_topology` call, a generation call works on the values passed last: velocities, orientations and
positions; the directions of the LoS paths are those between these positions. The rays are generated from the same LoS states, large scale
parameters, mask and directions, with the indoor states passed last, the BS altitudes, the mean zenith spread of departure that
the table holds for the LoS state of the link, and the zenith offset of its LoS state and planar distance. -/
theorem C125_scene (h : mkScenario cls sa = .ok c) (r : ChanReach c always log s) (hap : Apart log)
    (hs : ∃ e ∈ log, ChanEvent.succeeded e) :
    ∃ P Q vel uo bo indoor,
      latest ChanEvent.succeeded (ChanEvent.passed (·.utLoc)) log = some P ∧ latest ChanEvent.succeeded (ChanEvent.passed (·.bsLoc)) log = some Q ∧
      latest ChanEvent.succeeded (ChanEvent.passed (·.utVel)) log = some vel ∧ latest ChanEvent.succeeded (ChanEvent.passed (·.utOri)) log = some uo ∧
      latest ChanEvent.succeeded (ChanEvent.passed (·.bsOri)) log = some bo ∧
      latest ChanEvent.succeeded (ChanEvent.passed (·.inState)) log = some indoor ∧
      ∀ z i, callInputs always s z = .ok i → i.utVel = vel ∧ i.utOri = uo ∧ i.bsOri = bo ∧ i.bsLoc = Q ∧
      (∀ b u, P b u ≠ Q b 0 → PointsFromTo (Q b 0).point (P b u).point (direction (i.angles b 0 u).zod (i.angles b 0 u).aod)) ∧
      (∀ b u, i.los b 0 u = true → indoor b u = false ∧ latest ChanEvent.succeeded (ChanEvent.passed (·.los)) log ≠ some false) ∧
      (∀ b u, latest ChanEvent.succeeded (ChanEvent.passed (·.los)) log = some true → indoor b u = false → i.los b 0 u = true) ∧
      ∃ ri, rayInputs s.topo i = .ok ri ∧ ri.lsp = i.lsp ∧ ri.mask = i.mask ∧ ri.los = i.los ∧ ri.angles = i.angles ∧
        ri.indoor = indoor ∧ (∀ b n, ri.bsHeight b n = (Q b n).z) ∧
        ∀ b u, c.getParam .pmuZSD (i.los b 0 u) = .ok (ri.meanZsd b 0 u) ∧
          ri.zodOff b 0 u = if i.los b 0 u then 0 else
            zodOffsetRad (Real.sqrt (((P b u).x - (Q b 0).x) ^ 2 + ((P b u).y - (Q b 0).y) ^ 2)) := by
  obtain ⟨l1, l2, l3, l4, l5, l6, l7⟩ := channel_latest h r hap
  obtain ⟨i0, hi0⟩ := (C18_generation_possible_partial h rfl r hap fun _ _ _ _ => 0).2 hs
  obtain ⟨tl, rt, -⟩ := r.topo
  have hlos : s.topo.los.isSome := by
    rcases (channel_ready h rfl r hap).2 with ⟨i2, -⟩ | ⟨-, -, -, -, p4, -⟩
    · obtain ⟨e, he, hs⟩ := hs; exact absurd hs (i2 e he)
    · exact p4
  have hne : s.topo ≠ TopoState.init c := by intro e; rw [e] at hlos; cases hlos
  rcases fresh_invariant h rfl rt with ⟨-, e⟩ | ⟨_, ev, _, P, Q, indoor, -, -, -, -, q5, q6, q7, q8⟩
  · exact absurd e hne
  obtain ⟨p, los, mean, std, pb, -, s1, s2, s3, s4, s5, s6⟩ := q8.statistics
  have inp : ∀ z i, callInputs always s z = .ok i → s.topo.utVel = some i.utVel ∧ s.topo.utOri = some i.utOri ∧
      s.topo.bsOri = some i.bsOri ∧ s.topo.bsLoc = some i.bsLoc ∧ s.topo.angles = some i.angles ∧ s.topo.los = some i.los := by
    intro z i hi
    unfold callInputs at hi
    split at hi
    · cases hi
    · split at hi
      · rename_i h1 h2 h3 h4 h5 h6 h7 h8
        cases hi
        exact ⟨h5, h6, h7, h8, h3, h2⟩
      · cases hi
  obtain ⟨v1, v2, v3, -⟩ := inp _ _ hi0
  refine ⟨P, Q, i0.utVel, i0.utOri, i0.bsOri, indoor, l1.symm.trans q5, l2.symm.trans q6, l5.symm.trans v1, l3.symm.trans v2,
    l4.symm.trans v3, l6.symm.trans q7, fun z i hi => ?_⟩
  obtain ⟨w1, w2, w3, w4, w5, w6⟩ := inp z i hi
  rw [v1] at w1; rw [v2] at w2; rw [v3] at w3; rw [q6] at w4; rw [q8.angles] at w5; rw [s1] at w6
  have w1 := (Option.some.inj w1).symm
  have w2 := (Option.some.inj w2).symm
  have w3 := (Option.some.inj w3).symm
  have w4 := (Option.some.inj w4).symm
  have w5 := Option.some.inj w5
  have w6 := Option.some.inj w6
  refine ⟨w1, w2, w3, w4, fun b u hne => ?_, fun b u hl => ?_, fun b u hl hin => ?_, ?_⟩
  · rw [← w5]; exact (C23_departure_direction _ _).1 hne
  · rw [← w6] at hl
    obtain ⟨k1, k2⟩ := (s6 b 0 u).1.1 hl
    refine ⟨k1, fun hh => ?_⟩
    rw [← l7] at hh
    rcases k2 with k | ⟨k, -⟩ <;> rw [hh] at k <;> cases k
  · rw [← w6]
    exact (s6 b 0 u).1.2 ⟨hin, Or.inl (l7.trans hl)⟩
  · unfold rayInputs
    rw [q7, s2, s5]
    refine ⟨_, rfl, rfl, rfl, rfl, rfl, rfl, fun b n => by rw [w4], fun b u => ⟨?_, ?_⟩⟩
    · obtain ⟨μ, _, _, _, _, m1, -, -, -, -, -, m2, -⟩ := lspLogMean_ok h (i.los b 0 u)
      have := (s6 b 0 u).2.1
      rw [w6, m1] at this
      change _ = Except.ok (mean b 0 u 6)
      rw [← Except.ok.inj this]
      exact m2
    · dsimp only
      rw [w6]
      unfold zodOffset zodOffsetRad
      change (if _ then _ else (if distance2d (P b u) (Q b 0) = 0 then _ else _) - _) = if _ then _ else
        Real.arctan (_ / distance2d (P b u) (Q b 0)) - Real.arctan (_ / distance2d (P b u) (Q b 0))
      by_cases hd : distance2d (P b u) (Q b 0) = 0
      · simp [hd]
      · simp only [hd, if_false]

/-- The hypotheses of C125 are met after a `set_topology` call and a generation. -/
example : ∃ (c : Config) (log : List (ChanEvent 2 1 3)) (s : ChanState 2 1 3), mkScenario .urban (exArgs 2000000000 "uplink" 50) = .ok c ∧
    ChanReach c false log s ∧ Apart log ∧ (∃ e ∈ log, ChanEvent.succeeded e) ∧ log.length = 2 ∧
    latest ChanEvent.succeeded (ChanEvent.passed (·.utLoc)) log = some fun _ u => ⟨10 * (u.val : ℝ), 0, 1.5⟩ := by
  obtain ⟨c, hc⟩ := exConfig
  have r := ChanReach.topology (exChan 2 1 3) (exDraws 2 1 3) (exZ 2 1 3) (ChanReach.init (c := c) (always := false))
  rw [exChan_ok hc false 2 3] at r
  refine ⟨c, _, _, hc, ChanReach.generate (exZ 2 1 3) r, ?_, ⟨_, List.mem_cons_of_mem _ List.mem_cons_self, trivial⟩, rfl, ?_⟩
  · intro a d z x ut hm hu
    rcases List.mem_cons.1 hm with hm | hm
    · cases hm
    · exact exChan_apart 2 1 3 _ _ _ a d z x ut hm hu
  · rw [latest_cons_not (fun hh => hh), latest_cons_counted trivial]
    rfl

end OpenNTN
