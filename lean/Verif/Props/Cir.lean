import Verif.Spec.Cir
import Verif.Props.Coeff2

namespace OpenNTN

open Classical

variable {B N U : ℕ}

/-! ### C51: order of the axes -/

theorem topologyDown_link [NeZero B] [NeZero N] (c : Config) (i : CallInputs B N U) (dir : Fin B → ℝ) (b : Fin B) (n : Fin N)
    (u : Fin U) : (topologyDown c i (i.bsLoc 0 0).z dir).link b n u = (Spec.endsOf c i dir b n u).toUt := by
  simp only [TopologyT.link, topologyDown, Spec.Ends.toUt, Spec.endsOf, Vec3.coords, deg2rad, mul_div_assoc]

theorem topologyUp_link [NeZero B] [NeZero N] (c : Config) (i : CallInputs B N U) (dir : Fin B → ℝ) (b : Fin B) (n : Fin N)
    (u : Fin U) : (topologyUp c i (i.bsLoc 0 0).z dir).link b u n = (Spec.endsOf c i dir b n u).toBs := by
  simp only [TopologyT.link, topologyUp, Spec.Ends.toBs, Spec.endsOf, Vec3.coords, deg2rad, mul_div_assoc, swapAxes]

theorem cirFinish_spec {B X Y n : ℕ} (c : Config) (fs : ℝ) (g : CoeffGen) (k sf : PerLink B X Y ℝ) (pl : PerLink B X Y (Except Err ℝ))
    (r : RaysT B X Y (n + 2)) (t : TopologyT B X Y) (cDs : PerLink B X Y (Except Err ℝ))
    (phi : Fin B → ℕ → ℕ → Fin (n + 2) → Fin raysPerCluster → Fin 4 → ℝ) (b : Fin B) (x : Fin X) (y : Fin Y) (lr : LinkRays (n + 2))
    (cd p : ℝ) (h1 : r.delays b x y = .ok lr.delays) (h2 : r.powers b x y = .ok lr.powers) (h3 : r.aoa b x y = .ok lr.aoa)
    (h4 : r.aod b x y = .ok lr.aod) (h5 : r.zoa b x y = .ok lr.zoa) (h6 : r.zod b x y = .ok lr.zod) (h7 : r.xpr b x y = .ok lr.xpr)
    (h8 : cDs b x y = .ok cd) (h9 : c.enablePathloss = true → pl b x y = .ok p) :
    let link := coeffCall g (t.link b x y) (k b x y) lr cd (phi b x y)
    let o := cirFinish c fs g k sf pl r t cDs phi
    (∀ ra ta q i, o.h b y ra x ta q i =
      .ok (link.1 q ra ta (i / fs) * (step12Gain c.enablePathloss c.enableShadowFading p (sf b x y) : ℂ))) ∧
    ∀ q, o.delays b y x q = .ok (link.2 q) := by
  intro link o
  have hs : cirSampler g k r t cDs phi b x y = .ok link := by
    simp only [cirSampler, h1, h2, h3, h4, h5, h6, h7, h8, bind, Except.bind]
    rfl
  constructor
  · intro ra ta q i
    simp only [o, cirFinish, step12, hs, Except.map, bind, Except.bind]
    by_cases he : c.enablePathloss = true
    · simp only [he, h9 he, if_true]
    · simp only [he, step12Gain]
      rfl
  · intro q
    simp only [o, cirFinish, hs, Except.map]

/-- C51. In downlink the receivers are the UTs and the transmitters the BSs, in uplink the reverse. The element with batch example `b`,
receiver, receiver antenna `ra`, transmitter, transmitter antenna `ta`, path `q` and time sample `k` is the coefficient of that path of
that link, at time `k/fs`, and the delays are those of its paths. -/
theorem C51_axes {n : ℕ} [NeZero B] [NeZero N] (c : Config) (always : Bool) (ut bs : PanelArray) (fs : ℝ) (s : ChanState B N U)
    (w : CirDraws B N U (n + 2)) (out : CirOut B N U (n + 6) ⊕ CirOut B U N (n + 6)) (hc : cirCall c always ut bs fs s w = .ok out) :
    ∃ i ri, callInputs always s w.lsp = .ok i ∧ rayInputs s.topo i = .ok ri ∧
    ∀ (b : Fin B) (m : Fin N) (u : Fin U) (r : LinkRays (n + 2)) (cd pl : ℝ), raysCall c ri w.rays b m u = .ok r →
      c.getReal .pcDS (i.los b m u) = .ok cd →
      (c.enablePathloss = true → ∃ PL, samplePathloss s.topo = .ok PL ∧ PL b m u = .ok pl) →
      let e := Spec.endsOf c i w.satDirection b m u
      let K := (i.lsp b m u).kFactor
      let gain := step12Gain c.enablePathloss c.enableShadowFading pl (i.lsp b m u).sf
      (c.direction = "downlink" → ∃ o, out = .inl o ∧
        let link := coeffCall ⟨c.carrierFrequency, bs, ut⟩ e.toUt K r (cd * 1e-9) (w.phase b m u)
        (∀ ra ta q k, o.h b u ra m ta q k = .ok (link.1 q ra ta (k / fs) * (gain : ℂ))) ∧ ∀ q, o.delays b u m q = .ok (link.2 q)) ∧
      (c.direction = "uplink" → ∃ o, out = .inr o ∧
        let link := coeffCall ⟨c.carrierFrequency, ut, bs⟩ e.toBs K (Spec.backwards r) (cd * 1e-9) (w.phase b u m)
        (∀ ra ta q k, o.h b m ra u ta q k = .ok (link.1 q ra ta (k / fs) * (gain : ℂ))) ∧ ∀ q, o.delays b m u q = .ok (link.2 q)) := by
  unfold cirCall at hc
  simp only [bind, Except.bind] at hc
  split at hc
  · cases hc
  rename_i i hi
  split at hc
  · cases hc
  rename_i ri hri
  by_cases hN : N = 1
  swap
  · rw [if_pos hN] at hc; cases hc
  rw [if_neg (not_not.2 hN)] at hc
  split at hc
  · cases hc
  rename_i PL hPL
  refine ⟨i, ri, hi, hri, ?_⟩
  intro b m u r cd pl hr hcd hpl e K gain
  have hpl' : c.enablePathloss = true → PL b m u = .ok pl := by
    intro he
    obtain ⟨PL', h1, h2⟩ := hpl he
    rw [stepPathloss, if_pos he, h1] at hPL
    cases hPL
    exact h2
  constructor
  · intro hd
    rw [if_neg (by rw [hd]; decide)] at hc
    cases hc
    refine ⟨_, rfl, ?_⟩
    have := cirFinish_spec c fs ⟨c.carrierFrequency, bs, ut⟩ (fun b n u => (i.lsp b n u).kFactor) (fun b n u => (i.lsp b n u).sf) PL
      (RaysT.ofLinks (raysCall c ri w.rays)) (topologyDown c i (i.bsLoc 0 0).z w.satDirection)
      (fun b n u => (c.getReal .pcDS (i.los b n u)).map (· * 1e-9)) w.phase b m u r (cd * 1e-9) pl
      (by simp only [RaysT.ofLinks, hr, Except.map]) (by simp only [RaysT.ofLinks, hr, Except.map])
      (by simp only [RaysT.ofLinks, hr, Except.map]) (by simp only [RaysT.ofLinks, hr, Except.map])
      (by simp only [RaysT.ofLinks, hr, Except.map]) (by simp only [RaysT.ofLinks, hr, Except.map])
      (by simp only [RaysT.ofLinks, hr, Except.map]) (by simp only [hcd, Except.map]) hpl'
    rw [topologyDown_link] at this
    exact this
  · intro hd
    rw [if_pos hd] at hc
    cases hc
    refine ⟨_, rfl, ?_⟩
    have := cirFinish_spec c fs ⟨c.carrierFrequency, ut, bs⟩ (swapAxes fun b n u => (i.lsp b n u).kFactor)
      (swapAxes fun b n u => (i.lsp b n u).sf) (swapAxes PL)
      (raysUp (RaysT.ofLinks (raysCall c ri w.rays))) (topologyUp c i (i.bsLoc 0 0).z w.satDirection)
      (swapAxes fun b n u => (c.getReal .pcDS (i.los b n u)).map (· * 1e-9)) w.phase b u m (Spec.backwards r) (cd * 1e-9) pl
      (by simp only [RaysT.ofLinks, raysUp, swapAxes, Spec.backwards, hr, Except.map])
      (by simp only [RaysT.ofLinks, raysUp, swapAxes, Spec.backwards, hr, Except.map])
      (by simp only [RaysT.ofLinks, raysUp, swapAxes, Spec.backwards, hr, Except.map])
      (by simp only [RaysT.ofLinks, raysUp, swapAxes, Spec.backwards, hr, Except.map])
      (by simp only [RaysT.ofLinks, raysUp, swapAxes, Spec.backwards, hr, Except.map])
      (by simp only [RaysT.ofLinks, raysUp, swapAxes, Spec.backwards, hr, Except.map])
      (by simp only [RaysT.ofLinks, raysUp, swapAxes, Spec.backwards, hr, Except.map])
      (by simp only [swapAxes, hcd, Except.map]) hpl'
    rw [topologyUp_link] at this
    exact this

/-- C50. The LoS coefficient from UT antenna `s` to BS antenna `v` in uplink is the one from BS antenna `v` to UT antenna `s` in downlink,
for links with the same ends: orientations, velocity, LoS angles, state, distance, satellite motion. -/
theorem C50_reciprocity (fc : ℝ) (ut bs : PanelArray) (e : Spec.Ends) (v s : ℕ) (t : ℝ) :
    losCoeff ⟨fc, ut, bs⟩ e.toBs v s t = losCoeff ⟨fc, bs, ut⟩ e.toUt s v t :=
  C50_reciprocal ⟨fc, ut, bs⟩ e.toBs v s t

end OpenNTN
