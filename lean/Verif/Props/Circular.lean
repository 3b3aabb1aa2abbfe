import Verif.Lemmas.Blocks
import Verif.Props.Statistics
import Verif.Props.Cir2

/-
C167: the random part of the path coefficients is circular, and paths and links are independent given the rays.
-/
namespace OpenNTN

open Classical MeasureTheory ProbabilityTheory

variable {B N U : ℕ}

/-- Value of a returned entry; an entry that is not a number counts as zero. -/
def Spec.entry (v : Except Err ℂ) : ℂ := v.toOption.getD 0

/-- Coefficients of the link between BS `m` and UT `u`, whatever the direction: by receiver antenna, transmitter antenna, path and time. -/
def Spec.linkOutput {P : ℕ} (out : CirOut B N U P ⊕ CirOut B U N P) (b : Fin B) (m : Fin N) (u : Fin U) (ra ta : ℕ) (q : Fin P) (k : ℕ) : ℂ :=
  match out with
  | .inl o => Spec.entry (o.h b u ra m ta q k)
  | .inr o => Spec.entry (o.h b m ra u ta q k)

/-- The phases drawn for the link between BS `m` and UT `u`: the transmitter comes first. -/
def Spec.linkPhase {M : ℕ} (c : Config) (w : CirDraws B N U M) (b : Fin B) (m : Fin N) (u : Fin U) : Fin M → Fin raysPerCluster → Fin 4 → ℝ :=
  if c.direction = "uplink" then w.phase b u m else w.phase b m u

theorem phasorSum_measurable {ι : Type} [Fintype ι] (a : ℂ) (w : ι → ℂ) :
    Measurable fun x : ι → ℝ => a + ∑ p, w p * Complex.exp ((x p : ℂ) * Complex.I) := by
  have : Continuous fun x : ι → ℝ => a + ∑ p, w p * Complex.exp ((x p : ℂ) * Complex.I) := by fun_prop
  exact this.measurable

/-- C167. Over independent uniform phases, given the rays: the random parts of the coefficients of a link, jointly over all paths, antennas and
times, have the same law when they are all turned by an angle. The coefficients of different paths are independent, as functions of antennas
and time. -/
theorem C167_link {n : ℕ} (g : CoeffGen) (l : LinkTopo) (k : ℝ) (r : LinkRays (n + 2)) (cDs : ℝ) :
    let h (x : Fin (n + 2) × Fin raysPerCluster × Fin 4 → ℝ) q u s t := (coeffCall g l k r cDs fun c m i => x (c, m, i)).1 q u s t
    let mean q u s t : ℂ := ∫ x, h x q u s t ∂(Measure.pi fun _ => uniformPhase)
    (∀ θ : ℝ, (Measure.pi fun _ => uniformPhase).map (fun x q u s t => Complex.exp ((θ : ℂ) * Complex.I) * (h x q u s t - mean q u s t)) =
      (Measure.pi fun _ => uniformPhase).map (fun x q u s t => h x q u s t - mean q u s t)) ∧
    iIndepFun (fun q x u s t => h x q u s t) (Measure.pi fun _ => uniformPhase) := by
  intro h mean
  obtain ⟨strong, path, h1, h2, h3, h4, h5⟩ := coeffCall_phasors g l k r cDs
  generalize hw : (fun (q : Fin (n + 6)) u s t (p : Fin (n + 2) × Fin raysPerCluster × Fin 4) =>
    rayWeight (r.xpr p.1 p.2.1) (fieldVector g.rx l.rxOri (r.zoa p.1 p.2.1) (r.aoa p.1 p.2.1) u)
          (Spec.faraday g.fc l.bsHeight (fieldVector g.tx l.txOri (r.zod p.1 p.2.1) (r.aod p.1 p.2.1) s))
          (arrayOffset g l (r.aoa p.1 p.2.1) (r.aod p.1 p.2.1) (r.zoa p.1 p.2.1) (r.zod p.1 p.2.1) u s *
            dopplerTerm g l (r.aoa p.1 p.2.1) (r.zoa p.1 p.2.1) (r.aod p.1 p.2.1) (r.zod p.1 p.2.1) t *
            ((Real.sqrt (r.powers p.1 / raysPerCluster) : ℝ) : ℂ)) p.2.2 * (if l.los = true then ((Real.sqrt (1 / (k + 1)) : ℝ) : ℂ) else 1)) = w
  have h6 : ∀ x q u s t, h x q u s t = (if l.los = true ∧ q = 0 then ((Real.sqrt (k / (k + 1)) : ℝ) : ℂ) * losCoeff g l u s t else 0) +
      ∑ p, (if path p.1 p.2.1 = q then w q u s t p else 0) * Complex.exp ((x p : ℂ) * Complex.I) := by
    intro x q u s t
    rw [← hw]
    exact h5 x q u s t
  generalize ha : (fun (q : Fin (n + 6)) (u s : ℕ) (t : ℝ) => (if l.los = true ∧ q = 0 then ((Real.sqrt (k / (k + 1)) : ℝ) : ℂ) * losCoeff g l u s t else 0)) = a'
  replace h6 : ∀ x q u s t, h x q u s t = a' q u s t +
      ∑ p, (if path p.1 p.2.1 = q then w q u s t p else 0) * Complex.exp ((x p : ℂ) * Complex.I) := by
    intro x q u s t
    rw [h6, ← ha]
  have hmean : mean = a' := by
    funext q u s t
    simp only [mean, h6, average_mean]
  constructor
  · intro θ
    let G : (Fin (n + 2) × Fin raysPerCluster × Fin 4 → ℂ) → Fin (n + 6) → ℕ → ℕ → ℝ → ℂ := fun z q u s t =>
      ∑ p, (if path p.1 p.2.1 = q then w q u s t p else 0) * z p
    have hG : Measurable G := by
      refine measurable_pi_lambda _ fun q => measurable_pi_lambda _ fun u => measurable_pi_lambda _ fun s => measurable_pi_lambda _ fun t => ?_
      exact (by fun_prop : Continuous fun z : Fin (n + 2) × Fin raysPerCluster × Fin 4 → ℂ =>
        ∑ p, (if path p.1 p.2.1 = q then w q u s t p else 0) * z p).measurable
    have e1 : (fun x q u s t => h x q u s t - mean q u s t) = G ∘ fun x p => Complex.exp ((x p : ℂ) * Complex.I) := by
      funext x q u s t
      simp only [hmean, h6, G, Function.comp_apply, add_sub_cancel_left]
    have e2 : (fun x q u s t => Complex.exp ((θ : ℂ) * Complex.I) * (h x q u s t - mean q u s t)) =
        G ∘ fun x p => Complex.exp ((θ : ℂ) * Complex.I) * Complex.exp ((x p : ℂ) * Complex.I) := by
      funext x q u s t
      simp only [hmean, h6, G, Function.comp_apply, add_sub_cancel_left, Finset.mul_sum]
      exact Finset.sum_congr rfl fun p _ => by ring
    have m1 : Measurable fun (x : Fin (n + 2) × Fin raysPerCluster × Fin 4 → ℝ) p => Complex.exp ((x p : ℂ) * Complex.I) :=
      (by fun_prop : Continuous _).measurable
    have m2 : Measurable fun (x : Fin (n + 2) × Fin raysPerCluster × Fin 4 → ℝ) p =>
        Complex.exp ((θ : ℂ) * Complex.I) * Complex.exp ((x p : ℂ) * Complex.I) := (by fun_prop : Continuous _).measurable
    rw [e1, e2, ← Measure.map_map hG m1, ← Measure.map_map hG m2, phasors_turn]
  · have hb := iIndepFun_blocks (P := Measure.pi fun _ : Fin (n + 2) × Fin raysPerCluster × Fin 4 => uniformPhase)
      (X := fun p x => x p) (fun p => measurable_pi_apply p) (iIndepFun_pi (X := fun _ => id) (fun _ => aemeasurable_id))
      (fun p => path p.1 p.2.1)
    let φ : ∀ q, ({p : Fin (n + 2) × Fin raysPerCluster × Fin 4 // path p.1 p.2.1 = q} → ℝ) → ℕ → ℕ → ℝ → ℂ := fun q y u s t =>
      a' q u s t + ∑ p, w q u s t p.1 * Complex.exp ((y p : ℂ) * Complex.I)
    have hφ : ∀ q, Measurable (φ q) := fun q =>
      measurable_pi_lambda _ fun u => measurable_pi_lambda _ fun s => measurable_pi_lambda _ fun t => phasorSum_measurable _ _
    have e : (fun q x u s t => h x q u s t) = fun q => φ q ∘ fun x (p : {p : Fin (n + 2) × Fin raysPerCluster × Fin 4 // path p.1 p.2.1 = q}) => x p := by
      funext q x u s t
      simp only [h6, φ, Function.comp_apply]
      congr 1
      simp only [ite_mul, zero_mul]
      rw [← Finset.sum_filter]
      exact Finset.sum_subtype _ (fun p => by simp) _
    rw [e]
    exact hb.comp φ hφ

theorem coeffCall_measurable {n : ℕ} (g : CoeffGen) (l : LinkTopo) (k : ℝ) (r : LinkRays (n + 2)) (cDs : ℝ) (q : Fin (n + 6)) (u s : ℕ) (t : ℝ) :
    Measurable fun x : Fin (n + 2) × Fin raysPerCluster × Fin 4 → ℝ => (coeffCall g l k r cDs fun c m i => x (c, m, i)).1 q u s t := by
  obtain ⟨strong, path, -, -, -, -, h5⟩ := coeffCall_phasors g l k r cDs
  simp only [h5]
  exact phasorSum_measurable _ _

/-- The coefficients of a link as a function of the phases of the link. -/
theorem cirFinish_link {B X Y n : ℕ} (c : Config) (fs : ℝ) (g : CoeffGen) (k sf : PerLink B X Y ℝ) (pl : PerLink B X Y (Except Err ℝ))
    (r : RaysT B X Y (n + 2)) (t : TopologyT B X Y) (cDs : PerLink B X Y (Except Err ℝ)) (b : Fin B) (x : Fin X) (y : Fin Y) :
    ∃ F : (Fin (n + 2) × Fin raysPerCluster × Fin 4 → ℝ) → ℕ → ℕ → Fin (n + 6) → ℕ → ℂ, Measurable F ∧
      ∀ phi ra ta q i, Spec.entry ((cirFinish c fs g k sf pl r t cDs phi).h b y ra x ta q i) = F (fun p => phi b x y p.1 p.2.1 p.2.2) ra ta q i := by
  by_cases H : ∃ lr : LinkRays (n + 2), ∃ cd p, r.delays b x y = .ok lr.delays ∧ r.powers b x y = .ok lr.powers ∧ r.aoa b x y = .ok lr.aoa ∧
    r.aod b x y = .ok lr.aod ∧ r.zoa b x y = .ok lr.zoa ∧ r.zod b x y = .ok lr.zod ∧ r.xpr b x y = .ok lr.xpr ∧ cDs b x y = .ok cd ∧
    (c.enablePathloss = true → pl b x y = .ok p)
  · obtain ⟨lr, cd, p, h1, h2, h3, h4, h5, h6, h7, h8, h9⟩ := H
    refine ⟨fun z ra ta q i => (coeffCall g (t.link b x y) (k b x y) lr cd fun c m i => z (c, m, i)).1 q ra ta (i / fs) *
      (step12Gain c.enablePathloss c.enableShadowFading p (sf b x y) : ℂ), ?_, ?_⟩
    · refine measurable_pi_lambda _ fun u => measurable_pi_lambda _ fun s => measurable_pi_lambda _ fun q => measurable_pi_lambda _ fun i => ?_
      exact (coeffCall_measurable g (t.link b x y) (k b x y) lr cd q u s (i / fs)).mul_const _
    · intro phi ra ta q i
      rw [(cirFinish_spec c fs g k sf pl r t cDs phi b x y lr cd p h1 h2 h3 h4 h5 h6 h7 h8 h9).1 ra ta q i]
      rfl
  · refine ⟨fun _ _ _ _ _ => 0, measurable_const, ?_⟩
    intro phi ra ta q i
    have he : ∃ e, (cirFinish c fs g k sf pl r t cDs phi).h b y ra x ta q i = .error e := by
      simp only [cirFinish, step12, cirSampler]
      rcases h1 : r.delays b x y with e | v1
      · exact ⟨e, rfl⟩
      rcases h2 : r.powers b x y with e | v2
      · exact ⟨e, rfl⟩
      rcases h3 : r.aoa b x y with e | v3
      · exact ⟨e, rfl⟩
      rcases h4 : r.aod b x y with e | v4
      · exact ⟨e, rfl⟩
      rcases h5 : r.zoa b x y with e | v5
      · exact ⟨e, rfl⟩
      rcases h6 : r.zod b x y with e | v6
      · exact ⟨e, rfl⟩
      rcases h7 : r.xpr b x y with e | v7
      · exact ⟨e, rfl⟩
      rcases h8 : cDs b x y with e | v8
      · exact ⟨e, rfl⟩
      by_cases hp : c.enablePathloss = true
      · rcases h9 : pl b x y with e | v9
        · refine ⟨e, ?_⟩
          simp only [hp, if_true]
          rfl
        · exact absurd ⟨⟨v1, v2, v3, v4, v5, v6, v7⟩, v8, v9, h1, h2, h3, h4, h5, h6, h7, h8, fun _ => h9⟩ H
      · exact absurd ⟨⟨v1, v2, v3, v4, v5, v6, v7⟩, v8, 0, h1, h2, h3, h4, h5, h6, h7, h8, fun h => absurd h hp⟩ H
    obtain ⟨e, he⟩ := he
    rw [he]
    rfl

/-- C167, continued: if the phases drawn in a call are independent, the coefficients of different links are independent, each as a function of
antennas, path and time. -/
theorem C167_links {n : ℕ} [NeZero B] [NeZero N] {Ω : Type*} [MeasurableSpace Ω] {P : Measure Ω} [IsProbabilityMeasure P] (c : Config)
    (always : Bool) (ut bs : PanelArray) (fs : ℝ) (s : ChanState B N U) (w : CirDraws B N U (n + 2)) (phase : Ω → Fin B → ℕ → ℕ → Fin (n + 2) →
    Fin raysPerCluster → Fin 4 → ℝ) (out : Ω → CirOut B N U (n + 6) ⊕ CirOut B U N (n + 6))
    (hc : ∀ ω, cirCall c always ut bs fs s { w with phase := phase ω } = .ok (out ω))
    (hm : ∀ b m u q r i, Measurable fun ω => Spec.linkPhase c { w with phase := phase ω } b m u q r i)
    (hi : iIndepFun (fun (k : (Fin B × Fin N × Fin U) × Fin (n + 2) × Fin raysPerCluster × Fin 4) ω =>
      Spec.linkPhase c { w with phase := phase ω } k.1.1 k.1.2.1 k.1.2.2 k.2.1 k.2.2.1 k.2.2.2) P) :
    iIndepFun (fun (l : Fin B × Fin N × Fin U) ω => Spec.linkOutput (out ω) l.1 l.2.1 l.2.2) P := by
  have hb := iIndepFun_blocks (fun k => hm _ _ _ _ _ _) hi (fun k => k.1)
  have key : ∀ l : Fin B × Fin N × Fin U, ∃ F : (Fin (n + 2) × Fin raysPerCluster × Fin 4 → ℝ) → ℕ → ℕ → Fin (n + 6) → ℕ → ℂ, Measurable F ∧
      ∀ ω, Spec.linkOutput (out ω) l.1 l.2.1 l.2.2 =
        F fun p => Spec.linkPhase c { w with phase := phase ω } l.1 l.2.1 l.2.2 p.1 p.2.1 p.2.2 := by
    rintro ⟨b, m, u⟩
    unfold cirCall at hc
    simp only [bind, Except.bind] at hc
    rcases h1 : callInputs always s w.lsp with e | i
    · refine ⟨fun _ _ _ _ _ => 0, measurable_const, fun ω => ?_⟩
      have := hc ω
      rw [h1] at this
      cases this
    simp only [h1] at hc
    rcases h2 : rayInputs s.topo i with e | ri
    · refine ⟨fun _ _ _ _ _ => 0, measurable_const, fun ω => ?_⟩
      have := hc ω
      rw [h2] at this
      cases this
    simp only [h2] at hc
    by_cases hN : N = 1
    swap
    · refine ⟨fun _ _ _ _ _ => 0, measurable_const, fun ω => ?_⟩
      have := hc ω
      rw [if_pos hN] at this
      cases this
    simp only [if_neg (not_not.2 hN)] at hc
    rcases h3 : stepPathloss c s.topo with e | PL
    · refine ⟨fun _ _ _ _ _ => 0, measurable_const, fun ω => ?_⟩
      have := hc ω
      rw [h3] at this
      cases this
    simp only [h3] at hc
    by_cases hd : c.direction = "uplink"
    · simp only [hd, if_true] at hc
      obtain ⟨F, hF, hE⟩ := cirFinish_link c fs ⟨c.carrierFrequency, ut, bs⟩ (swapAxes fun b n u => (i.lsp b n u).kFactor)
        (swapAxes fun b n u => (i.lsp b n u).sf) (swapAxes PL) (raysUp (RaysT.ofLinks (raysCall c ri w.rays)))
        (topologyUp c i (i.bsLoc 0 0).z w.satDirection) (swapAxes fun b n u => (c.getReal .pcDS (i.los b n u)).map (· * 1e-9)) b u m
      refine ⟨F, hF, fun ω => ?_⟩
      funext ra ta q t
      have := hc ω
      simp only [Except.ok.injEq] at this
      rw [← this]
      simp only [Spec.linkOutput, Spec.linkPhase, hd, if_true]
      exact hE _ ra ta q t
    · simp only [hd, if_false] at hc
      obtain ⟨F, hF, hE⟩ := cirFinish_link c fs ⟨c.carrierFrequency, bs, ut⟩ (fun b n u => (i.lsp b n u).kFactor)
        (fun b n u => (i.lsp b n u).sf) PL (RaysT.ofLinks (raysCall c ri w.rays))
        (topologyDown c i (i.bsLoc 0 0).z w.satDirection) (fun b n u => (c.getReal .pcDS (i.los b n u)).map (· * 1e-9)) b m u
      refine ⟨F, hF, fun ω => ?_⟩
      funext ra ta q t
      have := hc ω
      simp only [Except.ok.injEq] at this
      rw [← this]
      simp only [Spec.linkOutput, Spec.linkPhase, hd, if_false]
      exact hE _ ra ta q t
  choose F hF hE using key
  have e : (fun (l : Fin B × Fin N × Fin U) ω => Spec.linkOutput (out ω) l.1 l.2.1 l.2.2) = fun l =>
      (fun y : {k : (Fin B × Fin N × Fin U) × Fin (n + 2) × Fin raysPerCluster × Fin 4 // k.1 = l} → ℝ => F l fun p => y ⟨(l, p), rfl⟩) ∘
      fun ω k => Spec.linkPhase c { w with phase := phase ω } k.1.1.1 k.1.1.2.1 k.1.1.2.2 k.1.2.1 k.1.2.2.1 k.1.2.2.2 := by
    funext l ω
    exact hE l ω
  rw [e]
  exact hb.comp _ fun l => (hF l).comp (measurable_pi_lambda _ fun p => measurable_pi_apply _)

/-- Independent uniform phases for three UTs in uplink, with calls that return coefficients whatever is drawn. -/
example (ut bs : PanelArray) (w : CirDraws 2 1 3 4) : ∃ (c : Config) (s : ChanState 2 1 3)
    (phase : ((Fin 2 × Fin 1 × Fin 3) × Fin 4 × Fin raysPerCluster × Fin 4 → ℝ) → Fin 2 → ℕ → ℕ → Fin 4 → Fin raysPerCluster → Fin 4 → ℝ)
    (out : ((Fin 2 × Fin 1 × Fin 3) × Fin 4 × Fin raysPerCluster × Fin 4 → ℝ) → CirOut 2 1 3 8 ⊕ CirOut 2 3 1 8),
    (∀ ω, cirCall c false ut bs 1000 s { w with phase := phase ω } = .ok (out ω)) ∧
    (∀ b m u q r i, Measurable fun ω => Spec.linkPhase c { w with phase := phase ω } b m u q r i) ∧
    iIndepFun (fun (k : (Fin 2 × Fin 1 × Fin 3) × Fin 4 × Fin raysPerCluster × Fin 4) ω =>
      Spec.linkPhase c { w with phase := phase ω } k.1.1 k.1.2.1 k.1.2.2 k.2.1 k.2.2.1 k.2.2.2) (Measure.pi fun _ => uniformPhase) := by
  obtain ⟨c, hc⟩ := exConfig
  have r := ChanReach.topology (exChan 2 1 3) (exDraws 2 1 3) (exZ 2 1 3) (ChanReach.init (c := c) (always := false))
  rw [exChan_ok hc false 2 3] at r
  have hd : c.direction = "uplink" := (mkScenario_built hc).dir_eq
  have h1 : ∀ ω : (Fin 2 × Fin 1 × Fin 3) × Fin 4 × Fin raysPerCluster × Fin 4 → ℝ, ∃ out, cirCall c false ut bs 1000 _
      { w with phase := fun b j _ q m i => ω ((b, 0, Fin.ofNat 3 j), q, m, i) } = .ok out := fun ω => by
    obtain ⟨i, out, indoor, -, h1, -⟩ := C82_finite hc r (exChan_apart 2 1 3 _ _ _) ⟨_, List.mem_cons_self, trivial⟩ ut bs 1000
      { w with phase := fun b j _ q m i => ω ((b, 0, Fin.ofNat 3 j), q, m, i) }
    exact ⟨out, h1⟩
  choose out hout using h1
  refine ⟨c, _, _, out, hout, ?_, ?_⟩
  · intro b m u q r i
    simp only [Spec.linkPhase, hd, if_true]
    exact measurable_pi_apply _
  · have e : (fun (k : (Fin 2 × Fin 1 × Fin 3) × Fin 4 × Fin raysPerCluster × Fin 4) (ω : (Fin 2 × Fin 1 × Fin 3) × Fin 4 × Fin raysPerCluster × Fin 4 → ℝ) =>
        Spec.linkPhase c { w with phase := fun b j _ q m i => ω ((b, 0, Fin.ofNat 3 j), q, m, i) } k.1.1 k.1.2.1 k.1.2.2 k.2.1 k.2.2.1 k.2.2.2) =
        fun k ω => ω k := by
      funext k ω
      obtain ⟨⟨b, m, u⟩, q, r, i⟩ := k
      simp only [Spec.linkPhase, hd, if_true]
      have : m = 0 := Subsingleton.elim _ _
      subst this
      simp
    rw [e]
    exact iIndepFun_pi (X := fun _ => id) (fun _ => aemeasurable_id)

end OpenNTN
