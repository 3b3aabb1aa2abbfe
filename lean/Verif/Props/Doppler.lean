import Verif.Props.Steering
import Verif.Props.Cir2

/-
The Doppler switch, and sampling in time.
-/
namespace OpenNTN

open Spec Classical

variable {B N U : ℕ} {cls : ScenarioClass} {sa : ScenarioArgs} {c : Config}

/-! ### C120: the Doppler switch -/

theorem doppler_latest [NeZero B] (h : mkScenario cls sa = .ok c) {log : List (TopoCall B N U)} {s : TopoState B N U} (r : TopoReach c log s) :
    s.doppler = (latest TopoCall.accepted (·.1.doppler) log).getD sa.dopplerEnabled := by
  induction r with
  | init => exact (mkScenario_built h).dop_eq
  | @call log s a d r ih =>
    have key : ∀ x : Option Bool, (match x with | some v => v | none => s.doppler) =
        (assign x (latest TopoCall.accepted (·.1.doppler) log)).getD sa.dopplerEnabled := by
      rintro (_ | x)
      · exact ih
      · rfl
    rcases setTopology_cases h s a d with ⟨-, e⟩ | ⟨-, -, e⟩ | ⟨-, -, b, -, -, e, -⟩
    · rw [e]
      have hn : ¬ TopoCall.accepted ((a, d, (.error .assertion : Except Err Bool)) : TopoCall B N U) := fun hh => hh rfl
      rw [latest_cons_not hn]
      exact ih
    · rw [e]
      have hn : TopoCall.accepted ((a, d, .ok false) : TopoCall B N U) := by simp [TopoCall.accepted]
      rw [latest_cons_counted hn]
      exact key a.doppler
    · have hn : TopoCall.accepted ((a, d, (setTopology c s a d).2) : TopoCall B N U) := e
      rw [latest_cons_counted hn, b.doppler]
      exact key a.doppler

theorem latest_none {C α : Type} {counted : C → Prop} [DecidablePred counted] {value : C → Option α} {log : List C} (h : ∀ e ∈ log, value e = none) :
    latest counted value log = none := by
  induction log with
  | nil => rfl
  | cons e log ih =>
    have := ih fun x hx => h x (List.mem_cons_of_mem _ hx)
    simp only [latest, h e List.mem_cons_self, this, ite_self]

/-- Splitting and sorting of the paths commutes with additive maps. -/
theorem reduceNlos_map {n : ℕ} {H K : Type} [AddCommMonoid H] [AddCommMonoid K] (f : H →+ K) (powers delays : Fin (n + 2) → ℝ)
    (h : Fin (n + 2) → Fin raysPerCluster → H) (cDs : ℝ) :
    reduceNlos powers delays (fun c m => f (h c m)) cDs = (fun q => f ((reduceNlos powers delays h cDs).1 q), (reduceNlos powers delays h cDs).2) := by
  unfold reduceNlos
  refine Prod.ext (funext fun q => ?_) rfl
  dsimp only
  split_ifs
  · rw [map_list_sum, List.map_map]; rfl
  · rw [map_list_sum, List.map_map]; rfl
  · rw [map_list_sum, List.map_map]; rfl
  · rw [map_sum]

/-- Multiplication of a coefficient by a function of time. -/
noncomputable def modulate (f : ℝ → ℂ) : Coeff →+ Coeff where
  toFun h := fun u s t => h u s t * f t
  map_zero' := by funext u s t; exact zero_mul _
  map_add' a b := by funext u s t; exact add_mul _ _ _

theorem cycles_add (x y : ℝ) : cycles (x + y) = cycles x * cycles y := by
  unfold cycles
  rw [← Complex.exp_add]
  congr 1
  push_cast
  ring

/-- C120. The switch in force is the one last passed to the scenario's `set_topology`, or else the one passed to the constructor; the channel model, whose
`set_topology` has no such argument, always uses the one of the constructor. Switched off, the satellite speed has no influence and the channel of
a resting UT does not change over time. Switched on, for satellites at 600 km and above, all paths between all antennas are shifted by
the same frequency, satellite speed over wavelength, and delays are unaffected. -/
theorem C120_doppler_switch [NeZero B] (h : mkScenario cls sa = .ok c) :
    (∀ (log : List (TopoCall B N U)) (s : TopoState B N U), TopoReach c log s →
      s.doppler = (latest TopoCall.accepted (·.1.doppler) log).getD sa.dopplerEnabled) ∧
    (∀ (always : Bool) (log : List (ChanEvent B N U)) (s : ChanState B N U), ChanReach c always log s → ∀ z i, callInputs always s z = .ok i →
      i.doppler = sa.dopplerEnabled) := by
  refine ⟨fun log s r => doppler_latest h r, fun always log s r z i hi => ?_⟩
  obtain ⟨tl, rt, ht, -⟩ := r.topo
  have e : i.doppler = s.topo.doppler := by
    unfold callInputs at hi
    split at hi
    · cases hi
    · split at hi
      · cases hi; rfl
      · cases hi
  rw [e, doppler_latest h rt, latest_none fun x hx => ?_]
  · rfl
  · obtain ⟨a, ha⟩ := ht x hx
    rw [ha]; rfl

/-- The coefficient at time `t`, at all times. -/
noncomputable def freeze (t : ℝ) : Coeff →+ Coeff where
  toFun h := fun u s _ => h u s t
  map_zero' := rfl
  map_add' _ _ := rfl

/-- A history of the scenario in which the second call switches the Doppler effect off. -/
example : ∃ (c : Config) (log : List (TopoCall 1 1 3)) (s : TopoState 1 1 3), mkScenario .urban (exArgs 2000000000 "uplink" 50) = .ok c ∧
    TopoReach c log s ∧ latest TopoCall.accepted (·.1.doppler) log = some false := by
  obtain ⟨c, hc⟩ := exConfig
  refine ⟨c, _, _, hc, TopoReach.call { doppler := some false } (exDraws 1 1 3) (TopoReach.call (exTopo 1 1 3) (exDraws 1 1 3) .init), ?_⟩
  have h1 : assertsHold (TopoState.init c : TopoState 1 1 3) (exTopo 1 1 3) = true := rfl
  rw [latest_cons_counted]
  · rfl
  · rcases setTopology_cases hc (TopoState.init c) (exTopo 1 1 3) (exDraws 1 1 3) with ⟨e, -⟩ | ⟨-, e, -⟩ | ⟨-, -, b, -⟩
    · rw [h1] at e; cases e
    · cases e
    · rcases setTopology_cases hc (setTopology c (TopoState.init c) (exTopo 1 1 3) (exDraws 1 1 3)).1 { doppler := some false } (exDraws 1 1 3) with
        ⟨e, -⟩ | ⟨-, -, e⟩ | ⟨-, e, -⟩
      · exfalso
        simp only [assertsHold, b.utLoc, b.bsLoc, b.utOri, b.bsOri, b.utVel, b.inState] at e
        cases e
      · simp [TopoCall.accepted, e]
      · cases e

theorem C120_switched_off {n : ℕ} (g : CoeffGen) (l : LinkTopo) (hl : l.doppler = false) (k : ℝ) (r : LinkRays (n + 2)) (cDs : ℝ)
    (phi : Fin (n + 2) → Fin raysPerCluster → Fin 4 → ℝ) :
    (∀ v, coeffCall g { l with satSpeed := v } k r cDs phi = coeffCall g l k r cDs phi) ∧
    (l.velocity = 0 → ∀ q u s t t', (coeffCall g l k r cDs phi).1 q u s t = (coeffCall g l k r cDs phi).1 q u s t') := by
  constructor
  · intro v
    have e : ∀ aoa zoa aod zod t, dopplerTerm g { l with satSpeed := v } aoa zoa aod zod t = dopplerTerm g l aoa zoa aod zod t := by
      intro aoa zoa aod zod t
      simp only [dopplerTerm, dopplerExponent, hl, Bool.false_eq_true, and_false, if_false]
    have e1 : nlosRay g { l with satSpeed := v } r phi = nlosRay g l r phi := by
      funext c m u s t
      simp only [nlosRay, e]
      rfl
    have e2 : losCoeff g { l with satSpeed := v } = losCoeff g l := by
      funext u s t
      simp only [losCoeff, e]
      rfl
    simp only [coeffCall, e1, e2]
  · intro hv q u s t t'
    have e : ∀ aoa zoa aod zod t, dopplerTerm g l aoa zoa aod zod t = 1 := by
      intro aoa zoa aod zod t
      simp [dopplerTerm, dopplerExponent, hl, hv]
    have e1 : (fun c m => freeze t' (nlosRay g l r phi c m)) = nlosRay g l r phi := by
      funext c m u s t
      change nlosRay g l r phi c m u s t' = nlosRay g l r phi c m u s t
      simp only [nlosRay, e]
    have e2 : losCoeff g l u s t = losCoeff g l u s t' := by simp only [losCoeff, e]
    have e3 : ∀ q, (reduceNlos r.powers r.delays (nlosRay g l r phi) cDs).1 q u s t = (reduceNlos r.powers r.delays (nlosRay g l r phi) cDs).1 q u s t' := by
      intro q
      have := reduceNlos_map (freeze t') r.powers r.delays (nlosRay g l r phi) cDs
      rw [e1] at this
      exact congrFun (congrFun (congrFun (congrFun (congrArg Prod.fst this) q) u) s) t
    simp only [coeffCall, combineLos]
    by_cases hq : q = 0
    · split_ifs <;> simp only [hq, if_true, e2, e3]
    · split_ifs <;> simp only [hq, if_false, e3]

theorem C120_common_shift {n : ℕ} (g : CoeffGen) (l : LinkTopo) (h6 : 600000 ≤ l.bsHeight) (hl : l.doppler = true) (k : ℝ) (r : LinkRays (n + 2))
    (cDs : ℝ) (phi : Fin (n + 2) → Fin raysPerCluster → Fin 4 → ℝ) :
    (∀ q u s t, (coeffCall g l k r cDs phi).1 q u s t =
      (coeffCall g { l with doppler := false } k r cDs phi).1 q u s t * cycles (l.satSpeed / (299792458 / g.fc) * t)) ∧
    (coeffCall g l k r cDs phi).2 = (coeffCall g { l with doppler := false } k r cDs phi).2 := by
  set f : ℝ → ℂ := fun t => cycles (l.satSpeed / (299792458 / g.fc) * t) with hf
  have e : ∀ aoa zoa aod zod t, dopplerTerm g l aoa zoa aod zod t = dopplerTerm g { l with doppler := false } aoa zoa aod zod t * f t := by
    intro aoa zoa aod zod t
    rw [dopplerTerm_cycles, dopplerTerm_cycles, hf, ← cycles_add]
    congr 1
    simp only [dopplerFrequency, hl, h6, and_self, if_true, Bool.false_eq_true, and_false, if_false]
    ring
  have e1 : nlosRay g l r phi = fun c m => modulate f (nlosRay g { l with doppler := false } r phi c m) := by
    funext c m u s t
    change _ = nlosRay g { l with doppler := false } r phi c m u s t * f t
    simp only [nlosRay, e]
    change _ = fieldMatrix g l _ _ _ _ (withFaraday g l _) u s * arrayOffset g l _ _ _ _ u s * _ * _ * _
    ring
  have e2 : ∀ u s t, losCoeff g l u s t = losCoeff g { l with doppler := false } u s t * f t := by
    intro u s t
    simp only [losCoeff, e]
    change _ = fieldMatrix g l _ _ _ _ (withFaraday g l _) u s * arrayOffset g l _ _ _ _ u s * _ * _ * _
    ring
  have e3 := reduceNlos_map (modulate f) r.powers r.delays (nlosRay g { l with doppler := false } r phi) cDs
  rw [← e1] at e3
  constructor
  · intro q u s t
    have e4 : ∀ q, (reduceNlos r.powers r.delays (nlosRay g l r phi) cDs).1 q u s t =
        (reduceNlos r.powers r.delays (nlosRay g { l with doppler := false } r phi) cDs).1 q u s t * f t := fun q =>
      congrFun (congrFun (congrFun (congrFun (congrArg Prod.fst e3) q) u) s) t
    change _ = _ * f t
    simp only [coeffCall, combineLos]
    by_cases hq : q = 0
    · split_ifs <;> simp only [hq, if_true, e2, e4]
      ring
    · split_ifs <;> simp only [hq, if_false, e4]
      ring
  · have := congrArg Prod.snd e3
    exact this

/-- A satellite link with the switch off and a resting UT. -/
example : ({ exSatLink 30 0 with doppler := false } : LinkTopo).doppler = false ∧ ({ exSatLink 30 0 with doppler := false } : LinkTopo).velocity = 0 :=
  ⟨rfl, rfl⟩

/-- A satellite link with the switch on. -/
example : 600000 ≤ (exSatLink 30 0).bsHeight ∧ (exSatLink 30 0).doppler = true ∧ (exSatLink 30 0).satSpeed ≠ 0 := by
  refine ⟨le_refl _, rfl, ?_⟩
  have h1 : 0 < Real.cos (30 * (Real.pi / 180)) := by
    apply Real.cos_pos_of_mem_Ioo
    constructor <;> linarith [Real.pi_pos]
  have h2 : 0 < satelliteSpeed 600000 := by unfold satelliteSpeed; positivity
  simp only [exSatLink, topologySatSpeed, Real.cos_zero, one_mul]
  exact (mul_pos h1 h2).ne'

/-! ### C121: sampling -/

/-- C121. Sampling `m` times as fast refines the time grid: every `m`-th sample is a sample of the slower rate, delays stay. The first sample does not
depend on the rate. -/
theorem C121_sampling {n : ℕ} [NeZero B] [NeZero N] (always : Bool) (ut bs : PanelArray) (fs : ℝ) (s : ChanState B N U) (w : CirDraws B N U (n + 2)) (m : ℕ)
    (hm : 0 < m) :
    (∀ o, cirCall c always ut bs fs s w = .ok (.inl o) → ∃ o', cirCall c always ut bs (m * fs) s w = .ok (.inl o') ∧ o'.delays = o.delays ∧
      ∀ b y ra x ta q k, o'.h b y ra x ta q (m * k) = o.h b y ra x ta q k) ∧
    (∀ o, cirCall c always ut bs fs s w = .ok (.inr o) → ∃ o', cirCall c always ut bs (m * fs) s w = .ok (.inr o') ∧ o'.delays = o.delays ∧
      ∀ b y ra x ta q k, o'.h b y ra x ta q (m * k) = o.h b y ra x ta q k) := by
  have hm' : (m : ℝ) ≠ 0 := by positivity
  have key : ∀ k : ℕ, ((m * k : ℕ) : ℝ) / (m * fs) = k / fs := fun k => by push_cast; exact mul_div_mul_left _ _ hm'
  have fin : ∀ {X Y : ℕ} (g : CoeffGen) (k sf : PerLink B X Y ℝ) (pl : PerLink B X Y (Except Err ℝ)) (r : RaysT B X Y (n + 2)) (t : TopologyT B X Y)
      (cDs : PerLink B X Y (Except Err ℝ)) (phi : Fin B → ℕ → ℕ → Fin (n + 2) → Fin raysPerCluster → Fin 4 → ℝ),
      (cirFinish c (m * fs) g k sf pl r t cDs phi).delays = (cirFinish c fs g k sf pl r t cDs phi).delays ∧
      ∀ b y ra x ta q i, (cirFinish c (m * fs) g k sf pl r t cDs phi).h b y ra x ta q (m * i) = (cirFinish c fs g k sf pl r t cDs phi).h b y ra x ta q i := by
    intro X Y g k sf pl r t cDs phi
    refine ⟨rfl, fun b y ra x ta q i => ?_⟩
    simp only [cirFinish, key]
  constructor
  all_goals
    intro o ho
    rcases h1 : callInputs always s w.lsp with e | i
    · simp [cirCall, h1, bind, Except.bind] at ho
    rcases h2 : rayInputs s.topo i with e | ri
    · simp [cirCall, h1, h2, bind, Except.bind] at ho
    by_cases hN : N = 1
    swap
    · simp [cirCall, h1, h2, bind, Except.bind, hN] at ho
    rcases h3 : stepPathloss c s.topo with e | pl
    · simp [cirCall, h1, h2, h3, bind, Except.bind, hN] at ho
    simp only [cirCall, h1, h2, h3, bind, Except.bind, hN, ne_eq, not_true_eq_false, if_false] at ho ⊢
    by_cases hd : c.direction = "uplink"
    · simp only [hd, if_true, Except.ok.injEq, Sum.inr.injEq, reduceCtorEq] at ho ⊢
      try (subst ho; exact ⟨_, rfl, fin _ _ _ _ _ _ _ _⟩)
    · simp only [hd, if_false, Except.ok.injEq, Sum.inl.injEq, reduceCtorEq] at ho ⊢
      try (subst ho; exact ⟨_, rfl, fin _ _ _ _ _ _ _ _⟩)

/-- A call that returns coefficients, for three UTs in uplink. -/
example (ut bs : PanelArray) (w : CirDraws 2 1 3 4) : ∃ (c : Config) (s : ChanState 2 1 3) (o : _),
    mkScenario .urban (exArgs 2000000000 "uplink" 50) = .ok c ∧ cirCall c false ut bs 1000 s w = .ok (.inr o) := by
  obtain ⟨c, hc⟩ := exConfig
  have r := ChanReach.topology (exChan 2 1 3) (exDraws 2 1 3) (exZ 2 1 3) (ChanReach.init (c := c) (always := false))
  rw [exChan_ok hc false 2 3] at r
  obtain ⟨i, out, indoor, -, h1, -, -, h2⟩ := C82_finite hc r (exChan_apart 2 1 3 _ _ _) ⟨_, List.mem_cons_self, trivial⟩ ut bs 1000 w
  obtain ⟨o, rfl, -⟩ := h2 rfl
  exact ⟨c, _, o, hc, h1⟩

end OpenNTN
