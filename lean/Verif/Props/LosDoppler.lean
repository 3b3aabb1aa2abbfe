import Verif.Props.Scene
import Verif.Props.Steering
import Verif.Props.Power
import Verif.Spec.Cir

/-
C186 and C187: the directions from which the specular path and the rays of the first cluster arrive at the UT, and the Doppler shift that the movement
of the UT causes on the specular path.
-/
namespace OpenNTN

open Classical Spec

variable {B U : ℕ} [NeZero B] {cls : ScenarioClass} {sa : ScenarioArgs} {c : Config} {always : Bool} {log : List (ChanEvent B 1 U)} {s : ChanState B 1 U}

/-- The speed at which something at `p` with velocity `v` approaches `q`. -/
noncomputable def Spec.approach (p q v : Vec3) : ℝ :=
  ((q.x - p.x) * v.x + (q.y - p.y) * v.y + (q.z - p.z) * v.z) / Real.sqrt ((q.x - p.x) ^ 2 + (q.y - p.y) ^ 2 + (q.z - p.z) ^ 2)

/-- The rotation in time `t` of a carrier of frequency `fc` received by something that approaches the source with speed `v`. -/
noncomputable def Spec.shifted (fc v t : ℝ) : ℂ := Complex.exp (Complex.I * (2 * Real.pi * (fc / 299792458 * v) * t : ℝ))

/-- C186. In every scene the movement of a UT turns the coefficient of the specular path by the Doppler shift of the speed at which the UT approaches
the BS, downlink and uplink. -/
def C186_statement : Prop :=
  ∀ (B U : ℕ) [NeZero B] (cls : ScenarioClass) (sa : ScenarioArgs) (c : Config), mkScenario cls sa = .ok c →
  ∀ (always : Bool) (log : List (ChanEvent B 1 U)) (s : ChanState B 1 U), ChanReach c always log s → Apart log →
  ∀ P Q vel, latest ChanEvent.succeeded (ChanEvent.passed (·.utLoc)) log = some P →
    latest ChanEvent.succeeded (ChanEvent.passed (·.bsLoc)) log = some Q → latest ChanEvent.succeeded (ChanEvent.passed (·.utVel)) log = some vel →
  ∀ z i, callInputs always s z = .ok i → ∀ (ut bs : PanelArray) (dir : Fin B → ℝ) (b : Fin B) (u : Fin U), P b u ≠ Q b 0 → ∀ (j k : ℕ) (t : ℝ),
    let e := endsOf c i dir b 0 u
    let still := { e with utVel := 0 }
    let turn := shifted c.carrierFrequency (approach (P b u) (Q b 0) (vel b u)) t
    losCoeff ⟨c.carrierFrequency, bs, ut⟩ e.toUt j k t = losCoeff ⟨c.carrierFrequency, bs, ut⟩ still.toUt j k t * turn ∧
    losCoeff ⟨c.carrierFrequency, ut, bs⟩ e.toBs j k t = losCoeff ⟨c.carrierFrequency, ut, bs⟩ still.toBs j k t * turn

/-- The inputs of a generation belong to the positions and velocities passed last. -/
theorem scene_inputs (h : mkScenario cls sa = .ok c) (r : ChanReach c always log s) (hap : Apart log) {P : PerUt B U Vec3} {Q : PerBs B 1 Vec3}
    {vel : PerUt B U Vec3} (hP : latest ChanEvent.succeeded (ChanEvent.passed (·.utLoc)) log = some P)
    (hQ : latest ChanEvent.succeeded (ChanEvent.passed (·.bsLoc)) log = some Q)
    (hv : latest ChanEvent.succeeded (ChanEvent.passed (·.utVel)) log = some vel) {z : PerLink B 1 U (Fin 7 → ℝ)} {i : CallInputs B 1 U}
    (hi : callInputs always s z = .ok i) : (∀ b n u, i.angles b n u = losAngles (P b u) (Q b n)) ∧ i.utVel = vel ∧ i.bsLoc = Q := by
  obtain ⟨l1, l2, l3, l4, l5, l6, l7⟩ := channel_latest h r hap
  obtain ⟨tl, rt, -⟩ := r.topo
  have inp : s.topo.utVel = some i.utVel ∧ s.topo.bsLoc = some i.bsLoc ∧ s.topo.angles = some i.angles := by
    unfold callInputs at hi
    split at hi
    · cases hi
    · split at hi
      · rename_i h1 h2 h3 h4 h5 h6 h7 h8
        cases hi
        exact ⟨h5, h8, h3⟩
      · cases hi
  obtain ⟨w1, w2, w3⟩ := inp
  have hne : s.topo ≠ TopoState.init c := by intro e; rw [e] at w3; cases w3
  rcases fresh_invariant h rfl rt with ⟨-, e⟩ | ⟨_, ev, _, P', Q', indoor, -, -, -, -, q5, q6, q7, q8⟩
  · exact absurd e hne
  rw [l1, hP] at q5
  rw [l2, hQ] at q6 w2
  rw [l5, hv] at w1
  cases q5
  cases q6
  cases w1
  cases w2
  refine ⟨fun b n u => ?_, rfl, rfl⟩
  rw [q8.angles] at w3
  rw [← Option.some.inj w3]

theorem losCoeff_moving (g : CoeffGen) (l : LinkTopo) (x : ℝ)
    (hx : ∀ t, dopplerExponent g l l.losAoa l.losZoa l.losAod l.losZod t =
      dopplerExponent g { l with velocity := 0 } l.losAoa l.losZoa l.losAod l.losZod t + 2 * Real.pi * x * t) (j k : ℕ) (t : ℝ) :
    losCoeff g l j k t = losCoeff g { l with velocity := 0 } j k t * Complex.exp (Complex.I * (2 * Real.pi * x * t : ℝ)) := by
  have e : dopplerTerm g l l.losAoa l.losZoa l.losAod l.losZod t =
      dopplerTerm g { l with velocity := 0 } l.losAoa l.losZoa l.losAod l.losZod t * Complex.exp (Complex.I * (2 * Real.pi * x * t : ℝ)) := by
    unfold dopplerTerm
    rw [hx, ← Complex.exp_add]
    congr 1
    push_cast
    ring
  simp only [losCoeff]
  rw [e]
  have e1 : withFaraday g { l with velocity := 0 } losPhaseMatrix = withFaraday g l losPhaseMatrix := rfl
  have e2 : ∀ P, fieldMatrix g { l with velocity := 0 } l.losAoa l.losAod l.losZoa l.losZod P j k =
    fieldMatrix g l l.losAoa l.losAod l.losZoa l.losZod P j k := fun _ => rfl
  have e3 : arrayOffset g { l with velocity := 0 } l.losAoa l.losAod l.losZoa l.losZod j k =
    arrayOffset g l l.losAoa l.losAod l.losZoa l.losZod j k := rfl
  rw [e1, e2, e3]
  ring

/-- The arrival direction of the specular path, as it goes into the coefficients: from the UT to the BS with the horizontal part reversed. -/
theorem arrival_vector (p q : Vec3) (hpq : p ≠ q) :
    unitSphere ((losAngles p q).zoa * Real.pi / 180) ((losAngles p q).aoa * Real.pi / 180) =
      let r := Real.sqrt ((q.x - p.x) ^ 2 + (q.y - p.y) ^ 2 + (q.z - p.z) ^ 2)
      ![-(q.x - p.x) / r, -(q.y - p.y) / r, (q.z - p.z) / r] := by
  obtain ⟨⟨r, hr, he⟩, -⟩ := C24_arrival_direction_partial p q hpq
  have hn := direction_unit (losAngles p q).zoa (losAngles p q).aoa
  have hr' : r = Real.sqrt ((q.x - p.x) ^ 2 + (q.y - p.y) ^ 2 + (q.z - p.z) ^ 2) := by
    rw [he] at hn
    symm
    rw [Real.sqrt_eq_iff_mul_self_eq (by positivity) hr.le]
    dsimp only at hn
    field_simp at hn
    linarith
  dsimp only
  rw [← hr']
  have h1 := congrArg (fun v => v.1) he
  have h2 := congrArg (fun v => v.2.1) he
  have h3 := congrArg (fun v => v.2.2) he
  simp only [Spec.direction] at h1 h2 h3
  unfold unitSphere
  rw [h1, h2, h3]

/-- C186, what holds: the coefficient turns by the Doppler shift of the velocity whose horizontal part is reversed. So the shift is right exactly for
UTs that move at a right angle to the horizontal direction of the BS (in particular straight up or down), and has the wrong sign for every other horizontal
movement. Missing: the sign of the horizontal part, which is wrong in the code, see `C186_violated`. -/
theorem C186_partial (h : mkScenario cls sa = .ok c) (r : ChanReach c always log s) (hap : Apart log) {P : PerUt B U Vec3} {Q : PerBs B 1 Vec3}
    {vel : PerUt B U Vec3} (hP : latest ChanEvent.succeeded (ChanEvent.passed (·.utLoc)) log = some P)
    (hQ : latest ChanEvent.succeeded (ChanEvent.passed (·.bsLoc)) log = some Q)
    (hv : latest ChanEvent.succeeded (ChanEvent.passed (·.utVel)) log = some vel) {z : PerLink B 1 U (Fin 7 → ℝ)} {i : CallInputs B 1 U}
    (hi : callInputs always s z = .ok i) (ut bs : PanelArray) (dir : Fin B → ℝ) (b : Fin B) (u : Fin U) (hne : P b u ≠ Q b 0) :
    let e := endsOf c i dir b 0 u
    let still := { e with utVel := 0 }
    let v := vel b u
    let reversed := approach (P b u) (Q b 0) ⟨-v.x, -v.y, v.z⟩
    (∀ j k t, losCoeff ⟨c.carrierFrequency, bs, ut⟩ e.toUt j k t =
        losCoeff ⟨c.carrierFrequency, bs, ut⟩ still.toUt j k t * shifted c.carrierFrequency reversed t ∧
      losCoeff ⟨c.carrierFrequency, ut, bs⟩ e.toBs j k t =
        losCoeff ⟨c.carrierFrequency, ut, bs⟩ still.toBs j k t * shifted c.carrierFrequency reversed t) ∧
    (reversed = approach (P b u) (Q b 0) v ↔ ((Q b 0).x - (P b u).x) * v.x + ((Q b 0).y - (P b u).y) * v.y = 0) ∧
    (v.z = 0 → reversed = -approach (P b u) (Q b 0) v) := by
  intro e still v reversed
  obtain ⟨ha, hvel, -⟩ := scene_inputs h r hap hP hQ hv hi
  have hr : 0 < Real.sqrt (((Q b 0).x - (P b u).x) ^ 2 + ((Q b 0).y - (P b u).y) ^ 2 + ((Q b 0).z - (P b u).z) ^ 2) := range_pos hne.symm
  have hdot : ∑ k, unitSphere e.utZenith e.utAzimuth k * e.utVel k = reversed := by
    have h1 : e.utZenith = (losAngles (P b u) (Q b 0)).zoa * Real.pi / 180 := by simp only [e, endsOf, ha]
    have h2 : e.utAzimuth = (losAngles (P b u) (Q b 0)).aoa * Real.pi / 180 := by simp only [e, endsOf, ha]
    rw [h1, h2, arrival_vector _ _ hne]
    simp only [e, endsOf, hvel, Fin.sum_univ_three, Matrix.cons_val, reversed, approach, v]
    field_simp
  have hx : ∀ (g : CoeffGen) (l : LinkTopo), g.fc = c.carrierFrequency →
      ((if l.movingRx then unitSphere l.losZoa l.losAoa else unitSphere l.losZod l.losAod) = unitSphere e.utZenith e.utAzimuth) → l.velocity = e.utVel →
      ∀ j k t, losCoeff g l j k t = losCoeff g { l with velocity := 0 } j k t * shifted c.carrierFrequency reversed t := by
    intro g l hg hl hw j k t
    refine losCoeff_moving g l _ (fun t => ?_) j k t
    simp only [dopplerExponent, CoeffGen.lambda0, speedOfLight, hl, hw, hg, hdot, div_div_eq_mul_div]
    simp only [Pi.zero_apply, mul_zero, Finset.sum_const_zero, zero_mul]
    split_ifs <;> ring
  refine ⟨fun j k t => ⟨?_, ?_⟩, ?_, ?_⟩
  · exact hx ⟨c.carrierFrequency, bs, ut⟩ e.toUt rfl rfl rfl j k t
  · exact hx ⟨c.carrierFrequency, ut, bs⟩ e.toBs rfl rfl rfl j k t
  · simp only [reversed, approach]
    rw [div_left_inj' hr.ne']
    constructor <;> intro hh <;> linarith
  · intro hz
    simp only [reversed, approach, hz]
    ring

/-- A UT 800 km from the point below the satellite that moves towards it with 1 m/s. -/
noncomputable def exMove : ChanArgs 1 1 1 where
  utLoc := some fun _ _ => ⟨0, 0, 0⟩
  bsLoc := some fun _ _ => ⟨800000, 0, 600000⟩
  utOri := some fun _ _ => ⟨0, 0, 0⟩
  bsOri := some fun _ _ => ⟨0, 0, 0⟩
  utVel := some fun _ _ => ⟨1, 0, 0⟩
  inState := some fun _ _ => false

theorem exMove_scene (h : mkScenario cls sa = .ok c) : ∃ (log : List (ChanEvent 1 1 1)) (s : ChanState 1 1 1) (i : CallInputs 1 1 1),
    ChanReach c true log s ∧ Apart log ∧ latest ChanEvent.succeeded (ChanEvent.passed (·.utLoc)) log = some (fun _ _ => ⟨0, 0, 0⟩) ∧
    latest ChanEvent.succeeded (ChanEvent.passed (·.bsLoc)) log = some (fun _ _ => ⟨800000, 0, 600000⟩) ∧
    latest ChanEvent.succeeded (ChanEvent.passed (·.utVel)) log = some (fun _ _ => ⟨1, 0, 0⟩) ∧
    callInputs true s (exZ 1 1 1) = .ok i ∧ i.utOri = (fun _ _ => ⟨0, 0, 0⟩) ∧ i.bsOri = (fun _ _ => ⟨0, 0, 0⟩) := by
  have r := ChanReach.topology exMove (exDraws 1 1 1) (exZ 1 1 1) (ChanReach.init (c := c) (always := true))
  have ap : ∀ x, Apart [ChanEvent.topology exMove (exDraws 1 1 1) (exZ 1 1 1) x] := fun x a d z x ut hm hut b u v hx _ => Subsingleton.elim _ _
  have hok : (chanSetTopology c true (ChanState.init c) exMove (exDraws 1 1 1) (exZ 1 1 1)).2 = .ok () := by
    rcases (channel_ready h rfl r (ap _)).1 _ _ _ _ List.mem_cons_self with e | e
    · exact e
    · have := complete_call h exMove.toTopo (exDraws 1 1 1) (toTopo_physical _) rfl rfl
      rcases chanSet_cases (always := true) (s := ChanState.init c) h .init exMove (exDraws 1 1 1) (exZ 1 1 1) with
        ⟨_, e1, -⟩ | ⟨e1, -⟩ | ⟨-, -, los, indoor, ut, mean, std, near, F, hst, hF, hc⟩
      · change (setTopology c (TopoState.init c) _ _).2 = _ at e1
        rw [this] at e1; cases e1
      · change (setTopology c (TopoState.init c) _ _).2 = _ at e1
        rw [this] at e1; cases e1
      · rcases hc with ⟨G, hG, mask, -, e2⟩ | ⟨hG, e2⟩
        · rw [e2]
        · rw [e2] at e; cases e
  rw [hok] at r
  obtain ⟨i, hi⟩ := (C18_generation_possible_partial h rfl r (ap _) (exZ 1 1 1)).2 ⟨_, List.mem_cons_self, trivial⟩
  obtain ⟨P, Q, vel, uo, bo, indoor, -, -, -, h4, h5, -, H⟩ := C125_scene h r (ap _) ⟨_, List.mem_cons_self, trivial⟩
  obtain ⟨-, e1, e2, -⟩ := H _ i hi
  have hl : ∀ {α : Type} (f : ChanArgs 1 1 1 → Option α),
      latest ChanEvent.succeeded (ChanEvent.passed f) [ChanEvent.topology exMove (exDraws 1 1 1) (exZ 1 1 1) (.ok ())] = f exMove := by
    intro α f
    cases hf : f exMove <;> simp [latest, ChanEvent.passed, ChanEvent.succeeded, hf]
  rw [hl] at h4 h5
  refine ⟨_, _, i, r, ap _, hl _, hl _, hl _, hi, ?_, ?_⟩
  · rw [e1]; exact (Option.some.inj h4).symm
  · rw [e2]; exact (Option.some.inj h5).symm

/-- The field of a vertical dipole that is not turned is vertical. -/
theorem vertical_field {arr : PanelArray} (h1 : arr.polarization = "single") (h2 : arr.pol1 = ⟨.omni, 0⟩) (theta phi : ℝ) (u : ℕ) :
    fieldVector arr 0 theta phi u 1 = 0 ∧ fieldVector arr 0 theta phi u 0 ^ 2 = 1 := by
  have hs : Real.sin (computePsi 0 theta phi) = 0 := by
    simp only [computePsi, Pi.zero_apply, Real.sin_zero, Real.cos_zero, zero_mul, one_mul, sub_zero, zero_add, add_zero]
    rcases le_or_gt 0 (Real.sin theta) with h0 | h0
    · have : Complex.arg ⟨Real.sin theta, 0⟩ = 0 := Complex.arg_ofReal_of_nonneg h0
      rw [this, Real.sin_zero]
    · have : Complex.arg ⟨Real.sin theta, 0⟩ = Real.pi := Complex.arg_ofReal_of_neg h0
      rw [this, Real.sin_pi]
  have hc := Real.sin_sq_add_cos_sq (computePsi 0 theta phi)
  rw [hs] at hc
  simp only [fieldVector, h1, if_true, h2, l2gResponse, Element.field, Pattern.power, patternOmni, hs]
  simp only [Matrix.mulVec, dotProduct, Fin.sum_univ_two, Matrix.of_apply, Matrix.cons_val, Real.sin_zero, Real.cos_zero, Real.sqrt_one]
  constructor
  · ring
  · linear_combination hc

/-- The shift of a UT that moves towards the satellite has the wrong sign. -/
theorem C186_violated : ¬ C186_statement := by
  intro H
  obtain ⟨c, hc⟩ := exConfig
  obtain ⟨log, s, i, r, hap, hP, hQ, hv, hi, huo, hbo⟩ := exMove_scene hc
  obtain ⟨arr, -, -, -, hp, hpol⟩ := exAntenna_ok
  have hfc : c.carrierFrequency = 2000000000 := (mkScenario_built hc).fc_eq
  have hne : (⟨0, 0, 0⟩ : Vec3) ≠ ⟨800000, 0, 600000⟩ := by intro h; have := congrArg Vec3.x h; norm_num at this
  let t : ℝ := 299792458 / (4 * (2000000000 * (4 / 5)))
  have h1 := (H 1 1 _ _ c hc true log s r hap _ _ _ hP hQ hv _ i hi arr arr (fun _ => 0) 0 0 hne 0 0 t).1
  have h2 := ((C186_partial hc r hap hP hQ hv hi arr arr (fun _ => 0) 0 0 hne).1 0 0 t).1
  have hr : Real.sqrt ((800000 - 0 : ℝ) ^ 2 + (0 - 0) ^ 2 + (600000 - 0) ^ 2) = 1000000 := by
    rw [show (800000 - 0 : ℝ) ^ 2 + (0 - 0) ^ 2 + (600000 - 0) ^ 2 = 1000000 ^ 2 by norm_num]
    exact Real.sqrt_sq (by norm_num)
  have hz : losCoeff ⟨c.carrierFrequency, arr, arr⟩ ({ endsOf c i (fun _ => 0) 0 0 0 with utVel := 0 } : Spec.Ends).toUt 0 0 t ≠ 0 := by
    intro h0
    have hpow := losCoeff_power ⟨c.carrierFrequency, arr, arr⟩ ({ endsOf c i (fun _ => 0) 0 0 0 with utVel := 0 } : Spec.Ends).toUt 0 0 t
    rw [h0] at hpow
    have o1 : (endsOf c i (fun _ => 0) 0 0 0).utOri = 0 := by
      simp only [endsOf, huo]
      funext k; fin_cases k <;> rfl
    have o2 : (endsOf c i (fun _ => 0) 0 0 0).bsOri = 0 := by
      simp only [endsOf, hbo]
      funext k; fin_cases k <;> rfl
    simp only [Ends.toUt, o1, o2] at hpow
    generalize (endsOf c i (fun _ => 0) 0 0 0).utZenith = a1 at hpow
    generalize (endsOf c i (fun _ => 0) 0 0 0).utAzimuth = a2 at hpow
    generalize (endsOf c i (fun _ => 0) 0 0 0).bsZenith = a3 at hpow
    generalize (endsOf c i (fun _ => 0) 0 0 0).bsAzimuth = a4 at hpow
    obtain ⟨f1, f2⟩ := vertical_field hp hpol a1 a2 0
    obtain ⟨f3, f4⟩ := vertical_field hp hpol a3 a4 0
    have hcos : 0 < Real.cos (108 * (1e9 / c.carrierFrequency) ^ 2 / 180 * Real.pi) := by
      rw [hfc]
      have := Real.pi_pos
      exact Real.cos_pos_of_mem_Ioo ⟨by norm_num; nlinarith, by norm_num; nlinarith⟩
    simp only [Spec.faraday] at hpow
    split at hpow
    · rw [f1, f3] at hpow
      have : fieldVector arr 0 a1 a2 0 0 ^ 2 * fieldVector arr 0 a3 a4 0 0 ^ 2 = 0 := by
        rw [norm_zero] at hpow; linear_combination -hpow
      rw [f2, f4] at this; norm_num at this
    · simp only [Matrix.cons_val] at hpow
      rw [f1, f3] at hpow
      have : fieldVector arr 0 a1 a2 0 0 ^ 2 * fieldVector arr 0 a3 a4 0 0 ^ 2 * Real.cos (108 * (1e9 / c.carrierFrequency) ^ 2 / 180 * Real.pi) ^ 2 = 0 := by
        rw [norm_zero] at hpow; linear_combination -hpow
      rw [f2, f4] at this
      have := pow_pos hcos 2
      linarith
  rw [h1] at h2
  have h3 := mul_left_cancel₀ hz h2
  have e1 : (2 * Real.pi * (2000000000 / 299792458 * (((800000 - 0) * 1 + (0 - 0) * 0 + (600000 - 0) * 0) / 1000000)) * t : ℝ) = Real.pi / 2 := by
    simp only [t]; ring
  have e2 : (2 * Real.pi * (2000000000 / 299792458 * (((800000 - 0) * -1 + (0 - 0) * -0 + (600000 - 0) * 0) / 1000000)) * t : ℝ) = -(Real.pi / 2) := by
    simp only [t]; ring
  simp only [shifted, approach, hr, hfc] at h3
  rw [e1, e2] at h3
  have h4 := congrArg Complex.im h3
  rw [mul_comm, mul_comm Complex.I, Complex.exp_ofReal_mul_I_im, Complex.exp_ofReal_mul_I_im, Real.sin_neg, Real.sin_pi_div_two] at h4
  norm_num at h4

/-- Hypotheses of C186 can be met, by a UT whose shift is reversed. -/
example : ∃ (c : Config) (log : List (ChanEvent 1 1 1)) (s : ChanState 1 1 1) (i : CallInputs 1 1 1) (P : PerUt 1 1 Vec3) (Q : PerBs 1 1 Vec3)
    (vel : PerUt 1 1 Vec3), mkScenario .urban (exArgs 2000000000 "uplink" 50) = .ok c ∧ ChanReach c true log s ∧ Apart log ∧
    latest ChanEvent.succeeded (ChanEvent.passed (·.utLoc)) log = some P ∧ latest ChanEvent.succeeded (ChanEvent.passed (·.bsLoc)) log = some Q ∧
    latest ChanEvent.succeeded (ChanEvent.passed (·.utVel)) log = some vel ∧ callInputs true s (exZ 1 1 1) = .ok i ∧ P 0 0 ≠ Q 0 0 ∧
    ((Q 0 0).x - (P 0 0).x) * (vel 0 0).x + ((Q 0 0).y - (P 0 0).y) * (vel 0 0).y ≠ 0 := by
  obtain ⟨c, hc⟩ := exConfig
  obtain ⟨log, s, i, r, hap, hP, hQ, hv, hi, -⟩ := exMove_scene hc
  refine ⟨c, log, s, i, _, _, _, hc, r, hap, hP, hQ, hv, hi, ?_, by norm_num⟩
  intro h; have := congrArg Vec3.x h; norm_num at this

/-! ### C187 -/

/-- Two unit vectors whose azimuths differ by at most `a` and whose zenith angles differ by at most `z` (radian): their inner product is at least
`cos δ + cos ε - 1` for such differences. -/
def Spec.Within (v w : Fin 3 → ℝ) (a z : ℝ) : Prop := ∃ δ ε : ℝ, |δ| ≤ a ∧ |ε| ≤ z ∧ Real.cos δ + Real.cos ε - 1 ≤ v ⬝ᵥ w

/-- C187. In LoS outdoors the specular path and the rays of the first cluster leave the BS and arrive at the UT in the same direction, up to the largest ray
offset (2.1551) times the spreads within a cluster. -/
def C187_statement : Prop :=
  ∀ (B N U M : ℕ) [NeZero B] [NeZero N] [NeZero M] (cls : ScenarioClass) (sa : ScenarioArgs) (c : Config), mkScenario cls sa = .ok c →
  ∀ (i : RayInputs B N U) (w : RayDraws B N U M) (b : Fin B) (n : Fin N) (u : Fin U) (L : LinkRays M) (p q : Vec3), raysCall c i w b n u = .ok L →
    i.los b n u = true → i.indoor b u = false → p ≠ q → i.angles b n u = losAngles p q →
    ∃ caa cad cza, c.getReal .pcASA true = .ok caa ∧ c.getReal .pcASD true = .ok cad ∧ c.getReal .pcZSA true = .ok cza ∧ ∀ r,
      Within (sphereDirection (L.zod 0 r) (L.aod 0 r)) (sphereDirection ((i.angles b n u).zod * Real.pi / 180) ((i.angles b n u).aod * Real.pi / 180))
        (2.1551 * cad * Real.pi / 180) (2.1551 * (3 / 8 * pow10X (i.meanZsd b n u)) * Real.pi / 180) ∧
      Within (sphereDirection (L.zoa 0 r) (L.aoa 0 r)) (sphereDirection ((i.angles b n u).zoa * Real.pi / 180) ((i.angles b n u).aoa * Real.pi / 180))
        (2.1551 * caa * Real.pi / 180) (2.1551 * cza * Real.pi / 180)

theorem ray_close {θ ε a δ : ℝ} (h0 : 0 ≤ a) (h1 : a ≤ Real.pi) (hc : Real.cos a = Real.cos (θ + ε)) :
    Real.cos δ + Real.cos ε - 1 ≤ Real.cos a * Real.cos θ + Real.sin a * |Real.sin θ| * Real.cos δ := by
  have hs : Real.sin a = |Real.sin (θ + ε)| := by
    rw [← abs_of_nonneg (Real.sin_nonneg_of_nonneg_of_le_pi h0 h1)]
    apply (sq_eq_sq_iff_abs_eq_abs _ _).1
    rw [Real.sin_sq, Real.sin_sq, hc]
  have e : Real.cos ε = Real.cos (θ + ε) * Real.cos θ + Real.sin (θ + ε) * Real.sin θ := by
    rw [← Real.cos_sub]; congr 1; ring
  have hq : Real.sin (θ + ε) * Real.sin θ ≤ |Real.sin (θ + ε)| * |Real.sin θ| := by rw [← abs_mul]; exact le_abs_self _
  have hq1 : |Real.sin (θ + ε)| * |Real.sin θ| ≤ 1 := by
    have := mul_le_mul (Real.abs_sin_le_one (θ + ε)) (Real.abs_sin_le_one θ) (abs_nonneg _) zero_le_one
    linarith
  have hq0 : 0 ≤ |Real.sin (θ + ε)| * |Real.sin θ| := by positivity
  rw [hs, hc, e]
  nlinarith [Real.cos_le_one δ]

theorem offset_le (k : Fin raysPerCluster) : |rayOffsets k| ≤ 2.1551 := by
  fin_cases k <;> simp [rayOffsets, abs_le] <;> norm_num

theorem rays_within {za aa : Fin raysPerCluster → ℝ} {zc ac zs as : ℝ} (hz : 0 ≤ zs) (ha : 0 ≤ as) (hZ : ZenithRays za zc zs rayOffsets)
    (hA : AzimuthRays aa ac as rayOffsets) (r : Fin raysPerCluster) (v : Fin 3 → ℝ)
    (hv : v = ![|Real.sin (zc * Real.pi / 180)| * Real.cos (ac * Real.pi / 180), |Real.sin (zc * Real.pi / 180)| * Real.sin (ac * Real.pi / 180),
      Real.cos (zc * Real.pi / 180)]) :
    Within (sphereDirection (za r) (aa r)) v (2.1551 * as * Real.pi / 180) (2.1551 * zs * Real.pi / 180) := by
  obtain ⟨σ, hσ⟩ := hZ
  obtain ⟨τ, hτ⟩ := hA
  obtain ⟨h0, h1, hc⟩ := hσ r
  obtain ⟨-, -, m, hm⟩ := hτ r
  have hpi := Real.pi_pos
  have bound : ∀ {x : ℝ} (k : Fin raysPerCluster), 0 ≤ x → |x * rayOffsets k * (Real.pi / 180)| ≤ 2.1551 * x * Real.pi / 180 := by
    intro x k hx
    rw [abs_mul, abs_mul, abs_of_nonneg hx, abs_of_pos (by positivity : 0 < Real.pi / 180)]
    have := mul_le_mul_of_nonneg_left (offset_le k) (by positivity : 0 ≤ x * (Real.pi / 180))
    linarith
  refine ⟨as * rayOffsets (τ r) * (Real.pi / 180), zs * rayOffsets (σ r) * (Real.pi / 180), bound _ ha, bound _ hz, ?_⟩
  have hc' : Real.cos (za r) = Real.cos (zc * Real.pi / 180 + zs * rayOffsets (σ r) * (Real.pi / 180)) := by rw [hc]; congr 1; ring
  refine (ray_close h0 h1 hc').trans (le_of_eq ?_)
  have e : Real.cos (as * rayOffsets (τ r) * (Real.pi / 180)) =
      Real.cos (aa r) * Real.cos (ac * Real.pi / 180) + Real.sin (aa r) * Real.sin (ac * Real.pi / 180) := by
    rw [← Real.cos_sub, hm, show (ac + as * rayOffsets (τ r)) * (Real.pi / 180) + m * (2 * Real.pi) - ac * Real.pi / 180 =
      as * rayOffsets (τ r) * (Real.pi / 180) + m * (2 * Real.pi) by ring, Real.cos_add_int_mul_two_pi]
  rw [hv, e]
  simp only [sphereDirection, dotProduct, Fin.sum_univ_three, Matrix.cons_val]
  ring

section
variable {B N U M : ℕ} [NeZero B] [NeZero N] [NeZero M]

/-- C187, what holds: departure, and that the rays arrive from the direction of the BS up to the offsets. The specular path arrives from that direction with the
horizontal part reversed (C24). Missing: that these are the same, see `C187_violated`. -/
theorem C187_partial (hcf : mkScenario cls sa = .ok c) {i : RayInputs B N U} {w : RayDraws B N U M} {b : Fin B} {n : Fin N} {u : Fin U} {L : LinkRays M} {p q : Vec3}
    (h : raysCall c i w b n u = .ok L) (hlos : i.los b n u = true) (hin : i.indoor b u = false) (hpq : p ≠ q) (hang : i.angles b n u = losAngles p q) :
    let d := Real.sqrt ((q.x - p.x) ^ 2 + (q.y - p.y) ^ 2 + (q.z - p.z) ^ 2)
    sphereDirection ((i.angles b n u).zod * Real.pi / 180) ((i.angles b n u).aod * Real.pi / 180) =
      ![(p.x - q.x) / d, (p.y - q.y) / d, (p.z - q.z) / d] ∧
    sphereDirection ((i.angles b n u).zoa * Real.pi / 180) ((i.angles b n u).aoa * Real.pi / 180) =
      ![-(q.x - p.x) / d, -(q.y - p.y) / d, (q.z - p.z) / d] ∧
    ∃ caa cad cza, c.getReal .pcASA true = .ok caa ∧ c.getReal .pcASD true = .ok cad ∧ c.getReal .pcZSA true = .ok cza ∧ ∀ r,
      Within (sphereDirection (L.zod 0 r) (L.aod 0 r)) ![(p.x - q.x) / d, (p.y - q.y) / d, (p.z - q.z) / d]
        (2.1551 * cad * Real.pi / 180) (2.1551 * (3 / 8 * pow10X (i.meanZsd b n u)) * Real.pi / 180) ∧
      Within (sphereDirection (L.zoa 0 r) (L.aoa 0 r)) ![(q.x - p.x) / d, (q.y - p.y) / d, (q.z - p.z) / d]
        (2.1551 * caa * Real.pi / 180) (2.1551 * cza * Real.pi / 180) := by
  intro d
  have hd : 0 < d := range_pos hpq.symm
  have harr := arrival_vector p q hpq
  have hdep : sphereDirection ((i.angles b n u).zod * Real.pi / 180) ((i.angles b n u).aod * Real.pi / 180) =
      ![(p.x - q.x) / d, (p.y - q.y) / d, (p.z - q.z) / d] := by
    obtain ⟨h1, h2, h3⟩ := los_departure p q
    have hd' : Real.sqrt ((p.x - q.x) ^ 2 + (p.y - q.y) ^ 2 + (p.z - q.z) ^ 2) = d := by
      simp only [d]; congr 1; ring
    rw [hd'] at h1 h2 h3
    simp only [Spec.direction] at h1 h2 h3
    rw [hang]
    unfold sphereDirection
    rw [← h1, ← h2, ← h3]
    simp only [mul_div_cancel_left₀ _ hd.ne']
  have harr' : sphereDirection ((i.angles b n u).zoa * Real.pi / 180) ((i.angles b n u).aoa * Real.pi / 180) =
      ![-(q.x - p.x) / d, -(q.y - p.y) / d, (q.z - p.z) / d] := by rw [hang]; exact harr
  refine ⟨hdep, harr', ?_⟩
  obtain ⟨caa, cad, cza, f1, f2, f3, r1, r2, r3, r4⟩ := C36_first_cluster h hlos hin
  have hc := ((C04_admissible_values hcf).2.2.2.2 true).2.2.2.1
  have nn : ∀ {pp : Param} {x : ℝ}, pp ∈ [Param.psigmaDS, .psigmaASD, .psigmaASA, .psigmaSF, .psigmaK, .psigmaZSA, .psigmaZSD, .psigmaXPR,
          .pcASD, .pcASA, .pcZSA, .pcDS] → c.getReal pp true = .ok x → 0 ≤ x := by
    intro pp x hp hx
    obtain ⟨y, hy, h0⟩ := hc pp hp
    rw [hy] at hx; cases hx; exact h0
  have hpi := Real.pi_pos
  have rng := (C23_departure_direction p q).2.1
  have zsin : 0 ≤ Real.sin ((i.angles b n u).zod * Real.pi / 180) := by
    rw [hang]
    have h1 := (rng (losAngles p q).zod (by simp)).1
    have h2 := (C23_departure_direction p q).2.2
    refine Real.sin_nonneg_of_nonneg_of_le_pi (by positivity) ?_
    rw [div_le_iff₀ (by norm_num)]
    nlinarith
  have zsin' : Real.sin ((i.angles b n u).zoa * Real.pi / 180) = -Real.sin ((i.angles b n u).zod * Real.pi / 180) := by
    rw [hang]
    simp only [losAngles, wrap_sin, Real.sin_sub_pi]
  refine ⟨caa, cad, cza, f1, f2, f3, fun r => ⟨?_, ?_⟩⟩
  · refine rays_within ?_ (nn (by simp) f2) r4 r2 r _ ?_
    · have : 0 ≤ pow10X (i.meanZsd b n u) := by
        unfold pow10X pow10
        split <;> positivity
      positivity
    · rw [← hdep, abs_of_nonneg zsin]; rfl
  · refine rays_within (nn (by simp) f3) (nn (by simp) f1) r3 r1 r _ ?_
    have e : |Real.sin ((i.angles b n u).zoa * Real.pi / 180)| = -Real.sin ((i.angles b n u).zoa * Real.pi / 180) := by
      rw [zsin', abs_neg, neg_neg, abs_of_nonneg zsin]
    rw [e]
    unfold sphereDirection at harr'
    have g1 := congrFun harr' 0
    have g2 := congrFun harr' 1
    have g3 := congrFun harr' 2
    simp only [Matrix.cons_val] at g1 g2 g3
    rw [neg_mul, neg_mul, g1, g2, g3]
    simp only [neg_div, neg_neg]

end

theorem spread_cells : (Param.pcASA :: [.pcZSA]).all (fun p => tableAll fun cl l s u k => cellIs (fun n => !l || decide (n ≤ 27800)) (lookupAt (tableOf cl l s u) p k)) = true := by
  decide +kernel

/-- With UT and BS at the same height the specular path arrives from the direction opposite to the BS, the rays of the first cluster arrive from the BS. -/
theorem C187_violated : ¬ C187_statement := by
  intro H
  obtain ⟨c, hc⟩ := exConfig
  let p : Vec3 := ⟨0, 0, 0⟩
  let q : Vec3 := ⟨1, 0, 0⟩
  let i : RayInputs 1 1 1 := { exRay 1 true (fun _ => 600000) with angles := fun _ _ _ => losAngles p q }
  obtain ⟨L, hL⟩ : ∃ L, raysCall c i (exRayDraws 1 3) 0 0 0 = .ok L :=
    raysCall_defined hc i (exRayDraws 1 3) 0 0 0 2 (by norm_num) (fun _ => rfl) (by norm_num [i, exRay]) (by norm_num [i, exRay])
      (fun _ => by simp [i, exRay, log10])
  have hpq : p ≠ q := by intro h; have := congrArg Vec3.x h; norm_num [p, q] at this
  obtain ⟨caa, cad, cza, f1, f2, f3, h1⟩ := H 1 1 1 3 _ _ c hc i (exRayDraws 1 3) 0 0 0 L p q hL rfl rfl hpq rfl
  obtain ⟨-, e, caa', cad', cza', f1', f2', f3', h2⟩ := C187_partial hc hL rfl rfl hpq rfl
  rw [f1] at f1'; rw [f2] at f2'; rw [f3] at f3'
  cases f1'; cases f2'; cases f3'
  have hb : ∀ {pp : Param} {x : ℝ}, pp ∈ (Param.pcASA :: [.pcZSA]) → c.getReal pp true = .ok x → x ≤ 27.8 := by
    intro pp x hp hx
    obtain ⟨_, _, _, hn, e⟩ := getReal_table hc pp (fun _ l _ _ n => !l || decide (n ≤ 27800)) (List.all_eq_true.1 spread_cells pp hp) true
    rw [e] at hx
    cases hx
    have := of_decide_eq_true hn
    rw [div_le_iff₀ (by norm_num)]
    norm_num
    exact_mod_cast this
  have b1 := hb (by simp) f1
  have b2 := hb (by simp) f3
  obtain ⟨δ, ε, hδ, hε, g1⟩ := (h1 0).2
  obtain ⟨δ', ε', hδ', hε', g2⟩ := (h2 0).2
  have hcos : ∀ {x y : ℝ}, y ≤ 27.8 → |x| ≤ 2.1551 * y * Real.pi / 180 → 1 / 2 < Real.cos x := by
    intro x y hy hx
    have hpi := Real.pi_pos
    rw [← Real.cos_abs, ← Real.cos_pi_div_three]
    refine Real.cos_lt_cos_of_nonneg_of_le_pi_div_two (abs_nonneg _) (by linarith) ?_
    nlinarith
  have c1 := hcos b1 hδ
  have c2 := hcos b2 hε
  have c3 := hcos b1 hδ'
  have c4 := hcos b2 hε'
  rw [e] at g1
  simp only [dotProduct, Fin.sum_univ_three, Matrix.cons_val, p, q] at g1 g2
  norm_num at g1 g2
  linarith

/-- Hypotheses of C187 can be met, with a satellite 30 km to the side. -/
example : ∃ (c : Config) (i : RayInputs 1 1 1) (L : LinkRays 3), mkScenario .urban (exArgs 2000000000 "uplink" 50) = .ok c ∧
    raysCall c i (exRayDraws 1 3) 0 0 0 = .ok L ∧ i.los 0 0 0 = true ∧ i.indoor 0 0 = false ∧
    (⟨0, 0, 1.5⟩ : Vec3) ≠ ⟨30000, 0, 600000⟩ ∧ i.angles 0 0 0 = losAngles ⟨0, 0, 1.5⟩ ⟨30000, 0, 600000⟩ := by
  obtain ⟨c, hc⟩ := exConfig
  let i : RayInputs 1 1 1 := { exRay 1 true (fun _ => 600000) with angles := fun _ _ _ => losAngles ⟨0, 0, 1.5⟩ ⟨30000, 0, 600000⟩ }
  obtain ⟨L, hL⟩ : ∃ L, raysCall c i (exRayDraws 1 3) 0 0 0 = .ok L :=
    raysCall_defined hc i (exRayDraws 1 3) 0 0 0 2 (by norm_num) (fun _ => rfl) (by norm_num [i, exRay]) (by norm_num [i, exRay])
      (fun _ => by simp [i, exRay, log10])
  refine ⟨c, i, L, hc, hL, rfl, rfl, ?_, rfl⟩
  intro h; have := congrArg Vec3.x h; norm_num at this

end OpenNTN
