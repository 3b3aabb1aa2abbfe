import Mathlib.MeasureTheory.Measure.Lebesgue.Basic
import Mathlib.Probability.Distributions.Gaussian.Real
import Mathlib.Probability.HasLaw
import Mathlib.Probability.Independence.Basic
import Verif.Props.Standard
import Verif.Props.Topology

/-
C138, C139: the laws of the LoS states and of the basic path loss drawn by `set_topology`.
-/
namespace OpenNTN

open MeasureTheory ProbabilityTheory Classical Spec

variable {B U : ℕ} [NeZero B] {cls : ScenarioClass} {sa : ScenarioArgs} {c : Config}

/-- A link of a topology with one BS: batch example and UT. -/
abbrev Spec.Link (B U : ℕ) := Fin B × Fin U

/-- The four numbers drawn for a link: indoor distance, LoS state, shadow fading in LoS and in NLoS. -/
def Spec.linkDraws (d : TopoDraws B 1 U) (k : Spec.Link B U) : Fin 4 → ℝ :=
  ![d.indoor k.1 0 k.2, d.losU k.1 0 k.2, d.zLos k.1 0 k.2, d.zNlos k.1 0 k.2]

/-- The laws of the four numbers: uniform on [0, 10) and [0, 1), standard normal twice. -/
noncomputable def Spec.linkLaw : Fin 4 → Measure ℝ :=
  ![(10 : ENNReal)⁻¹ • volume.restrict (Set.Ico 0 10), volume.restrict (Set.Ico 0 1), gaussianReal 0 1, gaussianReal 0 1]

/-- The numbers drawn by a call are independent and have these laws. -/
structure Spec.TopoRandom {Ω : Type*} [MeasurableSpace Ω] (P : Measure Ω) (d : Ω → TopoDraws B 1 U) : Prop where
  law : ∀ k j, HasLaw (fun ω => linkDraws (d ω) k j) (linkLaw j) P
  links : iIndepFun (fun k ω => linkDraws (d ω) k) P
  within : ∀ k, iIndepFun (fun j ω => linkDraws (d ω) k j) P

/-- The call passed something that moves the UTs, but the LoS state was never requested. -/
structure Spec.Drawn (log : List (TopoCall B 1 U)) (a : TopoArgs B 1 U) : Prop where
  never : ∀ e ∈ log, e.1.los = none
  now : a.los = none
  moves : a.utLoc ≠ none ∨ a.bsLoc ≠ none ∨ a.inState ≠ none

variable {log : List (TopoCall B 1 U)} {s : TopoState B 1 U} {a : TopoArgs B 1 U}

theorem latest_none {C α : Type} {counted : C → Prop} [DecidablePred counted] {value : C → Option α} {log : List C}
    (h : ∀ e ∈ log, value e = none) : latest counted value log = none := by
  induction log with
  | nil => rfl
  | cons e l ih =>
    have i1 := ih fun e he => h e (List.mem_cons_of_mem _ he)
    unfold latest
    rw [h e List.mem_cons_self, i1]
    split <;> rfl

/-- What a call leaves behind, with attributes that do not depend on the draws taken out. -/
theorem drawn_state (h : mkScenario cls sa = .ok c) (r : TopoReach c log s) (hd : Spec.Drawn log a)
    {Ω : Type*} [Nonempty Ω] (d : Ω → TopoDraws B 1 U) (hacc : ∀ ω, (setTopology c s a (d ω)).2 ≠ .error .assertion) :
    ∃ ut bs i, ∀ ω, (setTopology c s a (d ω)).1.inState = some i ∧
      Spec.UpToDate c (setTopology c s a (d ω)).1 ut bs i none (d ω) := by
  have key : ∀ ω, ∃ ut bs i, (storeArgs s a).utLoc = some ut ∧ (storeArgs s a).bsLoc = some bs ∧ (storeArgs s a).inState = some i ∧
      (setTopology c s a (d ω)).1.inState = some i ∧ Spec.UpToDate c (setTopology c s a (d ω)).1 ut bs i none (d ω) := by
    intro ω
    rcases setTopology_cases h s a (d ω) with ⟨-, e⟩ | ⟨-, e, -⟩ | ⟨-, -, b, e, -, -, ut, bs, i, h1, h2, h3⟩
    · exact absurd (by rw [e]) (hacc ω)
    · exfalso
      unfold needForUpdate at e
      rw [hd.now] at e
      simp only [Option.isSome_none, Bool.or_false, Bool.or_eq_false_iff, Option.isSome_eq_false_iff, Option.isNone_iff_eq_none] at e
      rcases hd.moves with hm | hm | hm
      · exact hm e.1.1
      · exact hm e.1.2
      · exact hm e.2
    · refine ⟨ut, bs, i, h1, h2, h3, by rw [b.inState, h3], ?_⟩
      have hr : (storeArgs s a).requestedLos = none := by
        have := (persisted_accepted h r).2
        rw [latest_none hd.never] at this
        simp [storeArgs, hd.now, this, assign]
      have := (updateTopology_one h rfl (d ω) h1 h2 h3 rfl).1
      rw [hr, ← e] at this
      exact this
  obtain ⟨ut, bs, i, h1, h2, h3, -⟩ := key (Classical.arbitrary Ω)
  refine ⟨ut, bs, i, fun ω => ?_⟩
  obtain ⟨ut', bs', i', h1', h2', h3', e, k⟩ := key ω
  rw [h1] at h1'; rw [h2] at h2'; rw [h3] at h3'
  cases h1'; cases h2'; cases h3'
  exact ⟨e, k⟩

theorem uniform_below {p : ℝ} (h1 : p ≤ 1) : (volume.restrict (Set.Ico (0 : ℝ) 1)) (Set.Iio p) = ENNReal.ofReal p := by
  rw [Measure.restrict_apply measurableSet_Iio, Set.inter_comm, Set.Ico_inter_Iio, min_eq_right h1, Real.volume_Ico, sub_zero]

omit [NeZero B] in
theorem linkDraws_los (d : TopoDraws B 1 U) (b : Fin B) (u : Fin U) : Spec.linkDraws d (b, u) 1 = d.losU b 0 u := rfl

theorem losProb_le {area : Spec.Area} {row n : ℤ} (hn : Spec.atRow (Spec.losProbRec area) row = some n) : (n : ℝ) / 1000 ≤ 1 := by
  have : ∀ m ∈ Spec.losProbRec area, m ≤ 1000 := by cases area <;> decide
  have := this n (List.mem_of_getElem? hn)
  have : (n : ℝ) ≤ 1000 := by exact_mod_cast this
  linarith

/-- C138: if no LoS state was ever requested, then after a call that moves something the LoS states of the links are independent random
variables; a link of an outdoor UT is in LoS with the probability of TR 38.811 Table 6.6.1-1, a link of an indoor UT never. -/
theorem C138_los_law (h : mkScenario cls sa = .ok c) {row : ℤ} {sb up : Bool}
    (q : Spec.Request sa.carrierFrequency sa.elevationAngle sa.direction row sb up) (r : TopoReach c log s) (hd : Spec.Drawn log a)
    {Ω : Type*} [MeasurableSpace Ω] {P : Measure Ω} [IsProbabilityMeasure P] {d : Ω → TopoDraws B 1 U} (hr : Spec.TopoRandom P d)
    (hacc : ∀ ω, (setTopology c s a (d ω)).2 ≠ .error .assertion) :
    ∃ (n : ℤ) (L : Spec.Link B U → Ω → Bool) (i : PerUt B U Bool), Spec.atRow (Spec.losProbRec (areaOf cls)) row = some n ∧
      (∀ ω, (setTopology c s a (d ω)).1.los = some fun b _ u => L (b, u) ω) ∧
      (∀ ω, (setTopology c s a (d ω)).1.inState = some i) ∧ iIndepFun L P ∧
      (∀ k, i k.1 k.2 = false → P {ω | L k ω = true} = ENNReal.ofReal ((n : ℝ) / 1000)) ∧
      ∀ k, i k.1 k.2 = true → ∀ ω, L k ω = false := by
  have : Nonempty Ω := nonempty_of_isProbabilityMeasure P
  obtain ⟨n, hn, hp⟩ := C107_los_probability h q
  obtain ⟨ut, bs, i, key⟩ := drawn_state h r hd d hacc
  have hb := losProb_le hn
  have hL : ∀ ω, (setTopology c s a (d ω)).1.los = some fun b _ u => !i b u && decide (Spec.linkDraws (d ω) (b, u) 1 < (n : ℝ) / 1000) := by
    intro ω
    obtain ⟨-, k⟩ := key ω
    obtain ⟨p, l, _, _, _, e, el, -, -, -, -, hs⟩ := k.statistics
    rw [hp] at e
    have e : (n : ℝ) / 1000 = p := WithBot.coe_injective (Except.ok.inj e)
    subst e
    rw [el]
    congr 1
    funext b m u
    rw [Bool.eq_iff_iff, (hs b m u).1, Fin.fin_one_eq_zero m, linkDraws_los]
    simp
  refine ⟨n, fun k ω => !i k.1 k.2 && decide (Spec.linkDraws (d ω) k 1 < (n : ℝ) / 1000), i, hn, hL, fun ω => (key ω).1, ?_, ?_, ?_⟩
  · refine hr.links.comp (fun k (x : Fin 4 → ℝ) => !i k.1 k.2 && decide (x 1 < (n : ℝ) / 1000)) fun k => ?_
    have hm : MeasurableSet {x : Fin 4 → ℝ | x 1 < (n : ℝ) / 1000} := measurableSet_lt (measurable_pi_apply _) measurable_const
    refine measurable_to_bool ?_
    cases hk : i k.1 k.2
    · simpa [Set.preimage, hk] using hm
    · simp [Set.preimage]
  · intro k hk
    have e : {ω | (!i k.1 k.2 && decide (Spec.linkDraws (d ω) k 1 < (n : ℝ) / 1000)) = true} =
        (fun ω => Spec.linkDraws (d ω) k 1) ⁻¹' Set.Iio ((n : ℝ) / 1000) := by
      ext ω; simp [hk]
    rw [e, ← Measure.map_apply_of_aemeasurable (hr.law k 1).aemeasurable measurableSet_Iio, (hr.law k 1).map_eq]
    exact uniform_below hb
  · intro k hk ω
    simp [hk]

instance (j : Fin 4) : IsProbabilityMeasure (Spec.linkLaw j) := by
  fin_cases j
  · refine ⟨?_⟩
    show ((10 : ENNReal)⁻¹ • volume.restrict (Set.Ico (0 : ℝ) 10)) Set.univ = 1
    rw [Measure.smul_apply, Measure.restrict_apply_univ, Real.volume_Ico]
    norm_num [ENNReal.inv_mul_cancel]
  · refine ⟨?_⟩
    show (volume.restrict (Set.Ico (0 : ℝ) 1)) Set.univ = 1
    rw [Measure.restrict_apply_univ, Real.volume_Ico]
    norm_num
  · exact inferInstanceAs (IsProbabilityMeasure (gaussianReal 0 1))
  · exact inferInstanceAs (IsProbabilityMeasure (gaussianReal 0 1))

/-- Draws as required exist. -/
theorem exists_topoRandom (B U : ℕ) [NeZero B] : ∃ (P : Measure (Spec.Link B U → Fin 4 → ℝ)) (d : (Spec.Link B U → Fin 4 → ℝ) → TopoDraws B 1 U),
    IsProbabilityMeasure P ∧ Spec.TopoRandom P d := by
  refine ⟨Measure.pi fun _ => Measure.pi fun j => Spec.linkLaw j,
    fun ω => ⟨fun b _ u => ω (b, u) 0, fun b _ u => ω (b, u) 1, fun b _ u => ω (b, u) 2, fun b _ u => ω (b, u) 3⟩, inferInstance, ?_⟩
  have e : ∀ (ω : Spec.Link B U → Fin 4 → ℝ) k, Spec.linkDraws (⟨fun b _ u => ω (b, u) 0, fun b _ u => ω (b, u) 1, fun b _ u => ω (b, u) 2,
      fun b _ u => ω (b, u) 3⟩ : TopoDraws B 1 U) k = ω k := by
    intro ω k
    funext j
    fin_cases j <;> rfl
  have m1 := fun k : Spec.Link B U => measurePreserving_eval (fun _ : Spec.Link B U => Measure.pi fun j => Spec.linkLaw j) k
  have m2 := fun j : Fin 4 => measurePreserving_eval (fun j : Fin 4 => Spec.linkLaw j) j
  constructor
  · intro k j
    simp only [e]
    exact ⟨((m2 j).comp (m1 k)).measurable.aemeasurable, ((m2 j).comp (m1 k)).map_eq⟩
  · simp only [e]
    exact iIndepFun_pi (X := fun _ => id) (fun _ => aemeasurable_id)
  · intro k
    simp only [e]
    refine (iIndepFun_iff_map_fun_eq_pi_map fun j => ((m2 j).comp (m1 k)).measurable.aemeasurable).2 ?_
    refine (m1 k).map_eq.trans ?_
    congr 1
    funext j
    exact ((m2 j).comp (m1 k)).map_eq.symm

/-- The hypotheses of C138 and C139 can be met: a dense urban uplink at 44 degrees in the S-band, two examples with three UTs each. -/
example : ∃ c : Config, mkScenario .denseUrban (exArgs 2000000000 "uplink" 44) = .ok c ∧ Spec.Request 2000000000 44 "uplink" 40 true true ∧
    TopoReach c [] (TopoState.init c : TopoState 2 1 3) ∧ Spec.Drawn ([] : List (TopoCall 2 1 3)) (exTopo 2 1 3) ∧
    ∃ (P : Measure (Spec.Link 2 3 → Fin 4 → ℝ)) (d : _ → TopoDraws 2 1 3), IsProbabilityMeasure P ∧ Spec.TopoRandom P d ∧
      ∀ ω, (setTopology c (TopoState.init c) (exTopo 2 1 3) (d ω)).2 ≠ .error .assertion := by
  obtain ⟨c, hc⟩ := exArgs_ok .denseUrban true false 44 (by norm_num) (by norm_num)
  obtain ⟨P, d, hP, hr⟩ := exists_topoRandom 2 3
  refine ⟨c, by simpa using hc, ⟨⟨4, by norm_num, by norm_num, by norm_num, by norm_num [abs_le], fun _ => by decide⟩,
    by simp only [Spec.SBand, true_iff]; norm_num, by simp⟩, .init, ⟨by simp, rfl, Or.inl (by simp [exTopo])⟩, P, d, hP, hr, fun ω => ?_⟩
  rcases setTopology_cases hc (TopoState.init c) (exTopo 2 1 3) (d ω) with ⟨e, -⟩ | ⟨-, e, -⟩ | ⟨-, -, -, -, -, e, -⟩
  · cases e
  · cases e
  · exact e

/-- The basic path loss of a link in LoS or NLoS when `z` was drawn for it: free space, clutter in NLoS, shadow fading (dB). -/
noncomputable def Spec.lossOf (f D cl σ z : ℝ) : ℝ :=
  32.45 + 20 * Real.logb 10 (f / 10 ^ 9) + 20 * Real.logb 10 D + cl + σ * z

theorem lossOf_law (f D cl σ : ℝ) : (gaussianReal 0 1).map (Spec.lossOf f D cl σ) =
    gaussianReal (32.45 + 20 * Real.logb 10 (f / 10 ^ 9) + 20 * Real.logb 10 D + cl) (σ ^ 2).toNNReal := by
  have e : Spec.lossOf f D cl σ = (32.45 + 20 * Real.logb 10 (f / 10 ^ 9) + 20 * Real.logb 10 D + cl + ·) ∘ (σ * ·) := rfl
  rw [e, ← Measure.map_map (by fun_prop) (by fun_prop), gaussianReal_map_const_mul, gaussianReal_map_const_add]
  congr 1
  · ring
  · ext; simp [Real.coe_toNNReal _ (sq_nonneg σ)]

/-- C139: in the situation of C138, given that a link is in LoS its basic path loss is normal about the free-space loss, given that it is in
NLoS it is normal about the free-space loss plus the clutter loss, with the deviations and clutter losses of TR 38.811 Tables
6.6.2-1 to 6.6.2-3; the pairs (LoS state, basic path loss) of different links are independent. -/
theorem C139_pathloss_law (h : mkScenario cls sa = .ok c) {row : ℤ} {sb up : Bool}
    (q : Spec.Request sa.carrierFrequency sa.elevationAngle sa.direction row sb up) (r : TopoReach c log s) (hd : Spec.Drawn log a)
    {Ω : Type*} [MeasurableSpace Ω] {P : Measure Ω} [IsProbabilityMeasure P] {d : Ω → TopoDraws B 1 U} (hr : Spec.TopoRandom P d)
    (hacc : ∀ ω, (setTopology c s a (d ω)).2 ≠ .error .assertion) :
    ∃ (cl σl σn : ℤ) (L : Spec.Link B U → Ω → Bool) (F : Spec.Link B U → Ω → ℝ) (D : Spec.Link B U → ℝ),
      Spec.atRow (Spec.clutterRec (areaOf cls) sb) row = some cl ∧
      Spec.atRow (Spec.shadowRec (areaOf cls) true sb) row = some σl ∧ Spec.atRow (Spec.shadowRec (areaOf cls) false sb) row = some σn ∧
      (∀ ω, (setTopology c s a (d ω)).1.los = some fun b _ u => L (b, u) ω) ∧
      (∀ ω, (setTopology c s a (d ω)).1.plBasic = some fun b _ u => F (b, u) ω) ∧
      (∀ ω, (setTopology c s a (d ω)).1.distance3d = some fun b _ u => D (b, u)) ∧
      iIndepFun (fun k ω => (L k ω, F k ω)) P ∧ (∀ k, AEMeasurable (fun ω => (L k ω, F k ω)) P) ∧
      ∀ k A, MeasurableSet A →
        P {ω | L k ω = true ∧ F k ω ∈ A} = P {ω | L k ω = true} *
          gaussianReal (32.45 + 20 * Real.logb 10 (sa.carrierFrequency / 10 ^ 9) + 20 * Real.logb 10 (D k)) (((σl : ℝ) / 1000) ^ 2).toNNReal A ∧
        P {ω | L k ω = false ∧ F k ω ∈ A} = P {ω | L k ω = false} *
          gaussianReal (32.45 + 20 * Real.logb 10 (sa.carrierFrequency / 10 ^ 9) + 20 * Real.logb 10 (D k) + (cl : ℝ) / 1000)
            (((σn : ℝ) / 1000) ^ 2).toNNReal A := by
  have : Nonempty Ω := nonempty_of_isProbabilityMeasure P
  obtain ⟨n, hn, hp⟩ := C107_los_probability h q
  obtain ⟨cl, σl, σn, r1, r2, r3, pt, pf, -⟩ := C108_clutter_shadow h q
  obtain ⟨ut, bs, i, key⟩ := drawn_state h r hd d hacc
  let D : Spec.Link B U → ℝ := fun _ => distance3d c.elevationAngle (bs 0 0).z
  let g : Spec.Link B U → ℝ → Bool := fun k x => !i k.1 k.2 && decide (x < (n : ℝ) / 1000)
  let m : Spec.Link B U → (Fin 4 → ℝ) → ℝ := fun k x =>
    if g k (x 1) then Spec.lossOf sa.carrierFrequency (D k) 0 ((σl : ℝ) / 1000) (x 2)
    else Spec.lossOf sa.carrierFrequency (D k) ((cl : ℝ) / 1000) ((σn : ℝ) / 1000) (x 3)
  have hg : ∀ k, Measurable (g k) := by
    intro k
    refine measurable_to_bool ?_
    cases hk : i k.1 k.2
    · have hm : MeasurableSet {x : ℝ | x < (n : ℝ) / 1000} := measurableSet_Iio
      simpa [Set.preimage, g, hk] using hm
    · simp [Set.preimage, g, hk]
  have hlm : ∀ D cl σ, Measurable (Spec.lossOf sa.carrierFrequency D cl σ) := fun D cl σ => by unfold Spec.lossOf; fun_prop
  have hL : ∀ ω, (setTopology c s a (d ω)).1.los = some (fun b _ u => g (b, u) (Spec.linkDraws (d ω) (b, u) 1)) ∧
      (setTopology c s a (d ω)).1.plBasic = some (fun b _ u => m (b, u) (Spec.linkDraws (d ω) (b, u))) ∧
      (setTopology c s a (d ω)).1.distance3d = some fun b _ u => D (b, u) := by
    intro ω
    obtain ⟨-, k⟩ := key ω
    obtain ⟨p, l, _, _, pl, e, el, -, -, ep, -, hs⟩ := k.statistics
    rw [hp] at e
    have e : (n : ℝ) / 1000 = p := WithBot.coe_injective (Except.ok.inj e)
    subst e
    have hl : l = fun b _ u => g (b, u) (Spec.linkDraws (d ω) (b, u) 1) := by
      funext b j u
      rw [Bool.eq_iff_iff, (hs b j u).1, Fin.fin_one_eq_zero j, linkDraws_los]
      simp [g]
    refine ⟨by rw [el, hl], ?_, ?_⟩
    · rw [ep]
      congr 1
      funext b j u
      have hh := (hs b j u).2.2.2
      rw [Fin.fin_one_eq_zero j] at hh ⊢
      rw [hl] at hh
      dsimp only at hh
      show pl b 0 u = if g (b, u) (Spec.linkDraws (d ω) (b, u) 1) then _ else _
      cases hc : g (b, u) (Spec.linkDraws (d ω) (b, u) 1)
      · rw [hc, pf] at hh
        rw [← Except.ok.inj hh, if_neg (by simp)]
        simp only [Spec.lossOf, Real.logb, D]
        show _ = _ + (σn : ℝ) / 1000 * (d ω).zNlos b 0 u
        norm_num
        ring
      · rw [hc, pt] at hh
        rw [← Except.ok.inj hh, if_pos rfl]
        simp only [Spec.lossOf, Real.logb, D]
        show _ = _ + (σl : ℝ) / 1000 * (d ω).zLos b 0 u
        norm_num
    · obtain ⟨d3, e3, hd3⟩ := k.distance3d
      rw [e3]
      congr 1
      funext b j u
      rw [hd3, Fin.fin_one_eq_zero j]
  have hgm : ∀ k, Measurable fun x : Fin 4 → ℝ => (g k (x 1), m k x) := by
    intro k
    refine Measurable.prodMk ((hg k).comp (measurable_pi_apply _)) ?_
    refine Measurable.ite ?_ ((hlm _ _ _).comp (measurable_pi_apply _)) ((hlm _ _ _).comp (measurable_pi_apply _))
    exact ((hg k).comp (measurable_pi_apply 1)) (measurableSet_singleton true)
  refine ⟨cl, σl, σn, fun k ω => g k (Spec.linkDraws (d ω) k 1), fun k ω => m k (Spec.linkDraws (d ω) k), D, r1, r2, r3,
    fun ω => (hL ω).1, fun ω => (hL ω).2.1, fun ω => (hL ω).2.2, ?_, fun k => ?_, ?_⟩
  · exact hr.links.comp (fun k (x : Fin 4 → ℝ) => (g k (x 1), m k x)) hgm
  · exact (hgm k).comp_aemeasurable (aemeasurable_pi_iff.2 fun j => (hr.law k j).aemeasurable)
  · intro k A hA
    have split : ∀ (v : Bool) (j : Fin 4) (hj : (1 : Fin 4) ≠ j) (hlaw : Spec.linkLaw j = gaussianReal 0 1) (cl σ : ℝ),
        (∀ ω, g k (Spec.linkDraws (d ω) k 1) = v →
          m k (Spec.linkDraws (d ω) k) = Spec.lossOf sa.carrierFrequency (D k) cl σ (Spec.linkDraws (d ω) k j)) →
        P {ω | g k (Spec.linkDraws (d ω) k 1) = v ∧ m k (Spec.linkDraws (d ω) k) ∈ A} = P {ω | g k (Spec.linkDraws (d ω) k 1) = v} *
          gaussianReal (32.45 + 20 * Real.logb 10 (sa.carrierFrequency / 10 ^ 9) + 20 * Real.logb 10 (D k) + cl) (σ ^ 2).toNNReal A := by
      intro v j hj hlaw cl σ hm
      have e : {ω | g k (Spec.linkDraws (d ω) k 1) = v ∧ m k (Spec.linkDraws (d ω) k) ∈ A} =
          (fun ω => Spec.linkDraws (d ω) k 1) ⁻¹' (g k ⁻¹' {v}) ∩
            (fun ω => Spec.linkDraws (d ω) k j) ⁻¹' (Spec.lossOf sa.carrierFrequency (D k) cl σ ⁻¹' A) := by
        ext ω
        constructor
        · rintro ⟨h1, h2⟩; exact ⟨h1, by rw [hm ω h1] at h2; exact h2⟩
        · rintro ⟨h1, h2⟩; exact ⟨h1, by rw [hm ω h1]; exact h2⟩
      have hi := ((hr.within k).indepFun hj).measure_inter_preimage_eq_mul _ _ (hg k (measurableSet_singleton v)) (hlm (D k) cl σ hA)
      rw [e, hi]
      congr 1
      rw [← Measure.map_apply_of_aemeasurable (hr.law k j).aemeasurable (hlm (D k) cl σ hA), (hr.law k j).map_eq, hlaw,
        ← Measure.map_apply (hlm (D k) cl σ) hA, lossOf_law]
    constructor
    · have := split true 2 (by decide) rfl 0 ((σl : ℝ) / 1000) (fun ω hω => by simp only [m, hω, if_true])
      rw [add_zero] at this
      exact this
    · exact split false 3 (by decide) rfl ((cl : ℝ) / 1000) ((σn : ℝ) / 1000) (fun ω hω => by simp [m, hω])

end OpenNTN
