import Verif.Props.LosLaw

/-
C185: the law of the basic path loss of a link, without knowledge of its LoS state.
-/
namespace OpenNTN

open MeasureTheory ProbabilityTheory Classical Spec

variable {B U : ℕ} [NeZero B] {cls : ScenarioClass} {sa : ScenarioArgs} {c : Config} {log : List (TopoCall B 1 U)} {s : TopoState B 1 U} {a : TopoArgs B 1 U}

/-- Free space loss (dB) at frequency `f` (Hz) and distance `D` (m). -/
noncomputable def Spec.freeSpace (f D : ℝ) : ℝ := 32.45 + 20 * Real.logb 10 (f / 10 ^ 9) + 20 * Real.logb 10 D

/-- With probability `p` normal about `m` with deviation `s`, else normal about `m'` with deviation `s'`. -/
noncomputable def Spec.mixture (p m s m' s' : ℝ) : Measure ℝ :=
  ENNReal.ofReal p • gaussianReal m (s ^ 2).toNNReal + ENNReal.ofReal (1 - p) • gaussianReal m' (s' ^ 2).toNNReal

theorem gaussian_moments (m s : ℝ) (x : ℝ) : Integrable (fun y => y) (gaussianReal m (s ^ 2).toNNReal) ∧ Integrable (fun y => (y - x) ^ 2) (gaussianReal m (s ^ 2).toNNReal) ∧
    ∫ y, y ∂gaussianReal m (s ^ 2).toNNReal = m ∧ ∫ y, (y - x) ^ 2 ∂gaussianReal m (s ^ 2).toNNReal = s ^ 2 + (m - x) ^ 2 := by
  have h2 : MemLp (id : ℝ → ℝ) 2 (gaussianReal m (s ^ 2).toNNReal) := memLp_id_gaussianReal 2
  have i1 : Integrable (fun y : ℝ => y) (gaussianReal m (s ^ 2).toNNReal) := h2.integrable (by norm_num)
  have i2 : Integrable (fun y : ℝ => (y - m) ^ 2) (gaussianReal m (s ^ 2).toNNReal) := (h2.sub (memLp_const m)).integrable_sq
  have v : ∫ y, (y - m) ^ 2 ∂gaussianReal m (s ^ 2).toNNReal = s ^ 2 := by
    have := variance_id_gaussianReal (μ := m) (v := (s ^ 2).toNNReal)
    rw [variance_eq_integral measurable_id.aemeasurable] at this
    simp only [id, integral_id_gaussianReal] at this
    rw [this, Real.coe_toNNReal _ (sq_nonneg s)]
  have e : (fun y : ℝ => (y - x) ^ 2) = fun y => (y - m) ^ 2 + (2 * (m - x) * y + (-2 * (m - x) * m + (m - x) ^ 2)) := by funext y; ring
  have i3 : Integrable (fun y : ℝ => 2 * (m - x) * y + (-2 * (m - x) * m + (m - x) ^ 2)) (gaussianReal m (s ^ 2).toNNReal) :=
    (i1.const_mul _).add (integrable_const _)
  refine ⟨i1, by rw [e]; exact i2.add i3, integral_id_gaussianReal, ?_⟩
  rw [e, integral_add i2 i3, v, integral_add (i1.const_mul _) (integrable_const _), integral_const_mul, integral_id_gaussianReal, integral_const]
  simp

theorem mixture_moments {p : ℝ} (h0 : 0 ≤ p) (h1 : p ≤ 1) (m s m' s' x : ℝ) : ∫ y, y ∂Spec.mixture p m s m' s' = p * m + (1 - p) * m' ∧
    ∫ y, (y - x) ^ 2 ∂Spec.mixture p m s m' s' = p * (s ^ 2 + (m - x) ^ 2) + (1 - p) * (s' ^ 2 + (m' - x) ^ 2) := by
  obtain ⟨a1, a2, a3, a4⟩ := gaussian_moments m s x
  obtain ⟨b1, b2, b3, b4⟩ := gaussian_moments m' s' x
  unfold Spec.mixture
  constructor
  · rw [integral_add_measure (a1.smul_measure ENNReal.ofReal_ne_top) (b1.smul_measure ENNReal.ofReal_ne_top), integral_smul_measure, integral_smul_measure, a3, b3,
      ENNReal.toReal_ofReal h0, ENNReal.toReal_ofReal (by linarith)]
    rfl
  · rw [integral_add_measure (a2.smul_measure ENNReal.ofReal_ne_top) (b2.smul_measure ENNReal.ofReal_ne_top), integral_smul_measure, integral_smul_measure, a4, b4,
      ENNReal.toReal_ofReal h0, ENNReal.toReal_ofReal (by linarith)]
    rfl

theorem losProb_nonneg {area : Spec.Area} {row n : ℤ} (hn : Spec.atRow (Spec.losProbRec area) row = some n) : 0 ≤ (n : ℝ) / 1000 := by
  have : ∀ m ∈ Spec.losProbRec area, 0 ≤ m := by cases area <;> decide
  have := this n (List.mem_of_getElem? hn)
  have : (0 : ℝ) ≤ n := by exact_mod_cast this
  positivity

/-- C185: in the situation of C138 and C139, the basic path loss of an outdoor UT is with the probability of the table normal about the free space loss, else normal about free space
loss plus clutter loss; its mean is the free space loss plus the share of NLoS of the clutter loss, and its variance that of the mixture. For an indoor UT it is normal about free space loss plus
clutter loss. The losses of different UTs are independent. -/
theorem C185_loss_law (h : mkScenario cls sa = .ok c) {row : ℤ} {sb up : Bool}
    (q : Spec.Request sa.carrierFrequency sa.elevationAngle sa.direction row sb up) (r : TopoReach c log s) (hd : Spec.Drawn log a)
    {Ω : Type*} [MeasurableSpace Ω] {P : Measure Ω} [IsProbabilityMeasure P] {d : Ω → TopoDraws B 1 U} (hr : Spec.TopoRandom P d)
    (hacc : ∀ ω, (setTopology c s a (d ω)).2 ≠ .error .assertion) :
    ∃ (n cl σl σn : ℤ) (F : Spec.Link B U → Ω → ℝ) (D : Spec.Link B U → ℝ) (i : PerUt B U Bool),
      Spec.atRow (Spec.losProbRec (areaOf cls)) row = some n ∧ Spec.atRow (Spec.clutterRec (areaOf cls) sb) row = some cl ∧
      Spec.atRow (Spec.shadowRec (areaOf cls) true sb) row = some σl ∧ Spec.atRow (Spec.shadowRec (areaOf cls) false sb) row = some σn ∧
      (∀ ω, (setTopology c s a (d ω)).1.plBasic = some fun b _ u => F (b, u) ω) ∧
      (∀ ω, (setTopology c s a (d ω)).1.distance3d = some fun b _ u => D (b, u)) ∧
      (∀ ω, (setTopology c s a (d ω)).1.inState = some i) ∧ iIndepFun F P ∧
      let p : ℝ := n / 1000
      let CL : ℝ := cl / 1000
      let L : ℝ := σl / 1000
      let N : ℝ := σn / 1000
      ∀ k, let FS := freeSpace sa.carrierFrequency (D k)
        (i k.1 k.2 = false → HasLaw (F k) (mixture p FS L (FS + CL) N) P ∧ ∫ ω, F k ω ∂P = FS + (1 - p) * CL ∧
          variance (F k) P = p * L ^ 2 + (1 - p) * N ^ 2 + p * (1 - p) * CL ^ 2) ∧
        (i k.1 k.2 = true → HasLaw (F k) (gaussianReal (FS + CL) (N ^ 2).toNNReal) P) := by
  have : Nonempty Ω := nonempty_of_isProbabilityMeasure P
  obtain ⟨n, L, i, hn, hL, hi, -, hlos, hind⟩ := C138_los_law h q r hd hr hacc
  obtain ⟨cl, σl, σn, L', F, D, r1, r2, r3, hL', hF, hD, hindep, hmeas, hlaw⟩ := C139_pathloss_law h q r hd hr hacc
  have e : L' = L := by
    funext k ω
    have := (hL' ω).symm.trans (hL ω)
    exact congrFun (congrFun (congrFun (Option.some.inj this) k.1) 0) k.2
  subst e
  have hm : ∀ k, AEMeasurable (F k) P := fun k => measurable_snd.comp_aemeasurable (hmeas k)
  have h0 := losProb_nonneg hn
  have h1 := losProb_le hn
  refine ⟨n, cl, σl, σn, F, D, i, hn, r1, r2, r3, hF, hD, hi, hindep.comp (fun _ x => x.2) fun _ => measurable_snd, fun k => ?_⟩
  have hset : ∀ A, MeasurableSet A → P (F k ⁻¹' A) = P {ω | L' k ω = true ∧ F k ω ∈ A} + P {ω | L' k ω = false ∧ F k ω ∈ A} := by
    intro A hA
    rw [← measure_inter_add_diff₀ (μ := P) (F k ⁻¹' A) ((measurable_fst.comp_aemeasurable (hmeas k)).nullMeasurableSet_preimage (measurableSet_singleton true))]
    congr 2
    · ext ω; simp [and_comm]
    · ext ω; simp [and_comm]
  have htot := hset Set.univ MeasurableSet.univ
  simp only [Set.preimage_univ, measure_univ, Set.mem_univ, and_true] at htot
  constructor
  · intro hk
    have hp := hlos k hk
    have hq : P {ω | L' k ω = false} = ENNReal.ofReal (1 - (n : ℝ) / 1000) := by
      rw [hp] at htot
      rw [ENNReal.ofReal_sub _ h0, ENNReal.ofReal_one]
      exact ENNReal.eq_sub_of_add_eq' ENNReal.one_ne_top (by rw [add_comm]; exact htot.symm)
    have law : HasLaw (F k) (Spec.mixture ((n : ℝ) / 1000) (Spec.freeSpace sa.carrierFrequency (D k)) ((σl : ℝ) / 1000)
        (Spec.freeSpace sa.carrierFrequency (D k) + (cl : ℝ) / 1000) ((σn : ℝ) / 1000)) P := by
      refine ⟨hm k, Measure.ext fun A hA => ?_⟩
      rw [Measure.map_apply_of_aemeasurable (hm k) hA, hset A hA, (hlaw k A hA).1, (hlaw k A hA).2, hp, hq]
      rfl
    obtain ⟨m1, -⟩ := mixture_moments h0 h1 (Spec.freeSpace sa.carrierFrequency (D k)) ((σl : ℝ) / 1000)
      (Spec.freeSpace sa.carrierFrequency (D k) + (cl : ℝ) / 1000) ((σn : ℝ) / 1000) 0
    have mean : ∫ ω, F k ω ∂P = Spec.freeSpace sa.carrierFrequency (D k) + (1 - (n : ℝ) / 1000) * ((cl : ℝ) / 1000) := by
      rw [law.integral_eq, m1]; ring
    refine ⟨law, mean, ?_⟩
    rw [variance_eq_integral (hm k), mean]
    have := integral_map (f := fun y : ℝ => (y - (Spec.freeSpace sa.carrierFrequency (D k) + (1 - (n : ℝ) / 1000) * ((cl : ℝ) / 1000))) ^ 2) (hm k)
      (by fun_prop)
    rw [← this, law.map_eq, (mixture_moments h0 h1 _ _ _ _ _).2]
    ring
  · intro hk
    have h0 : P {ω | L' k ω = true} = 0 := by
      rw [show {ω | L' k ω = true} = ∅ by ext ω; simp [hind k hk ω]]; simp
    refine ⟨hm k, Measure.ext fun A hA => ?_⟩
    rw [h0, zero_add] at htot
    rw [Measure.map_apply_of_aemeasurable (hm k) hA, hset A hA, (hlaw k A hA).1, (hlaw k A hA).2, h0, ← htot, zero_mul, zero_add, one_mul]
    rfl

/-- The hypotheses of C185 can be met: a dense urban uplink at 44 degrees in the S-band, two examples with three UTs each. -/
example : ∃ c : Config, mkScenario .denseUrban (exArgs 2000000000 "uplink" 44) = .ok c ∧ Spec.Request 2000000000 44 "uplink" 40 true true ∧
    TopoReach c [] (TopoState.init c : TopoState 2 1 3) ∧ Spec.Drawn ([] : List (TopoCall 2 1 3)) (exTopo 2 1 3) ∧
    ∃ (P : Measure (Spec.Link 2 3 → Fin 4 → ℝ)) (d : _ → TopoDraws 2 1 3), IsProbabilityMeasure P ∧ Spec.TopoRandom P d ∧
      ∀ ω, (setTopology c (TopoState.init c) (exTopo 2 1 3) (d ω)).2 ≠ .error .assertion := by
  obtain ⟨c, hc⟩ := exArgs_ok .denseUrban true false 44 (by norm_num) (by norm_num)
  obtain ⟨P, d, hP, hr⟩ := exists_topoRandom 2 3
  refine ⟨c, by simpa using hc, ⟨⟨4, by norm_num, by norm_num, by norm_num, by norm_num [abs_le], fun _ => by decide⟩,
    by simp only [Spec.SBand, true_iff]; norm_num, by simp⟩, .init, ⟨by simp, rfl, Or.inl (by simp [exTopo])⟩, P, d, hP, hr, fun ω => ?_⟩
  rcases setTopology_cases hc (TopoState.init c) (exTopo 2 1 3) (d ω) with ⟨e, -⟩ | ⟨-, e, -⟩ | ⟨-, -, -, -, -, e, -⟩
  · cases e
  · cases e
  · exact e

end OpenNTN
