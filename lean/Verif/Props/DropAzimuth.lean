import Mathlib.Analysis.SpecialFunctions.Complex.Arg
import Verif.Props.DropLaw

/-
C166: the direction in which UTs are dropped (utils.py 585-588).
-/
namespace OpenNTN

open MeasureTheory ProbabilityTheory Spec

/-- With probability one the drop centre is generated, at azimuth `α` and a positive distance from the origin. -/
def Spec.HasAzimuth {Ω : Type} [MeasurableSpace Ω] (P : Measure Ω) (centre : Ω → Except Err (ℝ × ℝ)) (α : Ω → ℝ) : Prop :=
  ∀ᵐ ω ∂P, α ω ∈ Set.Ioc (-Real.pi) Real.pi ∧ ∃ r, 0 < r ∧ centre ω = .ok (r * Real.cos (α ω), r * Real.sin (α ω))

/-- C166: the azimuth of the drop centre is uniform over the sector, an interval of angles. -/
def C166_statement : Prop :=
  ∀ (Ω : Type) (_ : MeasurableSpace Ω) (P : Measure Ω) (_ : IsProbabilityMeasure P) (X : Ω → ℝ), HasLaw X (Spec.uniform 0 1) P →
    ∀ h el : ℝ, 0 < h → 0 < el → el < 90 →
      ∃ α : Ω → ℝ, Spec.HasAzimuth P (fun ω => dropCentre h el (X ω)) α ∧ ∃ a b, a < b ∧ HasLaw α (Spec.uniform a b) P

theorem uniform_Iic {t : ℝ} (h0 : 0 ≤ t) (h1 : t ≤ 1) : Spec.uniform 0 1 (Set.Ici t) = ENNReal.ofReal (1 - t) := by
  unfold Spec.uniform
  rw [if_pos (by norm_num), Measure.smul_apply, Measure.restrict_apply measurableSet_Ici, sub_zero, ENNReal.ofReal_one, inv_one, one_smul]
  have : Set.Ici t ∩ Set.Ico 0 1 = Set.Ico t 1 := by
    ext x
    simp only [Set.mem_inter_iff, Set.mem_Ici, Set.mem_Ico]
    exact ⟨fun h => ⟨h.1, h.2.2⟩, fun h => ⟨h.1, by linarith, h.2⟩⟩
  rw [this, Real.volume_Ico]

theorem centre_azimuth {h el u : ℝ} (hh : 0 < h) (h0 : 0 < el) (h1 : el < 90) (u0 : 0 ≤ u) (u1 : u < 1) :
    ∃ r, 0 < r ∧ dropCentre h el u = .ok (r * Real.cos (Real.arccos u), r * Real.sin (Real.arccos u)) := by
  obtain ⟨r0, r1⟩ := rad_range h0 h1.le
  have hs : 0 < Real.sin (rad el) := Real.sin_pos_of_pos_of_lt_pi r0 (by linarith [Real.pi_pos])
  have hc : 0 < Real.cos (rad el) := by
    refine Real.cos_pos_of_mem_Ioo ⟨by linarith [Real.pi_pos], ?_⟩
    unfold rad
    have := Real.pi_pos
    nlinarith
  obtain ⟨x, y, e, hx0, hy0, hx, hr⟩ := dropCentre_ok hh.le h0 h1.le u0 u1
  set D := h * Real.cos (rad el) / Real.sin (rad el) with hD
  have hD0 : 0 < D := by positivity
  refine ⟨D, hD0, ?_⟩
  rw [e, Real.cos_arccos (by linarith) u1.le, Real.sin_arccos]
  have hy : y = D * Real.sqrt (1 - u ^ 2) := by
    have h2 : x ^ 2 + y ^ 2 = D ^ 2 := by rw [← hr, Real.sq_sqrt (by positivity)]
    have h3 : (D * Real.sqrt (1 - u ^ 2)) ^ 2 = y ^ 2 := by
      rw [mul_pow, Real.sq_sqrt (by nlinarith)]
      rw [hx] at h2
      linear_combination -h2
    exact ((sq_eq_sq₀ (by positivity) hy0).1 h3).symm
  rw [hx, hy, mul_comm u]

variable {Ω : Type} [MeasurableSpace Ω] {P : Measure Ω} [IsProbabilityMeasure P] {X : Ω → ℝ}

theorem centre_hasAzimuth (hX : HasLaw X (Spec.uniform 0 1) P) {h el : ℝ} (hh : 0 < h) (h0 : 0 < el) (h1 : el < 90) :
    Spec.HasAzimuth P (fun ω => dropCentre h el (X ω)) (fun ω => Real.arccos (X ω)) := by
  have hmem : ∀ᵐ ω ∂P, X ω ∈ Set.Ico (0 : ℝ) 1 := by
    have := uniform_mem (a := 0) (b := 1) (by norm_num)
    rw [← hX.map_eq] at this
    exact ae_of_ae_map hX.aemeasurable this
  filter_upwards [hmem] with ω hω
  exact ⟨⟨by linarith [Real.arccos_nonneg (X ω), Real.pi_pos], Real.arccos_le_pi _⟩, centre_azimuth hh h0 h1 hω.1 hω.2⟩

theorem azimuth_unique {centre : Ω → Except Err (ℝ × ℝ)} {α β : Ω → ℝ} (hα : Spec.HasAzimuth P centre α) (hβ : Spec.HasAzimuth P centre β) :
    α =ᵐ[P] β := by
  filter_upwards [hα, hβ] with ω ⟨ma, r, hr, ea⟩ ⟨mb, s, hs, eb⟩
  rw [ea] at eb
  simp only [Except.ok.injEq, Prod.mk.injEq] at eb
  have e : ((r : ℂ) * (Complex.cos (α ω) + Complex.sin (α ω) * Complex.I)) = ((s : ℂ) * (Complex.cos (β ω) + Complex.sin (β ω) * Complex.I)) := by
    have e1 : ((r * Real.cos (α ω) : ℝ) : ℂ) = ((s * Real.cos (β ω) : ℝ) : ℂ) := by rw [eb.1]
    have e2 : ((r * Real.sin (α ω) : ℝ) : ℂ) = ((s * Real.sin (β ω) : ℝ) : ℂ) := by rw [eb.2]
    push_cast at e1 e2
    linear_combination e1 + Complex.I * e2
  rw [← Complex.arg_mul_cos_add_sin_mul_I hr ma, ← Complex.arg_mul_cos_add_sin_mul_I hs mb]
  exact congrArg Complex.arg e

theorem azimuth_cdf (hX : HasLaw X (Spec.uniform 0 1) P) {t : ℝ} (t0 : 0 ≤ t) (t1 : t ≤ Real.pi / 2) :
    P {ω | Real.arccos (X ω) ≤ t} = ENNReal.ofReal (1 - Real.cos t) := by
  have hpi := Real.pi_pos
  have hmem : ∀ᵐ ω ∂P, X ω ∈ Set.Ico (0 : ℝ) 1 := by
    have := uniform_mem (a := 0) (b := 1) (by norm_num)
    rw [← hX.map_eq] at this
    exact ae_of_ae_map hX.aemeasurable this
  have hc : 0 ≤ Real.cos t := Real.cos_nonneg_of_mem_Icc ⟨by linarith, t1⟩
  rw [← uniform_Iic hc (Real.cos_le_one t), ← hX.map_eq, Measure.map_apply_of_aemeasurable hX.aemeasurable measurableSet_Ici]
  refine measure_congr ?_
  filter_upwards [hmem] with ω hω
  simp only [eq_iff_iff]
  show Real.arccos (X ω) ≤ t ↔ Real.cos t ≤ X ω
  constructor
  · intro h
    have := Real.cos_le_cos_of_nonneg_of_le_pi (Real.arccos_nonneg (X ω)) (by linarith) h
    rwa [Real.cos_arccos (by linarith [hω.1]) hω.2.le] at this
  · intro h
    have := Real.arccos_le_arccos h
    rwa [Real.arccos_cos t0 (by linarith)] at this

/-- C166 in part. All UTs are dropped around a point in the first quadrant whose azimuth is at most `t` with probability `1 - cos t`; it is unique up
to events of probability zero. Missing: the azimuth is not uniform. -/
theorem C166_azimuth_partial (hX : HasLaw X (Spec.uniform 0 1) P) {h el : ℝ} (hh : 0 < h) (h0 : 0 < el) (h1 : el < 90) :
    (∃ α : Ω → ℝ, Spec.HasAzimuth P (fun ω => dropCentre h el (X ω)) α) ∧
    ∀ α : Ω → ℝ, Spec.HasAzimuth P (fun ω => dropCentre h el (X ω)) α →
      (∀ᵐ ω ∂P, 0 ≤ α ω ∧ α ω ≤ Real.pi / 2) ∧
      ∀ t, 0 ≤ t → t ≤ Real.pi / 2 → P {ω | α ω ≤ t} = ENNReal.ofReal (1 - Real.cos t) := by
  have hA := centre_hasAzimuth hX hh h0 h1
  refine ⟨⟨_, hA⟩, fun α hα => ?_⟩
  have hu := azimuth_unique hα hA
  have hmem : ∀ᵐ ω ∂P, X ω ∈ Set.Ico (0 : ℝ) 1 := by
    have := uniform_mem (a := 0) (b := 1) (by norm_num)
    rw [← hX.map_eq] at this
    exact ae_of_ae_map hX.aemeasurable this
  refine ⟨?_, fun t t0 t1 => ?_⟩
  · filter_upwards [hu, hmem] with ω e hω
    rw [e]
    exact ⟨Real.arccos_nonneg _, Real.arccos_le_pi_div_two.2 hω.1⟩
  · rw [← azimuth_cdf hX t0 t1]
    refine measure_congr ?_
    filter_upwards [hu] with ω e
    simp only [eq_iff_iff]
    show α ω ≤ t ↔ _
    rw [e]
    rfl

/-- C166 fails: half of the centres are below 60 degrees, a uniform azimuth between 0 and 90 degrees would have two thirds there. -/
theorem C166_violated : ¬ C166_statement := by
  intro H
  have hpi := Real.pi_pos
  have := uniform_probability 0 1
  have hX : HasLaw (id : ℝ → ℝ) (Spec.uniform 0 1) (Spec.uniform 0 1) := HasLaw.id
  obtain ⟨α, hα, a, b, hab, hl⟩ := H ℝ inferInstance (Spec.uniform 0 1) this id hX 600000 45 (by norm_num) (by norm_num) (by norm_num)
  have hcdf := ((C166_azimuth_partial hX (h := 600000) (el := 45) (by norm_num) (by norm_num) (by norm_num)).2 α hα).2
  have hlaw : ∀ t, (Spec.uniform 0 1) {ω | α ω ≤ t} = Spec.uniform a b (Set.Iic t) := by
    intro t
    rw [← hl.map_eq, Measure.map_apply_of_aemeasurable hl.aemeasurable measurableSet_Iic]
    rfl
  have hu : ∀ t, Spec.uniform a b (Set.Iic t) = (ENNReal.ofReal (b - a))⁻¹ * volume (Set.Iic t ∩ Set.Ico a b) := by
    intro t
    unfold Spec.uniform
    rw [if_pos hab, Measure.smul_apply, Measure.restrict_apply measurableSet_Iic, smul_eq_mul]
  have hrange := ((C166_azimuth_partial hX (h := 600000) (el := 45) (by norm_num) (by norm_num) (by norm_num)).2 α hα).1
  have hnull : ∀ s, MeasurableSet s → (∀ x ∈ s, x < 0 ∨ Real.pi / 2 < x) → Spec.uniform a b s = 0 := by
    intro s hs h
    rw [← hl.map_eq, Measure.map_apply_of_aemeasurable hl.aemeasurable hs]
    refine measure_mono_null (t := {ω | ¬ (0 ≤ α ω ∧ α ω ≤ Real.pi / 2)}) (fun ω hω hc => ?_) hrange
    rcases h _ hω with h | h <;> linarith [hc.1, hc.2]
  have ha : 0 ≤ a := by
    by_contra hc
    rw [not_le] at hc
    have h1 := uniform_pos (a := a) (b := b) (x := a) (y := min 0 b) le_rfl (lt_min hc hab) (min_le_right _ _)
    rw [hnull _ measurableSet_Ico fun x hx => Or.inl (lt_of_lt_of_le hx.2 (min_le_left _ _))] at h1
    exact lt_irrefl _ h1
  have hb : b ≤ Real.pi / 2 := by
    by_contra hc
    rw [not_le] at hc
    have hm : max (Real.pi / 2) a < b := max_lt hc hab
    have h1 := uniform_pos (a := a) (b := b) (x := (max (Real.pi / 2) a + b) / 2) (y := b) (by linarith [le_max_right (Real.pi / 2) a])
      (by linarith) le_rfl
    rw [hnull _ measurableSet_Ico fun x hx => Or.inr (by linarith [hx.1, le_max_left (Real.pi / 2) a])] at h1
    exact lt_irrefl _ h1
  have h3 := hcdf (Real.pi / 3) (by positivity) (by linarith)
  rw [hlaw, hu, Real.cos_pi_div_three] at h3
  have h6 := hcdf (Real.pi / 6) (by positivity) (by linarith)
  rw [hlaw, hu, Real.cos_pi_div_six] at h6
  have ha6 : Real.pi / 6 ≤ a := by
    by_contra hc
    rw [not_le] at hc
    have hba : 0 < b - a := by linarith
    by_cases h3b : Real.pi / 3 < b
    · have e : Set.Iic (Real.pi / 3) ∩ Set.Ico a b = Set.Icc a (Real.pi / 3) := by
        ext x
        simp only [Set.mem_inter_iff, Set.mem_Iic, Set.mem_Ico, Set.mem_Icc]
        exact ⟨fun h => ⟨h.2.1, h.1⟩, fun h => ⟨h.2, h.1, by linarith [h.2]⟩⟩
      rw [e, Real.volume_Icc, ← ENNReal.ofReal_inv_of_pos hba, ← ENNReal.ofReal_mul (by positivity),
        ENNReal.ofReal_eq_ofReal_iff (mul_nonneg (by positivity) (by linarith)) (by norm_num), inv_mul_eq_div, div_eq_iff hba.ne'] at h3
      linarith
    · have e : Set.Iic (Real.pi / 3) ∩ Set.Ico a b = Set.Ico a b :=
        Set.inter_eq_right.2 fun x hx => (hx.2.le.trans (not_lt.1 h3b) : x ≤ Real.pi / 3)
      rw [e, Real.volume_Ico, ENNReal.inv_mul_cancel (by simpa using hab) ENNReal.ofReal_ne_top, ← ENNReal.ofReal_one,
        ENNReal.ofReal_eq_ofReal_iff (by norm_num) (by norm_num)] at h3
      norm_num at h3
  have hz : volume (Set.Iic (Real.pi / 6) ∩ Set.Ico a b) = 0 := by
    refine measure_mono_null (t := {Real.pi / 6}) (fun x hx => ?_) (by simp)
    exact le_antisymm hx.1 (ha6.trans hx.2.1)
  rw [hz, mul_zero] at h6
  have := (ENNReal.ofReal_eq_zero.1 h6.symm)
  nlinarith [Real.sq_sqrt (by norm_num : (0 : ℝ) ≤ 3), Real.sqrt_nonneg 3]

/-- A uniform number drawn from the unit interval, 600 km and 45 degrees. -/
example : HasLaw (id : ℝ → ℝ) (Spec.uniform 0 1) (Spec.uniform 0 1) ∧ (0 : ℝ) < 600000 ∧ (0 : ℝ) < 45 ∧ (45 : ℝ) < 90 :=
  ⟨HasLaw.id, by norm_num, by norm_num, by norm_num⟩

end OpenNTN
