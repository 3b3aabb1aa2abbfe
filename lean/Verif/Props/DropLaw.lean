import Mathlib.MeasureTheory.Measure.Lebesgue.Basic
import Mathlib.Probability.HasLaw
import Mathlib.Probability.Independence.Basic
import Verif.Props.TopoGen

/-
C145: the law of generated topologies (utils.py 537-1191).
-/
namespace OpenNTN

open MeasureTheory ProbabilityTheory Classical Spec

variable {B U : ℕ}

/-- The uniform law on `[a, b)`, and the constant `a` if the interval is empty. -/
noncomputable def Spec.uniform (a b : ℝ) : Measure ℝ :=
  if a < b then (ENNReal.ofReal (b - a))⁻¹ • volume.restrict (Set.Ico a b) else Measure.dirac a

/-- What is drawn for a UT. -/
inductive Spec.UtQuantity
  | dx | dy | height | angle | speed | indoor
  deriving DecidableEq

instance : Fintype Spec.UtQuantity := ⟨{.dx, .dy, .height, .angle, .speed, .indoor}, fun x => by cases x <;> simp⟩

/-- What is drawn: one number for the centre of all drops, and six for each UT of each batch example. -/
abbrev Spec.Drop (B U : ℕ) := Option ((Fin B × Fin U) × Spec.UtQuantity)

/-- The numbers drawn. -/
def Spec.dropNumber (w : DropDraws B U) (k : Spec.Drop B U) : ℝ :=
  match k with
  | none => w.xBase
  | some ((b, u), .dx) => w.xDis b u
  | some ((b, u), .dy) => w.yDis b u
  | some ((b, u), .height) => w.height b u
  | some ((b, u), .angle) => w.velAngle b u
  | some ((b, u), .speed) => w.velNorm b u
  | some ((b, u), .indoor) => w.indoor b u

/-- The numbers are independent and uniform on `[0, 1)`. -/
structure Spec.DropRandom {Ω : Type*} [MeasurableSpace Ω] (P : Measure Ω) (w : Ω → DropDraws B U) : Prop where
  law : ∀ k, HasLaw (fun ω => Spec.dropNumber (w ω) k) (Spec.uniform 0 1) P
  indep : iIndepFun (fun k ω => Spec.dropNumber (w ω) k) P

theorem uniform_mem {a b : ℝ} (h : a < b) : ∀ᵐ x ∂Spec.uniform a b, x ∈ Set.Ico a b := by
  unfold Spec.uniform
  rw [if_pos h]
  exact Measure.ae_smul_measure (ae_restrict_mem measurableSet_Ico) _

theorem uniform_probability (a b : ℝ) : IsProbabilityMeasure (Spec.uniform a b) := by
  unfold Spec.uniform
  split_ifs with h
  · refine ⟨?_⟩
    rw [Measure.smul_apply, Measure.restrict_apply MeasurableSet.univ, Set.univ_inter, Real.volume_Ico, smul_eq_mul]
    exact ENNReal.inv_mul_cancel (by simpa using h) ENNReal.ofReal_ne_top
  · infer_instance

theorem uniform_pos {a b x y : ℝ} (hx : a ≤ x) (hxy : x < y) (hy : y ≤ b) : 0 < Spec.uniform a b (Set.Ico x y) := by
  have hab : a < b := lt_of_le_of_lt hx (lt_of_lt_of_le hxy hy)
  unfold Spec.uniform
  rw [if_pos hab, Measure.smul_apply, Measure.restrict_apply measurableSet_Ico, Set.Ico_inter_Ico, sup_eq_left.2 hx, inf_eq_left.2 hy, Real.volume_Ico]
  exact ENNReal.mul_pos (ENNReal.inv_ne_zero.2 ENNReal.ofReal_ne_top) (by simpa using hxy)

/-- Scaling a uniform number. -/
theorem uniformIn_law {Ω : Type*} [MeasurableSpace Ω] {P : Measure Ω} [IsProbabilityMeasure P] {X : Ω → ℝ} (hX : HasLaw X (Spec.uniform 0 1) P) {lo hi : ℝ}
    (h : lo ≤ hi) : HasLaw (fun ω => uniformIn lo hi (X ω)) (Spec.uniform lo hi) P := by
  have hXm := hX.aemeasurable
  refine ⟨by unfold uniformIn; fun_prop, ?_⟩
  rcases h.eq_or_lt with rfl | h
  · have : (fun ω => uniformIn lo lo (X ω)) = fun _ => lo := by funext ω; unfold uniformIn; ring
    rw [this]
    unfold Spec.uniform
    rw [if_neg (lt_irrefl _), Measure.map_const, measure_univ, one_smul]
  · have e : (fun ω => uniformIn lo hi (X ω)) = (fun x => uniformIn lo hi x) ∘ X := rfl
    have hf : Measurable (fun x => uniformIn lo hi x) := by unfold uniformIn; fun_prop
    rw [e, ← AEMeasurable.map_map_of_aemeasurable hf.aemeasurable hX.aemeasurable, hX.map_eq]
    have hd : 0 < hi - lo := by linarith
    ext s hs
    have hpre : uniformIn lo hi ⁻¹' s ∩ Set.Ico 0 1 = (· * (hi - lo)) ⁻¹' ((· + lo) ⁻¹' (s ∩ Set.Ico lo hi)) := by
      ext x
      simp only [Set.mem_inter_iff, Set.mem_preimage, Set.mem_Ico, uniformIn]
      refine and_congr_right fun _ => ?_
      constructor
      · rintro ⟨h0, h1⟩
        constructor <;> nlinarith
      · rintro ⟨h0, h1⟩
        constructor
        · by_contra hc; push Not at hc; nlinarith
        · by_contra hc; push Not at hc; nlinarith
    rw [Measure.map_apply hf hs]
    unfold Spec.uniform
    rw [if_pos one_pos, if_pos h, Measure.smul_apply, Measure.smul_apply, Measure.restrict_apply (hf hs), Measure.restrict_apply hs, hpre,
      Real.volume_preimage_mul_right hd.ne', measure_preimage_add_right, abs_of_pos (inv_pos.2 hd), ENNReal.ofReal_inv_of_pos hd]
    simp

/-- Distance of the point below the satellite from the places where it is seen at elevation `el`. -/
noncomputable def Spec.groundDistance (h el : ℝ) : ℝ := h * Real.cos (rad el) / Real.sin (rad el)

/-- The full claim of C145: UTs of different batch examples are placed independently. -/
def C145_statement : Prop :=
  ∀ (B U : ℕ) (scenario : String) (a : GenArgs) (Ω : Type) (_ : MeasurableSpace Ω) (P : Measure Ω) (w : Ω → DropDraws B U) (t : Ω → GenTopology B U),
    IsProbabilityMeasure P → DropRandom P w → (∀ᵐ ω ∂P, genSingleSector scenario a (w ω) = .ok (t ω)) →
    ∀ b b' u u', b ≠ b' → IndepFun (fun ω => ((t ω).utLoc b u).x) (fun ω => ((t ω).utLoc b' u').x) P

theorem dropRandom_unit {Ω : Type*} [MeasurableSpace Ω] {P : Measure Ω} {w : Ω → DropDraws B U} (hw : DropRandom P w) :
    ∀ᵐ ω ∂P, ∀ k, 0 ≤ dropNumber (w ω) k ∧ dropNumber (w ω) k < 1 := by
  rw [ae_all_iff]
  intro k
  have := hw.law k
  refine ae_of_ae_map (p := fun x => 0 ≤ x ∧ x < 1) this.aemeasurable ?_
  rw [this.map_eq]
  exact uniform_mem one_pos

/-- C145, what holds. There are independent random variables for the centre of the drop and for displacements, height, speed, and heading of every UT of
every batch example, uniform on the ranges configured (on a quarter turn's worth of places for the centre: its first coordinate is uniform between zero
and the ground distance of the elevation). Almost surely the generation succeeds, every UT is the centre plus its displacements at its height,
it moves horizontally with its speed and heading, is outdoors, and the BS is above the origin. So relative to the centre, UTs are independent and
uniform in a square of the inter-site distance. Missing: the centre is the same for all batch examples, see `C145_violated`. -/
theorem C145_drop_partial {scenario : String} {a : GenArgs} {p : GenParams} (hp : setScenarioParameters scenario a = .ok p)
    (hh : 0 ≤ p.bsHeight) (h0 : 0 < p.elevation) (h1 : p.elevation ≤ 90) (hi : 0 ≤ p.isd) (hz : p.minUtHeight ≤ p.maxUtHeight)
    (hv : p.minUtVelocity ≤ p.maxUtVelocity)
    {Ω : Type*} [MeasurableSpace Ω] {P : Measure Ω} [IsProbabilityMeasure P] {w : Ω → DropDraws B U} (hw : DropRandom P w) :
    ∃ (c : Ω → ℝ) (F : (Fin B × Fin U) × UtQuantity → Ω → ℝ),
      iIndepFun (fun k : Drop B U => k.elim c F) P ∧
      HasLaw c (Spec.uniform 0 (groundDistance p.bsHeight p.elevation)) P ∧
      (∀ b u, HasLaw (F ((b, u), .dx)) (Spec.uniform (-p.isd / 2) (p.isd / 2)) P ∧ HasLaw (F ((b, u), .dy)) (Spec.uniform (-p.isd / 2) (p.isd / 2)) P ∧
        HasLaw (F ((b, u), .height)) (Spec.uniform p.minUtHeight p.maxUtHeight) P ∧
        HasLaw (F ((b, u), .speed)) (Spec.uniform p.minUtVelocity p.maxUtVelocity) P ∧
        HasLaw (F ((b, u), .angle)) (Spec.uniform (-Real.pi) Real.pi) P) ∧
      ∀ᵐ ω ∂P, ∃ t, genSingleSector scenario a (w ω) = .ok t ∧ ∀ b u,
        t.utLoc b u = ⟨c ω + F ((b, u), .dx) ω, Real.sqrt (groundDistance p.bsHeight p.elevation ^ 2 - c ω ^ 2) + F ((b, u), .dy) ω,
          F ((b, u), .height) ω⟩ ∧
        t.utVel b u = ⟨F ((b, u), .speed) ω * Real.cos (F ((b, u), .angle) ω), F ((b, u), .speed) ω * Real.sin (F ((b, u), .angle) ω), 0⟩ ∧
        t.inState b u = false ∧ t.bsLoc b 0 = ⟨0, 0, p.bsHeight⟩ := by
  let D := groundDistance p.bsHeight p.elevation
  obtain ⟨r0, r1⟩ := rad_range h0 h1
  have hs : 0 < Real.sin (rad p.elevation) := Real.sin_pos_of_pos_of_lt_pi r0 (by linarith [Real.pi_pos])
  have hc : 0 ≤ Real.cos (rad p.elevation) := Real.cos_nonneg_of_mem_Icc ⟨by linarith, r1⟩
  have hD : 0 ≤ D := by simp only [D, groundDistance]; positivity
  let lo : Drop B U → ℝ := fun k => match k with
    | none => 0
    | some (_, .dx) => -p.isd / 2
    | some (_, .dy) => -p.isd / 2
    | some (_, .height) => p.minUtHeight
    | some (_, .angle) => -Real.pi
    | some (_, .speed) => p.minUtVelocity
    | some (_, .indoor) => 0
  let hi' : Drop B U → ℝ := fun k => match k with
    | none => D
    | some (_, .dx) => p.isd / 2
    | some (_, .dy) => p.isd / 2
    | some (_, .height) => p.maxUtHeight
    | some (_, .angle) => Real.pi
    | some (_, .speed) => p.maxUtVelocity
    | some (_, .indoor) => 1
  have hle : ∀ k, lo k ≤ hi' k := by
    have := Real.pi_pos
    rintro (_ | ⟨_, _ | _ | _ | _ | _ | _⟩) <;> simp only [lo, hi'] <;> linarith
  have hlaw := fun k => uniformIn_law (hw.law k) (hle k)
  have hind : iIndepFun (fun k ω => uniformIn (lo k) (hi' k) (dropNumber (w ω) k)) P :=
    hw.indep.comp (fun k x => uniformIn (lo k) (hi' k) x) fun k => by unfold uniformIn; fun_prop
  refine ⟨fun ω => uniformIn 0 D (w ω).xBase, fun k ω => uniformIn (lo (some k)) (hi' (some k)) (dropNumber (w ω) (some k)), ?_, hlaw none,
    fun b u => ⟨hlaw (some ((b, u), .dx)), hlaw (some ((b, u), .dy)), hlaw (some ((b, u), .height)), hlaw (some ((b, u), .speed)),
      hlaw (some ((b, u), .angle))⟩, ?_⟩
  · convert hind using 2 with k
    rcases k with _ | k <;> rfl
  · filter_upwards [dropRandom_unit hw] with ω hω
    obtain ⟨x, y, e, hx0, hy0, hx, hr⟩ := dropCentre_ok hh h0 h1 (hω none).1 (hω none).2
    have hx' : x = uniformIn 0 D (w ω).xBase := by rw [hx]; unfold uniformIn; simp only [D, groundDistance, dropNumber]; ring
    have hy' : y = Real.sqrt (D ^ 2 - uniformIn 0 D (w ω).xBase ^ 2) := by
      have : D = Real.sqrt (x ^ 2 + y ^ 2) := hr.symm
      rw [← hx', this, Real.sq_sqrt (by positivity), add_sub_cancel_left, Real.sqrt_sq hy0]
    have hxy : dropUts p.bsHeight p.elevation p.isd (w ω) = .ok fun b u =>
        (x + uniformIn (-p.isd / 2) (p.isd / 2) ((w ω).xDis b u), y + uniformIn (-p.isd / 2) (p.isd / 2) ((w ω).yDis b u)) := by
      unfold dropUts
      have : dropCentre p.bsHeight p.elevation (w ω).xBase = .ok (x, y) := e
      rw [this]
      rfl
    have hgen : ∃ t, genSingleSector scenario a (w ω) = .ok t := by
      unfold genSingleSector generateUts
      rw [hp]
      simp only [bind, Except.bind, hxy, ne_eq, not_true_eq_false, false_and, if_false]
      exact ⟨_, rfl⟩
    obtain ⟨t, ht⟩ := hgen
    refine ⟨t, ht, fun b u => ?_⟩
    obtain ⟨p', xy, e1, e2, e3, -, e4, e5, e6, -⟩ := genSingleSector_eq ht
    rw [hp] at e1
    cases e1
    rw [hxy] at e2
    cases e2
    rw [e3, e4, e5, e6]
    refine ⟨?_, rfl, ?_, rfl⟩
    · simp only [lo, hi', dropNumber]
      rw [← hx', hy', ← hx']
    · have := (hω (some ((b, u), .indoor))).1
      simpa [dropNumber] using this

/-! ### The centre is shared -/

/-- All arrays from one family of numbers. -/
def Spec.dropDraws (x : Drop B U → ℝ) : DropDraws B U where
  xBase := x none
  xDis b u := x (some ((b, u), .dx))
  yDis b u := x (some ((b, u), .dy))
  sector _ _ := 0
  height b u := x (some ((b, u), .height))
  indoor b u := x (some ((b, u), .indoor))
  velAngle b u := x (some ((b, u), .angle))
  velNorm b u := x (some ((b, u), .speed))

/-- Draws as required exist. -/
theorem exists_dropRandom (B U : ℕ) : ∃ P : Measure (Drop B U → ℝ), IsProbabilityMeasure P ∧ DropRandom P (dropDraws (B := B) (U := U)) := by
  have hp := uniform_probability 0 1
  have e : ∀ (k : Drop B U) (ω : Drop B U → ℝ), dropNumber (dropDraws ω) k = ω k := by
    rintro (_ | ⟨⟨b, u⟩, _ | _ | _ | _ | _ | _⟩) ω <;> rfl
  refine ⟨Measure.pi fun _ => Spec.uniform 0 1, inferInstance, fun k => ?_, ?_⟩
  · have := measurePreserving_eval (fun _ : Drop B U => Spec.uniform 0 1) k
    simp only [e]
    exact ⟨this.measurable.aemeasurable, this.map_eq⟩
  · simp only [e]
    exact iIndepFun_pi (X := fun _ => id) (fun _ => aemeasurable_id)

/-- The hypotheses of C145 can be met: the defaults of the dense urban scenario. -/
example : ∃ p, setScenarioParameters "dur" {} = .ok p ∧ 0 ≤ p.bsHeight ∧ 0 < p.elevation ∧ p.elevation ≤ 90 ∧ 0 ≤ p.isd ∧
    p.minUtHeight ≤ p.maxUtHeight ∧ p.minUtVelocity ≤ p.maxUtVelocity ∧
    ∃ P : Measure (Drop 2 3 → ℝ), IsProbabilityMeasure P ∧ DropRandom P dropDraws :=
  ⟨_, rfl, by norm_num [scenarioDefaults], by norm_num [scenarioDefaults], by norm_num [scenarioDefaults], by norm_num [scenarioDefaults],
    by norm_num [scenarioDefaults], by norm_num [scenarioDefaults], exists_dropRandom 2 3⟩

/-- C145 fails for the defaults of the dense urban scenario and two examples with one UT each: the first coordinates of the two UTs differ by 200 m at
most, so one is never in the first quarter while the other is in the last. -/
theorem C145_violated : ¬ C145_statement := by
  intro H
  obtain ⟨P, hP, hw⟩ := exists_dropRandom 2 1
  let p : GenParams := ⟨200, 600000, 80, 1.5, 1.5, 0, 0, 0⟩
  have hp : setScenarioParameters "dur" {} = .ok p := by simp [setScenarioParameters, scenarioDefaults, p]
  obtain ⟨c, F, -, hc, hF, hae⟩ := C145_drop_partial hp (by norm_num [p]) (by norm_num [p]) (by norm_num [p]) (by norm_num [p]) (le_refl _) (le_refl _) hw
  -- the ground distance is more than 60 km
  let D := groundDistance p.bsHeight p.elevation
  have hD : 60000 ≤ D := by
    have hpi := Real.pi_pos
    have h1 : Real.cos (rad 80) = Real.sin (Real.pi / 18) := by
      rw [← Real.cos_pi_div_two_sub]; congr 1; unfold rad; ring
    have h2 : 1 / 9 ≤ Real.cos (rad 80) := by
      rw [h1]
      have := Real.mul_le_sin (x := Real.pi / 18) (by positivity) (by linarith)
      refine le_trans (le_of_eq ?_) this
      field_simp
      norm_num
    have h3 : 0 < Real.sin (rad 80) := Real.sin_pos_of_pos_of_lt_pi (by unfold rad; positivity) (by unfold rad; linarith)
    have h4 := Real.sin_le_one (rad 80)
    simp only [D, groundDistance, p]
    rw [le_div_iff₀ h3]
    nlinarith
  have ht : ∀ ω : Drop 2 1 → ℝ, ∃ t : GenTopology 2 1, (∃ t', genSingleSector "dur" {} (dropDraws ω) = .ok t') →
      genSingleSector "dur" {} (dropDraws ω) = .ok t := by
    intro ω
    by_cases h : ∃ t', genSingleSector "dur" {} (dropDraws ω) = .ok t'
    · exact ⟨h.choose, fun _ => h.choose_spec⟩
    · exact ⟨⟨fun _ _ => ⟨0, 0, 0⟩, fun _ _ => ⟨0, 0, 0⟩, fun _ _ => .error .notANumber, fun _ _ => ⟨0, 0, 0⟩, fun _ _ => ⟨0, 0, 0⟩, fun _ _ => false⟩,
        fun h' => absurd h' h⟩
  choose t ht using ht
  have hind := H 2 1 "dur" {} _ _ P dropDraws t hP hw (by filter_upwards [hae] with ω ⟨t', h, _⟩ using ht ω ⟨t', h⟩) 0 1 0 0 (by decide)
  have hdx : ∀ b, ∀ᵐ ω ∂P, -100 ≤ F ((b, 0), .dx) ω ∧ F ((b, 0), .dx) ω < 100 := by
    intro b
    have := (hF b 0).1
    refine ae_of_ae_map (p := fun x => -100 ≤ x ∧ x < 100) this.aemeasurable ?_
    rw [this.map_eq]
    have := uniform_mem (a := -p.isd / 2) (b := p.isd / 2) (by norm_num [p])
    filter_upwards [this] with x hx
    simp only [p, Set.mem_Ico] at hx
    constructor <;> linarith [hx.1, hx.2]
  have hx : ∀ᵐ ω ∂P, ∀ b, |((t ω).utLoc b 0).x - c ω| ≤ 100 := by
    rw [ae_all_iff]
    intro b
    filter_upwards [hae, hdx b] with ω ⟨t', h, h'⟩ hd
    have : t ω = t' := by
      have := ht ω ⟨t', h⟩
      rw [h] at this
      cases this
      rfl
    rw [this, (h' b 0).1, abs_le]
    simp only
    constructor <;> linarith [hd.1, hd.2]
  have key := hind.measure_inter_preimage_eq_mul (Set.Iio (D / 4)) (Set.Ioi (3 * D / 4)) measurableSet_Iio measurableSet_Ioi
  have z : P ((fun ω => ((t ω).utLoc 0 0).x) ⁻¹' Set.Iio (D / 4) ∩ (fun ω => ((t ω).utLoc 1 0).x) ⁻¹' Set.Ioi (3 * D / 4)) = 0 := by
    rw [measure_eq_zero_iff_ae_notMem]
    filter_upwards [hx] with ω h
    rintro ⟨h0, h1⟩
    simp only [Set.mem_preimage, Set.mem_Iio, Set.mem_Ioi] at h0 h1
    have a0 := abs_le.1 (h 0)
    have a1 := abs_le.1 (h 1)
    linarith [a0.1, a1.2]
  have centre : ∀ x y, 0 ≤ x → x < y → y ≤ D → 0 < P (c ⁻¹' Set.Ico x y) := by
    intro x y h0 h1 h2
    rw [← Measure.map_apply_of_aemeasurable hc.aemeasurable measurableSet_Ico, hc.map_eq]
    exact uniform_pos h0 h1 h2
  have p0 : 0 < P ((fun ω => ((t ω).utLoc 0 0).x) ⁻¹' Set.Iio (D / 4)) := by
    refine lt_of_lt_of_le (centre 0 (D / 8) le_rfl (by linarith) (by linarith)) (measure_mono_ae ?_)
    filter_upwards [hx] with ω h hω
    have a0 := abs_le.1 (h 0)
    have := hω.2
    show _ < D / 4
    linarith [a0.2]
  have p1 : 0 < P ((fun ω => ((t ω).utLoc 1 0).x) ⁻¹' Set.Ioi (3 * D / 4)) := by
    refine lt_of_lt_of_le (centre (7 * D / 8) D (by linarith) (by linarith) le_rfl) (measure_mono_ae ?_)
    filter_upwards [hx] with ω h hω
    have a0 := abs_le.1 (h 1)
    have := hω.1
    show 3 * D / 4 < _
    linarith [a0.1]
  rw [z] at key
  exact (ENNReal.mul_pos p0.ne' p1.ne').ne key

end OpenNTN
