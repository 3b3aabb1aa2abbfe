import Mathlib.Analysis.Real.Pi.Bounds
import Verif.Model.ShowElement
import Verif.Lemmas.Antenna
import Verif.Props.Antenna

/-
C164, C165: what `AntennaElement.show` and `AntennaPanel.show` draw.
-/
namespace OpenNTN
open Spec

/-! ### C164 -/

/-- `level` is the gain `g` in decibels; nothing is below every level. -/
def Spec.IsDecibel (level : WithBot ℝ) (g : ℝ) : Prop :=
  (∃ x : ℝ, level = x ∧ g = (10 : ℝ) ^ (x / 10)) ∨ (level = ⊥ ∧ g = 0)

/-- A curve in polar coordinates that shows `gain` in decibels at 361 angles from `lo` to `hi`, evenly spaced. -/
def Spec.ShowsCut (curve : List (ℝ × WithBot ℝ)) (gain : ℝ → ℝ) (lo hi : ℝ) : Prop :=
  curve.map Prod.fst = ((List.range 361).map fun k : ℕ => lo + k * ((hi - lo) / 360)) ∧ ∀ q ∈ curve, Spec.IsDecibel q.2 (gain q.1)

/-- A point in the direction of zenith angle `θ` and azimuth `φ` (in radians), at distance `d` from the origin. -/
def Spec.AtDistance (pt : Fin 3 → ℝ) (d θ φ : ℝ) : Prop :=
  pt = d • ![Real.sin θ * Real.cos φ, Real.sin θ * Real.sin φ, Real.cos θ]

/-- The surface shows the gain in every direction drawn, the direction of the largest gain (boresight) among them: either the distance from the origin is the
gain, or the distances of any two directions differ by the difference of their gains in decibels. -/
def Spec.ShowsSurface (surface : List (Fin 3 → ℝ)) (gain : ℝ → ℝ → ℝ) : Prop :=
  ∃ r : ℝ → ℝ, ((∀ g, r g = g) ∨ ∀ g g', 0 < g → 0 < g' → r g - r g' = 10 * Real.logb 10 (g / g')) ∧
    (∀ pt ∈ surface, ∃ θ φ, Spec.AtDistance pt (r (gain θ φ)) θ φ) ∧
    ∃ pt ∈ surface, Spec.AtDistance pt (r (gain (Real.pi / 2) 0)) (Real.pi / 2) 0

/-- C164: every element is shown with its gain, boresight included. -/
def C164_statement : Prop :=
  ∀ e : Element, Spec.ShowsCut e.show.vertical (fun θ => e.pattern.power θ 0) 0 Real.pi ∧
    Spec.ShowsCut e.show.horizontal (fun φ => e.pattern.power (Real.pi / 2) φ) (-Real.pi) Real.pi ∧
    Spec.ShowsSurface e.show.surface e.pattern.power

theorem power_nonneg (p : Pattern) (θ φ : ℝ) : 0 ≤ p.power θ φ := by
  have h := (C61_patterns θ φ 0).2.2.2.2.2.2.2.2 p
  rw [← h]
  positivity

theorem toDecibel_spec {g : ℝ} (hg : 0 ≤ g) : Spec.IsDecibel (toDecibel g) g := by
  unfold toDecibel
  split_ifs with h
  · exact Or.inr ⟨rfl, h⟩
  · refine Or.inl ⟨_, rfl, ?_⟩
    rw [show 10 * log10 g / 10 = Real.logb 10 g by unfold log10 Real.logb; ring, Real.rpow_logb (by norm_num) (by norm_num)
      (lt_of_le_of_ne hg (Ne.symm h))]

theorem cut_spec (gain : ℝ → ℝ) (hg : ∀ x, 0 ≤ gain x) (lo hi : ℝ) :
    Spec.ShowsCut ((tfLinspace lo hi 361).map fun x => (x, toDecibel (gain x))) gain lo hi := by
  refine ⟨?_, fun q hq => ?_⟩
  · rw [List.map_map]
    show List.map (fun x => x) (tfLinspace lo hi 361) = _
    rw [List.map_id', tfLinspace]
    norm_num
  · obtain ⟨x, -, rfl⟩ := List.mem_map.1 hq
    exact toDecibel_spec (hg x)

/-- The directions of the surface. -/
theorem surface_mem {e : Element} {pt : Fin 3 → ℝ} : pt ∈ e.show.surface ↔ ∃ i : ℕ, i < 100 ∧ ∃ j : ℕ, j < 100 ∧
    pt = ![surfaceRadius e.pattern (e.pattern.power (i * (Real.pi / 99)) (-Real.pi + j * (2 * Real.pi / 99))) *
        Real.sin (i * (Real.pi / 99)) * Real.cos (-Real.pi + j * (2 * Real.pi / 99)),
      surfaceRadius e.pattern (e.pattern.power (i * (Real.pi / 99)) (-Real.pi + j * (2 * Real.pi / 99))) *
        Real.sin (i * (Real.pi / 99)) * Real.sin (-Real.pi + j * (2 * Real.pi / 99)),
      surfaceRadius e.pattern (e.pattern.power (i * (Real.pi / 99)) (-Real.pi + j * (2 * Real.pi / 99))) *
        Real.cos (i * (Real.pi / 99))] := by
  unfold Element.show tfLinspace
  simp only [List.mem_flatMap, List.mem_map, List.mem_range, exists_exists_and_eq_and]
  norm_num
  constructor
  · rintro ⟨i, hi, j, hj, rfl⟩
    refine ⟨i, hi, j, hj, ?_⟩
    rw [show Real.pi + Real.pi = 2 * Real.pi by ring]
  · rintro ⟨i, hi, j, hj, rfl⟩
    refine ⟨i, hi, j, hj, ?_⟩
    rw [show Real.pi + Real.pi = 2 * Real.pi by ring]

/-- No direction drawn is within `π / 198` of the horizontal plane or within `π / 99` of the front in azimuth. -/
theorem grid_theta (i : ℕ) : Real.pi / 198 ≤ |i * (Real.pi / 99) - Real.pi / 2| := by
  have hpi := Real.pi_pos
  rw [show i * (Real.pi / 99) - Real.pi / 2 = ((2 * i - 99 : ℤ) : ℝ) * (Real.pi / 198) by push_cast; ring, abs_mul,
    abs_of_pos (by positivity : 0 < Real.pi / 198)]
  have h : (1 : ℝ) ≤ |((2 * i - 99 : ℤ) : ℝ)| := by
    have : (1 : ℤ) ≤ |2 * (i : ℤ) - 99| := Int.one_le_abs (by omega)
    exact_mod_cast this
  nlinarith [(by positivity : 0 < Real.pi / 198)]

theorem grid_phi (j : ℕ) : Real.pi / 99 ≤ |-Real.pi + j * (2 * Real.pi / 99)| := by
  have hpi := Real.pi_pos
  rw [show -Real.pi + j * (2 * Real.pi / 99) = ((2 * j - 99 : ℤ) : ℝ) * (Real.pi / 99) by push_cast; ring, abs_mul,
    abs_of_pos (by positivity : 0 < Real.pi / 99)]
  have h : (1 : ℝ) ≤ |((2 * j - 99 : ℤ) : ℝ)| := by
    have : (1 : ℤ) ≤ |2 * (j : ℤ) - 99| := Int.one_le_abs (by omega)
    exact_mod_cast this
  nlinarith [(by positivity : 0 < Real.pi / 99)]

theorem bessel_le_one (x : ℝ) : |besselJ1 x| ≤ 1 := by
  have h : ‖∫ t in (0 : ℝ)..Real.pi, Real.cos (t - x * Real.sin t)‖ ≤ 1 * |Real.pi - 0| :=
    intervalIntegral.norm_integral_le_of_norm_le_const fun t _ => by rw [Real.norm_eq_abs]; exact Real.abs_cos_le_one _
  have hpi := Real.pi_pos
  rw [sub_zero, abs_of_pos hpi, one_mul, Real.norm_eq_abs] at h
  rw [besselJ1, abs_mul, abs_of_pos (by positivity)]
  calc 1 / Real.pi * _ ≤ 1 / Real.pi * Real.pi := by gcongr
    _ = 1 := by field_simp

/-- The aperture pattern in a direction drawn is at most 81 per cent of its value at boresight. -/
theorem aperture_drawn {i j : ℕ} (hi : i < 100) (hj : j < 100) :
    Pattern.aperture.power (i * (Real.pi / 99)) (-Real.pi + j * (2 * Real.pi / 99)) ≤ 0.81 := by
  have hpi := Real.pi_pos
  have hlo := Real.pi_gt_d2
  have hhi := Real.pi_lt_d2
  set θ := i * (Real.pi / 99) with hθ
  set φ := -Real.pi + j * (2 * Real.pi / 99) with hφ
  have hi' : (i : ℝ) ≤ 99 := by exact_mod_cast (by omega : i ≤ 99)
  have hj' : (j : ℝ) ≤ 99 := by exact_mod_cast (by omega : j ≤ 99)
  have h1 : Real.sin θ ≤ Real.cos (Real.pi / 198) := by
    rw [← Real.cos_sub_pi_div_two, ← Real.cos_abs]
    refine Real.cos_le_cos_of_nonneg_of_le_pi (by positivity) ?_ (grid_theta i)
    rw [abs_le]
    constructor <;> rw [hθ] <;> nlinarith [(Nat.cast_nonneg i : (0 : ℝ) ≤ i)]
  have h2 : Real.cos φ ≤ Real.cos (Real.pi / 99) := by
    rw [← Real.cos_abs φ]
    refine Real.cos_le_cos_of_nonneg_of_le_pi (by positivity) ?_ (grid_phi j)
    rw [abs_le]
    constructor <;> rw [hφ] <;> nlinarith [(Nat.cast_nonneg j : (0 : ℝ) ≤ j)]
  by_cases hneg : Real.sin θ * Real.cos φ < 0
  · rw [(C61_patterns θ φ 0).2.2.2.2.2.2.2.1 hneg]; norm_num
  rw [not_lt] at hneg
  have hs0 : 0 ≤ Real.sin θ := Real.sin_nonneg_of_nonneg_of_le_pi (by rw [hθ]; positivity) (by rw [hθ]; nlinarith)
  have hc1 : 0 < Real.cos (Real.pi / 198) := Real.cos_pos_of_mem_Ioo ⟨by linarith, by linarith⟩
  have hc2 : 0 < Real.cos (Real.pi / 99) := Real.cos_pos_of_mem_Ioo ⟨by linarith, by linarith⟩
  have hle : Real.sin θ * Real.cos φ ≤ Real.cos (Real.pi / 198) * Real.cos (Real.pi / 99) :=
    mul_le_mul h1 h2 |> fun h => by
      by_cases hφ0 : 0 ≤ Real.cos φ
      · exact h hφ0 hc1.le
      · nlinarith
  set u := Real.sin θ * Real.cos φ with hu
  have hsin : Real.sin (Real.arccos u) ^ 2 = 1 - u ^ 2 := by
    rw [Real.sin_arccos, Real.sq_sqrt]
    have : u ≤ 1 := hle.trans (by nlinarith [Real.cos_le_one (Real.pi / 198), Real.cos_le_one (Real.pi / 99)])
    nlinarith
  have hsn : 0 ≤ Real.sin (Real.arccos u) := Real.sin_nonneg_of_nonneg_of_le_pi (Real.arccos_nonneg _) (Real.arccos_le_pi _)
  have s1 : 0.03171 ≤ Real.sin (Real.pi / 99) := by
    have := Real.sin_gt_sub_cube (x := Real.pi / 99) (by positivity)
    have : (Real.pi / 99) ^ 3 ≤ (3.15 / 99) ^ 3 := pow_le_pow_left₀ (by positivity) (by linarith) 3
    nlinarith
  have s2 : 0.01585 ≤ Real.sin (Real.pi / 198) := by
    have := Real.sin_gt_sub_cube (x := Real.pi / 198) (by positivity)
    have : (Real.pi / 198) ^ 3 ≤ (3.15 / 198) ^ 3 := pow_le_pow_left₀ (by positivity) (by linarith) 3
    nlinarith
  have q1 : Real.cos (Real.pi / 99) ^ 2 ≤ 1 - 0.03171 ^ 2 := by
    have := Real.sin_sq_add_cos_sq (Real.pi / 99)
    nlinarith
  have q2 : Real.cos (Real.pi / 198) ^ 2 ≤ 1 - 0.01585 ^ 2 := by
    have := Real.sin_sq_add_cos_sq (Real.pi / 198)
    nlinarith
  have q3 : u ^ 2 ≤ (1 - 0.01585 ^ 2) * (1 - 0.03171 ^ 2) := by
    calc u ^ 2 ≤ (Real.cos (Real.pi / 198) * Real.cos (Real.pi / 99)) ^ 2 := pow_le_pow_left₀ hneg hle 2
      _ = Real.cos (Real.pi / 198) ^ 2 * Real.cos (Real.pi / 99) ^ 2 := by ring
      _ ≤ _ := mul_le_mul q2 q1 (by positivity) (by norm_num)
  have hs : 0.0354 ≤ Real.sin (Real.arccos u) := by
    by_contra hcon
    rw [not_le] at hcon
    nlinarith
  simp only [Pattern.power, patternAperture]
  rw [← hu]
  split_ifs with c1 c2
  · norm_num
  · exfalso
    rw [← c2, Real.sin_zero] at hs
    norm_num at hs
  · set x := Real.sin (Real.arccos u) * (10 * 2 * Real.pi) with hx
    have hx2 : 2.223 ≤ x := by rw [hx]; nlinarith
    rw [mul_comm (10 * 2 * Real.pi), ← hx, abs_div, abs_of_pos (by linarith : 0 < x)]
    have hb := bessel_le_one x
    have : |besselJ1 x| / x ≤ 0.45 := by
      rw [div_le_iff₀ (by linarith)]
      nlinarith
    have h0 : 0 ≤ |besselJ1 x| / x := div_nonneg (abs_nonneg _) (by linarith)
    have h3 := pow_le_pow_left₀ h0 this 2
    generalize |besselJ1 x| / x = z at h3 ⊢
    norm_num at h3 ⊢
    linarith

/-- C164 in part. Both cuts show the gain in decibels, in steps of half a degree respectively one degree, from end to end and thus with boresight (angle number 180).
The surface lies in 100 times 100 directions at the distance given by the gain: the gain itself for all patterns but "aperture".
Missing: boresight is not among the directions of the surface. For "aperture" the distance is not in decibels: it is 50 plus the natural logarithm, so
that a difference of 10 dB is drawn as 2.3 (distances below zero are drawn as zero), and no direction drawn has more than 81 per cent of the largest gain. -/
theorem C164_shown_partial (e : Element) :
    Spec.ShowsCut e.show.vertical (fun θ => e.pattern.power θ 0) 0 Real.pi ∧
    Spec.ShowsCut e.show.horizontal (fun φ => e.pattern.power (Real.pi / 2) φ) (-Real.pi) Real.pi ∧
    (∃ q ∈ e.show.vertical, q.1 = Real.pi / 2) ∧ (∃ q ∈ e.show.horizontal, q.1 = 0) ∧
    e.show.surface.length = 10000 ∧
    (∀ pt, pt ∈ e.show.surface ↔ ∃ i : ℕ, i < 100 ∧ ∃ j : ℕ, j < 100 ∧ ∃ r,
      Spec.AtDistance pt r (i * (Real.pi / 99)) (-Real.pi + j * (2 * Real.pi / 99)) ∧
      (e.pattern ≠ .aperture → r = e.pattern.power (i * (Real.pi / 99)) (-Real.pi + j * (2 * Real.pi / 99))) ∧
      (e.pattern = .aperture → e.pattern.power (i * (Real.pi / 99)) (-Real.pi + j * (2 * Real.pi / 99)) ≤ 0.81 ∧
        (0 < r → Real.exp (r - 50) = e.pattern.power (i * (Real.pi / 99)) (-Real.pi + j * (2 * Real.pi / 99))) ∧
        0 ≤ r ∧ (r = 0 → e.pattern.power (i * (Real.pi / 99)) (-Real.pi + j * (2 * Real.pi / 99)) ≤ Real.exp (-50)))) := by
  have hv := cut_spec (fun θ => e.pattern.power θ 0) (fun _ => power_nonneg _ _ _) 0 Real.pi
  have hh := cut_spec (fun φ => e.pattern.power (Real.pi / 2) φ) (fun _ => power_nonneg _ _ _) (-Real.pi) Real.pi
  have ev : e.show.vertical = (tfLinspace 0 Real.pi 361).map fun x => (x, toDecibel (e.pattern.power x 0)) := rfl
  have eh : e.show.horizontal = (tfLinspace (-Real.pi) Real.pi 361).map fun x => (x, toDecibel (e.pattern.power (Real.pi / 2) x)) := by
    unfold Element.show; simp only [mul_one]
  refine ⟨hv, eh ▸ hh, ?_, ?_, ?_, fun pt => ?_⟩
  · rw [ev]
    refine ⟨_, List.mem_map.2 ⟨Real.pi / 2, ?_, rfl⟩, rfl⟩
    unfold tfLinspace
    refine List.mem_map.2 ⟨180, by simp, ?_⟩
    norm_num
    ring
  · rw [eh]
    refine ⟨_, List.mem_map.2 ⟨0, ?_, rfl⟩, rfl⟩
    unfold tfLinspace
    refine List.mem_map.2 ⟨180, by simp, ?_⟩
    norm_num
    ring
  · unfold Element.show tfLinspace
    simp only [List.length_flatMap, List.length_map, List.length_range, List.map_map, Function.comp_def, List.map_const', List.sum_replicate]
    norm_num
  · rw [surface_mem]
    constructor
    · rintro ⟨i, hi, j, hj, rfl⟩
      refine ⟨i, hi, j, hj, surfaceRadius e.pattern (e.pattern.power (i * (Real.pi / 99)) (-Real.pi + j * (2 * Real.pi / 99))), ?_, ?_, ?_⟩
      · unfold Spec.AtDistance
        simp [mul_assoc]
      · intro hp
        unfold surfaceRadius
        rw [if_neg hp]
      · intro hp
        have hg := power_nonneg e.pattern (i * (Real.pi / 99)) (-Real.pi + j * (2 * Real.pi / 99))
        refine ⟨by rw [hp]; exact aperture_drawn hi hj, ?_⟩
        unfold surfaceRadius
        rw [if_pos hp]
        generalize e.pattern.power (i * (Real.pi / 99)) (-Real.pi + j * (2 * Real.pi / 99)) = g at hg
        split_ifs with c1 c2
        · exact ⟨fun h => absurd h (lt_irrefl _), le_rfl, fun _ => by rw [c1]; positivity⟩
        · have hg' : 0 < g := lt_of_le_of_ne hg (Ne.symm c1)
          refine ⟨fun _ => ?_, c2.le, fun h => absurd h c2.ne'⟩
          rw [add_sub_cancel_left, Real.exp_log hg']
        · have hg' : 0 < g := lt_of_le_of_ne hg (Ne.symm c1)
          refine ⟨fun h => absurd h (lt_irrefl _), le_rfl, fun _ => ?_⟩
          rw [← Real.log_le_iff_le_exp hg']
          linarith
    · rintro ⟨i, hi, j, hj, r, hr, h1, h2⟩
      refine ⟨i, hi, j, hj, ?_⟩
      have er : r = surfaceRadius e.pattern (e.pattern.power (i * (Real.pi / 99)) (-Real.pi + j * (2 * Real.pi / 99))) := by
        unfold surfaceRadius
        by_cases hp : e.pattern = .aperture
        · obtain ⟨-, k1, k2, k3⟩ := h2 hp
          rw [if_pos hp]
          have hg := power_nonneg e.pattern (i * (Real.pi / 99)) (-Real.pi + j * (2 * Real.pi / 99))
          generalize e.pattern.power (i * (Real.pi / 99)) (-Real.pi + j * (2 * Real.pi / 99)) = g at *
          rcases k2.lt_or_eq with k2 | k2
          · have := k1 k2
            rw [if_neg (by rw [← this]; positivity)]
            rw [← this, Real.log_exp]
            rw [if_pos (by linarith)]; ring
          · split_ifs with c1 c2
            · exact k2.symm
            · have hg' : 0 < g := lt_of_le_of_ne hg (Ne.symm c1)
              have := (Real.log_le_iff_le_exp hg').2 (k3 k2.symm)
              linarith
            · exact k2.symm
        · rw [if_neg hp, h1 hp]
      rw [← er]
      rw [hr]
      simp [mul_assoc]

/-- C164 fails: the surface has no point at boresight. -/
theorem C164_violated : ¬ C164_statement := by
  intro H
  obtain ⟨r, hr, -, pt, hpt, hd⟩ := (H ⟨.omni, 0⟩).2.2
  obtain ⟨i, hi, j, hj, rfl⟩ := surface_mem.1 hpt
  have hpi := Real.pi_pos
  have h3 := congrFun hd 2
  simp [surfaceRadius, Pattern.power, patternOmni] at h3
  have h1 := grid_theta i
  have hi' : (i : ℝ) ≤ 99 := by exact_mod_cast (by omega : i ≤ 99)
  rw [← Real.cos_pi_div_two] at h3
  have := Real.injOn_cos ⟨by positivity, by nlinarith⟩ ⟨by positivity, by linarith⟩ h3
  rw [this, sub_self, abs_zero] at h1
  linarith

/-- Behind an aperture antenna the horizontal cut has no level. -/
example : ((Real.pi, ⊥) : ℝ × WithBot ℝ) ∈ (Element.mk .aperture 0).show.horizontal := by
  obtain ⟨-, h, -⟩ := C164_shown_partial ⟨.aperture, 0⟩
  have h1 : Real.pi ∈ (Element.mk .aperture 0).show.horizontal.map Prod.fst := by
    rw [h.1]
    exact List.mem_map.2 ⟨360, by simp, by push_cast; ring⟩
  obtain ⟨q, hq, e⟩ := List.mem_map.1 h1
  have h0 : Pattern.aperture.power (Real.pi / 2) Real.pi = 0 :=
    (C61_patterns (Real.pi / 2) Real.pi 0).2.2.2.2.2.2.2.1 (by simp)
  rcases h.2 q hq with ⟨x, -, hx⟩ | ⟨hb, -⟩
  · simp only [e, h0] at hx
    exact absurd hx (by positivity : (0 : ℝ) < 10 ^ (x / 10)).ne
  · rw [← e, ← hb]
    exact hq

/-! ### C165 -/

/-- Place of row `i` (counted from the top) and column `j` (counted from the left) of a panel with `R` rows and `C` columns around the origin,
in the plane of y and z. -/
noncomputable def Spec.panelPlace (R C : ℕ) (vertical horizontal : ℝ) (i j : ℕ) : ℝ × ℝ :=
  ((j - ((C : ℝ) - 1) / 2) * horizontal, (((R : ℝ) - 1) / 2 - i) * vertical)

theorem range_mul_flatMap {α : Type} (C R : ℕ) (f : ℕ → α) :
    (List.range (C * R)).map f = (List.range C).flatMap fun j => (List.range R).map fun i => f (j * R + i) := by
  induction C with
  | zero => simp
  | succ C ih =>
    rw [Nat.succ_mul, List.range_add, List.map_append, ih, List.range_succ, List.flatMap_append, List.map_map]
    simp [Function.comp_def]

/-- C165. `AntennaPanel.show` draws a line at the place of every element, column by column from the left and top to bottom, in wavelengths;
they are numbered in this order from one. Exactly for dual polarization a bar is drawn at every place as well. -/
theorem C165_panel (R C : ℕ) (dual : Bool) (vertical horizontal : ℝ) :
    let places := (List.range C).flatMap fun j => (List.range R).map fun i => Spec.panelPlace R C vertical horizontal i j
    let f := panelShow R C dual vertical horizontal
    f.lines = places ∧ f.bars = (if dual then places else []) ∧ f.texts.map (fun q => q.2) = places ∧
      f.texts.map (fun q => q.1) = (List.range (C * R)).map (· + 1) := by
  intro places f
  have hpos : ∀ q, (q < if dual then 2 else 1) →
      ((List.range (C * R)).map fun k => ((panelPos R C dual vertical horizontal (q * (C * R) + k) 1,
        panelPos R C dual vertical horizontal (q * (C * R) + k) 2) : ℝ × ℝ)) = places := by
    intro q hq
    rw [range_mul_flatMap]
    refine List.flatMap_congr fun j hj => List.map_congr_left fun i hi => ?_
    rw [panelPos_eq R C dual vertical horizontal (List.mem_range.1 hi) (List.mem_range.1 hj) hq]
    simp only [Spec.panelPlace, Matrix.cons_val_one, Matrix.cons_val_zero, Matrix.cons_val]
    ext <;> simp <;> ring
  have htake : ((List.range (R * C * if dual then 2 else 1)).map (panelPos R C dual vertical horizontal)).take (R * C) =
      (List.range (C * R)).map (panelPos R C dual vertical horizontal) := by
    rw [← List.map_take, List.take_range, Nat.mul_comm C R]
    congr 2
    cases dual <;> simp
    omega
  have h0 := hpos 0 (by cases dual <;> simp)
  simp only [Nat.zero_mul, Nat.zero_add] at h0
  have hlines : f.lines = places := by
    show List.map _ (List.take _ _) = _
    rw [htake, List.map_map]
    exact h0
  refine ⟨hlines, ?_, ?_, ?_⟩
  · show (if dual then _ else _) = _
    cases dual
    · rfl
    · have h1 := hpos 1 (by simp)
      simp only [if_true, ← List.map_drop]
      rw [← h1, Nat.mul_comm R C, show C * R * 2 = C * R + C * R by ring, List.range_add, List.drop_append_of_le_length (by simp)]
      simp [Function.comp_def]
  · rw [← hlines]
    show List.map _ (List.map _ (List.zipIdx _)) = List.map _ _
    rw [List.map_map]
    generalize List.take (R * C) _ = l
    rw [← List.zipIdx_map_fst 0 l, List.map_map]
    simp [Function.comp_def]
  · show List.map _ (List.map _ (List.zipIdx _)) = _
    rw [htake, List.map_map]
    generalize hl : (List.range (C * R)).map (panelPos R C dual vertical horizontal) = l
    have hlen : l.length = C * R := by rw [← hl]; simp
    rw [show ((fun q : ℕ × ℝ × ℝ => q.1) ∘ fun q : (Fin 3 → ℝ) × ℕ => (q.2 + 1, q.1 1, q.1 2)) = (· + 1) ∘ Prod.snd from rfl, ← List.map_map,
      List.zipIdx_map_snd, hlen, List.range_eq_range']

/-- Two rows and one column, half a wavelength apart. -/
example : (panelShow 2 1 false 0.5 0.5).lines = [(0, 0.25), (0, -0.25)] := by
  rw [(C165_panel 2 1 false 0.5 0.5).1]
  norm_num [Spec.panelPlace, List.range_succ]

end OpenNTN
