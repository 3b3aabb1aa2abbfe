import Verif.Model.Geometry
import Verif.Spec.Geometry
import Verif.Model.Lsp
import Mathlib.Analysis.InnerProductSpace.PiL2
import Mathlib.Tactic.LinearCombination
import Mathlib.Tactic.Positivity

/-
Properties C20-C25: geometry of a link.
-/
namespace OpenNTN

open Real

/-! ### C20 -/

theorem sqrt_sq_add_triangle (a b c d : ℝ) :
    sqrt ((a + c) ^ 2 + (b + d) ^ 2) ≤ sqrt (a ^ 2 + b ^ 2) + sqrt (c ^ 2 + d ^ 2) := by
  have h1 := Real.sqrt_nonneg (a ^ 2 + b ^ 2)
  have h2 := Real.sqrt_nonneg (c ^ 2 + d ^ 2)
  have e1 := Real.sq_sqrt (show 0 ≤ a ^ 2 + b ^ 2 by positivity)
  have e2 := Real.sq_sqrt (show 0 ≤ c ^ 2 + d ^ 2 by positivity)
  refine Real.sqrt_le_iff.2 ⟨by positivity, ?_⟩
  have hcs : a * c + b * d ≤ sqrt (a ^ 2 + b ^ 2) * sqrt (c ^ 2 + d ^ 2) := by
    rw [← Real.sqrt_mul (by positivity)]
    refine Real.le_sqrt_of_sq_le ?_
    nlinarith [sq_nonneg (a * d - b * c)]
  nlinarith

/-- C20 for one point set: what makes `d` a planar distance on points with coordinates `px`, `py`. -/
def IsPlanarMetric {ι : Type} (px py : ι → ℝ) (d : ι → ι → ℝ) : Prop :=
  (∀ i j, 0 ≤ d i j) ∧ (∀ i j, d i j = d j i) ∧ (∀ i j, d i j = 0 ↔ px i = px j ∧ py i = py j) ∧
  (∀ i j k, d i k ≤ d i j + d j k)

theorem planarMetric_of_sqrt {ι : Type} (px py : ι → ℝ) :
    IsPlanarMetric px py (fun i j => sqrt ((px i - px j) ^ 2 + (py i - py j) ^ 2)) := by
  refine ⟨fun i j => Real.sqrt_nonneg _, fun i j => congrArg sqrt (by ring), fun i j => ?_, fun i j k => ?_⟩
  · rw [Real.sqrt_eq_zero (by positivity)]
    constructor
    · intro h
      have h1 : (px i - px j) ^ 2 = 0 := by nlinarith [sq_nonneg (px i - px j), sq_nonneg (py i - py j)]
      have h2 : (py i - py j) ^ 2 = 0 := by nlinarith [sq_nonneg (px i - px j), sq_nonneg (py i - py j)]
      exact ⟨sub_eq_zero.1 (pow_eq_zero_iff two_ne_zero |>.1 h1), sub_eq_zero.1 (pow_eq_zero_iff two_ne_zero |>.1 h2)⟩
    · rintro ⟨h1, h2⟩; rw [h1, h2]; ring
  · have := sqrt_sq_add_triangle (px i - px j) (py i - py j) (px j - px k) (py j - py k)
    simpa using this

/-- C20: BS-UT and UT-UT distances are the Euclidean distances in the plane; on any set of nodes they satisfy the axioms of a
distance. -/
theorem C20_planar_distance :
    (∀ {ι : Type} (pos : ι → Vec3), IsPlanarMetric (fun i => (pos i).x) (fun i => (pos i).y) (fun i j => distance2d (pos i) (pos j))) ∧
    (∀ {U : ℕ} (x y : Fin U → ℝ), IsPlanarMetric x y (utDistance2d x y)) ∧
    (∀ p q : Vec3, distance2d p q = dist (!₂[p.x, p.y] : EuclideanSpace ℝ (Fin 2)) !₂[q.x, q.y]) := by
  refine ⟨fun pos => planarMetric_of_sqrt _ _, fun x y => ?_, fun p q => ?_⟩
  · have := planarMetric_of_sqrt x y
    have e : utDistance2d x y = fun i j => sqrt ((x i - x j) ^ 2 + (y i - y j) ^ 2) := by
      funext i j; unfold utDistance2d; congr 1; ring
    rw [e]; exact this
  · rw [EuclideanSpace.dist_eq]
    simp [distance2d, Fin.sum_univ_two, Real.dist_eq, sq_abs]

/-- A non-trivial distance. -/
example : distance2d ⟨3, 4, 0⟩ ⟨0, 0, 600000⟩ = 5 := by
  unfold distance2d
  norm_num
  rw [show (25 : ℝ) = 5 ^ 2 by norm_num]; exact Real.sqrt_sq (by norm_num)

/-! ### C21 -/

/-- Sine of the elevation. -/
theorem sin_el_pos {el : ℝ} (h1 : 0 < el) (h2 : el ≤ 90) : 0 < sin (deg2rad el) := by
  apply Real.sin_pos_of_pos_of_lt_pi
  · unfold deg2rad; positivity
  · unfold deg2rad; nlinarith [Real.pi_pos]

theorem sin_el_mono {e1 e2 : ℝ} (h1 : 0 ≤ e1) (h : e1 < e2) (h2 : e2 ≤ 90) : sin (deg2rad e1) < sin (deg2rad e2) := by
  apply Real.sin_lt_sin_of_lt_of_le_pi_div_two
  · unfold deg2rad; nlinarith [Real.pi_pos]
  · unfold deg2rad; nlinarith [Real.pi_pos]
  · unfold deg2rad; nlinarith [Real.pi_pos]

/-- The slant range is the non-negative root of the law of cosines. -/
theorem distance3d_root (el : ℝ) {h : ℝ} (hh : 0 < h) :
    0 < distance3d el h ∧
    (earthRadius + h) ^ 2 = earthRadius ^ 2 + distance3d el h ^ 2 + 2 * earthRadius * distance3d el h * sin (deg2rad el) := by
  have hR : (0 : ℝ) < earthRadius := by norm_num [earthRadius]
  set s := sin (deg2rad el) with hs
  have hrad : 0 ≤ earthRadius ^ 2 * s ^ 2 + h ^ 2 + 2 * h * earthRadius := by positivity
  have e := Real.sq_sqrt hrad
  have hn := Real.sqrt_nonneg (earthRadius ^ 2 * s ^ 2 + h ^ 2 + 2 * h * earthRadius)
  have hd : distance3d el h = sqrt (earthRadius ^ 2 * s ^ 2 + h ^ 2 + 2 * h * earthRadius) - earthRadius * s := rfl
  set q := sqrt (earthRadius ^ 2 * s ^ 2 + h ^ 2 + 2 * h * earthRadius)
  constructor
  · rw [hd]
    have : |earthRadius * s| < q := by
      apply abs_lt_of_sq_lt_sq _ hn
      rw [e]; nlinarith
    linarith [le_abs_self (earthRadius * s)]
  · rw [hd]; nlinarith

/-- Uniqueness of the non-negative root. -/
theorem slant_unique {R h s d d' : ℝ} (hR : 0 < R) (hh : 0 < h) (hd : 0 ≤ d) (hd' : 0 ≤ d')
    (e : (R + h) ^ 2 = R ^ 2 + d ^ 2 + 2 * R * d * s) (e' : (R + h) ^ 2 = R ^ 2 + d' ^ 2 + 2 * R * d' * s) : d = d' := by
  have h0 : (d - d') * (d + d' + 2 * R * s) = 0 := by linear_combination e' - e
  rcases mul_eq_zero.1 h0 with h1 | h1
  · linarith
  · exfalso
    -- the product of the roots is negative
    have : d * d' = -(h ^ 2 + 2 * R * h) := by
      have : d' = -d - 2 * R * s := by linarith
      rw [this]; linear_combination e
    nlinarith [mul_nonneg hd hd']

/-- C21: slant range of the spherical Earth. -/
theorem C21_slant_range {el h : ℝ} (h10 : 10 ≤ el) (h90 : el ≤ 90) (hh : 0 < h) :
    let R : ℝ := 6371000
    let d := distance3d el h
    0 ≤ d ∧ (R + h) ^ 2 = R ^ 2 + d ^ 2 + 2 * R * d * sin (el * π / 180) ∧
    (∀ d', 0 ≤ d' → (R + h) ^ 2 = R ^ 2 + d' ^ 2 + 2 * R * d' * sin (el * π / 180) → d' = d) ∧
    h ≤ d ∧ d ≤ sqrt (h ^ 2 + 2 * h * R) ∧ (el = 90 → d = h) ∧
    (∀ el', el < el' → el' ≤ 90 → distance3d el' h < d) ∧ (∀ h', h < h' → d < distance3d el h') := by
  intro R d
  have hdeg : ∀ e : ℝ, deg2rad e = e * π / 180 := fun e => by unfold deg2rad; ring
  have hR : (0 : ℝ) < R := by norm_num [R]
  obtain ⟨hd0, heq⟩ := distance3d_root el hh
  have hs0 := sin_el_pos (by linarith : (0 : ℝ) < el) h90
  have hs1 := Real.sin_le_one (deg2rad el)
  rw [hdeg] at heq hs0 hs1
  change (R + h) ^ 2 = R ^ 2 + d ^ 2 + 2 * R * d * sin (el * π / 180) at heq
  change 0 < d at hd0
  refine ⟨hd0.le, heq, fun d' hd' e' => slant_unique hR hh hd' hd0.le e' heq, ?_, ?_, ?_, ?_, ?_⟩
  · by_contra hlt
    push Not at hlt
    have : d * sin (el * π / 180) ≤ d := by nlinarith
    nlinarith [mul_pos hR hd0]
  · apply Real.le_sqrt_of_sq_le
    nlinarith [mul_pos (mul_pos hR hd0) hs0]
  · intro h90'
    have hs : sin (el * π / 180) = 1 := by rw [h90', show (90 : ℝ) * π / 180 = π / 2 by ring, Real.sin_pi_div_two]
    rw [hs] at heq
    have : (d - h) * (d + h + 2 * R) = 0 := by linear_combination -heq
    rcases mul_eq_zero.1 this with h1 | h1
    · linarith
    · linarith
  · intro el' hlt hle
    obtain ⟨hd0', heq'⟩ := distance3d_root el' hh
    have hs := sin_el_mono (by linarith : (0 : ℝ) ≤ el) hlt hle
    rw [hdeg, hdeg] at hs
    rw [hdeg] at heq'
    change (R + h) ^ 2 = R ^ 2 + distance3d el' h ^ 2 + 2 * R * distance3d el' h * sin (el' * π / 180) at heq'
    by_contra hge
    push Not at hge
    have h2 : d * sin (el * π / 180) < distance3d el' h * sin (el' * π / 180) := by
      calc d * sin (el * π / 180) < d * sin (el' * π / 180) := by nlinarith
        _ ≤ distance3d el' h * sin (el' * π / 180) := by nlinarith
    nlinarith
  · intro h' hlt
    obtain ⟨hd0', heq'⟩ := distance3d_root el (hh.trans hlt)
    rw [hdeg] at heq'
    change (R + h') ^ 2 = R ^ 2 + distance3d el h' ^ 2 + 2 * R * distance3d el h' * sin (el * π / 180) at heq'
    by_contra hge
    push Not at hge
    have h2 : distance3d el h' * sin (el * π / 180) ≤ d * sin (el * π / 180) := by nlinarith
    nlinarith

/-- C21 applies to a LEO satellite at 600 km seen under 30 degrees. -/
example : (10 : ℝ) ≤ 30 ∧ (30 : ℝ) ≤ 90 ∧ (0 : ℝ) < 600000 := by norm_num

/-! ### C23, C24 -/

theorem wrap_range (x : ℝ) : 0 ≤ wrapAngle0_360 x ∧ wrapAngle0_360 x < 360 := by
  unfold wrapAngle0_360 fmod
  have h1 := Int.floor_le (x / 360)
  have h2 := Int.lt_floor_add_one (x / 360)
  constructor
  · have : (360 : ℝ) * ⌊x / 360⌋ ≤ 360 * (x / 360) := by linarith
    linarith
  · have : (360 : ℝ) * (x / 360) < 360 * (⌊x / 360⌋ + 1) := by linarith
    linarith

theorem wrap_cos (x : ℝ) : cos (wrapAngle0_360 (rad2deg x) * π / 180) = cos x := by
  unfold wrapAngle0_360 fmod
  have : (rad2deg x - 360 * (⌊rad2deg x / 360⌋ : ℝ)) * π / 180 = x - (⌊rad2deg x / 360⌋ : ℝ) * (2 * π) := by
    unfold rad2deg
    have := Real.pi_ne_zero
    field_simp; ring
  rw [this, Real.cos_sub_int_mul_two_pi]

theorem wrap_sin (x : ℝ) : sin (wrapAngle0_360 (rad2deg x) * π / 180) = sin x := by
  unfold wrapAngle0_360 fmod
  have : (rad2deg x - 360 * (⌊rad2deg x / 360⌋ : ℝ)) * π / 180 = x - (⌊rad2deg x / 360⌋ : ℝ) * (2 * π) := by
    unfold rad2deg
    have := Real.pi_ne_zero
    field_simp; ring
  rw [this, Real.sin_sub_int_mul_two_pi]

theorem atan2_norm (y x : ℝ) : sqrt (x ^ 2 + y ^ 2) * cos (atan2 y x) = x ∧ sqrt (x ^ 2 + y ^ 2) * sin (atan2 y x) = y := by
  have hn : ‖(⟨x, y⟩ : ℂ)‖ = sqrt (x ^ 2 + y ^ 2) := by
    rw [Complex.norm_def, Complex.normSq_mk]; congr 1; ring
  rw [← hn]
  exact ⟨Complex.norm_mul_cos_arg _, Complex.norm_mul_sin_arg _⟩

/-- Coordinates of a node as a point of space. -/
def Vec3.point (v : Vec3) : ℝ × ℝ × ℝ := (v.x, v.y, v.z)

/-- Components of the direction given by the LoS departure angles. -/
theorem los_departure (ut bs : Vec3) :
    let r := sqrt ((ut.x - bs.x) ^ 2 + (ut.y - bs.y) ^ 2 + (ut.z - bs.z) ^ 2)
    let v := Spec.direction (losAngles ut bs).zod (losAngles ut bs).aod
    r * v.1 = ut.x - bs.x ∧ r * v.2.1 = ut.y - bs.y ∧ r * v.2.2 = ut.z - bs.z := by
  intro r v
  obtain ⟨z1, z2⟩ := atan2_norm (distance2d ut bs) (ut.z - bs.z)
  obtain ⟨a1, a2⟩ := atan2_norm (ut.y - bs.y) (ut.x - bs.x)
  have hd2 : distance2d ut bs ^ 2 = (ut.x - bs.x) ^ 2 + (ut.y - bs.y) ^ 2 := Real.sq_sqrt (by positivity)
  have hr : sqrt ((ut.z - bs.z) ^ 2 + distance2d ut bs ^ 2) = r := by rw [hd2]; congr 1; ring
  rw [hr] at z1 z2
  have hd : sqrt ((ut.x - bs.x) ^ 2 + (ut.y - bs.y) ^ 2) = distance2d ut bs := rfl
  rw [hd] at a1 a2
  simp only [v, Spec.direction, losAngles, wrap_cos, wrap_sin]
  refine ⟨?_, ?_, z1⟩
  · rw [← mul_assoc, z2, a1]
  · rw [← mul_assoc, z2, a2]

theorem direction_unit (th ph : ℝ) : (Spec.direction th ph).1 ^ 2 + (Spec.direction th ph).2.1 ^ 2 + (Spec.direction th ph).2.2 ^ 2 = 1 := by
  simp only [Spec.direction]
  have h1 := Real.sin_sq_add_cos_sq (th * π / 180)
  have h2 := Real.sin_sq_add_cos_sq (ph * π / 180)
  linear_combination h1 + sin (th * π / 180) ^ 2 * h2

theorem range_pos {ut bs : Vec3} (h : ut ≠ bs) : 0 < sqrt ((ut.x - bs.x) ^ 2 + (ut.y - bs.y) ^ 2 + (ut.z - bs.z) ^ 2) := by
  apply Real.sqrt_pos.2
  by_contra hn
  apply h
  have h1 : (ut.x - bs.x) ^ 2 = 0 := by nlinarith [sq_nonneg (ut.x - bs.x), sq_nonneg (ut.y - bs.y), sq_nonneg (ut.z - bs.z)]
  have h2 : (ut.y - bs.y) ^ 2 = 0 := by nlinarith [sq_nonneg (ut.x - bs.x), sq_nonneg (ut.y - bs.y), sq_nonneg (ut.z - bs.z)]
  have h3 : (ut.z - bs.z) ^ 2 = 0 := by nlinarith [sq_nonneg (ut.x - bs.x), sq_nonneg (ut.y - bs.y), sq_nonneg (ut.z - bs.z)]
  ext
  · exact sub_eq_zero.1 (pow_eq_zero_iff two_ne_zero |>.1 h1)
  · exact sub_eq_zero.1 (pow_eq_zero_iff two_ne_zero |>.1 h2)
  · exact sub_eq_zero.1 (pow_eq_zero_iff two_ne_zero |>.1 h3)

/-- C23: LoS departure angles point from the BS to the UT, all reported angles are in `[0,360)`. -/
theorem C23_departure_direction (ut bs : Vec3) :
    (ut ≠ bs → Spec.PointsFromTo bs.point ut.point (Spec.direction (losAngles ut bs).zod (losAngles ut bs).aod)) ∧
    (∀ t ∈ [(losAngles ut bs).aod, (losAngles ut bs).aoa, (losAngles ut bs).zod, (losAngles ut bs).zoa], 0 ≤ t ∧ t < 360) ∧
    (losAngles ut bs).zod ≤ 180 := by
  refine ⟨fun h => ⟨direction_unit _ _, _, range_pos h, ?_⟩, ?_, ?_⟩
  · obtain ⟨h1, h2, h3⟩ := los_departure ut bs
    simp only [Vec3.point]
    rw [h1, h2, h3]
    ext <;> simp
  · intro t ht
    simp only [List.mem_cons, List.not_mem_nil, or_false] at ht
    rcases ht with rfl | rfl | rfl | rfl <;> exact wrap_range _
  · have h0 : 0 ≤ atan2 (distance2d ut bs) (ut.z - bs.z) := by
      unfold atan2; rw [Complex.arg_nonneg_iff]; exact Real.sqrt_nonneg _
    have h1 : atan2 (distance2d ut bs) (ut.z - bs.z) ≤ π := Complex.arg_le_pi _
    have e : wrapAngle0_360 (rad2deg (atan2 (distance2d ut bs) (ut.z - bs.z))) = rad2deg (atan2 (distance2d ut bs) (ut.z - bs.z)) := by
      have hp := Real.pi_pos
      have hr0 : 0 ≤ rad2deg (atan2 (distance2d ut bs) (ut.z - bs.z)) := by unfold rad2deg; positivity
      have hr1 : rad2deg (atan2 (distance2d ut bs) (ut.z - bs.z)) ≤ 180 := by
        unfold rad2deg
        rw [mul_div_assoc', div_le_iff₀ hp]; nlinarith
      unfold wrapAngle0_360 fmod
      rw [Int.floor_eq_zero_iff.2 ⟨by positivity, by rw [div_lt_one (by norm_num)]; linarith⟩]
      simp
    change wrapAngle0_360 (rad2deg (atan2 (distance2d ut bs) (ut.z - bs.z))) ≤ 180
    rw [e]
    unfold rad2deg
    rw [mul_div_assoc', div_le_iff₀ Real.pi_pos]; nlinarith

/-- C23 applies to a satellite 600 km above the ground. -/
example : (⟨10, 20, 1.5⟩ : Vec3) ≠ ⟨0, 0, 600000⟩ := by
  intro h; have := congrArg Vec3.x h; norm_num at this

/-- The full claim of C24. -/
def C24_statement : Prop :=
  ∀ ut bs : Vec3, ut ≠ bs →
    Spec.PointsFromTo ut.point bs.point (Spec.direction (losAngles ut bs).zoa (losAngles ut bs).aoa)

/-- C24, what holds: the reported arrival direction is a unit vector with the right vertical component, but its horizontal
part is reversed; so it is right exactly when the BS is straight above or below the UT.
Missing: the horizontal part, which is wrong in the code, see `C24_violated`. -/
theorem C24_arrival_direction_partial (ut bs : Vec3) (h : ut ≠ bs) :
    (∃ r : ℝ, 0 < r ∧ Spec.direction (losAngles ut bs).zoa (losAngles ut bs).aoa =
      (-(bs.x - ut.x) / r, -(bs.y - ut.y) / r, (bs.z - ut.z) / r)) ∧
    (Spec.PointsFromTo ut.point bs.point (Spec.direction (losAngles ut bs).zoa (losAngles ut bs).aoa) ↔
      ut.x = bs.x ∧ ut.y = bs.y) := by
  set r := sqrt ((ut.x - bs.x) ^ 2 + (ut.y - bs.y) ^ 2 + (ut.z - bs.z) ^ 2) with hr
  have hr0 : 0 < r := range_pos h
  obtain ⟨h1, h2, h3⟩ := los_departure ut bs
  rw [← hr] at h1 h2 h3
  have key : Spec.direction (losAngles ut bs).zoa (losAngles ut bs).aoa =
      ((Spec.direction (losAngles ut bs).zod (losAngles ut bs).aod).1, (Spec.direction (losAngles ut bs).zod (losAngles ut bs).aod).2.1,
        -(Spec.direction (losAngles ut bs).zod (losAngles ut bs).aod).2.2) := by
    simp only [Spec.direction, losAngles, wrap_cos, wrap_sin, Real.sin_sub_pi, Real.cos_sub_pi, Real.sin_add_pi, Real.cos_add_pi]
    ext <;> simp
  set v := Spec.direction (losAngles ut bs).zod (losAngles ut bs).aod with hv
  have e1 : v.1 = (ut.x - bs.x) / r := by rw [← h1]; field_simp
  have e2 : v.2.1 = (ut.y - bs.y) / r := by rw [← h2]; field_simp
  have e3 : v.2.2 = (ut.z - bs.z) / r := by rw [← h3]; field_simp
  refine ⟨⟨r, hr0, ?_⟩, ?_⟩
  · rw [key, e1, e2, e3]; (ext <;> simp); ring
  · constructor
    · rintro ⟨-, s, hs, he⟩
      rw [key, e1, e2] at he
      simp only [Vec3.point, Prod.mk.injEq] at he
      obtain ⟨f1, f2, -⟩ := he
      have hp : 0 < s / r := by positivity
      constructor
      · have : (ut.x - bs.x) * (1 + s / r) = 0 := by linear_combination -f1
        rcases mul_eq_zero.1 this with h | h
        · linarith
        · linarith
      · have : (ut.y - bs.y) * (1 + s / r) = 0 := by linear_combination -f2
        rcases mul_eq_zero.1 this with h | h
        · linarith
        · linarith
    · rintro ⟨f1, f2⟩
      refine ⟨direction_unit _ _, r, hr0, ?_⟩
      rw [key, e1, e2, e3]
      simp only [Vec3.point, f1, f2]
      ext <;> simp
      field_simp; ring

example : (⟨0, 0, 1.5⟩ : Vec3) ≠ ⟨300000, 400000, 600000⟩ := by simp

/-- The reported arrival direction is wrong for a satellite that is not straight above the UT. -/
theorem C24_violated : ¬ C24_statement := by
  intro H
  have hne : (⟨100, 0, 1⟩ : Vec3) ≠ ⟨0, 0, 600000⟩ := by
    intro h; have := congrArg Vec3.x h; norm_num at this
  have := ((C24_arrival_direction_partial _ _ hne).2.1 (H _ _ hne)).1
  norm_num at this

/-! ### C25 -/

/-- C25: the indoor/outdoor split of a link with non-zero planar distance. -/
theorem C25_indoor_split (indoor : Bool) {draw d2 : ℝ} (d3 : ℝ) (hd : 0 < d2) (h0 : minIn2d ≤ draw) (h1 : draw < maxIn2d) :
    ∃ i3 o3 : ℝ, let s := indoorSplit indoor draw d2 d3
      s.d3In = some i3 ∧ s.d3Out = some o3 ∧ s.d2In + s.d2Out = d2 ∧ i3 + o3 = d3 ∧ 0 ≤ s.d2In ∧ s.d2In < 10 ∧
      (indoor = false → s.d2In = 0 ∧ s.d2Out = d2 ∧ i3 = 0 ∧ o3 = d3) ∧ (indoor = true → s.d2In = draw) ∧
      s.d2In * d3 = i3 * d2 ∧ s.d2Out * d3 = o3 * d2 := by
  unfold minIn2d at h0
  unfold maxIn2d at h1
  refine ⟨draw * (if indoor then 1 else 0) / d2 * d3, d3 - draw * (if indoor then 1 else 0) / d2 * d3, ?_⟩
  simp only [indoorSplit, if_neg hd.ne', Option.map_some]
  cases indoor <;> simp
  · field_simp
  · refine ⟨h0, h1, ?_, ?_⟩ <;> field_simp

/-- C25 applies to an indoor UT. -/
example : (0 : ℝ) < 100000 ∧ minIn2d ≤ 3 ∧ (3 : ℝ) < maxIn2d := by norm_num [minIn2d, maxIn2d]

end OpenNTN
