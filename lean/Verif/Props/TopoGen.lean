import Mathlib.Tactic.FieldSimp
import Mathlib.Tactic.LinearCombination
import Mathlib.Tactic.Linarith
import Mathlib.Tactic.NormNum
import Mathlib.Tactic.Positivity
import Verif.Model.TopoGen
import Verif.Props.Channel

/-
C68-C74, C85: generation of topologies (utils.py 537-1431).
-/
namespace OpenNTN

open Classical Spec

variable {B U : ℕ}

/-- Elevation in radian. -/
noncomputable def Spec.rad (el : ℝ) : ℝ := el * Real.pi / 180

theorem deg2rad_rad (el : ℝ) : deg2rad el = rad el := by unfold deg2rad rad; ring

theorem rad_range {el : ℝ} (h0 : 0 < el) (h1 : el ≤ 90) : 0 < rad el ∧ rad el ≤ Real.pi / 2 := by
  have := Real.pi_pos
  unfold rad
  constructor <;> nlinarith

/-! ### C68 -/

theorem uniformIn_range {lo hi u : ℝ} (h : lo ≤ hi) (h0 : 0 ≤ u) (h1 : u < 1) : lo ≤ uniformIn lo hi u ∧ uniformIn lo hi u ≤ hi := by
  unfold uniformIn
  constructor <;> nlinarith

theorem dropCentre_ok {h el u : ℝ} (hh : 0 ≤ h) (h0 : 0 < el) (h1 : el ≤ 90) (u0 : 0 ≤ u) (u1 : u < 1) :
    ∃ x y, dropCentre h el u = .ok (x, y) ∧ 0 ≤ x ∧ 0 ≤ y ∧ x = u * (h * Real.cos (rad el) / Real.sin (rad el)) ∧
      Real.sqrt (x ^ 2 + y ^ 2) = h * Real.cos (rad el) / Real.sin (rad el) := by
  obtain ⟨r0, r1⟩ := rad_range h0 h1
  have hs : 0 < Real.sin (rad el) := Real.sin_pos_of_pos_of_lt_pi r0 (by linarith [Real.pi_pos])
  have hc : 0 ≤ Real.cos (rad el) := Real.cos_nonneg_of_mem_Icc ⟨by linarith, r1⟩
  set D := h * Real.cos (rad el) / Real.sin (rad el) with hD
  have hD0 : 0 ≤ D := by positivity
  have e : (h / Real.sin (rad el)) ^ 2 - h ^ 2 = D ^ 2 := by
    have := Real.sin_sq_add_cos_sq (rad el)
    rw [hD]
    field_simp
    linear_combination (-h ^ 2) * this
  unfold dropCentre
  rw [deg2rad_rad, if_neg hs.ne']
  simp only [e, sqrtX, bind, Except.bind]
  rw [if_neg (not_lt.2 (sq_nonneg D))]
  dsimp only
  rw [Real.sqrt_sq hD0]
  have hx : uniformIn 0 D u = u * D := by unfold uniformIn; ring
  rw [hx]
  have hy : 0 ≤ D ^ 2 - (u * D) ^ 2 := by
    have : D ^ 2 - (u * D) ^ 2 = D ^ 2 * ((1 - u) * (1 + u)) := by ring
    rw [this]
    have : 0 ≤ 1 - u := by linarith
    positivity
  rw [if_neg (by linarith)]
  refine ⟨_, _, rfl, by positivity, Real.sqrt_nonneg _, rfl, ?_⟩
  rw [Real.sq_sqrt hy]
  have : (u * D) ^ 2 + (D ^ 2 - (u * D) ^ 2) = D ^ 2 := by ring
  rw [this, Real.sqrt_sq hD0]

/-- C68. The centre point is where the satellite, at height `h` above the origin, is seen at the requested elevation: its distance `r`
from the origin satisfies `r sin(el) = h cos(el)`. Every UT lies within half an inter-site distance of the centre in both
directions, so its distance from the origin deviates by at most `isd/√2`. -/
theorem C68_elevation {h el isd : ℝ} (w : DropDraws B U) (hh : 0 ≤ h) (h0 : 0 < el) (h1 : el ≤ 90) (hi : 0 ≤ isd)
    (hb : 0 ≤ w.xBase ∧ w.xBase < 1) (hx : ∀ b u, 0 ≤ w.xDis b u ∧ w.xDis b u < 1) (hy : ∀ b u, 0 ≤ w.yDis b u ∧ w.yDis b u < 1) :
    ∃ x y loc, dropUts h el isd w = .ok loc ∧ Real.sqrt (x ^ 2 + y ^ 2) * Real.sin (rad el) = h * Real.cos (rad el) ∧
      ∀ b u, |(loc b u).1 - x| ≤ isd / 2 ∧ |(loc b u).2 - y| ≤ isd / 2 ∧
        |Real.sqrt ((loc b u).1 ^ 2 + (loc b u).2 ^ 2) - Real.sqrt (x ^ 2 + y ^ 2)| ≤ isd / Real.sqrt 2 := by
  obtain ⟨x, y, e, -, -, -, er⟩ := dropCentre_ok hh h0 h1 hb.1 hb.2
  obtain ⟨r0, r1⟩ := rad_range h0 h1
  have hs : 0 < Real.sin (rad el) := Real.sin_pos_of_pos_of_lt_pi r0 (by linarith [Real.pi_pos])
  refine ⟨x, y, _, by unfold dropUts; rw [e]; rfl, ?_, fun b u => ?_⟩
  · rw [er]; field_simp
  · have k1 := uniformIn_range (lo := -isd / 2) (hi := isd / 2) (by linarith) (hx b u).1 (hx b u).2
    have k2 := uniformIn_range (lo := -isd / 2) (hi := isd / 2) (by linarith) (hy b u).1 (hy b u).2
    dsimp only
    set p := uniformIn (-isd / 2) (isd / 2) (w.xDis b u)
    set q := uniformIn (-isd / 2) (isd / 2) (w.yDis b u)
    refine ⟨by rw [abs_le]; constructor <;> linarith, by rw [abs_le]; constructor <;> linarith, ?_⟩
    have hpq : p ^ 2 + q ^ 2 ≤ (isd / Real.sqrt 2) ^ 2 := by
      rw [div_pow, Real.sq_sqrt (by norm_num)]
      nlinarith
    have hd : 0 ≤ isd / Real.sqrt 2 := by positivity
    -- triangle inequality in the plane
    have n1 : Real.sqrt ((x + p) ^ 2 + (y + q) ^ 2) = ‖(⟨x, y⟩ + ⟨p, q⟩ : ℂ)‖ := by
      rw [Complex.norm_def, Complex.normSq_apply]; simp [pow_two]
    have n2 : Real.sqrt (x ^ 2 + y ^ 2) = ‖(⟨x, y⟩ : ℂ)‖ := by
      rw [Complex.norm_def, Complex.normSq_apply]; simp [pow_two]
    have n3 : ‖(⟨p, q⟩ : ℂ)‖ ≤ isd / Real.sqrt 2 := by
      rw [Complex.norm_def, Complex.normSq_apply]
      rw [← Real.sqrt_sq hd]
      apply Real.sqrt_le_sqrt
      simpa [pow_two] using hpq
    rw [n1, n2]
    refine le_trans (abs_norm_sub_norm_le _ _) ?_
    rw [add_sub_cancel_left]
    exact n3

/-- Draws in the middle of their ranges. -/
noncomputable def exDrop (B U : ℕ) : DropDraws B U := ⟨1 / 2, fun _ _ => 1 / 2, fun _ _ => 1 / 2, fun _ _ => 0, fun _ _ => 1 / 2, fun _ _ => 1 / 2,
  fun _ _ => 1 / 2, fun _ _ => 1 / 2⟩

example : ∃ x y loc, dropUts 600000 80 500 (exDrop 2 3) = .ok loc ∧
    Real.sqrt (x ^ 2 + y ^ 2) * Real.sin (rad 80) = 600000 * Real.cos (rad 80) := by
  obtain ⟨x, y, loc, h1, h2, -⟩ := C68_elevation (h := 600000) (el := 80) (isd := 500) (exDrop 2 3) (by norm_num) (by norm_num) (by norm_num)
    (by norm_num) (by norm_num [exDrop]) (fun _ _ => by norm_num [exDrop]) (fun _ _ => by norm_num [exDrop])
  exact ⟨x, y, loc, h1, h2⟩

/-! ### C69 -/

/-- All draws are in their ranges. -/
structure Spec.UnitDraws (w : DropDraws B U) : Prop where
  xBase : 0 ≤ w.xBase ∧ w.xBase < 1
  xDis : ∀ b u, 0 ≤ w.xDis b u ∧ w.xDis b u < 1
  yDis : ∀ b u, 0 ≤ w.yDis b u ∧ w.yDis b u < 1
  sector : ∀ b u, 0 ≤ w.sector b u ∧ w.sector b u < 3
  height : ∀ b u, 0 ≤ w.height b u ∧ w.height b u < 1
  indoor : ∀ b u, 0 ≤ w.indoor b u ∧ w.indoor b u < 1
  velAngle : ∀ b u, 0 ≤ w.velAngle b u ∧ w.velAngle b u < 1
  velNorm : ∀ b u, 0 ≤ w.velNorm b u ∧ w.velNorm b u < 1

/-- The direction in which an antenna with orientation `o` looks: the local x axis. -/
noncomputable def Spec.boresight (o : Vec3) : Fin 3 → ℝ := rotPos ![o.x, o.y, o.z] ![1, 0, 0]

/-- The unit vector from the point `(x, y)` towards the origin, raised by the elevation `el`. -/
noncomputable def Spec.towards (x y el : ℝ) : Fin 3 → ℝ :=
  ![-(x / Real.sqrt (x ^ 2 + y ^ 2)) * Real.cos (rad el), -(y / Real.sqrt (x ^ 2 + y ^ 2)) * Real.cos (rad el), Real.sin (rad el)]

/-- The full claim of C69. -/
def C69_statement : Prop :=
  ∀ (B U : ℕ) (scenario : String) (a : GenArgs) (w : DropDraws B U) (p : GenParams) (t : GenTopology B U), UnitDraws w →
    setScenarioParameters scenario a = .ok p → 0 < p.elevation → p.elevation < 90 → 0 < p.bsHeight → 0 < p.isd →
    genSingleSector scenario a w = .ok t → ∀ b u o, t.utOri b u = .ok o →
      boresight o = towards (t.utLoc b u).x (t.utLoc b u).y p.elevation

theorem boresight_eq (o : Vec3) : boresight o = ![Real.cos o.x * Real.cos o.y, Real.sin o.x * Real.cos o.y, -Real.sin o.y] := by
  unfold boresight rotPos forwardRot
  ext i
  fin_cases i <;> simp [Matrix.mulVec, dotProduct, Fin.sum_univ_three]

/-- What the generation returns, in terms of the parameters. -/
theorem genSingleSector_eq {scenario : String} {a : GenArgs} {w : DropDraws B U} {t : GenTopology B U}
    (ht : genSingleSector scenario a w = .ok t) :
    ∃ p xy, setScenarioParameters scenario a = .ok p ∧ dropUts p.bsHeight p.elevation p.isd w = .ok xy ∧
      t.bsLoc = (fun _ _ => ⟨0, 0, p.bsHeight⟩) ∧ t.bsOri = (fun _ _ => ⟨0, 0.5 * Real.pi, 0⟩) ∧
      t.utLoc = (fun b u => ⟨(xy b u).1, (xy b u).2, uniformIn p.minUtHeight p.maxUtHeight (w.height b u)⟩) ∧
      t.inState = (fun b u => decide (w.indoor b u < 0)) ∧
      t.utVel = (fun b u => ⟨uniformIn p.minUtVelocity p.maxUtVelocity (w.velNorm b u) * Real.cos (uniformIn (-Real.pi) Real.pi (w.velAngle b u)),
        uniformIn p.minUtVelocity p.maxUtVelocity (w.velNorm b u) * Real.sin (uniformIn (-Real.pi) Real.pi (w.velAngle b u)), 0⟩) ∧
      t.utOri = (fun b u => do
        let bearing ← atanRatio (xy b u).2 (xy b u).1
        .ok ⟨bearing, deg2rad (p.elevation + 180), deg2rad (p.elevation + 90)⟩) := by
  unfold genSingleSector generateUts at ht
  rcases hp : setScenarioParameters scenario a with _ | p
  · rw [hp] at ht; cases ht
  rw [hp] at ht
  simp only [bind, Except.bind, ne_eq, not_true_eq_false, false_and, if_false, if_true] at ht
  rcases hxy : dropUts p.bsHeight p.elevation p.isd w with _ | xy
  · rw [hxy] at ht; cases ht
  rw [hxy] at ht
  have hrel : ∀ b u, relocateUt (xy b u) 0 (0, 0) = xy b u := by
    intro b u; unfold relocateUt; simp
  simp only [hrel] at ht
  cases ht
  exact ⟨p, xy, rfl, hxy, rfl, rfl, rfl, rfl, rfl, rfl⟩

theorem arctan_direction {x y : ℝ} (hx : 0 < x) :
    Real.cos (Real.arctan (y / x)) = x / Real.sqrt (x ^ 2 + y ^ 2) ∧ Real.sin (Real.arctan (y / x)) = y / Real.sqrt (x ^ 2 + y ^ 2) := by
  have e : Real.sqrt (1 + (y / x) ^ 2) = Real.sqrt (x ^ 2 + y ^ 2) / x := by
    rw [eq_div_iff hx.ne']
    conv_lhs => rw [← Real.sqrt_sq hx.le]
    rw [← Real.sqrt_mul (by positivity)]
    congr 1
    rw [Real.sqrt_sq hx.le]
    field_simp
  have hr : 0 < Real.sqrt (x ^ 2 + y ^ 2) := Real.sqrt_pos.2 (by positivity)
  rw [Real.cos_arctan, Real.sin_arctan, e]
  constructor <;> field_simp

/-- C69, what holds: the elevation of the boresight is always the configured one. It points towards the origin if the UT is on the side
`x ≥ 0`, and in the opposite horizontal direction if `x < 0`; the bearing is undefined at the origin only. Missing: the correct
azimuth for `x < 0`, see `C69_violated`. -/
theorem C69_boresight_partial {scenario : String} {a : GenArgs} {w : DropDraws B U} {p : GenParams} {t : GenTopology B U}
    (hp : setScenarioParameters scenario a = .ok p) (ht : genSingleSector scenario a w = .ok t) (b : Fin B) (u : Fin U) :
    ((t.utLoc b u).x = 0 ∧ (t.utLoc b u).y = 0 ∧ t.utOri b u = .error .notANumber) ∨
    ∃ o, t.utOri b u = .ok o ∧ boresight o 2 = Real.sin (rad p.elevation) ∧
      (0 ≤ (t.utLoc b u).x → boresight o = towards (t.utLoc b u).x (t.utLoc b u).y p.elevation) ∧
      ((t.utLoc b u).x < 0 → boresight o = towards (-(t.utLoc b u).x) (-(t.utLoc b u).y) p.elevation) := by
  obtain ⟨p', xy, e1, -, -, -, e4, -, -, e5⟩ := genSingleSector_eq ht
  rw [hp] at e1; cases e1
  rw [e4, e5]
  dsimp only
  generalize xy b u = q
  obtain ⟨x, y⟩ := q
  dsimp only
  have hc : Real.cos (deg2rad (p.elevation + 180)) = -Real.cos (rad p.elevation) := by
    rw [deg2rad_rad, show rad (p.elevation + 180) = rad p.elevation + Real.pi by unfold rad; ring, Real.cos_add_pi]
  have hs : Real.sin (deg2rad (p.elevation + 180)) = -Real.sin (rad p.elevation) := by
    rw [deg2rad_rad, show rad (p.elevation + 180) = rad p.elevation + Real.pi by unfold rad; ring, Real.sin_add_pi]
  rcases lt_trichotomy x 0 with hx | hx | hx
  · right
    refine ⟨_, by unfold atanRatio; rw [if_neg hx.ne]; rfl, by rw [boresight_eq]; simp [hs], fun h => absurd h (by linarith), fun _ => ?_⟩
    have := arctan_direction (x := -x) (y := -y) (by linarith)
    rw [neg_div_neg_eq] at this
    rw [boresight_eq]
    dsimp only
    rw [hc, hs, this.1, this.2]
    unfold towards
    ext i
    fin_cases i <;> simp
  · by_cases hy : y = 0
    · left
      subst hx hy
      exact ⟨rfl, rfl, by simp [atanRatio, bind, Except.bind]⟩
    · right
      subst hx
      refine ⟨_, by unfold atanRatio; rw [if_pos rfl, if_neg hy]; rfl, by rw [boresight_eq]; simp [hs], fun _ => ?_, fun h => absurd h (lt_irrefl _)⟩
      rw [boresight_eq]
      dsimp only
      rw [hc, hs]
      unfold towards
      rcases lt_or_gt_of_ne hy with hy | hy
      · rw [if_neg (by linarith), Real.cos_neg, Real.sin_neg, Real.cos_pi_div_two, Real.sin_pi_div_two]
        have : Real.sqrt (0 ^ 2 + y ^ 2) = -y := by
          rw [show (0 : ℝ) ^ 2 + y ^ 2 = (-y) ^ 2 by ring, Real.sqrt_sq (by linarith)]
        rw [this]
        ext i
        fin_cases i
        · simp
        · simp; field_simp
        · simp
      · rw [if_pos hy, Real.cos_pi_div_two, Real.sin_pi_div_two]
        have : Real.sqrt (0 ^ 2 + y ^ 2) = y := by
          rw [show (0 : ℝ) ^ 2 + y ^ 2 = y ^ 2 by ring, Real.sqrt_sq (by linarith)]
        rw [this]
        ext i
        fin_cases i
        · simp
        · simp; field_simp
        · simp
  · right
    refine ⟨_, by unfold atanRatio; rw [if_neg hx.ne']; rfl, by rw [boresight_eq]; simp [hs], fun _ => ?_, fun h => absurd h (by linarith)⟩
    have := arctan_direction (x := x) (y := y) hx
    rw [boresight_eq]
    dsimp only
    rw [hc, hs, this.1, this.2]
    unfold towards
    ext i
    fin_cases i <;> simp

/-- Generation succeeds for a known scenario and an elevation up to the zenith. -/
theorem genSingleSector_ok {scenario : String} {a : GenArgs} {p : GenParams} (w : DropDraws B U)
    (hp : setScenarioParameters scenario a = .ok p) (hh : 0 ≤ p.bsHeight) (h0 : 0 < p.elevation) (h1 : p.elevation ≤ 90)
    (hb : 0 ≤ w.xBase ∧ w.xBase < 1) : ∃ t, genSingleSector scenario a w = .ok t := by
  obtain ⟨x, y, e, -⟩ := dropCentre_ok hh h0 h1 hb.1 hb.2
  unfold genSingleSector generateUts dropUts
  simp only [bind, Except.bind, hp, e, ne_eq, not_true_eq_false, false_and, if_false]
  exact ⟨_, rfl⟩

/-- C69 fails: the centre and the UT both at the western edge. -/
theorem C69_violated : ¬ C69_statement := by
  intro H
  let w : DropDraws 1 1 := { exDrop 1 1 with
    xBase := 0
    xDis := fun _ _ => 0 }
  have hw : UnitDraws w := by constructor <;> simp [w, exDrop] <;> norm_num
  have hp : setScenarioParameters "urb" {} = .ok ⟨500, 600000, 80, 1.5, 1.5, 0, 0, 0⟩ := by
    simp [setScenarioParameters, scenarioDefaults]
  obtain ⟨t, ht⟩ := genSingleSector_ok w hp (by norm_num) (by norm_num) (by norm_num) hw.xBase
  obtain ⟨p', xy, e1, e2, -, -, e4, -⟩ := genSingleSector_eq ht
  rw [hp] at e1; cases e1
  obtain ⟨x, y, e, -, -, hx, -⟩ := dropCentre_ok (h := 600000) (el := 80) (u := w.xBase) (by norm_num) (by norm_num) (by norm_num)
    (by simp [w]) (by simp [w])
  have hloc : (t.utLoc 0 0).x = -250 := by
    rw [e4]
    unfold dropUts at e2
    dsimp only at e2 ⊢
    rw [e] at e2
    cases e2
    dsimp only
    rw [hx]
    simp [w, uniformIn]
    norm_num
  rcases C69_boresight_partial hp ht 0 0 with ⟨h1, -, -⟩ | ⟨o, ho, -, -, hneg⟩
  · rw [hloc] at h1; norm_num at h1
  · have hneg := hneg (by rw [hloc]; norm_num)
    have := H 1 1 "urb" {} w _ t hw hp (by norm_num) (by norm_num) (by norm_num) (by norm_num) ht 0 0 o ho
    rw [hneg] at this
    have := congrFun this 0
    rw [hloc] at this
    simp only [towards, Matrix.cons_val_zero] at this
    have hc : 0 < Real.cos (rad 80) := Real.cos_pos_of_mem_Ioo (by
      have := Real.pi_pos
      unfold rad; constructor <;> linarith)
    have hr : 0 < Real.sqrt ((-250) ^ 2 + (t.utLoc 0 0).y ^ 2) := Real.sqrt_pos.2 (by positivity)
    rw [show (- -250 : ℝ) ^ 2 + (-(t.utLoc 0 0).y) ^ 2 = (-250) ^ 2 + (t.utLoc 0 0).y ^ 2 by ring] at this
    have h2 : 0 < 250 / Real.sqrt ((-250) ^ 2 + (t.utLoc 0 0).y ^ 2) * Real.cos (rad 80) := by positivity
    rw [neg_neg] at this
    rw [neg_div, neg_neg] at this
    linarith

/-! ### C70, C71, C85 -/

/-- C70. For a known scenario, a satellite height that is not negative and an elevation up to the zenith, a topology is generated. UT
heights and speeds are in the requested ranges, motion is horizontal, the BS is above the origin. Provided the UTs are not at the
origin, the result is complete: as the first call of `set_topology` on any scenario it is accepted and succeeds; on the channel
model it succeeds too if no two UTs coincide in the plane. -/
theorem C70_accepted [NeZero B] {cls : ScenarioClass} {sa : ScenarioArgs} {c : Config} (h : mkScenario cls sa = .ok c) {scenario : String}
    {a : GenArgs} {p : GenParams} (hp : setScenarioParameters scenario a = .ok p) (w : DropDraws B U) (hw : UnitDraws w)
    (hh : 0 ≤ p.bsHeight) (h0 : 0 < p.elevation) (h1 : p.elevation ≤ 90) (hheight : p.minUtHeight ≤ p.maxUtHeight)
    (hv0 : 0 ≤ p.minUtVelocity) (hv : p.minUtVelocity ≤ p.maxUtVelocity) :
    ∃ t, genSingleSector scenario a w = .ok t ∧
      (∀ b u, p.minUtHeight ≤ (t.utLoc b u).z ∧ (t.utLoc b u).z ≤ p.maxUtHeight ∧ (t.utVel b u).z = 0 ∧
        p.minUtVelocity ≤ Real.sqrt ((t.utVel b u).x ^ 2 + (t.utVel b u).y ^ 2) ∧
        Real.sqrt ((t.utVel b u).x ^ 2 + (t.utVel b u).y ^ 2) ≤ p.maxUtVelocity) ∧
      (∀ b n, t.bsLoc b n = ⟨0, 0, p.bsHeight⟩) ∧
      ((∀ b u, ¬ ((t.utLoc b u).x = 0 ∧ (t.utLoc b u).y = 0)) → ∃ ori, (∀ b u, t.utOri b u = .ok (ori b u)) ∧
        (∀ d, (setTopology c (TopoState.init c) (t.args ori).toTopo d).2 = .ok true) ∧
        ((∀ b u v, (t.utLoc b u).x = (t.utLoc b v).x → (t.utLoc b u).y = (t.utLoc b v).y → u = v) →
          ∀ always d z, (chanSetTopology c always (ChanState.init c) (t.args ori) d z).2 = .ok ())) := by
  obtain ⟨t, ht⟩ := genSingleSector_ok w hp hh h0 h1 hw.xBase
  obtain ⟨p', xy, e1, -, e2, -, e4, -, e6, -⟩ := genSingleSector_eq ht
  rw [hp] at e1; cases e1
  refine ⟨t, ht, fun b u => ?_, fun b n => by rw [e2], fun hne => ?_⟩
  · rw [e4, e6]
    dsimp only
    have k1 := uniformIn_range hheight (hw.height b u).1 (hw.height b u).2
    have k2 := uniformIn_range hv (hw.velNorm b u).1 (hw.velNorm b u).2
    set v := uniformIn p.minUtVelocity p.maxUtVelocity (w.velNorm b u)
    set g := uniformIn (-Real.pi) Real.pi (w.velAngle b u)
    have : (v * Real.cos g) ^ 2 + (v * Real.sin g) ^ 2 = v ^ 2 := by
      have := Real.sin_sq_add_cos_sq g
      linear_combination v ^ 2 * this
    rw [this, Real.sqrt_sq (by linarith)]
    exact ⟨k1.1, k1.2, rfl, k2.1, k2.2⟩
  · have : ∀ b u, ∃ o, t.utOri b u = .ok o := fun b u => by
      rcases C69_boresight_partial hp ht b u with ⟨q1, q2, -⟩ | ⟨o, ho, -⟩
      · exact absurd ⟨q1, q2⟩ (hne b u)
      · exact ⟨o, ho⟩
    choose ori hori using this
    have hset : ∀ d, (setTopology c (TopoState.init c) (t.args ori).toTopo d).2 = .ok true := fun d =>
      complete_call h (t.args ori).toTopo d (toTopo_physical _) rfl rfl
    refine ⟨ori, hori, hset, fun hap always d z => ?_⟩
    have r := ChanReach.topology (t.args ori) d z (ChanReach.init (c := c) (always := always))
    have hA : Apart [ChanEvent.topology (t.args ori) d z (chanSetTopology c always (ChanState.init c) (t.args ori) d z).2] := by
      intro a' d' z' x' ut hm hut
      rw [List.mem_singleton] at hm
      injection hm with hm
      subst hm
      cases hut
      exact hap
    rcases (channel_ready h rfl r hA).1 _ _ _ _ List.mem_cons_self with e | e
    · exact e
    · exfalso
      rcases chanSet_cases (always := always) (s := ChanState.init c) h .init (t.args ori) d z with
        ⟨_, q, -⟩ | ⟨q, -⟩ | ⟨-, -, los, indoor, ut, mean, std, near, F, hst, hF, hc⟩
      · change (setTopology c (TopoState.init c) _ _).2 = _ at q
        rw [hset d] at q; cases q
      · change (setTopology c (TopoState.init c) _ _).2 = _ at q
        rw [hset d] at q; cases q
      · rcases hc with ⟨G, hG, mask, -, e2⟩ | ⟨hG, e2⟩
        · rw [e2] at e; cases e
        · rw [e2] at e; cases e

/-- The hypotheses are met by the defaults of the urban scenario with the draws of `exDrop`. -/
example : ∃ p, setScenarioParameters "urb" {} = .ok p ∧ UnitDraws (exDrop 2 3) ∧ 0 ≤ p.bsHeight ∧ 0 < p.elevation ∧ p.elevation ≤ 90 ∧
    p.minUtHeight ≤ p.maxUtHeight ∧ 0 ≤ p.minUtVelocity ∧ p.minUtVelocity ≤ p.maxUtVelocity := by
  refine ⟨⟨500, 600000, 80, 1.5, 1.5, 0, 0, 0⟩, by simp [setScenarioParameters, scenarioDefaults],
    by constructor <;> simp [exDrop] <;> norm_num, ?_⟩
  norm_num

/-- The full claim of C71. -/
def C71_statement : Prop :=
  ∀ (B U : ℕ) (scenario : String) (a : GenArgs) (w : DropDraws B U) (p : GenParams) (t : GenTopology B U), UnitDraws w →
    setScenarioParameters scenario a = .ok p → genSingleSector scenario a w = .ok t →
    ∀ b u, t.inState b u = true ↔ w.indoor b u < p.indoorProbability

/-- C71, what holds: whatever is requested, all UTs are outdoor; so the claim holds for probability zero. Missing: every positive
probability, see `C71_violated`. -/
theorem C71_outdoor_partial {scenario : String} {a : GenArgs} {w : DropDraws B U} {p : GenParams} {t : GenTopology B U} (hw : UnitDraws w)
    (_hp : setScenarioParameters scenario a = .ok p) (ht : genSingleSector scenario a w = .ok t) (b : Fin B) (u : Fin U) :
    t.inState b u = false ∧ (p.indoorProbability ≤ 0 → (t.inState b u = true ↔ w.indoor b u < p.indoorProbability)) := by
  obtain ⟨p', xy, e1, -, -, -, -, e, -⟩ := genSingleSector_eq ht
  have h1 : t.inState b u = false := by rw [e]; simpa using (hw.indoor b u).1
  refine ⟨h1, fun h0 => ?_⟩
  rw [h1]
  have := (hw.indoor b u).1
  simp only [Bool.false_eq_true, false_iff, not_lt]
  linarith

/-- The hypotheses of C69 and C71 can be met. -/
example : UnitDraws (exDrop 2 3) ∧ setScenarioParameters "urb" { indoorProbability := some 1 } = .ok ⟨500, 600000, 80, 1.5, 1.5, 1, 0, 0⟩ ∧
    ∃ t, genSingleSector "urb" { indoorProbability := some 1 } (exDrop 2 3) = .ok t :=
  ⟨by constructor <;> simp [exDrop] <;> norm_num, by simp [setScenarioParameters, scenarioDefaults],
   genSingleSector_ok (p := ⟨500, 600000, 80, 1.5, 1.5, 1, 0, 0⟩) (exDrop 2 3) (by simp [setScenarioParameters, scenarioDefaults])
    (by norm_num) (by norm_num) (by norm_num) (by norm_num [exDrop])⟩

/-- C71 fails: a requested probability of one. -/
theorem C71_violated : ¬ C71_statement := by
  intro H
  have hw : UnitDraws (exDrop 1 1) := by constructor <;> simp [exDrop] <;> norm_num
  have hp : setScenarioParameters "urb" { indoorProbability := some 1 } = .ok ⟨500, 600000, 80, 1.5, 1.5, 1, 0, 0⟩ := by
    simp [setScenarioParameters, scenarioDefaults]
  obtain ⟨t, ht⟩ := genSingleSector_ok (exDrop 1 1) hp (by norm_num) (by norm_num) (by norm_num) hw.xBase
  have h1 := (H 1 1 _ _ _ _ t hw hp ht 0 0).2 (by norm_num [exDrop])
  rw [(C71_outdoor_partial hw hp ht 0 0).1] at h1
  cases h1

/-- C85. The generated BS looks straight down, whatever the parameters. -/
theorem C85_bs_faces_down {scenario : String} {a : GenArgs} {w : DropDraws B U} {t : GenTopology B U}
    (ht : genSingleSector scenario a w = .ok t) (b : Fin B) : boresight (t.bsOri b 0) = ![0, 0, -1] := by
  obtain ⟨p, xy, -, -, -, e, -⟩ := genSingleSector_eq ht
  rw [e, boresight_eq]
  dsimp only
  rw [show (0.5 : ℝ) * Real.pi = Real.pi / 2 by ring, Real.cos_pi_div_two, Real.sin_pi_div_two]
  simp

example : ∃ t, genSingleSector "urb" {} (exDrop 2 3) = .ok t :=
  genSingleSector_ok (p := ⟨500, 600000, 80, 1.5, 1.5, 0, 0, 0⟩) (exDrop 2 3) (by simp [setScenarioParameters, scenarioDefaults])
    (by norm_num) (by norm_num) (by norm_num) (by norm_num [exDrop])

/-! ### C72 -/

/-- The full claim of C72. -/
def C72_statement : Prop :=
  ∀ (B U I : ℕ) (scenario : String) (a : InterfererArgs) (w : DropDraws B U) (v : DropDraws B I), scenario ∈ ["dur", "urb", "sur"] →
    ∃ t, genInterferers scenario a w v = .ok t

/-- C72, what holds: nothing. The function raises for all arguments: an assertion error for an unknown scenario, a name error otherwise. -/
theorem C72_raises_partial {I : ℕ} (scenario : String) (a : InterfererArgs) (w : DropDraws B U) (v : DropDraws B I) :
    genInterferers scenario a w v = .error (if scenario ∈ ["dur", "urb", "sur"] then .nameError else .assertion) := by
  unfold genInterferers setScenarioParameters scenarioDefaults
  by_cases h1 : scenario = "dur"
  · subst h1; rfl
  by_cases h2 : scenario = "urb"
  · subst h2; rfl
  by_cases h3 : scenario = "sur"
  · subst h3; rfl
  simp [h1, h2, h3, bind, Except.bind]

/-- C72 fails for every input. -/
theorem C72_violated : ¬ C72_statement := by
  intro H
  obtain ⟨t, ht⟩ := H 1 1 1 "urb" {} (exDrop 1 1) (exDrop 1 1) (by simp)
  rw [C72_raises_partial] at ht
  cases ht

/-! ### C73 -/

/-- Documented defaults: inter-site distance per scenario, and the values common to all. -/
noncomputable def Spec.interSite (scenario : String) : Option ℝ := [("dur", 200), ("urb", 500), ("sur", 5000)].lookup scenario

/-- The parameters other than the inter-site distance: value, argument, default. -/
noncomputable def Spec.commonParams : List ((GenParams → ℝ) × (GenArgs → Option ℝ) × ℝ) :=
  [(GenParams.bsHeight, GenArgs.bsHeight, 600000), (GenParams.elevation, GenArgs.elevation, 80),
   (GenParams.minUtHeight, GenArgs.minUtHeight, 1.5), (GenParams.maxUtHeight, GenArgs.maxUtHeight, 1.5),
   (GenParams.indoorProbability, GenArgs.indoorProbability, 0), (GenParams.minUtVelocity, GenArgs.minUtVelocity, 0),
   (GenParams.maxUtVelocity, GenArgs.maxUtVelocity, 0)]

/-- C73. Unknown scenario names are rejected. Otherwise each given value is returned unchanged and each missing one replaced by its
documented default. -/
theorem C73_defaults (scenario : String) (a : GenArgs) :
    (interSite scenario = none → setScenarioParameters scenario a = .error .assertion) ∧
    (∀ d, interSite scenario = some d → ∃ p, setScenarioParameters scenario a = .ok p ∧
      (∀ v, a.isd = some v → p.isd = v) ∧ (a.isd = none → p.isd = d) ∧
      ∀ q ∈ commonParams, (∀ v, q.2.1 a = some v → q.1 p = v) ∧ (q.2.1 a = none → q.1 p = q.2.2)) := by
  have fin : ∀ (isd d : ℝ), (isd = d) → ∃ p, (Except.ok (ε := Err) {
      isd := a.isd.getD isd
      bsHeight := a.bsHeight.getD 600000
      elevation := a.elevation.getD 80
      minUtHeight := a.minUtHeight.getD 1.5
      maxUtHeight := a.maxUtHeight.getD 1.5
      indoorProbability := a.indoorProbability.getD 0
      minUtVelocity := a.minUtVelocity.getD 0
      maxUtVelocity := a.maxUtVelocity.getD 0 : GenParams }) = .ok p ∧
      (∀ v, a.isd = some v → p.isd = v) ∧ (a.isd = none → p.isd = d) ∧
      ∀ q ∈ commonParams, (∀ v, q.2.1 a = some v → q.1 p = v) ∧ (q.2.1 a = none → q.1 p = q.2.2) := by
    rintro isd d rfl
    refine ⟨_, rfl, fun v hv => by simp [hv], fun hv => by simp [hv], fun q hq => ?_⟩
    simp only [commonParams, List.mem_cons, List.not_mem_nil, or_false] at hq
    rcases hq with rfl | rfl | rfl | rfl | rfl | rfl | rfl <;> 
      exact ⟨fun v hv => by dsimp only at hv ⊢; rw [hv]; rfl, fun hv => by dsimp only at hv ⊢; rw [hv]; rfl⟩
  unfold interSite setScenarioParameters scenarioDefaults
  by_cases h1 : scenario = "dur"
  · subst h1
    refine ⟨fun h => by simp [List.lookup] at h, fun d hd => ?_⟩
    exact fin 200 d (by simpa [List.lookup] using hd)
  by_cases h2 : scenario = "urb"
  · subst h2
    refine ⟨fun h => by simp [List.lookup] at h, fun d hd => ?_⟩
    exact fin 500 d (by simpa [List.lookup] using hd)
  by_cases h3 : scenario = "sur"
  · subst h3
    refine ⟨fun h => by simp [List.lookup] at h, fun d hd => ?_⟩
    exact fin 5000 d (by simpa [List.lookup] using hd)
  refine ⟨fun _ => by simp [h1, h2, h3], fun d hd => ?_⟩
  simp [List.lookup, beq_eq_false_iff_ne.2 h1, beq_eq_false_iff_ne.2 h2, beq_eq_false_iff_ne.2 h3] at hd

example : ∃ p, setScenarioParameters "sur" { elevation := some 40 } = .ok p ∧ p.elevation = 40 ∧ p.isd = 5000 := by
  obtain ⟨p, hp, -, h1, h2⟩ := (C73_defaults "sur" { elevation := some 40 }).2 5000 (by simp [interSite, List.lookup])
  exact ⟨p, hp, (h2 (GenParams.elevation, GenArgs.elevation, 80) (by simp [commonParams])).1 40 rfl, h1 rfl⟩

/-! ### C74 -/

/-- Squared planar distance. -/
def Spec.planarSq (p q : ℝ × ℝ) : ℝ := (p.1 - q.1) ^ 2 + (p.2 - q.2) ^ 2

/-- C74. Relocation of UTs to the same sector of the same cell preserves their distances; it turns the plane by one third of a circle
per sector number, so sector numbers that differ by three agree and three relocations into sector 1 lead back; sector 0 is only a
translation. The centre of the cell is what the origin is mapped to. -/
theorem C74_rigid (s : ℤ) (cell : ℝ × ℝ) (p q : ℝ × ℝ) :
    planarSq (relocateUt p s cell) (relocateUt q s cell) = planarSq p q ∧
    relocateUt p (s + 3) cell = relocateUt p s cell ∧
    relocateUt (relocateUt (relocateUt p 1 (0, 0)) 1 (0, 0)) 1 (0, 0) = p ∧
    relocateUt (relocateUt p 1 (0, 0)) s cell = relocateUt p (s + 1) cell ∧
    relocateUt p 0 cell = (p.1 + cell.1, p.2 + cell.2) ∧ relocateUt (0, 0) s cell = cell := by
  have hperiod : ∀ p s cell, relocateUt p (s + 3) cell = relocateUt p s cell := by
    intro p s cell
    unfold relocateUt
    have : ((s + 3 : ℤ) : ℝ) * 2 * Real.pi / 3 = s * 2 * Real.pi / 3 + 2 * Real.pi := by push_cast; ring
    simp only [this, Real.cos_add_two_pi, Real.sin_add_two_pi]
  have hcomp : ∀ p s cell, relocateUt (relocateUt p 1 (0, 0)) s cell = relocateUt p (s + 1) cell := by
    intro p s cell
    unfold relocateUt
    have : ((s + 1 : ℤ) : ℝ) * 2 * Real.pi / 3 = s * 2 * Real.pi / 3 + 2 * Real.pi / 3 := by push_cast; ring
    simp only [this, Real.cos_add, Real.sin_add, Int.cast_one, one_mul, add_zero]
    ext <;> simp only <;> ring
  have hzero : ∀ p cell, relocateUt p 0 cell = (p.1 + cell.1, p.2 + cell.2) := by
    intro p cell; unfold relocateUt; simp
  refine ⟨?_, hperiod p s cell, ?_, hcomp p s cell, hzero p cell, by unfold relocateUt; simp⟩
  · unfold planarSq relocateUt
    dsimp only
    have := Real.sin_sq_add_cos_sq (s * 2 * Real.pi / 3)
    linear_combination ((p.1 - q.1) ^ 2 + (p.2 - q.2) ^ 2) * this
  · rw [hcomp, hcomp, show (1 + 1 + 1 : ℤ) = 0 + 3 by norm_num, hperiod, hzero]; simp

/-- Sector 1 is not the identity: the point `(1, 0)` moves to `(-1/2, √3/2)`. -/
example : (relocateUt (1, 0) 1 (0, 0)).1 = -1 / 2 := by
  unfold relocateUt
  norm_num
  rw [show 2 * Real.pi / 3 = Real.pi - Real.pi / 3 by ring, Real.cos_pi_sub, Real.cos_pi_div_three]

end OpenNTN
