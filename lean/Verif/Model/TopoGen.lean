import Mathlib.Analysis.SpecialFunctions.Trigonometric.Arctan
import Verif.Model.Coeff
import Verif.Model.Channel

/-
Model of the topology generation of utils.py 537-1431. Floats are exact reals. Results that are not a number are errors. A draw of
`tf.random.uniform(minval, maxval)` is `minval + u * (maxval - minval)` with `u` in [0,1); the conditions on `u` are hypotheses.
-/
namespace OpenNTN

open Classical

variable {B U : ℕ}

/-- Unit draws of `drop_uts_in_sector` and `generate_uts_topology`. `sector` is the integer drawn at line 946; the draw `side`
(lines 591-595) is not used by the code and left out. -/
structure DropDraws (B U : ℕ) where
  xBase : ℝ
  xDis : PerUt B U ℝ
  yDis : PerUt B U ℝ
  sector : PerUt B U ℤ
  height : PerUt B U ℝ
  indoor : PerUt B U ℝ
  velAngle : PerUt B U ℝ
  velNorm : PerUt B U ℝ

/-- `tf.random.uniform(minval, maxval)` from a unit draw. -/
def uniformIn (lo hi u : ℝ) : ℝ := u * (hi - lo) + lo

/-- `tf.math.sqrt`. -/
noncomputable def sqrtX (x : ℝ) : Except Err ℝ := if x < 0 then .error .notANumber else .ok (Real.sqrt x)

/-- `drop_uts_in_sector`, utils.py 537-610: the centre point (lines 585-588), drawn once for all batch examples. -/
noncomputable def dropCentre (bsHeight elevation : ℝ) (u : ℝ) : Except Err (ℝ × ℝ) :=
  if Real.sin (deg2rad elevation) = 0 then .error .notANumber else do
  let actual := bsHeight / Real.sin (deg2rad elevation)
  let dist ← sqrtX (actual ^ 2 - bsHeight ^ 2)
  let xBase := uniformIn 0 dist u
  let yBase ← sqrtX (actual ^ 2 - bsHeight ^ 2 - xBase ^ 2)
  .ok (xBase, yBase)

/-- `drop_uts_in_sector`, utils.py 537-610. -/
noncomputable def dropUts (bsHeight elevation isd : ℝ) (w : DropDraws B U) : Except Err (PerUt B U (ℝ × ℝ)) := do
  let (xBase, yBase) ← dropCentre bsHeight elevation w.xBase
  .ok fun b u => (xBase + uniformIn (-isd / 2) (isd / 2) (w.xDis b u), yBase + uniformIn (-isd / 2) (isd / 2) (w.yDis b u))

/-- `relocate_uts`, utils.py 770-842, for one UT. -/
noncomputable def relocateUt (loc : ℝ × ℝ) (sector : ℤ) (cell : ℝ × ℝ) : ℝ × ℝ :=
  let a : ℝ := sector * 2 * Real.pi / 3
  (Real.cos a * loc.1 + -Real.sin a * loc.2 + cell.1, Real.sin a * loc.1 + Real.cos a * loc.2 + cell.2)

/-- `tf.math.atan(y/x)`: a division by zero gives an infinite argument, `0/0` is not a number. -/
noncomputable def atanRatio (y x : ℝ) : Except Err ℝ :=
  if x = 0 then (if y = 0 then .error .notANumber else .ok (if 0 < y then Real.pi / 2 else -(Real.pi / 2)))
  else .ok (Real.arctan (y / x))

/-- Scenario parameters, in the order of line 767-768. -/
structure GenParams where
  isd : ℝ
  bsHeight : ℝ
  elevation : ℝ
  minUtHeight : ℝ
  maxUtHeight : ℝ
  indoorProbability : ℝ
  minUtVelocity : ℝ
  maxUtVelocity : ℝ

/-- The optional arguments with the same names. -/
structure GenArgs where
  isd : Option ℝ := none
  bsHeight : Option ℝ := none
  elevation : Option ℝ := none
  minUtHeight : Option ℝ := none
  maxUtHeight : Option ℝ := none
  indoorProbability : Option ℝ := none
  minUtVelocity : Option ℝ := none
  maxUtVelocity : Option ℝ := none

/-- `default_scenario_par`, utils.py 709-747: defaults of a scenario name. -/
noncomputable def scenarioDefaults (scenario : String) : Option GenParams :=
  if scenario = "dur" then some ⟨200, 600000, 80, 1.5, 1.5, 0, 0, 0⟩
  else if scenario = "urb" then some ⟨500, 600000, 80, 1.5, 1.5, 0, 0, 0⟩
  else if scenario = "sur" then some ⟨5000, 600000, 80, 1.5, 1.5, 0, 0, 0⟩
  else none

/-- `set_3gpp_scenario_parameters`, utils.py 612-768. -/
noncomputable def setScenarioParameters (scenario : String) (a : GenArgs) : Except Err GenParams :=
  match scenarioDefaults scenario with
  | none => .error .assertion
  | some d => .ok {
      isd := a.isd.getD d.isd
      bsHeight := a.bsHeight.getD d.bsHeight
      elevation := a.elevation.getD d.elevation
      minUtHeight := a.minUtHeight.getD d.minUtHeight
      maxUtHeight := a.maxUtHeight.getD d.maxUtHeight
      indoorProbability := a.indoorProbability.getD d.indoorProbability
      minUtVelocity := a.minUtVelocity.getD d.minUtVelocity
      maxUtVelocity := a.maxUtVelocity.getD d.maxUtVelocity }

/-- What `generate_uts_topology` returns. The bearing of a UT may be undefined. -/
structure UtTopology (B U : ℕ) where
  loc : PerUt B U Vec3
  ori : PerUt B U (Except Err Vec3)
  vel : PerUt B U Vec3
  inState : PerUt B U Bool

/-- `generate_uts_topology`, utils.py 845-988. The argument `indoor_probability` is overwritten by zero (line 963). -/
noncomputable def generateUts (dropArea : String) (cell : PerUt B U (ℝ × ℝ)) (p : GenParams) (w : DropDraws B U) : Except Err (UtTopology B U) :=
  if dropArea ≠ "sector" ∧ dropArea ≠ "cell" then .error .assertion else do
  let xy ← dropUts p.bsHeight p.elevation p.isd w
  let sectors : PerUt B U ℤ := if dropArea = "sector" then fun _ _ => 0 else w.sector
  let xy : PerUt B U (ℝ × ℝ) := fun b u => relocateUt (xy b u) (sectors b u) (cell b u)
  let indoorProbability : ℝ := 0
  let downtilt := deg2rad (p.elevation + 180)
  let slant := deg2rad (p.elevation + 90)
  .ok {
    loc := fun b u => ⟨(xy b u).1, (xy b u).2, uniformIn p.minUtHeight p.maxUtHeight (w.height b u)⟩
    inState := fun b u => decide (w.indoor b u < indoorProbability)
    vel := fun b u =>
      let angle := uniformIn (-Real.pi) Real.pi (w.velAngle b u)
      let norm := uniformIn p.minUtVelocity p.maxUtVelocity (w.velNorm b u)
      ⟨norm * Real.cos angle, norm * Real.sin angle, 0⟩
    ori := fun b u => do
      let bearing ← atanRatio (xy b u).2 (xy b u).1
      .ok ⟨bearing, downtilt, slant⟩ }

/-- What `gen_single_sector_topology` returns, in this order. -/
structure GenTopology (B U : ℕ) where
  utLoc : PerUt B U Vec3
  bsLoc : PerBs B 1 Vec3
  utOri : PerUt B U (Except Err Vec3)
  bsOri : PerBs B 1 Vec3
  utVel : PerUt B U Vec3
  inState : PerUt B U Bool

/-- `gen_single_sector_topology`, utils.py 990-1191. -/
noncomputable def genSingleSector (scenario : String) (a : GenArgs) (w : DropDraws B U) : Except Err (GenTopology B U) := do
  let p ← setScenarioParameters scenario a
  let t ← generateUts "sector" (fun _ _ => (0, 0)) p w
  .ok {
    utLoc := t.loc
    bsLoc := fun _ _ => ⟨0, 0, p.bsHeight⟩
    utOri := t.ori
    bsOri := fun _ _ => ⟨0, 0.5 * Real.pi, 0⟩
    utVel := t.vel
    inState := t.inState }

/-- The arguments of `gen_single_sector_topology_interferers`, utils.py 1194-1207. -/
structure InterfererArgs where
  minBsUtDist : Option ℝ := none
  isd : Option ℝ := none
  bsHeight : Option ℝ := none
  minUtHeight : Option ℝ := none
  maxUtHeight : Option ℝ := none
  indoorProbability : Option ℝ := none
  minUtVelocity : Option ℝ := none
  maxUtVelocity : Option ℝ := none

/-- `gen_single_sector_topology_interferers`, utils.py 1349-1394: the parameters are obtained with shifted positions (minimum distance as
`isd`, `isd` as `bs_height`, `bs_height` as `elevation_angle`); then the name `dtype`, which is not defined, is evaluated
for the first call of `generate_uts_topology` (line 1393). Nothing after that is reached. -/
noncomputable def genInterferers {I : ℕ} (scenario : String) (a : InterfererArgs) (_w : DropDraws B U) (_v : DropDraws B I) :
    Except Err (GenTopology B (U + I)) := do
  let _ ← setScenarioParameters scenario ⟨a.minBsUtDist, a.isd, a.bsHeight, a.minUtHeight, a.maxUtHeight, a.indoorProbability,
    a.minUtVelocity, a.maxUtVelocity⟩
  .error .nameError

/-- The returned values passed on to `set_topology`, system_level_channel.py 81-82, in the order of its parameters; orientations that
are not a number are excluded. -/
def GenTopology.args (t : GenTopology B U) (ori : PerUt B U Vec3) : ChanArgs B 1 U where
  utLoc := some t.utLoc
  bsLoc := some t.bsLoc
  utOri := some ori
  bsOri := some t.bsOri
  utVel := some t.utVel
  inState := some t.inState

end OpenNTN
