import Verif.Model.Num
import Mathlib.Analysis.SpecialFunctions.Complex.Arg
import Mathlib.Analysis.SpecialFunctions.Trigonometric.Basic
import Mathlib.Analysis.Real.Sqrt

/-
Model of `_compute_distance_2d_3d_and_angles` and `_sample_indoor_distance` (system_level_scenario.py 779-884), for one link.
-/
namespace OpenNTN

open Classical

/-- A row of the location/orientation/velocity tensors (last axis of size 3). -/
@[ext] structure Vec3 where
  x : ℝ
  y : ℝ
  z : ℝ

/-- `tf.atan2(y, x)`: the argument of the point `(x, y)`, in `(-pi, pi]`, zero at the origin. Signed zeros are not modelled. -/
noncomputable def atan2 (y x : ℝ) : ℝ := Complex.arg ⟨x, y⟩

/-- system_level_scenario.py 789-800: planar distance of a BS-UT link. -/
noncomputable def distance2d (ut bs : Vec3) : ℝ :=
  let dx := ut.x - bs.x
  let dy := ut.y - bs.y
  Real.sqrt (dx ^ 2 + dy ^ 2)

/-- `R_E` at system_level_scenario.py 808. -/
def earthRadius : ℝ := 6371000

/-- system_level_scenario.py 804-813: slant range for elevation `el` in degrees and altitude `h`. For a negative radicand
(altitude below ground) the code yields NaN, this formula `-R sin`; all statements are about `h > 0`. -/
noncomputable def distance3d (el h : ℝ) : ℝ :=
  let e := deg2rad el
  Real.sqrt (earthRadius ^ 2 * Real.sin e ^ 2 + h ^ 2 + 2 * h * earthRadius) - earthRadius * Real.sin e

/-- The four LoS angles in degrees, system_level_scenario.py 823-831. -/
structure LosAngles where
  aod : ℝ
  aoa : ℝ
  zod : ℝ
  zoa : ℝ

/-- system_level_scenario.py 823-831. -/
noncomputable def losAngles (ut bs : Vec3) : LosAngles :=
  let aod := atan2 (ut.y - bs.y) (ut.x - bs.x)
  let aoa := aod + Real.pi
  let zod := atan2 (distance2d ut bs) (ut.z - bs.z)
  let zoa := zod - Real.pi
  { aod := wrapAngle0_360 (rad2deg aod)
    aoa := wrapAngle0_360 (rad2deg aoa)
    zod := wrapAngle0_360 (rad2deg zod)
    zoa := wrapAngle0_360 (rad2deg zoa) }

/-- The indoor/outdoor parts of the distances of a link. `none` is the result of a division by zero (NaN or infinity). -/
structure IndoorSplit where
  d2In : ℝ
  d2Out : ℝ
  d3In : Option ℝ
  d3Out : Option ℝ

/-- `_sample_indoor_distance`, system_level_scenario.py 864-884, for one link: `draw` is the uniform draw of line 874, which lies
between `min_2d_in` and `max_2d_in` (dense_urban_scenario.py 103-111: 0 and 10). -/
noncomputable def indoorSplit (indoor : Bool) (draw d2 d3 : ℝ) : IndoorSplit :=
  let mask : ℝ := if indoor then 1 else 0
  let d2In := draw * mask
  let d3In : Option ℝ := if d2 = 0 then none else some (d2In / d2 * d3)
  { d2In := d2In
    d2Out := d2 - d2In
    d3In := d3In
    d3Out := d3In.map (d3 - ·) }

/-- dense_urban_scenario.py 103-111 (same in the sibling classes): the range of the indoor distance draw. -/
def minIn2d : ℝ := 0
def maxIn2d : ℝ := 10

end OpenNTN
