import Verif.Model.Rounding
import Verif.Model.Rays

/-
Wrapping of angles, evaluated operation by operation in the order of the code.
-/
namespace OpenNTN

/-- `wrap_angle_0_360`, utils.py 500: `tf.math.mod` on floats takes the remainder of the division truncated towards zero, which is exact, and adds the
divisor to a negative remainder, which is rounded. -/
noncomputable def Arith.wrap360 (A : Arith) (x : ℝ) : ℝ :=
  let m := x - 360 * truncInt (x / 360)
  if m < 0 then A.rnd (m + 360) else m

/-- rays.py 482-488: azimuth of a ray, in degree. -/
noncomputable def Arith.azimuthRay (A : Arith) (cluster clusterSpread offset : ℝ) : ℝ :=
  let a := A.wrap360 (A.rnd (cluster + A.rnd (clusterSpread * offset)))
  if 180 < a then A.rnd (a - 360) else a

/-- rays.py 657-664: zenith of a ray, in degree. -/
noncomputable def Arith.zenithRay (A : Arith) (cluster clusterSpread offset : ℝ) : ℝ :=
  let a := A.wrap360 (A.rnd (cluster + A.rnd (clusterSpread * offset)))
  if 180 < a then A.rnd (360 - a) else a

end OpenNTN
