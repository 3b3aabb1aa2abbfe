import Verif.Model.Antenna
import Verif.Model.Rays

/-
`AntennaElement._compute_gain`: /repo/OpenNTN/antenna.py 226-251. It is only used for display.
-/
namespace OpenNTN

/-- `tf.linspace(0.0, PI, 181)`, antenna.py 232. -/
noncomputable def gainTheta (i : Fin 181) : ℝ := Real.pi * i / 180

/-- `tf.linspace(-PI, PI, 361)`, antenna.py 233. -/
noncomputable def gainPhi (j : Fin 361) : ℝ := -Real.pi + 2 * Real.pi * j / 360

/-- `u`, antenna.py 237-238: radiated power on the grid. -/
noncomputable def gainPower (e : Element) (i : Fin 181) (j : Fin 361) : ℝ :=
  e.field (gainTheta i) (gainPhi j) 0 ^ 2 + e.field (gainTheta i) (gainPhi j) 1 ^ 2

/-- `_compute_gain`, antenna.py 226-251: gain and directivity in dB. -/
noncomputable def computeGain (e : Element) : ℝ × ℝ :=
  let u := gainPower e
  let gainDb := 10 * log10 (reduceMax fun i => reduceMax fun j => u i j)
  let dtheta := gainTheta 1 - gainTheta 0
  let dphi := gainPhi 1 - gainPhi 0
  let po := ∑ i, ∑ j, u i j * Real.sin (gainTheta i) * dtheta * dphi
  let uBar := po / (4 * Real.pi)
  (gainDb, 10 * log10 (reduceMax fun i => reduceMax fun j => u i j / uBar))

end OpenNTN
