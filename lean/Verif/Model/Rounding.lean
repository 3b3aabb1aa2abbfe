import Verif.Model.Coeff
import Verif.Model.Geometry
import Verif.Model.Pathloss
import Verif.Model.Ofdm

/-
The expressions of the code in which rounding matters, evaluated operation by operation in the order of the code. The other files compute with
exact reals; `Arith.exact` gives back their expressions. Infinities, NaN and the reduced precision of `tf.matmul` on some GPUs are left out.
-/
namespace OpenNTN

/-- The arithmetic of the code. -/
structure Arith where
  /-- rounding to the element type of the tensors, after each TensorFlow operation and when a Python number meets a tensor -/
  rnd : ℝ → ℝ
  /-- rounding of Python floats -/
  py : ℝ → ℝ
  /-- `tf.math.sin` -/
  sin : ℝ → ℝ
  /-- `log10` of sionna.phy.utils -/
  log10 : ℝ → ℝ

/-- Exact arithmetic. -/
noncomputable def Arith.exact : Arith := ⟨id, id, Real.sin, OpenNTN.log10⟩

/-- `2*PI` where it meets a tensor: channel_coefficients.py 606, 614, 1041. -/
noncomputable def Arith.twoPi (A : Arith) : ℝ := A.rnd (A.py (2 * Real.pi))

/-- `_lambda_0` of scenarios (system_level_scenario.py 88-89) and arrays (antenna.py 513-514): a Python division, then conversion to a tensor. -/
noncomputable def Arith.lambda0 (A : Arith) (fc : ℝ) : ℝ := A.rnd (A.py (speedOfLight / fc))

/-- `_lambda_0` of the coefficient generator, channel_coefficients.py 190-191. System level channels give it the carrier frequency as a tensor
(system_level_channel.py 72-73, system_level_scenario.py 84-85 and 129-131), so that the division is one of tensors; CDL models (cdl.py 266) give
it a Python number. -/
noncomputable def Arith.genLambda (A : Arith) (tensor : Bool) (fc : ℝ) : ℝ :=
  if tensor then A.rnd (A.rnd speedOfLight / A.rnd fc) else A.lambda0 fc

/-- The comparison of wavelengths, system_level_scenario.py 88-102, for a scenario with carrier frequency `fc` and arrays made for `fu` and `fb`
(antenna.py 513-514): a chained comparison. All three objects have the same precision; the comparison of different precisions raises an
exception (Model/Precision). -/
def Arith.wavelengthsMatch (A : Arith) (fc fu fb : ℝ) : Prop := A.lambda0 fu = A.lambda0 fb ∧ A.lambda0 fb = A.lambda0 fc

/-- The phase of the LoS path due to its length, channel_coefficients.py 1041: `2*PI*d3d/lambda_0`. -/
noncomputable def Arith.losPhase (A : Arith) (tensor : Bool) (fc d3d : ℝ) : ℝ := A.rnd (A.rnd (A.twoPi * d3d) / A.genLambda tensor fc)

/-- `sample_times`, channel_coefficients.py 207-208, for sample `n` (exact, as long as the element type has the integer). -/
noncomputable def Arith.sampleTime (A : Arith) (fs : ℝ) (n : ℕ) : ℝ := A.rnd (n / A.rnd fs)

/-- The phase due to movement, channel_coefficients.py 606-628, for a ray with radial speed `s` of the UT, radial speed `v` of the satellite,
and time `t`. -/
noncomputable def Arith.dopplerExponent (A : Arith) (tensor : Bool) (fc s v t : ℝ) (satellite : Bool) : ℝ :=
  let perMetre := A.rnd (A.twoPi / A.genLambda tensor fc)
  let exponent := A.rnd (A.rnd (perMetre * s) * t)
  if satellite then A.rnd (exponent + A.rnd (A.rnd (perMetre * v) * t)) else exponent

/-- The slant range, system_level_scenario.py 804-813, in the precedence of Python: `R_E**2` is a Python integer; `math.radians` returns a
Python float. A square is taken as a product. -/
noncomputable def Arith.distance3d (A : Arith) (el h : ℝ) : ℝ :=
  let s := A.sin (A.rnd (A.py (deg2rad el)))
  let r := A.rnd earthRadius
  let root := A.rnd (Real.sqrt (A.rnd (A.rnd (A.rnd (A.rnd (earthRadius ^ 2) * A.rnd (s * s)) + A.rnd (h * h)) + A.rnd (A.rnd (2 * h) * r))))
  A.rnd (root - A.rnd (r * s))

/-- Free space path loss, utils.py 1768-1771. -/
noncomputable def Arith.freeSpaceLoss (A : Arith) (fc d : ℝ) : ℝ :=
  let f := A.rnd (A.rnd fc / A.rnd (10 ^ 9))
  A.rnd (A.rnd (A.rnd 32.45 + A.rnd (20 * A.log10 f)) + A.rnd (20 * A.log10 d))

/-- The frequency of the subcarrier with index `k`, utils.py 66-69; the index is exact, `subcarrier_spacing` is a Python number. -/
noncomputable def Arith.subcarrier (A : Arith) (k : ℤ) (spacing : ℝ) : ℝ := A.rnd (k * A.rnd spacing)

/-- The phase of a path with delay `tau` at a frequency, utils.py 239-240, in the precedence of Python: `((-2*PI)*frequencies)*tau`. -/
noncomputable def Arith.ofdmPhase (A : Arith) (freq tau : ℝ) : ℝ := A.rnd (A.rnd (A.rnd (A.py (-2 * Real.pi)) * freq) * tau)

/-- The argument of the sinc function for tap `l` and a path with delay `tau`, utils.py 319-326; `bandwidth` is a Python number. -/
noncomputable def Arith.tapArgument (A : Arith) (bandwidth : ℝ) (l : ℤ) (tau : ℝ) : ℝ := A.rnd (l - A.rnd (tau * A.rnd bandwidth))

end OpenNTN
