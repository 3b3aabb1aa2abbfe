import Verif.Model.Rounding

/-
The range of taps, evaluated operation by operation in the order of the code.
-/
namespace OpenNTN

/-- `l_max` of `time_lag_discrete_time_channel`, utils.py 180-181. The arguments are the numbers written by the caller: Python rounds them and their
product; `tf.math.ceil` converts the product to single precision, whatever precision is configured. -/
noncomputable def Arith.lagMax (A : Arith) (bandwidth maxDelay : ℝ) : ℤ :=
  truncInt (A.rnd ((⌈A.rnd (A.py (A.py maxDelay * A.py bandwidth))⌉ : ℝ) + 6))

end OpenNTN
