import Verif.Model.RoundingArray

/-
Factor of movement, evaluated operation by operation in the order of the code.
-/
namespace OpenNTN

/-- channel_coefficients.py 606: `tf.reduce_sum(r_hat_ut*v_uts_bar, -2)`, added from the first to the last component. -/
noncomputable def Arith.radialSpeed (A : Arith) (T : TrigLib) (theta phi : ℝ) (v : Fin 3 → ℝ) : ℝ :=
  let r := A.unitSphere T theta phi
  A.rnd (A.rnd (A.rnd (r 0 * v 0) + A.rnd (r 1 * v 1)) + A.rnd (r 2 * v 2))

/-- `_step_11_doppler_matrix`, channel_coefficients.py 586-634, for a ray and a time; `E x` is `tf.exp(tf.complex(0, x))`. -/
noncomputable def Arith.dopplerTerm (A : Arith) (T : TrigLib) (E : ℝ → ℂ) (tensor : Bool) (fc : ℝ) (movingRx : Bool) (v : Fin 3 → ℝ) (satSpeed : ℝ) (satellite : Bool)
    (aoa zoa aod zod t : ℝ) : ℂ :=
  E (A.dopplerExponent tensor fc (if movingRx then A.radialSpeed T zoa aoa v else A.radialSpeed T zod aod v) satSpeed t satellite)

end OpenNTN
