import Verif.Model.RoundingLocal

/-
Phases between the antennas of an array, evaluated operation by operation in the order of the code.
-/
namespace OpenNTN

open Matrix

/-- `_step_11_array_offsets`, channel_coefficients.py 663-715 (and `_rot_pos`, lines 281-299): phase of the antenna at `d`, in an array with
orientation `o`, for the direction `theta`, `phi`. Simplification: the sum of three products is evaluated from left to right. -/
noncomputable def Arith.arrayPhase (A : Arith) (T : TrigLib) (tensor : Bool) (fc : ℝ) (o d : Fin 3 → ℝ) (theta phi : ℝ) : ℝ :=
  let rHat := A.unitSphere T theta phi
  let dBar := A.matVec (A.forwardRot T o) d
  let sum := A.rnd (A.rnd (A.rnd (rHat 0 * dBar 0) + A.rnd (rHat 1 * dBar 1)) + A.rnd (rHat 2 * dBar 2))
  A.rnd (A.rnd (A.twoPi / A.genLambda tensor fc) * sum)

/-- Product of complex tensors. -/
noncomputable def Arith.cmul (A : Arith) (z w : ℂ) : ℂ :=
  ⟨A.rnd (A.rnd (z.re * w.re) - A.rnd (z.im * w.im)), A.rnd (A.rnd (z.re * w.im) + A.rnd (z.im * w.re))⟩

/-- `_step_11_array_offsets`, channel_coefficients.py 704-718; `E x` is `tf.exp(tf.complex(0, x))`. -/
noncomputable def Arith.arrayOffset (A : Arith) (T : TrigLib) (E : ℝ → ℂ) (tensor : Bool) (fc : ℝ) (oRx dRx oTx dTx : Fin 3 → ℝ) (aoa aod zoa zod : ℝ) : ℂ :=
  A.cmul (E (A.arrayPhase T tensor fc oRx dRx zoa aoa)) (E (A.arrayPhase T tensor fc oTx dTx zod aod))

end OpenNTN
