import Verif.Model.RoundingLocal

/-
Change of field components to global coordinates, evaluated operation by operation in the order of the code.
-/
namespace OpenNTN

open Matrix

/-- Real part in `_compute_psi`, channel_coefficients.py 387-391. -/
noncomputable def Arith.psiReal (A : Arith) (T : TrigLib) (o : Fin 3 → ℝ) (theta phi : ℝ) : ℝ :=
  let a := o 0
  let b := o 1
  let c := o 2
  let real := A.rnd (A.rnd (T.sin c * T.cos theta) * T.sin (A.rnd (phi - a)))
  A.rnd (real + A.rnd (T.cos c * A.rnd (A.rnd (T.cos b * T.sin theta) - A.rnd (A.rnd (T.sin b * T.cos theta) * T.cos (A.rnd (phi - a))))))

/-- Imaginary part in `_compute_psi`, channel_coefficients.py 392. -/
noncomputable def Arith.psiImag (A : Arith) (T : TrigLib) (o : Fin 3 → ℝ) (phi : ℝ) : ℝ :=
  let a := o 0
  let b := o 1
  let c := o 2
  A.rnd (A.rnd (T.sin c * T.cos (A.rnd (phi - a))) + A.rnd (A.rnd (T.sin b * T.cos c) * T.sin (A.rnd (phi - a))))

/-- `_compute_psi`, channel_coefficients.py 387-394. -/
noncomputable def Arith.computePsi (A : Arith) (T : TrigLib) (o : Fin 3 → ℝ) (theta phi : ℝ) : ℝ :=
  T.angle (A.psiReal T o theta phi) (A.psiImag T o phi)

/-- `_l2g_response`, channel_coefficients.py 420-425. -/
noncomputable def Arith.l2gResponse (A : Arith) (T : TrigLib) (f : Fin 2 → ℝ) (o : Fin 3 → ℝ) (theta phi : ℝ) : Fin 2 → ℝ :=
  let psi := A.computePsi T o theta phi
  ![A.rnd (A.rnd (T.cos psi * f 0) + A.rnd (-T.sin psi * f 1)), A.rnd (A.rnd (T.sin psi * f 0) + A.rnd (T.cos psi * f 1))]

end OpenNTN
