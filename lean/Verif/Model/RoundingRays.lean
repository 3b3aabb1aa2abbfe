import Verif.Model.RoundingGain
import Verif.Model.RoundingClusters

/-
Assembly of coefficients from fields, phases and powers, evaluated operation by operation in the order of the code.
-/
namespace OpenNTN

/-- `_step_11_phase_matrix`, channel_coefficients.py 529-544; `E x` is `tf.exp(tf.complex(0, x))`. -/
noncomputable def Arith.phaseMatrix (A : Arith) (E : ℝ → ℂ) (phi : Fin 4 → ℝ) (xpr : ℝ) : Matrix (Fin 2) (Fin 2) ℂ :=
  let scale : ℂ := (A.rnd (Real.sqrt (A.rnd (1 / xpr))) : ℂ)
  !![E (phi 0), A.cmul scale (E (phi 1)); A.cmul scale (E (phi 2)), E (phi 3)]

/-- The angle in `_step_11_faraday_rotation`, channel_coefficients.py 1109-1113, for a carrier frequency that is a tensor (see `Arith.genLambda`). -/
noncomputable def Arith.faradayAngle (A : Arith) (fc : ℝ) : ℝ :=
  let f := A.rnd (A.rnd fc / 1e9)
  A.rnd (A.rnd (108 / A.rnd (f * f)) * A.rnd (A.py (A.py Real.pi / 180)))

/-- `_step_11_faraday_rotation`, channel_coefficients.py 1114-1119. -/
noncomputable def Arith.faradayRotation (A : Arith) (T : TrigLib) (fc : ℝ) : Matrix (Fin 2) (Fin 2) ℂ :=
  let psi := A.faradayAngle fc
  !![(T.cos psi : ℂ), (-T.sin psi : ℂ); (T.sin psi : ℂ), (T.cos psi : ℂ)]

/-- channel_coefficients.py 874-878 and 1022-1027: product of matrices of complex numbers. Every product and every sum rounds; a library that fuses
them rounds less often. -/
noncomputable def Arith.withFaraday (A : Arith) (T : TrigLib) (satellite : Bool) (fc : ℝ) (P : Matrix (Fin 2) (Fin 2) ℂ) : Matrix (Fin 2) (Fin 2) ℂ :=
  if satellite then fun i j => A.cadd (A.cmul (P i 0) (A.faradayRotation T fc 0 j)) (A.cmul (P i 1) (A.faradayRotation T fc 1 j)) else P

/-- `_step_11_field_matrix`, channel_coefficients.py 792-842, from the field components of a TX and of an RX antenna. -/
noncomputable def Arith.fieldMatrix (A : Arith) (P : Matrix (Fin 2) (Fin 2) ℂ) (fTx fRx : Fin 2 → ℝ) : ℂ :=
  let g : Fin 2 → ℂ := fun k => A.cadd (A.cmul (P k 0) (fTx 0 : ℂ)) (A.cmul (P k 1) (fTx 1 : ℂ))
  A.cadd (A.cmul (fRx 0 : ℂ) (g 0)) (A.cmul (fRx 1 : ℂ) (g 1))

/-- `_step_11_nlos`, channel_coefficients.py 872-896: contribution of a ray of a cluster with power `p`, from field components and the factors
of array and movement. -/
noncomputable def Arith.nlosRay (A : Arith) (T : TrigLib) (E : ℝ → ℂ) (satellite : Bool) (fc : ℝ) (phi : Fin 4 → ℝ) (xpr p : ℝ) (fTx fRx : Fin 2 → ℝ)
    (hArray hDoppler : ℂ) : ℂ :=
  let hField := A.fieldMatrix (A.withFaraday T satellite fc (A.phaseMatrix E phi xpr)) fTx fRx
  A.cmul (A.cmul (A.cmul hField hArray) hDoppler) (A.rnd (Real.sqrt (A.rnd (p / raysPerCluster))) : ℂ)

/-- `_step_11_los`, channel_coefficients.py 1017-1050, from field components and the factors of array, movement and path length. -/
noncomputable def Arith.losCoeff (A : Arith) (T : TrigLib) (satellite : Bool) (fc : ℝ) (fTx fRx : Fin 2 → ℝ) (hArray hDoppler hDelay : ℂ) : ℂ :=
  let hField := A.fieldMatrix (A.withFaraday T satellite fc losPhaseMatrix) fTx fRx
  A.cmul (A.cmul (A.cmul hField hArray) hDoppler) hDelay

/-- `tf.reduce_sum` of complex tensors, channel_coefficients.py 957-972: real and imaginary parts are added in an order that the library chooses. -/
def Arith.IsRaySum (A : Arith) (l : List ℂ) (s : ℂ) : Prop :=
  RoundedSum A.rnd (l.map Complex.re) s.re ∧ RoundedSum A.rnd (l.map Complex.im) s.im

end OpenNTN
