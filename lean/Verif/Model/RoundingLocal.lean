import Verif.Model.Rounding

/-
Change to the coordinates of an array, evaluated operation by operation in the order of the code.
-/
namespace OpenNTN

open Matrix

/-- Functions of the library: `tf.sin`, `tf.cos`, `tf.acos` and `tf.math.angle` of real and imaginary part. -/
structure TrigLib where
  sin : ℝ → ℝ
  cos : ℝ → ℝ
  acos : ℝ → ℝ
  angle : ℝ → ℝ → ℝ

/-- Exact functions. -/
noncomputable def TrigLib.exact : TrigLib := ⟨Real.sin, Real.cos, Real.arccos, fun x y => Complex.arg ⟨x, y⟩⟩

/-- `_unit_sphere_vector`, channel_coefficients.py 245-247. -/
noncomputable def Arith.unitSphere (A : Arith) (T : TrigLib) (theta phi : ℝ) : Fin 3 → ℝ :=
  ![A.rnd (T.sin theta * T.cos phi), A.rnd (T.sin theta * T.sin phi), T.cos theta]

/-- `_forward_rotation_matrix`, channel_coefficients.py 264-279; a change of sign does not round. -/
noncomputable def Arith.forwardRot (A : Arith) (T : TrigLib) (o : Fin 3 → ℝ) : Matrix (Fin 3) (Fin 3) ℝ :=
  let a := o 0
  let b := o 1
  let c := o 2
  !![A.rnd (T.cos a * T.cos b), A.rnd (A.rnd (A.rnd (T.cos a * T.sin b) * T.sin c) - A.rnd (T.sin a * T.cos c)),
       A.rnd (A.rnd (A.rnd (T.cos a * T.sin b) * T.cos c) + A.rnd (T.sin a * T.sin c));
     A.rnd (T.sin a * T.cos b), A.rnd (A.rnd (A.rnd (T.sin a * T.sin b) * T.sin c) + A.rnd (T.cos a * T.cos c)),
       A.rnd (A.rnd (A.rnd (T.sin a * T.sin b) * T.cos c) - A.rnd (T.cos a * T.sin c));
     -T.sin b, A.rnd (T.cos b * T.sin c), A.rnd (T.cos b * T.cos c)]

/-- `tf.matmul` of a 3x3 matrix and a vector. Simplification: products are rounded and added from left to right. -/
noncomputable def Arith.matVec (A : Arith) (R : Matrix (Fin 3) (Fin 3) ℝ) (v : Fin 3 → ℝ) (k : Fin 3) : ℝ :=
  A.rnd (A.rnd (A.rnd (R k 0 * v 0) + A.rnd (R k 1 * v 1)) + A.rnd (R k 2 * v 2))

/-- `_gcs_to_lcs`, channel_coefficients.py 345-363. The products with `v1` and `v2` only select components. -/
noncomputable def Arith.gcsToLcs (A : Arith) (T : TrigLib) (o : Fin 3 → ℝ) (theta phi : ℝ) : ℝ × ℝ :=
  let rotRho := A.matVec (A.forwardRot T o)ᵀ (A.unitSphere T theta phi)
  (T.acos (min (max (rotRho 2) (-1)) 1), T.angle (rotRho 0) (rotRho 1))

end OpenNTN
