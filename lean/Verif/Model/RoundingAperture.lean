import Verif.Model.RoundingLocal

/-
Pattern of the circular aperture, evaluated operation by operation in the order of the code.
-/
namespace OpenNTN

/-- Argument of `tf.acos`, antenna.py 189. -/
noncomputable def Arith.apertureCos (A : Arith) (T : TrigLib) (theta phi : ℝ) : ℝ := A.rnd (T.sin theta * T.cos phi)

/-- The angle `r` from the boresight, antenna.py 189. -/
noncomputable def Arith.apertureAngle (A : Arith) (T : TrigLib) (theta phi : ℝ) : ℝ := T.acos (A.apertureCos T theta phi)

/-- `ka`, antenna.py 188, with the default radius: a Python float that is rounded to the element type where it meets a tensor. -/
noncomputable def Arith.apertureKa (A : Arith) : ℝ := A.rnd (A.py (20 * A.py Real.pi))

/-- Denominator `ka * tf.sin(r)`, antenna.py 190. -/
noncomputable def Arith.apertureDen (A : Arith) (T : TrigLib) (theta phi : ℝ) : ℝ := A.rnd (A.apertureKa * T.sin (A.apertureAngle T theta phi))

/-- The comparison that selects the quotient, antenna.py 190-191: not on the axis and not behind. -/
def Arith.apertureQuotient (A : Arith) (T : TrigLib) (theta phi : ℝ) : Prop :=
  (0 : ℝ) ≠ A.apertureAngle T theta phi ∧ ¬ A.rnd (A.py (0.5 * A.py Real.pi)) < |A.apertureAngle T theta phi|

/-- `_radiation_pattern_circular_aperture`, antenna.py 171-191; `J` is `tf.math.special.bessel_j1`. Simplification: `** 2` is one
rounded product. -/
noncomputable def Arith.aperturePower (A : Arith) (T : TrigLib) (J : ℝ → ℝ) (theta phi : ℝ) : ℝ :=
  let r := A.apertureAngle T theta phi
  let amplitude := if (0 : ℝ) = r then 1 else A.rnd (4 * A.rnd (|A.rnd (J (A.rnd (T.sin r * A.apertureKa)) / A.apertureDen T theta phi)| ^ 2))
  if A.rnd (A.py (0.5 * A.py Real.pi)) < |r| then 0 else amplitude

end OpenNTN
