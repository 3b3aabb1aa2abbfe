import Verif.Model.RoundingLocal
import Verif.Model.Antenna

/-
Patterns with parabolic lobes and field of an element, evaluated operation by operation in the order of the code.
-/
namespace OpenNTN

/-- A lobe, antenna.py 166-167 and 215-216: `min(12*x**2, limit)` for the relative angle `x`. Simplification: `** 2` is one rounded product. -/
noncomputable def Arith.lobe (A : Arith) (limit x : ℝ) : ℝ := min (A.rnd (12 * A.rnd (x ^ 2))) limit

/-- Relative angles, antenna.py 163-167. `65/180*PI` and `PI/2` are Python floats, halving does not round. -/
noncomputable def Arith.width38901 (A : Arith) : ℝ := A.rnd (A.py (A.py (65 / 180) * A.py Real.pi))
noncomputable def Arith.theta38901 (A : Arith) (theta : ℝ) : ℝ := A.rnd (A.rnd (theta - A.rnd (A.py Real.pi / 2)) / A.width38901)
noncomputable def Arith.phi38901 (A : Arith) (phi : ℝ) : ℝ := A.rnd (phi / A.width38901)

/-- `_radiation_pattern_38901`, antenna.py 151-169; `P` is the power function of the library with base 10. A change of sign does not round. -/
noncomputable def Arith.pattern38901 (A : Arith) (P : ℝ → ℝ) (theta phi : ℝ) : ℝ :=
  let aV := -A.lobe 30 (A.theta38901 theta)
  let aH := -A.lobe 30 (A.phi38901 phi)
  let aDb := A.rnd (-min (-A.rnd (aV + aH)) 30 + 8)
  P (A.rnd (aDb / 10))

/-- Relative angles, antenna.py 213-216: `180.0/PI` is a Python float. -/
noncomputable def Arith.degree (A : Arith) (x : ℝ) : ℝ := A.rnd (x * A.rnd (A.py (180 / A.py Real.pi)))
noncomputable def Arith.thetaDlp (A : Arith) (theta : ℝ) : ℝ := A.rnd (A.rnd (A.degree theta - 90) / 90)
noncomputable def Arith.phiDlp (A : Arith) (phi : ℝ) : ℝ := A.rnd (A.degree phi / 90)

/-- `_radiation_pattern_co_phased_DLp`, antenna.py 193-223. -/
noncomputable def Arith.patternDlp (A : Arith) (P : ℝ → ℝ) (theta phi : ℝ) : ℝ :=
  let aEV := -A.lobe 25 (A.thetaDlp theta)
  let aEH := -A.lobe 25 (A.phiDlp phi)
  let gain := -min (-A.rnd (aEV + aEH)) 25
  P (A.rnd (gain / 10))

/-- `_radiation_pattern` for the patterns without aperture (that one is in Model/RoundingAperture), antenna.py 56-63 and 137-149. -/
noncomputable def Arith.elementPower (A : Arith) (P : ℝ → ℝ) : Pattern → ℝ → ℝ → ℝ
  | .p38901 => A.pattern38901 P
  | .dlp => A.patternDlp P
  | _ => fun _ _ => 1

/-- `field`, antenna.py 77-80. The slant angle becomes a tensor at line 54. -/
noncomputable def Arith.field (A : Arith) (T : TrigLib) (P : ℝ → ℝ) (e : Element) (theta phi : ℝ) : Fin 2 → ℝ :=
  let a := A.rnd (Real.sqrt (A.elementPower P e.pattern theta phi))
  let slant := A.rnd (A.py e.slant)
  ![A.rnd (a * T.cos slant), A.rnd (a * T.sin slant)]

end OpenNTN
