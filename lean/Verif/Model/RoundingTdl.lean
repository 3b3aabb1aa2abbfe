import Verif.Model.RoundingLocal
import Verif.Model.RoundingClusters
import Verif.Model.Tdl

/-
Coefficients of a TDL tap, evaluated operation by operation in the order of the code.
-/
namespace OpenNTN

/-- `alpha`, tdl.py 317-318 and 452, of sinusoid `k` of `N`. `2.*PI/num_sinusoids` is a Python float; `2.*PI` is `2 * PI` without rounding. -/
noncomputable def Arith.tdlAlpha (A : Arith) (N : ℕ) (k : ℕ) (theta : ℝ) : ℝ :=
  A.rnd (A.rnd (A.rnd (A.py (2 * A.py Real.pi / N)) * (k + 1)) + theta)

/-- `argument`, tdl.py 467, and `arg_spec`, tdl.py 499-500. -/
noncomputable def Arith.tdlArg (A : Arith) (T : TrigLib) (doppler time alpha phi : ℝ) : ℝ :=
  A.rnd (A.rnd (A.rnd (doppler * time) * T.cos alpha) + phi)

/-- tdl.py 471-478: normalisation and tap power for the real or imaginary part `s` of the sum of the sinusoids. Simplification: the products with
the zero imaginary parts of the factors are left out, and `tf.sqrt` of a complex number that is real is the rounded real root. -/
noncomputable def Arith.tdlScale (A : Arith) (N : ℕ) (power s : ℝ) : ℝ :=
  A.rnd (A.rnd (Real.sqrt power) * A.rnd (A.rnd (1 / A.rnd (Real.sqrt N)) * s))

/-- tdl.py 501-506: the real or imaginary part `h` of the first tap of a LoS model, with the part `e` of the specular path. -/
noncomputable def Arith.tdlLos (A : Arith) (losPower e h : ℝ) : ℝ := A.rnd (A.rnd (e * A.rnd (Real.sqrt losPower)) + h)

/-- tdl.py 417-506: a tap whose sinusoids have the arguments `arg` and whose sums of real and imaginary parts are `sRe` and `sIm`; with power and argument
of the specular path, if there is one. -/
noncomputable def Arith.tdlTap (A : Arith) (T : TrigLib) (N : ℕ) (power : ℝ) (los : Option (ℝ × ℝ)) (sRe sIm : ℝ) : ℂ :=
  match los with
  | none => ⟨A.tdlScale N power sRe, A.tdlScale N power sIm⟩
  | some (l, a) => ⟨A.tdlLos l (T.cos a) (A.tdlScale N power sRe), A.tdlLos l (T.sin a) (A.tdlScale N power sIm)⟩

/-- `h` is a coefficient of tdl.py 417-506 (before spatial correlation), for any order in which `tf.reduce_sum` adds. Indices as in `tdlCoeff`. -/
def Arith.IsTdlCoeff (A : Arith) (T : TrigLib) {B R X C N : ℕ} (t : Tdl) (powers : Fin C → ℝ) (w : TdlDraws B R X C N) (fs : ℝ) (b : Fin B) (r : Fin R)
    (x : Fin X) (c : Fin C) (s : ℕ) (h : ℂ) : Prop :=
  let arg := fun k : Fin N => A.tdlArg T (w.doppler b) (A.sampleTime fs s) (A.tdlAlpha N k (w.theta b c k)) (w.phi b r x c k)
  let spec := fun l : ℝ => (l, A.tdlArg T (w.doppler b) (A.sampleTime fs s) (A.rnd t.losAngle) (w.phi0 b))
  ∃ sRe sIm, RoundedSum A.rnd (List.ofFn fun k => T.cos (arg k)) sRe ∧ RoundedSum A.rnd (List.ofFn fun k => T.sin (arg k)) sIm ∧
    h = A.tdlTap T N (powers c) (if c.val = 0 then t.params.losPower.map spec else none) sRe sIm

end OpenNTN
