import Verif.Model.RoundingArray
import Verif.Model.Cir

/-
Combination of LoS and NLoS coefficients and step 12, evaluated operation by operation in the order of the code.
-/
namespace OpenNTN

/-- Division and root of complex tensors, for numbers with imaginary part zero. -/
structure ComplexLib where
  div : ℝ → ℝ → ℝ
  sqrt : ℝ → ℝ

/-- Sum of complex tensors. -/
noncomputable def Arith.cadd (A : Arith) (z w : ℂ) : ℂ := ⟨A.rnd (z.re + w.re), A.rnd (z.im + w.im)⟩

/-- channel_coefficients.py 1087-1091: factor of the LoS component. The K-factor is a complex tensor with imaginary part zero. -/
noncomputable def Arith.losFactor (A : Arith) (L : ComplexLib) (k : ℝ) : ℝ := L.sqrt (L.div k (A.rnd (k + 1)))

/-- channel_coefficients.py 1092: factor of the NLoS components. -/
noncomputable def Arith.nlosFactor (A : Arith) (L : ComplexLib) (k : ℝ) : ℝ := L.sqrt (L.div 1 (A.rnd (k + 1)))

/-- `_step_11`, channel_coefficients.py 1084-1106, for one pair of antennas and one time. -/
noncomputable def Arith.combineLos (A : Arith) (L : ComplexLib) {p : ℕ} (los : Bool) (k : ℝ) (hLos : ℂ) (hNlos : Fin (p + 1) → ℂ) (q : Fin (p + 1)) : ℂ :=
  let nlosComp : Fin (p + 1) → ℂ := fun q => A.cmul (hNlos q) (A.nlosFactor L k : ℂ)
  if los then
    if q = 0 then A.cadd (A.cmul hLos (A.losFactor L k : ℂ)) (nlosComp 0) else nlosComp q
  else hNlos q

/-- system_level_channel.py 415-426; `P` is `tf.math.pow` with base 10. -/
noncomputable def Arith.step12Gain (A : Arith) (P : ℝ → ℝ) (pathlossEnabled shadowEnabled : Bool) (pl sf : ℝ) : ℝ :=
  let plDb := if pathlossEnabled then pl else 0
  let sf' := if shadowEnabled then sf else 1
  A.rnd (P (A.rnd (-plDb / 20)) * A.rnd (Real.sqrt sf'))

/-- system_level_channel.py 429. -/
noncomputable def Arith.step12 (A : Arith) (P : ℝ → ℝ) (pathlossEnabled shadowEnabled : Bool) (pl sf : ℝ) (h : ℂ) : ℂ :=
  A.cmul h (A.step12Gain P pathlossEnabled shadowEnabled pl sf : ℂ)

end OpenNTN
