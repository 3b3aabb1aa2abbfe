import Verif.Model.RoundingClusters

/-
Directions of clusters, evaluated operation by operation in the order of the code.
-/
namespace OpenNTN

section

variable {M : ℕ} [NeZero M]

/-- rays.py 456-457, 619-620: powers relative to the largest one, clipped. Maximum and clipping do not round. -/
noncomputable def Arith.relativePower (A : Arith) (p : Fin M → ℝ) (i : Fin M) : ℝ := max (min (A.rnd (p i / reduceMax p)) 1) (A.rnd 1e-6)

/-- rays.py 458-459; `lg` is `tf.math.log` and `c` the scaling constant of lines 445-453. -/
noncomputable def Arith.azimuthPrime (A : Arith) (lg : ℝ → ℝ) (spread c rel : ℝ) : ℝ :=
  A.rnd (A.rnd (A.rnd (2 * spread) / A.rnd 1.4) * A.rnd (A.rnd (Real.sqrt (-lg rel)) / c))

/-- rays.py 621; `c` is the scaling constant of lines 610-616. -/
noncomputable def Arith.zenithPrime (A : Arith) (lg : ℝ → ℝ) (spread c rel : ℝ) : ℝ := A.rnd (A.rnd (-spread * lg rel) / c)

/-- rays.py 461-468 and 624-636: sign and random component. `z` is a standard normal draw, which `tf.random.normal` multiplies with the deviation. -/
noncomputable def Arith.deviation (A : Arith) (spread prime : ℝ) (sign : Bool) (z : ℝ) : ℝ :=
  A.rnd (A.rnd (signOf sign * prime) + A.rnd (z * A.rnd (spread / 7)))

/-- rays.py 445-474, from the scaling constant. -/
noncomputable def Arith.azimuthClusters (A : Arith) (lg : ℝ → ℝ) (los : Bool) (spread c losAngle : ℝ) (p : Fin M → ℝ) (sign : Fin M → Bool) (z : Fin M → ℝ)
    (i : Fin M) : ℝ :=
  let dev : Fin M → ℝ := fun i => A.deviation spread (A.azimuthPrime lg spread c (A.relativePower p i)) (sign i) (z i)
  A.rnd (A.rnd (dev i + losAngle) - if los then dev 0 else 0)

/-- rays.py 610-636, from the scaling constant. -/
noncomputable def Arith.zenithDeviation (A : Arith) (lg : ℝ → ℝ) (spread c : ℝ) (p : Fin M → ℝ) (sign : Fin M → Bool) (z : Fin M → ℝ) (i : Fin M) : ℝ :=
  A.deviation spread (A.zenithPrime lg spread c (A.relativePower p i)) (sign i) (z i)

/-- rays.py 634-648. -/
noncomputable def Arith.zoaClusters (A : Arith) (los indoor : Bool) (losAngle : ℝ) (dev : Fin M → ℝ) (i : Fin M) : ℝ :=
  let a1 := if los && !indoor then -A.rnd (dev 0 - losAngle) else 0
  let a2 := if !los && !indoor then losAngle else a1
  let a3 := if indoor then 90 else a2
  A.rnd (dev i + a3)

/-- rays.py 634-639, 648. -/
noncomputable def Arith.zodClusters (A : Arith) (los indoor : Bool) (losAngle zodOff : ℝ) (dev : Fin M → ℝ) (i : Fin M) : ℝ :=
  A.rnd (dev i + if los && !indoor then -A.rnd (dev 0 - losAngle) else A.rnd (losAngle + zodOff))

end

end OpenNTN
