import Verif.Model.Rounding
import Verif.Model.Rays

/-
Delays and powers of clusters, evaluated operation by operation in the order of the code.
-/
namespace OpenNTN

open Classical

section

variable {M : ℕ} [NeZero M]

/-- rays.py 301-305: delay of a cluster before sorting; `lg` is `tf.math.log`. -/
noncomputable def Arith.rawDelay (A : Arith) (lg : ℝ → ℝ) (rTau ds mask x : ℝ) : ℝ :=
  A.rnd (A.rnd (A.rnd (A.rnd (-rTau * ds) * lg x) * A.rnd (1 - mask)) + mask)

/-- rays.py 307-310: minimum and sorting do not round. -/
noncomputable def Arith.unscaledDelays (A : Arith) (lg : ℝ → ℝ) (rTau ds : ℝ) (mask x : Fin M → ℝ) : Fin M → ℝ :=
  let raw : Fin M → ℝ := fun k => A.rawDelay lg rTau ds (mask k) (x k)
  tfSort fun k => A.rnd (raw k - reduceMin raw)

/-- rays.py 314-317, from the K-factor in dB; `tf.math.pow` is taken to be correctly rounded. -/
noncomputable def Arith.delayScaling (A : Arith) (kDb : ℝ) : ℝ :=
  A.rnd (A.rnd (A.rnd (A.rnd 0.7705 - A.rnd (A.rnd 0.0433 * kDb)) + A.rnd (A.rnd 0.0002 * A.rnd (kDb ^ 2))) + A.rnd (A.rnd 0.000017 * A.rnd (kDb ^ 3)))

/-- rays.py 319-320. -/
noncomputable def Arith.clusterDelays (A : Arith) (lg : ℝ → ℝ) (los : Bool) (rTau ds kDb : ℝ) (mask x : Fin M → ℝ) : Fin M → ℝ :=
  let u := A.unscaledDelays lg rTau ds mask x
  if los then fun i => A.rnd (u i / A.delayScaling kDb) else u

/-- `tf.reduce_sum`: additions in an order that the library chooses. -/
inductive RoundedSum (rnd : ℝ → ℝ) : List ℝ → ℝ → Prop
  | single (x : ℝ) : RoundedSum rnd [x] x
  | add {l r : List ℝ} {a b : ℝ} : RoundedSum rnd l a → RoundedSum rnd r b → RoundedSum rnd (l ++ r) (rnd (a + b))
  | perm {l r : List ℝ} {a : ℝ} : l.Perm r → RoundedSum rnd l a → RoundedSum rnd r a

/-- rays.py 378-379, from the powers `raw` before normalisation and their sum `s`. -/
noncomputable def Arith.clusterPower (A : Arith) (raw : Fin M → ℝ) (s : ℝ) (i : Fin M) : ℝ := A.rnd (raw i / s)

/-- rays.py 383-388: powers for the generation of angles. -/
noncomputable def Arith.anglePower (A : Arith) (los : Bool) (k : ℝ) (p : Fin M → ℝ) (i : Fin M) : ℝ :=
  if los then
    let pn := A.rnd (1 / A.rnd (k + 1))
    if i = 0 then A.rnd (A.rnd (pn * p i) + A.rnd (k * pn)) else A.rnd (pn * p i)
  else p i

end

end OpenNTN
