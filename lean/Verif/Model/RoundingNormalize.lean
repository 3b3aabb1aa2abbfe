import Verif.Model.RoundingOfdm

/-
Normalization of frequency responses and taps, evaluated operation by operation in the order of the code.
-/
namespace OpenNTN

/-- utils.py 250 and 339: `tf.square(tf.abs(h))`; `abs` is `tf.abs` of a complex number. -/
noncomputable def Arith.energy (A : Arith) (abs : ℂ → ℝ) (z : ℂ) : ℝ := A.rnd (abs z * abs z)

/-- utils.py 250-251 and 339-341: `tf.reduce_mean` over `count` entries, for taps of sums over the taps; `c` is a value that the code may obtain. Entries are added in an
order that the library chooses, and the sum is divided by their number, which the element type has. -/
def Arith.IsMeanEnergy (A : Arith) (abs : ℂ → ℝ) {ι : Type} [Fintype ι] (z : ι → ℂ) (count : ℕ) (c : ℝ) : Prop :=
  ∃ s, RoundedSum A.rnd (Finset.univ.toList.map fun i => A.energy abs (z i)) s ∧ c = A.rnd (s / count)

/-- utils.py 252-253 and 342-343: `tf.math.divide_no_nan` by the root; `div` is the division by a complex number with imaginary part zero. -/
noncomputable def Arith.normalized (A : Arith) (div : ℂ → ℝ → ℂ) (c : ℝ) (z : ℂ) : ℂ :=
  if A.rnd (Real.sqrt c) = 0 then 0 else div z (A.rnd (Real.sqrt c))

end OpenNTN
