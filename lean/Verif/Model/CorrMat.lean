import Mathlib.Analysis.SpecialFunctions.Complex.Circle
import Mathlib.LinearAlgebra.Matrix.Defs
import Verif.Model.Num

/-
Correlation matrices: /repo/OpenNTN/utils.py 1434-1591.
-/
namespace OpenNTN

open Classical

/-- `tf.math.pow` on complex numbers with a non-negative integer exponent, utils.py 1486. `none` is NaN, which the power yields for `0**0`
(comment in line 1488). Simplification: exact arithmetic; `0**k = 0` for `k > 0`. -/
noncomputable def powNan (a : ℂ) (k : ℕ) : Option ℂ := if a = 0 ∧ k = 0 then none else some (a ^ k)

/-- `tf.where(is_nan, 1, col)`, utils.py 1489-1490. -/
noncomputable def nanToOne (z : Option ℂ) : ℂ := z.getD 1

/-- `LinearOperatorToeplitz(col, row).to_dense()`, utils.py 1496-1499 and 1586-1589: on and below the diagonal the entries come from the first
column, above from the first row. -/
def toeplitz {n : ℕ} (col row : ℕ → ℂ) : Matrix (Fin n) (Fin n) ℂ :=
  fun i j => if j.val ≤ i.val then col (i.val - j.val) else row (j.val - i.val)

/-- `exp_corr_mat`, utils.py 1434-1501, for a tensor `a` with elements indexed by `ι`. The check covers all elements at once. -/
noncomputable def expCorrMat {ι : Type} (a : ι → ℂ) (n : ℕ) : Except Err (ι → Matrix (Fin n) (Fin n) ℂ) :=
  if ∀ i, ‖a i‖ < 1 then
    .ok fun i =>
      let col := fun k => nanToOne (powNan (a i) k)
      toeplitz col (fun k => (starRingEnd ℂ) (col k))
  else .error .invalidArgument

/-- `one_ring_corr_mat`, utils.py 1503-1591, for a tensor `phi_deg` with elements indexed by `ι`. The warning for spreads above 15 degrees has no
effect on the result and is left out. -/
noncomputable def oneRingCorrMat {ι : Type} (phiDeg : ι → ℝ) (numAnt : ℕ) (dh sigmaDeg : ℝ) : ι → Matrix (Fin numAnt) (Fin numAnt) ℂ :=
  fun i =>
    let phi := deg2rad (phiDeg i)
    let sigma := deg2rad sigmaDeg
    let d := fun k : ℕ => (2 * Real.pi * dh) * (k : ℝ)
    let col := fun k : ℕ =>
      let a : ℂ := ⟨0, d k * Real.sin phi⟩
      let b := -(1 / 2) * (sigma * d k * Real.cos phi) ^ 2
      Complex.exp a * ((Real.exp b : ℝ) : ℂ)
    toeplitz col (fun k => (starRingEnd ℂ) (col k))

end OpenNTN
