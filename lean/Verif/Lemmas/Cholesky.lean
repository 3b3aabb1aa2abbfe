import Mathlib.Analysis.Matrix.LDL
import Mathlib.LinearAlgebra.Matrix.Block
import Verif.Model.Tdl

/-
Complex positive definite matrices have a Cholesky factor.
-/
namespace OpenNTN

open Classical Matrix ComplexOrder

/-- Every positive definite matrix has a lower triangular factor with positive diagonal. -/
theorem exists_choleskyC {ι : Type} [Fintype ι] [LinearOrder ι] {S : Matrix ι ι ℂ} (hS : S.PosDef) :
    ∃ L : Matrix ι ι ℂ, (∀ i j, i < j → L i j = 0) ∧ (∀ i, 0 < (L i i).re ∧ (L i i).im = 0) ∧ L * Lᴴ = S := by
  let : LocallyFiniteOrderBot ι := LocallyFiniteOrderBot.ofIic ι (fun a => Finset.univ.filter (· ≤ a)) (by simp)
  have hinv : Invertible (LDL.lowerInv hS) := LDL.invertibleLowerInv hS
  have htri : ∀ i j, i < j → LDL.lower hS i j = 0 := by
    have := blockTriangular_inv_of_blockTriangular (M := LDL.lowerInv hS) (b := OrderDual.toDual)
      (fun i j hij => LDL.lowerInv_triangular hS hij)
    intro i j hij
    exact this (i := i) (j := j) hij
  have hdiag : ∀ i, LDL.lower hS i i ≠ 0 := by
    have hdet : (LDL.lower hS).det ≠ 0 := by
      have : IsUnit (LDL.lower hS).det := by
        rw [LDL.lower, det_nonsing_inv]
        exact (isUnit_det_of_invertible (LDL.lowerInv hS)).ringInverse
      exact this.ne_zero
    have : (LDL.lower hS).det = ∏ i, LDL.lower hS i i := det_of_lowerTriangular _ (fun i j hij => htri i j hij)
    rw [this] at hdet
    exact fun i => (Finset.prod_ne_zero_iff.1 hdet) i (Finset.mem_univ i)
  have hpos : ∀ i, 0 < LDL.diagEntries hS i := by
    intro i
    have h1 : (LDL.diag hS).PosDef := by
      rw [LDL.diag_eq_lowerInv_conj hS]
      have := hS.conjTranspose_mul_mul_same (B := (LDL.lowerInv hS)ᴴ) (by
        rw [mulVec_injective_iff_isUnit]
        exact (isUnit_of_invertible (LDL.lowerInv hS)).star)
      simpa using this
    have := h1.diag_pos (i := i)
    simpa [LDL.diag] using this
  let D : ι → ℂ := fun i => ((Real.sqrt (LDL.diagEntries hS i).re / ‖LDL.lower hS i i‖ : ℝ) : ℂ) * (starRingEnd ℂ) (LDL.lower hS i i)
  have hre : ∀ i, 0 < (LDL.diagEntries hS i).re ∧ ((LDL.diagEntries hS i).re : ℂ) = LDL.diagEntries hS i := fun i => by
    obtain ⟨h1, h2⟩ := Complex.pos_iff.1 (hpos i)
    exact ⟨h1, Complex.ext (by simp) (by simp [← h2])⟩
  have hn : ∀ i, 0 < ‖LDL.lower hS i i‖ := fun i => norm_pos_iff.2 (hdiag i)
  have hD : ∀ i, D i * star (D i) = LDL.diagEntries hS i := by
    intro i
    simp only [D, Complex.star_def, map_mul, Complex.conj_ofReal, Complex.conj_conj]
    rw [mul_mul_mul_comm, mul_comm ((starRingEnd ℂ) _), Complex.mul_conj, ← Complex.ofReal_mul, ← Complex.ofReal_mul, Complex.normSq_eq_norm_sq, ← (hre i).2]
    congr 1
    have := Real.mul_self_sqrt (hre i).1.le
    have := (hn i).ne'
    field_simp
    rw [Complex.ofReal_re, Real.sq_sqrt (hre i).1.le]
  have hL : ∀ i j, (LDL.lower hS * diagonal D) i j = LDL.lower hS i j * D j := fun i j => by rw [mul_diagonal]
  refine ⟨LDL.lower hS * diagonal D, fun i j hij => by rw [hL, htri i j hij, zero_mul], fun i => ?_, ?_⟩
  · have e : LDL.lower hS i i * D i = ((Real.sqrt (LDL.diagEntries hS i).re * ‖LDL.lower hS i i‖ : ℝ) : ℂ) := by
      simp only [D]
      rw [mul_left_comm, Complex.mul_conj, ← Complex.ofReal_mul, Complex.normSq_eq_norm_sq]
      congr 1
      have := (hn i).ne'
      field_simp
    rw [hL, e, Complex.ofReal_re, Complex.ofReal_im]
    exact ⟨mul_pos (Real.sqrt_pos.2 (hre i).1) (hn i), rfl⟩
  · conv_rhs => rw [← LDL.lower_conj_diag hS]
    rw [conjTranspose_mul, diagonal_conjTranspose, Matrix.mul_assoc, ← Matrix.mul_assoc (diagonal D), diagonal_mul_diagonal, ← Matrix.mul_assoc]
    congr 2
    unfold LDL.diag
    congr 1
    funext i
    exact hD i

/-- A Hermitian matrix is read as it is. -/
theorem lowerHermitian_eq {ι : Type} [LinearOrder ι] {S : Matrix ι ι ℂ} (hS : S.IsHermitian) : lowerHermitian S = S := by
  ext i j
  unfold lowerHermitian
  split
  · rfl
  · split
    · rename_i h
      subst h
      have := hS.apply i i
      exact Complex.conj_eq_iff_re.1 this
    · exact hS.apply i j

/-- The matrix read is always Hermitian. -/
theorem lowerHermitian_isHermitian {ι : Type} [LinearOrder ι] (S : Matrix ι ι ℂ) : (lowerHermitian S).IsHermitian := by
  ext i j
  rw [conjTranspose_apply]
  unfold lowerHermitian
  rcases lt_trichotomy i j with h | rfl | h
  · simp [h, h.not_gt, h.ne]
  · simp
  · simp [h, h.not_gt, h.ne]

/-- The factorisation succeeds for positive definite matrices. -/
theorem cholesky_ok {ι : Type} [Fintype ι] [LinearOrder ι] {S : Matrix ι ι ℂ} (hS : S.PosDef) : ∃ L, cholesky S = .ok L := by
  unfold cholesky
  rw [lowerHermitian_eq hS.isHermitian, dif_pos (exists_choleskyC hS)]
  exact ⟨_, rfl⟩

end OpenNTN
