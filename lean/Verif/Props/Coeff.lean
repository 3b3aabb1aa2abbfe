import Verif.Model.Coeff
import Verif.Spec.Coeff
import Mathlib.LinearAlgebra.CrossProduct
import Mathlib.LinearAlgebra.UnitaryGroup
import Mathlib.Tactic.LinearCombination
import Mathlib.Tactic.FinCases
import Mathlib.Tactic.NormNum
import Mathlib.Tactic.Positivity
import Mathlib.Tactic.Linarith

namespace OpenNTN

open Classical Matrix

/-! ### C42: orientations are rigid rotations -/

theorem forwardRot_mul (o : Fin 3 → ℝ) : (forwardRot o)ᵀ * forwardRot o = 1 := by
  have h0 := Real.sin_sq_add_cos_sq (o 0)
  have h1 := Real.sin_sq_add_cos_sq (o 1)
  have h2 := Real.sin_sq_add_cos_sq (o 2)
  ext i j
  fin_cases i <;> fin_cases j <;>
    simp [forwardRot, Matrix.mul_apply, Fin.sum_univ_three] <;> grind

theorem forwardRot_mul' (o : Fin 3 → ℝ) : forwardRot o * (forwardRot o)ᵀ = 1 :=
  mul_eq_one_comm.1 (forwardRot_mul o)

theorem forwardRot_det (o : Fin 3 → ℝ) : (forwardRot o).det = 1 := by
  have h0 := Real.sin_sq_add_cos_sq (o 0)
  have h1 := Real.sin_sq_add_cos_sq (o 1)
  have h2 := Real.sin_sq_add_cos_sq (o 2)
  rw [Matrix.det_fin_three]
  simp [forwardRot]
  grind

theorem forwardRot_cross (o p q : Fin 3 → ℝ) :
    rotPos o (crossProduct p q) = crossProduct (rotPos o p) (rotPos o q) := by
  have h0 := Real.sin_sq_add_cos_sq (o 0)
  have h1 := Real.sin_sq_add_cos_sq (o 1)
  have h2 := Real.sin_sq_add_cos_sq (o 2)
  ext i
  fin_cases i <;>
    simp [rotPos, forwardRot, cross_apply, Matrix.mulVec, dotProduct, Fin.sum_univ_three] <;> grind

/-- C42. Rotating with any orientation preserves inner products (hence distances and angles) and handedness, and the reverse rotation
undoes it on both sides. -/
theorem C42_rotation (o : Fin 3 → ℝ) : forwardRot o ∈ Matrix.specialOrthogonalGroup (Fin 3) ℝ ∧
    (∀ p q, rotPos o p ⬝ᵥ rotPos o q = p ⬝ᵥ q) ∧ (∀ p q, rotPos o (crossProduct p q) = crossProduct (rotPos o p) (rotPos o q)) ∧
    (∀ p, reverseRot o *ᵥ rotPos o p = p) ∧ ∀ p, rotPos o (reverseRot o *ᵥ p) = p := by
  refine ⟨?_, ?_, forwardRot_cross o, ?_, ?_⟩
  · rw [Matrix.mem_specialOrthogonalGroup_iff, Matrix.mem_orthogonalGroup_iff]
    exact ⟨by simpa [star_eq_conjTranspose] using forwardRot_mul' o, forwardRot_det o⟩
  · intro p q
    rw [rotPos, rotPos, Matrix.dotProduct_mulVec, Matrix.vecMul_mulVec, ← Matrix.dotProduct_mulVec, forwardRot_mul, one_mulVec]
  · intro p
    rw [rotPos, reverseRot, Matrix.mulVec_mulVec, forwardRot_mul, one_mulVec]
  · intro p
    rw [rotPos, reverseRot, Matrix.mulVec_mulVec, forwardRot_mul', one_mulVec]

/-- The rotation is not trivial: a quarter turn about the z axis. -/
example : rotPos ![Real.pi / 2, 0, 0] ![1, 0, 0] = ![0, 1, 0] := by
  funext i; fin_cases i <;> simp [rotPos, forwardRot, Matrix.mulVec, dotProduct, Fin.sum_univ_three]

/-! ### C43: local and global angles -/

theorem direction_norm (theta phi : ℝ) : Spec.sphereDirection theta phi ⬝ᵥ Spec.sphereDirection theta phi = 1 := by
  have h1 := Real.sin_sq_add_cos_sq theta
  have h2 := Real.sin_sq_add_cos_sq phi
  simp [Spec.sphereDirection, dotProduct, Fin.sum_univ_three]
  grind

theorem reverse_norm (o p : Fin 3 → ℝ) : (reverseRot o *ᵥ p) ⬝ᵥ (reverseRot o *ᵥ p) = p ⬝ᵥ p := by
  rw [Matrix.dotProduct_mulVec, Matrix.vecMul_mulVec, ← Matrix.dotProduct_mulVec, reverseRot, Matrix.transpose_transpose,
    forwardRot_mul', one_mulVec]

/-- The zenith and azimuth computed from a unit vector. -/
theorem angles_of_unit (r : Fin 3 → ℝ) (hr : r 0 ^ 2 + r 1 ^ 2 + r 2 ^ 2 = 1) :
    Real.cos (Real.arccos (min (max (r 2) (-1)) 1)) = r 2 ∧
    Real.sin (Real.arccos (min (max (r 2) (-1)) 1)) * Real.cos (Complex.arg ⟨r 0, r 1⟩) = r 0 ∧
    Real.sin (Real.arccos (min (max (r 2) (-1)) 1)) * Real.sin (Complex.arg ⟨r 0, r 1⟩) = r 1 ∧
    Real.sin (Real.arccos (min (max (r 2) (-1)) 1)) ^ 2 = 1 - r 2 ^ 2 := by
  have hlo : -1 ≤ r 2 := by nlinarith [sq_nonneg (r 0), sq_nonneg (r 1)]
  have hhi : r 2 ≤ 1 := by nlinarith [sq_nonneg (r 0), sq_nonneg (r 1)]
  rw [max_eq_left hlo, min_eq_left hhi, Real.cos_arccos hlo hhi, Real.sin_arccos]
  have hn : Real.sqrt (1 - r 2 ^ 2) = ‖(⟨r 0, r 1⟩ : ℂ)‖ := by
    rw [Complex.norm_def, Complex.normSq_mk]
    congr 1
    linarith
  refine ⟨rfl, ?_, ?_, ?_⟩
  · rw [hn]; exact Complex.norm_mul_cos_arg _
  · rw [hn]; exact Complex.norm_mul_sin_arg _
  · rw [Real.sq_sqrt]; nlinarith [sq_nonneg (r 0), sq_nonneg (r 1)]

theorem gcsToLcs_eq (o : Fin 3 → ℝ) (theta phi : ℝ) : gcsToLcs o theta phi =
    (Real.arccos (min (max ((reverseRot o *ᵥ Spec.sphereDirection theta phi) 2) (-1)) 1),
      Complex.arg ⟨(reverseRot o *ᵥ Spec.sphereDirection theta phi) 0, (reverseRot o *ᵥ Spec.sphereDirection theta phi) 1⟩) := by
  simp only [gcsToLcs]
  refine Prod.ext ?_ ?_
  · simp [dotProduct, Fin.sum_univ_three]; rfl
  · simp only []
    congr 1
    rw [show unitSphere theta phi = Spec.sphereDirection theta phi from rfl]
    generalize reverseRot o *ᵥ Spec.sphereDirection theta phi = r
    apply Complex.ext <;> simp [dotProduct, Fin.sum_univ_three]

theorem local_norm (o : Fin 3 → ℝ) (theta phi : ℝ) :
    (reverseRot o *ᵥ Spec.sphereDirection theta phi) 0 ^ 2 + (reverseRot o *ᵥ Spec.sphereDirection theta phi) 1 ^ 2 +
      (reverseRot o *ᵥ Spec.sphereDirection theta phi) 2 ^ 2 = 1 := by
  have := (reverse_norm o (Spec.sphereDirection theta phi)).trans (direction_norm theta phi)
  generalize reverseRot o *ᵥ Spec.sphereDirection theta phi = r at this
  simp only [dotProduct, Fin.sum_univ_three] at this
  linarith

/-- C43. The local angles describe the direction obtained by undoing the orientation: rotating the local direction gives the global
one. The local zenith is in `[0, pi]`, the local azimuth in `(-pi, pi]`. -/
theorem C43_angles (o : Fin 3 → ℝ) (theta phi : ℝ) :
    Spec.sphereDirection (gcsToLcs o theta phi).1 (gcsToLcs o theta phi).2 = reverseRot o *ᵥ Spec.sphereDirection theta phi ∧
    rotPos o (Spec.sphereDirection (gcsToLcs o theta phi).1 (gcsToLcs o theta phi).2) = Spec.sphereDirection theta phi ∧
    0 ≤ (gcsToLcs o theta phi).1 ∧ (gcsToLcs o theta phi).1 ≤ Real.pi ∧
    -Real.pi < (gcsToLcs o theta phi).2 ∧ (gcsToLcs o theta phi).2 ≤ Real.pi := by
  have h1 : Spec.sphereDirection (gcsToLcs o theta phi).1 (gcsToLcs o theta phi).2 = reverseRot o *ᵥ Spec.sphereDirection theta phi := by
    obtain ⟨h1, h2, h3, -⟩ := angles_of_unit _ (local_norm o theta phi)
    rw [gcsToLcs_eq]
    generalize reverseRot o *ᵥ Spec.sphereDirection theta phi = r at h1 h2 h3 ⊢
    funext i
    fin_cases i
    · simpa [Spec.sphereDirection] using h2
    · simpa [Spec.sphereDirection] using h3
    · simpa [Spec.sphereDirection] using h1
  refine ⟨h1, ?_, ?_⟩
  · rw [h1, (C42_rotation o).2.2.2.2]
  · rw [gcsToLcs_eq]
    exact ⟨Real.arccos_nonneg _, Real.arccos_le_pi _, Complex.neg_pi_lt_arg _, Complex.arg_le_pi _⟩

/-! ### C44: the field vector -/

/-- Third column of the rotation: the local z axis. -/
theorem psi_spec (o : Fin 3 → ℝ) (theta phi : ℝ) :
    Real.sin (gcsToLcs o theta phi).1 * Real.cos (computePsi o theta phi) =
      -(Spec.zenithVec theta phi ⬝ᵥ rotPos o ![0, 0, 1]) ∧
    Real.sin (gcsToLcs o theta phi).1 * Real.sin (computePsi o theta phi) =
      -(Spec.azimuthVec phi ⬝ᵥ rotPos o ![0, 0, 1]) := by
  obtain ⟨-, -, -, h4⟩ := angles_of_unit _ (local_norm o theta phi)
  have hs : 0 ≤ Real.sin (gcsToLcs o theta phi).1 :=
    Real.sin_nonneg_of_mem_Icc ⟨(C43_angles o theta phi).2.2.1, (C43_angles o theta phi).2.2.2.1⟩
  have hz : (reverseRot o *ᵥ Spec.sphereDirection theta phi) 2 = Spec.sphereDirection theta phi ⬝ᵥ rotPos o ![0, 0, 1] := by
    simp [reverseRot, rotPos, Matrix.mulVec, dotProduct, Fin.sum_univ_three]
    ring
  have hu : rotPos o ![0, 0, 1] ⬝ᵥ rotPos o ![0, 0, 1] = 1 := by
    rw [(C42_rotation o).2.1]; simp
  have hre : Real.sin (o 2) * Real.cos theta * Real.sin (phi - o 0) +
      Real.cos (o 2) * (Real.cos (o 1) * Real.sin theta - Real.sin (o 1) * Real.cos theta * Real.cos (phi - o 0)) =
      -(Spec.zenithVec theta phi ⬝ᵥ rotPos o ![0, 0, 1]) := by
    rw [Real.sin_sub, Real.cos_sub]
    simp [Spec.zenithVec, rotPos, forwardRot, Matrix.mulVec, dotProduct, Fin.sum_univ_three]
    ring
  have him : Real.sin (o 2) * Real.cos (phi - o 0) + Real.sin (o 1) * Real.cos (o 2) * Real.sin (phi - o 0) =
      -(Spec.azimuthVec phi ⬝ᵥ rotPos o ![0, 0, 1]) := by
    rw [Real.sin_sub, Real.cos_sub]
    simp [Spec.azimuthVec, rotPos, forwardRot, Matrix.mulVec, dotProduct, Fin.sum_univ_three]
    ring
  have hnorm : Real.sin (gcsToLcs o theta phi).1 =
      ‖(⟨-(Spec.zenithVec theta phi ⬝ᵥ rotPos o ![0, 0, 1]), -(Spec.azimuthVec phi ⬝ᵥ rotPos o ![0, 0, 1])⟩ : ℂ)‖ := by
    rw [← Real.sqrt_sq hs, gcsToLcs_eq, h4, hz, Complex.norm_def, Complex.normSq_mk]
    congr 1
    generalize rotPos o ![0, 0, 1] = z at hu
    have h1 := Real.sin_sq_add_cos_sq theta
    have h2 := Real.sin_sq_add_cos_sq phi
    simp only [Spec.zenithVec, Spec.azimuthVec, Spec.sphereDirection, dotProduct, Fin.sum_univ_three, Matrix.cons_val_zero,
      Matrix.cons_val_one, Matrix.cons_val] at hu ⊢
    grind
  simp only [computePsi, hre, him]
  rw [hnorm]
  exact ⟨Complex.norm_mul_cos_arg _, Complex.norm_mul_sin_arg _⟩

/-- Components of a vector in the frame of direction, zenith and azimuth vector. -/
theorem frame_complete (theta phi : ℝ) (f : Fin 2 → ℝ) (z : Fin 3 → ℝ) :
    (-(Spec.zenithVec theta phi ⬝ᵥ z) * f 0 + (Spec.azimuthVec phi ⬝ᵥ z) * f 1) • Spec.zenithVec theta phi +
      (-(Spec.azimuthVec phi ⬝ᵥ z) * f 0 - (Spec.zenithVec theta phi ⬝ᵥ z) * f 1) • Spec.azimuthVec phi =
    f 0 • ((Spec.sphereDirection theta phi ⬝ᵥ z) • Spec.sphereDirection theta phi - z) + f 1 • crossProduct z (Spec.sphereDirection theta phi) := by
  have h1 := Real.sin_sq_add_cos_sq theta
  have h2 := Real.sin_sq_add_cos_sq phi

  funext i
  fin_cases i <;> simp [Spec.zenithVec, Spec.azimuthVec, Spec.sphereDirection, dotProduct, Fin.sum_univ_three, cross_apply, vecHead,
    vecTail] <;> grind

/-- C44. Away from the local poles the global field components describe the rotated local field vector, and the power is the same. -/
theorem C44_field (o : Fin 3 → ℝ) (theta phi : ℝ) (f : Fin 2 → ℝ) (h : Real.sin (gcsToLcs o theta phi).1 ≠ 0) :
    Spec.fieldAt theta phi (l2gResponse f o theta phi) =
      rotPos o (Spec.fieldAt (gcsToLcs o theta phi).1 (gcsToLcs o theta phi).2 f) ∧
    l2gResponse f o theta phi 0 ^ 2 + l2gResponse f o theta phi 1 ^ 2 = f 0 ^ 2 + f 1 ^ 2 := by
  constructor
  · obtain ⟨hc, hs⟩ := psi_spec o theta phi
    obtain ⟨hd, hrot, -⟩ := C43_angles o theta phi
    -- everything is multiplied by the sine of the local zenith
    have hz : Real.sin (gcsToLcs o theta phi).1 • Spec.zenithVec (gcsToLcs o theta phi).1 (gcsToLcs o theta phi).2 =
        Real.cos (gcsToLcs o theta phi).1 • Spec.sphereDirection (gcsToLcs o theta phi).1 (gcsToLcs o theta phi).2 - ![0, 0, 1] := by
      have := Real.sin_sq_add_cos_sq (gcsToLcs o theta phi).1
      funext i
      fin_cases i <;> simp [Spec.zenithVec, Spec.sphereDirection] <;> grind
    have ha : Real.sin (gcsToLcs o theta phi).1 • Spec.azimuthVec (gcsToLcs o theta phi).2 =
        crossProduct ![0, 0, 1] (Spec.sphereDirection (gcsToLcs o theta phi).1 (gcsToLcs o theta phi).2) := by
      funext i
      fin_cases i <;> simp [Spec.azimuthVec, Spec.sphereDirection, cross_apply]
    have hcos : Real.cos (gcsToLcs o theta phi).1 = Spec.sphereDirection theta phi ⬝ᵥ rotPos o ![0, 0, 1] := by
      have := congrFun hd 2
      simp only [Spec.sphereDirection, Matrix.cons_val] at this
      rw [this]
      simp [reverseRot, rotPos, Matrix.mulVec, dotProduct, Fin.sum_univ_three, Spec.sphereDirection]
      ring
    have key : Real.sin (gcsToLcs o theta phi).1 • Spec.fieldAt theta phi (l2gResponse f o theta phi) =
        Real.sin (gcsToLcs o theta phi).1 • rotPos o (Spec.fieldAt (gcsToLcs o theta phi).1 (gcsToLcs o theta phi).2 f) := by
      have hr : Real.sin (gcsToLcs o theta phi).1 • rotPos o (Spec.fieldAt (gcsToLcs o theta phi).1 (gcsToLcs o theta phi).2 f) =
          f 0 • (Real.cos (gcsToLcs o theta phi).1 • Spec.sphereDirection theta phi - rotPos o ![0, 0, 1]) +
          f 1 • crossProduct (rotPos o ![0, 0, 1]) (Spec.sphereDirection theta phi) := by
        rw [← hrot, ← forwardRot_cross, ← ha]
        simp only [rotPos, ← Matrix.mulVec_smul, ← Matrix.mulVec_sub, ← Matrix.mulVec_add, Spec.fieldAt]
        rw [← hz]
        congr 1
        simp only [smul_add, smul_smul, mul_comm]
      rw [hr, hcos]
      have e0 : Real.sin (gcsToLcs o theta phi).1 * l2gResponse f o theta phi 0 =
          -(Spec.zenithVec theta phi ⬝ᵥ rotPos o ![0, 0, 1]) * f 0 + (Spec.azimuthVec phi ⬝ᵥ rotPos o ![0, 0, 1]) * f 1 := by
        simp only [l2gResponse, Matrix.mulVec, dotProduct, Fin.sum_univ_two, Matrix.of_apply, Matrix.cons_val_zero,
          Matrix.cons_val_one] at hc hs ⊢
        linear_combination f 0 * hc - f 1 * hs
      have e1 : Real.sin (gcsToLcs o theta phi).1 * l2gResponse f o theta phi 1 =
          -(Spec.azimuthVec phi ⬝ᵥ rotPos o ![0, 0, 1]) * f 0 - (Spec.zenithVec theta phi ⬝ᵥ rotPos o ![0, 0, 1]) * f 1 := by
        simp only [l2gResponse, Matrix.mulVec, dotProduct, Fin.sum_univ_two, Matrix.of_apply, Matrix.cons_val_zero,
          Matrix.cons_val_one] at hc hs ⊢
        linear_combination f 0 * hs + f 1 * hc
      rw [Spec.fieldAt, smul_add, smul_smul, smul_smul, e0, e1]
      exact frame_complete theta phi f _
    exact smul_right_injective _ h key
  · have := Real.sin_sq_add_cos_sq (computePsi o theta phi)
    simp only [l2gResponse, Matrix.mulVec, dotProduct, Fin.sum_univ_two, Matrix.of_apply, Matrix.cons_val_zero, Matrix.cons_val_one]
    grind

/-- A direction that is not a local pole. -/
example : Real.sin (gcsToLcs 0 (Real.pi / 2) 0).1 ≠ 0 := by
  have hd := congrFun (C43_angles 0 (Real.pi / 2) 0).1 0
  intro h
  simp [Spec.sphereDirection, h, reverseRot, forwardRot, Matrix.mulVec, dotProduct, Fin.sum_univ_three] at hd

end OpenNTN
