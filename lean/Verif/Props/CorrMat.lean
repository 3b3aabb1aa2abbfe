import Mathlib.Analysis.Matrix.Order
import Mathlib.LinearAlgebra.Matrix.Block
import Mathlib.Probability.Distributions.Gaussian.Real
import Mathlib.Tactic.FieldSimp
import Mathlib.Tactic.LinearCombination
import Mathlib.Tactic.NormNum
import Verif.Model.CorrMat

/-
C76, C77: correlation matrices.
-/
namespace OpenNTN

open Classical Matrix ComplexOrder

/-! ### C76 -/

theorem expCol (a : ℂ) (k : ℕ) : nanToOne (powNan a k) = a ^ k := by
  unfold nanToOne powNan
  split
  · rename_i h; rw [h.1, h.2]; simp
  · rfl

/-- Geometric recursion along the diagonal. -/
theorem geom_diag (r : ℝ) (j : ℕ) :
    ∑ k ∈ Finset.range (j + 1), r ^ (2 * (j - k)) * (if k = 0 then 1 else 1 - r ^ 2) = 1 := by
  induction j with
  | zero => simp
  | succ j ih =>
    rw [Finset.sum_range_succ]
    have : ∑ k ∈ Finset.range (j + 1), r ^ (2 * (j + 1 - k)) * (if k = 0 then 1 else 1 - r ^ 2) =
        r ^ 2 * ∑ k ∈ Finset.range (j + 1), r ^ (2 * (j - k)) * (if k = 0 then 1 else 1 - r ^ 2) := by
      rw [Finset.mul_sum]
      refine Finset.sum_congr rfl fun k hk => ?_
      have hk : k ≤ j := by simpa [Nat.lt_succ_iff] using hk
      rw [show 2 * (j + 1 - k) = 2 + 2 * (j - k) by omega, pow_add]
      ring
    rw [this, ih, if_neg (by omega)]
    simp

/-- Left factor. -/
noncomputable def expL (a : ℂ) (n : ℕ) : Matrix (Fin n) (Fin n) ℂ := fun i k => if k.val ≤ i.val then a ^ (i.val - k.val) else 0

/-- Middle factor. -/
noncomputable def expD (a : ℂ) (n : ℕ) : Fin n → ℂ := fun k => ((if k.val = 0 then 1 else 1 - ‖a‖ ^ 2 : ℝ) : ℂ)

theorem expL_factor_below (a : ℂ) {n : ℕ} (i j : Fin n) (h : j.val ≤ i.val) :
    (expL a n * diagonal (expD a n) * (expL a n)ᴴ) i j = a ^ (i.val - j.val) := by
  rw [mul_apply]
  simp only [mul_diagonal, conjTranspose_apply]
  have hz : (starRingEnd ℂ) a * a = ((‖a‖ ^ 2 : ℝ) : ℂ) := by
    rw [mul_comm, Complex.mul_conj, Complex.normSq_eq_norm_sq]
  have h1 : ∀ k : Fin n, expL a n i k * expD a n k * star (expL a n j k) =
      if k.val ∈ Finset.range (j.val + 1) then
        a ^ (i.val - j.val) * ((‖a‖ ^ (2 * (j.val - k.val)) * (if k.val = 0 then 1 else 1 - ‖a‖ ^ 2) : ℝ) : ℂ) else 0 := by
    intro k
    unfold expL expD
    by_cases hk : k.val ≤ j.val
    · have hm : k.val ∈ Finset.range (j.val + 1) := Finset.mem_range.2 (by omega)
      rw [if_pos (hk.trans h), if_pos hk, if_pos hm]
      rw [star_pow, Complex.star_def]
      rw [show i.val - k.val = (i.val - j.val) + (j.val - k.val) by omega, pow_add, pow_mul]
      rw [Complex.ofReal_mul, Complex.ofReal_pow, ← hz, mul_pow]
      ring
    · have hm : k.val ∉ Finset.range (j.val + 1) := fun h => hk (by have := Finset.mem_range.1 h; omega)
      rw [if_neg hm, if_neg hk, star_zero, mul_zero]
  rw [Finset.sum_congr rfl fun k _ => h1 k]
  rw [Fin.sum_univ_eq_sum_range (fun k => if k ∈ Finset.range (j.val + 1) then
        a ^ (i.val - j.val) * ((‖a‖ ^ (2 * (j.val - k)) * (if k = 0 then 1 else 1 - ‖a‖ ^ 2) : ℝ) : ℂ) else 0) n]
  rw [Finset.sum_ite_mem, Finset.inter_eq_right.2 (by
    intro k hk; simp only [Finset.mem_range] at hk ⊢; have := j.isLt; omega)]
  rw [← Finset.mul_sum, ← Complex.ofReal_sum, geom_diag]
  simp

theorem expD_real (a : ℂ) {n : ℕ} : (diagonal (expD a n)).IsHermitian := by
  unfold IsHermitian
  rw [diagonal_conjTranspose]
  congr 1
  funext k
  simp only [expD, Pi.star_apply, Complex.star_def, Complex.conj_ofReal]

/-- The exponential correlation matrix with entries given by cases. -/
noncomputable def Spec.expCorr (a : ℂ) (n : ℕ) : Matrix (Fin n) (Fin n) ℂ :=
  fun i j => if i.val = j.val then 1 else if j.val < i.val then a ^ (i.val - j.val) else (starRingEnd ℂ) a ^ (j.val - i.val)

theorem expCorr_factor (a : ℂ) (n : ℕ) : Spec.expCorr a n = expL a n * diagonal (expD a n) * (expL a n)ᴴ := by
  have hH : (expL a n * diagonal (expD a n) * (expL a n)ᴴ)ᴴ = expL a n * diagonal (expD a n) * (expL a n)ᴴ := by
    rw [conjTranspose_mul, conjTranspose_mul, conjTranspose_conjTranspose, (expD_real a).eq, mul_assoc]
  ext i j
  unfold Spec.expCorr
  rcases lt_trichotomy i.val j.val with h | h | h
  · rw [if_neg h.ne, if_neg (by omega), ← hH, conjTranspose_apply, expL_factor_below a j i h.le, star_pow, Complex.star_def]
  · rw [if_pos h, expL_factor_below a i j h.ge, h, Nat.sub_self, pow_zero]
  · rw [if_neg h.ne', if_pos h, expL_factor_below a i j h.le]

theorem expL_injective (a : ℂ) (n : ℕ) : Function.Injective (expL a n).vecMul := by
  rw [vecMul_injective_iff_isUnit, isUnit_iff_isUnit_det]
  rw [det_of_isLowerTriangular]
  · have : ∀ i, expL a n i i = 1 := fun i => by simp [expL]
    simp [this]
  · intro i j hij
    unfold expL
    have : i.val < j.val := hij
    rw [if_neg (by omega)]

/-- C76. If all elements have modulus below one the result consists of the matrices with unit diagonal, entries `a^(i-j)` below the diagonal and
`conj(a)^(j-i)` above; each is Hermitian and positive definite. Otherwise the call is rejected. -/
theorem C76_exponential {ι : Type} (a : ι → ℂ) (n : ℕ) :
    ((∃ i, 1 ≤ ‖a i‖) → expCorrMat a n = .error .invalidArgument) ∧
    ((∀ i, ‖a i‖ < 1) → ∃ R, expCorrMat a n = .ok R ∧ ∀ i, R i = Spec.expCorr (a i) n ∧ (R i).IsHermitian ∧ (R i).PosDef) := by
  constructor
  · rintro ⟨i, hi⟩
    unfold expCorrMat
    rw [if_neg (fun h => absurd (h i) (not_lt.2 hi))]
  · intro h
    refine ⟨_, by unfold expCorrMat; rw [if_pos h], fun i => ?_⟩
    dsimp only
    have e : (toeplitz (fun k => nanToOne (powNan (a i) k)) (fun k => (starRingEnd ℂ) (nanToOne (powNan (a i) k))) : Matrix (Fin n) (Fin n) ℂ) =
        Spec.expCorr (a i) n := by
      ext p q
      unfold toeplitz Spec.expCorr
      simp only [expCol]
      rcases lt_trichotomy p.val q.val with h | h | h
      · rw [if_neg (by omega), if_neg h.ne, if_neg (by omega), map_pow]
      · rw [if_pos h.ge, if_pos h, h, Nat.sub_self, pow_zero]
      · rw [if_pos h.le, if_neg h.ne', if_pos h]
    have pd : (Spec.expCorr (a i) n).PosDef := by
      rw [expCorr_factor]
      refine PosDef.mul_mul_conjTranspose_same (PosDef.diagonal fun k => ?_) (expL_injective _ _)
      unfold expD
      rw [Complex.zero_lt_real]
      have := h i
      split
      · norm_num
      · nlinarith [norm_nonneg (a i)]
    rw [e]
    exact ⟨rfl, pd.isHermitian, pd⟩

/-- Cases: zero (where the power is NaN), a complex value, and a rejected one. -/
example : (∃ R, expCorrMat (![0, Complex.I / 2]) 3 = .ok R ∧ (R 0).PosDef ∧ (R 1).PosDef ∧ R 1 1 0 = Complex.I / 2) ∧
    expCorrMat (![0, 2] : Fin 2 → ℂ) 3 = .error .invalidArgument := by
  constructor
  · obtain ⟨R, h1, h2⟩ := (C76_exponential (![0, Complex.I / 2]) 3).2 (by
      intro i; fin_cases i <;> simp; norm_num)
    refine ⟨R, h1, (h2 0).2.2, (h2 1).2.2, ?_⟩
    rw [(h2 1).1]
    simp [Spec.expCorr]
  · exact (C76_exponential _ 3).1 ⟨1, by simp⟩

/-! ### C77 -/

/-- Entry of the one-ring matrix as documented, for the (signed) difference of antenna numbers. -/
noncomputable def Spec.oneRing (phi sigma dh : ℝ) (d : ℤ) : ℂ :=
  Complex.exp (Complex.I * ((2 * Real.pi * dh * d * Real.sin phi : ℝ) : ℂ)) *
    ((Real.exp (-(sigma ^ 2 / 2) * (2 * Real.pi * dh * d * Real.cos phi) ^ 2) : ℝ) : ℂ)

theorem oneRing_conj (phi sigma dh : ℝ) (d : ℤ) : (starRingEnd ℂ) (Spec.oneRing phi sigma dh d) = Spec.oneRing phi sigma dh (-d) := by
  unfold Spec.oneRing
  rw [map_mul, ← Complex.exp_conj, map_mul, Complex.conj_I, Complex.conj_ofReal, Complex.conj_ofReal]
  congr 2
  · push_cast; ring
  · congr 2
    push_cast; ring

/-- The entry is a value of the characteristic function of a normal distribution. -/
theorem oneRing_integral (phi sigma dh : ℝ) (d : ℤ) : Spec.oneRing phi sigma dh d =
    ∫ y, Complex.exp (((2 * Real.pi * dh * d : ℝ) : ℂ) * (y : ℂ) * Complex.I)
      ∂(ProbabilityTheory.gaussianReal (Real.sin phi) (Real.toNNReal ((sigma * Real.cos phi) ^ 2))) := by
  have := ProbabilityTheory.charFun_gaussianReal (μ := Real.sin phi) (v := (Real.toNNReal ((sigma * Real.cos phi) ^ 2))) (2 * Real.pi * dh * d)
  rw [MeasureTheory.charFun_apply_real] at this
  rw [this]
  unfold Spec.oneRing
  rw [Complex.ofReal_exp, ← Complex.exp_add]
  congr 1
  have : ((((Real.toNNReal ((sigma * Real.cos phi) ^ 2)) : NNReal) : ℝ) : ℂ) = ((sigma * Real.cos phi : ℝ) : ℂ) ^ 2 := by
    rw [Real.coe_toNNReal _ (sq_nonneg _), Complex.ofReal_pow]
  rw [this]
  push_cast
  ring

/-- Sums of values of a characteristic function are integrals of squared moduli. -/
theorem oneRing_quad (phi sigma dh : ℝ) {n : ℕ} (x : Fin n → ℂ) :
    ∑ l, ∑ m, star (x l) * Spec.oneRing phi sigma dh ((l.val : ℤ) - m.val) * x m =
    ((∫ y, ‖∑ m, x m * Complex.exp (-((2 * Real.pi * dh * (m.val : ℝ) : ℝ) : ℂ) * (y : ℂ) * Complex.I)‖ ^ 2
      ∂(ProbabilityTheory.gaussianReal (Real.sin phi) (Real.toNNReal ((sigma * Real.cos phi) ^ 2))) : ℝ) : ℂ) := by
  set μ := ProbabilityTheory.gaussianReal (Real.sin phi) (Real.toNNReal ((sigma * Real.cos phi) ^ 2))
  have hfin : MeasureTheory.IsFiniteMeasure μ := by unfold μ; infer_instance
  have hint : ∀ (c : ℂ) (t : ℝ), MeasureTheory.Integrable (fun y : ℝ => c * Complex.exp ((t : ℂ) * (y : ℂ) * Complex.I)) μ := by
    intro c t
    refine (MeasureTheory.Integrable.of_bound (C := 1) ?_ ?_).const_mul c
    · exact (by fun_prop : Continuous fun y : ℝ => Complex.exp ((t : ℂ) * (y : ℂ) * Complex.I)).aestronglyMeasurable
    · refine Filter.Eventually.of_forall fun y => ?_
      rw [show (t : ℂ) * (y : ℂ) * Complex.I = ((t * y : ℝ) : ℂ) * Complex.I by push_cast; ring, Complex.norm_exp_ofReal_mul_I]
  have e1 : ∀ l m : Fin n, star (x l) * Spec.oneRing phi sigma dh ((l.val : ℤ) - m.val) * x m =
      ∫ y, (star (x l) * x m) * Complex.exp (((2 * Real.pi * dh * (((l.val : ℤ) - m.val : ℤ) : ℝ) : ℝ) : ℂ) * (y : ℂ) * Complex.I) ∂μ := by
    intro l m
    rw [MeasureTheory.integral_const_mul, ← oneRing_integral]
    ring
  simp_rw [e1]
  have e2 : ∀ l : Fin n, ∑ m : Fin n, ∫ y, (star (x l) * x m) * Complex.exp (((2 * Real.pi * dh * (((l.val : ℤ) - m.val : ℤ) : ℝ) : ℝ) : ℂ) * (y : ℂ) * Complex.I) ∂μ =
      ∫ y, ∑ m : Fin n, (star (x l) * x m) * Complex.exp (((2 * Real.pi * dh * (((l.val : ℤ) - m.val : ℤ) : ℝ) : ℝ) : ℂ) * (y : ℂ) * Complex.I) ∂μ := by
    intro l
    rw [MeasureTheory.integral_finsetSum _ fun m _ => hint _ _]
  simp_rw [e2]
  rw [← MeasureTheory.integral_finsetSum _ fun l _ => MeasureTheory.integrable_finsetSum _ fun m _ => hint _ _]
  rw [← integral_complex_ofReal]
  refine MeasureTheory.integral_congr_ae (Filter.Eventually.of_forall fun y => ?_)
  dsimp only
  rw [Complex.ofReal_pow, ← Complex.conj_mul', map_sum, Finset.sum_mul_sum]
  refine Finset.sum_congr rfl fun l _ => Finset.sum_congr rfl fun m _ => ?_
  rw [map_mul, ← Complex.exp_conj]
  rw [show (starRingEnd ℂ) (x l) * Complex.exp ((starRingEnd ℂ) (-((2 * Real.pi * dh * (l.val : ℝ) : ℝ) : ℂ) * (y : ℂ) * Complex.I)) *
      (x m * Complex.exp (-((2 * Real.pi * dh * (m.val : ℝ) : ℝ) : ℂ) * (y : ℂ) * Complex.I)) =
      ((starRingEnd ℂ) (x l) * x m) * (Complex.exp ((starRingEnd ℂ) (-((2 * Real.pi * dh * (l.val : ℝ) : ℝ) : ℂ) * (y : ℂ) * Complex.I)) *
        Complex.exp (-((2 * Real.pi * dh * (m.val : ℝ) : ℝ) : ℂ) * (y : ℂ) * Complex.I)) by ring, ← Complex.exp_add]
  rw [Complex.star_def]
  congr 2
  rw [map_mul, map_mul, map_neg, Complex.conj_I, Complex.conj_ofReal, Complex.conj_ofReal]
  push_cast
  ring

/-- C77. Entry `(l, m)` is the documented expression for the difference `l - m`, with angle and spread converted to radian; the diagonal is one,
no entry exceeds one in modulus, and the matrix is Hermitian and positive semi-definite. -/
theorem C77_one_ring {ι : Type} (phiDeg : ι → ℝ) (n : ℕ) (dh sigmaDeg : ℝ) (i : ι) :
    (∀ l m, oneRingCorrMat phiDeg n dh sigmaDeg i l m =
      Spec.oneRing (phiDeg i * Real.pi / 180) (sigmaDeg * Real.pi / 180) dh ((l.val : ℤ) - m.val)) ∧
    (∀ l, oneRingCorrMat phiDeg n dh sigmaDeg i l l = 1) ∧ (∀ l m, ‖oneRingCorrMat phiDeg n dh sigmaDeg i l m‖ ≤ 1) ∧
    (oneRingCorrMat phiDeg n dh sigmaDeg i).IsHermitian ∧ (oneRingCorrMat phiDeg n dh sigmaDeg i).PosSemidef := by
  set phi := phiDeg i * Real.pi / 180 with hphi
  set sigma := sigmaDeg * Real.pi / 180 with hsigma
  have hp : deg2rad (phiDeg i) = phi := by rw [hphi]; unfold deg2rad; ring
  have hs : deg2rad sigmaDeg = sigma := by rw [hsigma]; unfold deg2rad; ring
  have hcol : ∀ k : ℕ, Complex.exp (⟨0, 2 * Real.pi * dh * (k : ℝ) * Real.sin phi⟩ : ℂ) *
      ((Real.exp (-(1 / 2) * (sigma * (2 * Real.pi * dh * (k : ℝ)) * Real.cos phi) ^ 2) : ℝ) : ℂ) = Spec.oneRing phi sigma dh (k : ℤ) := by
    intro k
    unfold Spec.oneRing
    congr 1
    · congr 1
      apply Complex.ext <;> simp [Complex.ofReal_mul, -Complex.ofReal_sin]
    · congr 2
      push_cast; ring
  have h1 : ∀ l m, oneRingCorrMat phiDeg n dh sigmaDeg i l m = Spec.oneRing phi sigma dh ((l.val : ℤ) - m.val) := by
    intro l m
    unfold oneRingCorrMat toeplitz
    dsimp only
    rw [hp, hs]
    simp only [hcol]
    split
    · rename_i h
      rw [Nat.cast_sub h]
    · rename_i h
      rw [oneRing_conj, Nat.cast_sub (by omega), neg_sub]
  have h2 : (oneRingCorrMat phiDeg n dh sigmaDeg i).IsHermitian := by
    ext l m
    rw [conjTranspose_apply, h1, h1, Complex.star_def, oneRing_conj, neg_sub]
  refine ⟨h1, fun l => ?_, fun l m => ?_, h2, PosSemidef.of_dotProduct_mulVec_nonneg h2 fun x => ?_⟩
  · rw [h1]
    simp [Spec.oneRing]
  · rw [h1]
    unfold Spec.oneRing
    rw [norm_mul, mul_comm Complex.I, Complex.norm_exp_ofReal_mul_I, one_mul, Complex.norm_real, Real.norm_eq_abs, abs_of_pos (Real.exp_pos _),
      Real.exp_le_one_iff]
    nlinarith [mul_nonneg (sq_nonneg sigma) (sq_nonneg (2 * Real.pi * dh * (((l.val : ℤ) - m.val : ℤ) : ℝ) * Real.cos phi))]
  · have : star x ⬝ᵥ (oneRingCorrMat phiDeg n dh sigmaDeg i *ᵥ x) =
        ∑ l, ∑ m, star (x l) * Spec.oneRing phi sigma dh ((l.val : ℤ) - m.val) * x m := by
      unfold dotProduct mulVec dotProduct
      refine Finset.sum_congr rfl fun l _ => ?_
      rw [Finset.mul_sum]
      refine Finset.sum_congr rfl fun m _ => ?_
      change star (x l) * (oneRingCorrMat phiDeg n dh sigmaDeg i l m * x m) = _
      rw [h1]
      ring
    rw [this, oneRing_quad, Complex.zero_le_real]
    exact MeasureTheory.integral_nonneg fun _ => by positivity

/-- A case off the diagonal: broadside arrival, spacing 1/2, no spread. -/
example : oneRingCorrMat (fun _ : Unit => (90 : ℝ)) 2 (1 / 2) 0 () 1 0 = -1 := by
  rw [(C77_one_ring (fun _ : Unit => (90 : ℝ)) 2 (1 / 2) 0 ()).1]
  simp only [Spec.oneRing]
  rw [show (90 : ℝ) * Real.pi / 180 = Real.pi / 2 by ring, Real.sin_pi_div_two, Real.cos_pi_div_two]
  simp
  rw [show Complex.I * (2 * (Real.pi : ℂ) * 2⁻¹) = Real.pi * Complex.I by ring, Complex.exp_pi_mul_I]

end OpenNTN
