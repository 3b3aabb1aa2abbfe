import Verif.Model.Rays
import Verif.Lemmas.ConfigTable
import Mathlib.Analysis.SpecialFunctions.Log.Deriv
import Mathlib.Analysis.Complex.ExponentialBounds
import Mathlib.Tactic.Linarith
import Mathlib.Tactic.FieldSimp

/- Facts about sorting, scaling polynomials and wrapping used for C31-C41. -/
namespace OpenNTN

open Classical

theorem pow10_pos (x : ℝ) : 0 < pow10 x := Real.rpow_pos_of_pos (by norm_num) _

theorem log10_pow10 (x : ℝ) : log10 (pow10 x) = x := by
  unfold log10 pow10
  rw [Real.log_rpow (by norm_num)]
  have : Real.log 10 ≠ 0 := Real.log_ne_zero_of_pos_of_ne_one (by norm_num) (by norm_num)
  field_simp

section
variable {M : ℕ} [NeZero M]

theorem reduceMin_le (f : Fin M → ℝ) (k : Fin M) : reduceMin f ≤ f k := Finset.inf'_le _ (Finset.mem_univ _)

theorem reduceMin_mem (f : Fin M → ℝ) : ∃ k, reduceMin f = f k := by
  obtain ⟨k, -, h⟩ := Finset.exists_mem_eq_inf' (Finset.univ_nonempty (α := Fin M)) f
  exact ⟨k, h⟩

theorem le_reduceMax (f : Fin M → ℝ) (k : Fin M) : f k ≤ reduceMax f := Finset.le_sup' _ (Finset.mem_univ _)

theorem reduceMax_mem (f : Fin M → ℝ) : ∃ k, reduceMax f = f k := by
  obtain ⟨k, -, h⟩ := Finset.exists_mem_eq_sup' (Finset.univ_nonempty (α := Fin M)) f
  exact ⟨k, h⟩

theorem tfSort_mono (f : Fin M → ℝ) : Monotone (tfSort f) := Tuple.monotone_sort f

theorem unscaled_eq (rTau ds : ℝ) (mask x : Fin M → ℝ) : ∃ σ : Equiv.Perm (Fin M), ∀ k,
    unscaledDelays rTau ds mask x k = rawDelays rTau ds mask x (σ k) - reduceMin (rawDelays rTau ds mask x) :=
  ⟨_, fun _ => rfl⟩

theorem unscaled_mono (rTau ds : ℝ) (mask x : Fin M → ℝ) : Monotone (unscaledDelays rTau ds mask x) := tfSort_mono _

theorem unscaled_nonneg (rTau ds : ℝ) (mask x : Fin M → ℝ) (k : Fin M) : 0 ≤ unscaledDelays rTau ds mask x k := by
  obtain ⟨σ, h⟩ := unscaled_eq rTau ds mask x
  rw [h]; linarith [reduceMin_le (rawDelays rTau ds mask x) (σ k)]

theorem unscaled_zero (rTau ds : ℝ) (mask x : Fin M → ℝ) : unscaledDelays rTau ds mask x 0 = 0 := by
  refine le_antisymm ?_ (unscaled_nonneg _ _ _ _ _)
  obtain ⟨σ, h⟩ := unscaled_eq rTau ds mask x
  obtain ⟨k, hk⟩ := reduceMin_mem (rawDelays rTau ds mask x)
  have : unscaledDelays rTau ds mask x (σ.symm k) = 0 := by rw [h, σ.apply_symm_apply, hk, sub_self]
  rw [← this]
  exact unscaled_mono _ _ _ _ (Fin.zero_le _)

/-- Sorting keeps the elements with large values at the end if they were there before. -/
theorem sort_block {f : Fin M → ℝ} {n : ℕ} {t : ℝ} (h : ∀ k, f k < t ↔ k.val < n) {σ : Equiv.Perm (Fin M)} (hm : Monotone (f ∘ σ))
    (k : Fin M) : (σ k).val < n ↔ k.val < n := by
  have h1 := Tuple.lt_card_lt_iff_apply_lt_of_monotone (a := t) (j := k) hm
  have h2 : (Finset.univ.filter fun i => (f ∘ σ) i < t).card = (Finset.univ.filter fun i : Fin M => i.val < n).card := by
    refine Finset.card_bij (fun i _ => σ i) ?_ ?_ ?_
    · intro i hi
      simp only [Finset.mem_filter, Finset.mem_univ, true_and, Function.comp_apply] at hi ⊢
      exact (h _).1 hi
    · intro i _ j _ hij; exact σ.injective hij
    · intro j hj
      simp only [Finset.mem_filter, Finset.mem_univ, true_and] at hj
      refine ⟨σ.symm j, ?_, σ.apply_symm_apply j⟩
      simp only [Finset.mem_filter, Finset.mem_univ, true_and, Function.comp_apply, σ.apply_symm_apply]
      exact (h _).2 hj
  have h3 : (Finset.univ.filter fun i : Fin M => i.val < n).card = min n M := by
    rw [Fin.card_filter_val_lt, min_comm]
  rw [h2, h3, Function.comp_apply, h] at h1
  rw [← h1]
  have := k.isLt
  omega

end

theorem log_ten_lt : Real.log 10 < 2.303 := by
  have h2 := Real.log_two_lt_d9
  have h3 : Real.log (10 ^ 3) = Real.log (1000 / 1024) + 10 * Real.log 2 := by
    rw [show (10 : ℝ) ^ 3 = 1000 / 1024 * 2 ^ 10 by norm_num, Real.log_mul (by norm_num) (by norm_num), Real.log_pow]
    norm_num
  rw [Real.log_pow] at h3
  have h4 : Real.log (1000 / 1024 : ℝ) ≤ 1000 / 1024 - 1 := Real.log_le_sub_one_of_pos (by norm_num)
  push_cast at h3
  norm_num at h3 h4 h2 ⊢
  linarith

theorem delayScaling_pos {k : ℝ} (h : -60 ≤ k) : 0 < delayScaling k := by
  unfold delayScaling
  obtain ⟨t, rfl⟩ : ∃ t, k = t - 60 := ⟨k + 60, by ring⟩
  have ht : 0 ≤ t := by linarith
  rcases le_total t 100 with h1 | h1
  · nlinarith [mul_nonneg ht (sq_nonneg (t - 84.1176))]
  · obtain ⟨s, rfl⟩ : ∃ s, t = s + 100 := ⟨t - 100, by ring⟩
    have hs : 0 ≤ s := by linarith
    have h3 : 0 ≤ s ^ 2 := by positivity
    have h4 : 0 ≤ s ^ 3 := by positivity
    nlinarith

theorem cPhiScaling_pos {k : ℝ} (h : -20 ≤ k) : 0 < cPhiScaling k := by
  unfold cPhiScaling
  rcases le_total k 0 with h1 | h1
  · have h2 : 0 ≤ (k + 20) * (-k) := mul_nonneg (by linarith) (by linarith)
    nlinarith [mul_nonneg h2 (by linarith : (0:ℝ) ≤ -k), mul_nonneg h2 (by linarith : (0:ℝ) ≤ k + 20)]
  · nlinarith [mul_nonneg h1 (sq_nonneg (k - 17)), sq_nonneg (k - 17)]

theorem cThetaScaling_pos {k : ℝ} (h : -9 ≤ k) : 0 < cThetaScaling k := by
  unfold cThetaScaling
  rcases le_total k 0 with h1 | h1
  · have h2 : 0 ≤ (k + 9) * (-k) := mul_nonneg (by linarith) (by linarith)
    nlinarith [mul_nonneg h2 (by linarith : (0:ℝ) ≤ -k), mul_nonneg h2 (by linarith : (0:ℝ) ≤ k + 9)]
  · nlinarith [mul_nonneg h1 (sq_nonneg (k - 22)), sq_nonneg (k - 22)]

theorem rTau_cells : tableAll (fun cl l s u k => cellIs (fun n => decide (1000 < n) && decide (n ≤ 3500))
    (lookupAt (tableOf cl l s u) .prTau k)) = true := by decide +kernel

theorem rTau_range {cls : ScenarioClass} {a : ScenarioArgs} {c : Config} (h : mkScenario cls a = .ok c) (los : Bool) :
    ∃ r, c.getReal .prTau los = .ok r ∧ 1 < r ∧ r ≤ 3.5 := by
  obtain ⟨n, hP, e⟩ := getReal_check h .prTau _ rTau_cells los
  simp only [Bool.and_eq_true, decide_eq_true_eq] at hP
  have h1 : (1000 : ℝ) < n := by exact_mod_cast hP.1
  have h2 : (n : ℝ) ≤ 3500 := by exact_mod_cast hP.2
  exact ⟨_, e, by linarith, by linarith⟩

theorem fmod_range (x : ℝ) : 0 ≤ fmod x 360 ∧ fmod x 360 < 360 := by
  unfold fmod
  have h1 := Int.floor_le (x / 360)
  have h2 := Int.lt_floor_add_one (x / 360)
  rw [le_div_iff₀ (by norm_num)] at h1
  rw [div_lt_iff₀ (by norm_num)] at h2
  constructor <;> linarith

theorem azimuthRay_spec (a s o : ℝ) : -180 < azimuthRay a s o ∧ azimuthRay a s o ≤ 180 ∧
    ∃ m : ℤ, azimuthRay a s o = a + s * o + 360 * m := by
  unfold azimuthRay wrapAngle0_360
  have h := fmod_range (a + s * o)
  dsimp only
  split_ifs with h1
  · refine ⟨by linarith, by linarith, -⌊(a + s * o) / 360⌋ - 1, ?_⟩
    unfold fmod; push_cast; ring
  · push Not at h1
    refine ⟨by linarith, h1, -⌊(a + s * o) / 360⌋, ?_⟩
    unfold fmod; push_cast; ring

theorem zenithRay_spec (a s o : ℝ) : 0 ≤ zenithRay a s o ∧ zenithRay a s o ≤ 180 ∧
    ∃ m : ℤ, zenithRay a s o = a + s * o + 360 * m ∨ zenithRay a s o = -(a + s * o) + 360 * m := by
  unfold zenithRay wrapAngle0_360
  have h := fmod_range (a + s * o)
  dsimp only
  split_ifs with h1
  · refine ⟨by linarith, by linarith, ⌊(a + s * o) / 360⌋ + 1, Or.inr ?_⟩
    unfold fmod; push_cast; ring
  · push Not at h1
    refine ⟨by linarith, h1, -⌊(a + s * o) / 360⌋, Or.inl ?_⟩
    unfold fmod; push_cast; ring

/-- Mask of an outdoor link. -/
theorem clusterMask_outdoor (nl nn : ℕ) (los : Bool) (k : ℕ) :
    clusterMask nl nn los false k = if k < (if los then nl else nn) then 0 else 1 := by
  cases los <;> simp [clusterMask]

/-- Mask of an indoor link. -/
theorem clusterMask_indoor (nl nn : ℕ) (k : ℕ) : clusterMask nl nn false true k = 1 := by
  simp [clusterMask]

end OpenNTN
