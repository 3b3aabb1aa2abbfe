import Mathlib.Analysis.Matrix.Order
import Mathlib.Analysis.SpecialFunctions.Integrals.Basic
import Mathlib.Analysis.SpecialFunctions.Complex.Arg
import Mathlib.MeasureTheory.Integral.IntervalIntegral.Periodic
import Mathlib.Analysis.SpecialFunctions.Exponential
import Mathlib.Topology.Algebra.InfiniteSum.Order

/-
The kernel `exp (-‖p - q‖ / D)` on the plane is positive semi-definite, and positive definite on distinct points.

Route: `min` is a positive definite kernel on the positive reals (induction on the number of points); hence
`|s| + |t| - |s - t|` is a positive semi-definite kernel on the line; averaging over directions gives it for the plane;
exponentials of kernels are handled with the Schur product theorem.
-/
namespace OpenNTN

open Finset

variable {ι : Type*}

/-- Quadratic form of a kernel over a finite set of points. -/
def kq (F : Finset ι) (K : ι → ι → ℝ) (c : ι → ℝ) : ℝ := ∑ i ∈ F, ∑ j ∈ F, c i * c j * K i j

theorem kq_add (F : Finset ι) (K K' : ι → ι → ℝ) (c : ι → ℝ) : kq F (fun i j => K i j + K' i j) c = kq F K c + kq F K' c := by
  simp only [kq, mul_add, sum_add_distrib]

theorem kq_const (F : Finset ι) (m : ℝ) (c : ι → ℝ) : kq F (fun _ _ => m) c = m * (∑ i ∈ F, c i) ^ 2 := by
  unfold kq
  rw [sq, sum_mul_sum, mul_sum]
  refine sum_congr rfl fun i _ => ?_
  rw [mul_sum]
  exact sum_congr rfl fun j _ => by ring

theorem kq_congr {F : Finset ι} {K K' : ι → ι → ℝ} {c : ι → ℝ} (h : ∀ i ∈ F, ∀ j ∈ F, K i j = K' i j) :
    kq F K c = kq F K' c :=
  sum_congr rfl fun i hi => sum_congr rfl fun j hj => by rw [h i hi j hj]

/-- The min kernel, with non-negativity and strictness together. -/
theorem min_kernel [DecidableEq ι] : ∀ (n : ℕ) (F : Finset ι), F.card = n → ∀ (s c : ι → ℝ), (∀ i ∈ F, 0 ≤ s i) →
    0 ≤ kq F (fun i j => min (s i) (s j)) c ∧
    ((∀ i ∈ F, 0 < s i) → (∀ i ∈ F, ∀ j ∈ F, s i = s j → i = j) → (∃ i ∈ F, c i ≠ 0) →
      0 < kq F (fun i j => min (s i) (s j)) c) := by
  intro n
  induction n with
  | zero =>
    intro F hF s c _
    have : F = ∅ := card_eq_zero.1 hF
    subst this
    exact ⟨by simp [kq], fun _ _ h => by simp at h⟩
  | succ n ih =>
    intro F hF s c hs
    have hne : F.Nonempty := by rw [← card_pos, hF]; omega
    obtain ⟨i0, hi0, hmin⟩ := exists_min_image F s hne
    set m := s i0 with hm
    have hsplit : kq F (fun i j => min (s i) (s j)) c = m * (∑ i ∈ F, c i) ^ 2 +
        kq (F.erase i0) (fun i j => min (s i - m) (s j - m)) c := by
      rw [← kq_const]
      have e1 : kq F (fun i j => min (s i) (s j)) c = kq F (fun i j => m + min (s i - m) (s j - m)) c := by
        refine kq_congr fun i _ j _ => ?_
        rw [← min_add_add_left]; congr 1 <;> ring
      rw [e1, kq_add]
      congr 1
      unfold kq
      rw [← add_sum_erase F _ hi0]
      have z1 : ∑ j ∈ F, c i0 * c j * min (s i0 - m) (s j - m) = 0 := by
        refine sum_eq_zero fun j hj => ?_
        have : min (s i0 - m) (s j - m) = 0 := by
          rw [hm, sub_self]; exact min_eq_left (sub_nonneg.2 (hmin j hj))
        rw [this, mul_zero]
      rw [z1, zero_add]
      refine sum_congr rfl fun i hi => ?_
      rw [← add_sum_erase F _ hi0]
      have : min (s i - m) (s i0 - m) = 0 := by
        rw [hm, sub_self]; exact min_eq_right (sub_nonneg.2 (hmin i (mem_of_mem_erase hi)))
      simp only [this, mul_zero, zero_add]
    have hcard : (F.erase i0).card = n := by rw [card_erase_of_mem hi0, hF]; rfl
    obtain ⟨h1, h2⟩ := ih (F.erase i0) hcard (fun i => s i - m) c
      (fun i hi => sub_nonneg.2 (hmin i (mem_of_mem_erase hi)))
    have hm0 : 0 ≤ m := hs i0 hi0
    refine ⟨?_, ?_⟩
    · rw [hsplit]; positivity
    · intro hpos hinj hc
      rw [hsplit]
      by_cases hex : ∃ i ∈ F.erase i0, c i ≠ 0
      · have : 0 < kq (F.erase i0) (fun i j => min (s i - m) (s j - m)) c := by
          refine h2 ?_ ?_ hex
          · intro i hi
            have hne : i ≠ i0 := ne_of_mem_erase hi
            have hle := hmin i (mem_of_mem_erase hi)
            rcases hle.lt_or_eq with hlt | heq
            · exact sub_pos.2 hlt
            · exact absurd (hinj i0 hi0 i (mem_of_mem_erase hi) heq).symm hne
          · intro i hi j hj hij
            exact hinj i (mem_of_mem_erase hi) j (mem_of_mem_erase hj) (by simpa using hij)
        positivity
      · push Not at hex
        have hc0 : c i0 ≠ 0 := by
          obtain ⟨i, hi, hci⟩ := hc
          by_cases e : i = i0
          · exact e ▸ hci
          · exact absurd (hex i (mem_erase.2 ⟨e, hi⟩)) hci
        have hsum : ∑ i ∈ F, c i = c i0 := by
          rw [← add_sum_erase F _ hi0, sum_eq_zero hex, add_zero]
        rw [hsum]
        have : 0 < m := hpos i0 hi0
        positivity

/-- The line kernel `|s| + |t| - |s - t|`. -/
theorem line_kernel [Fintype ι] [DecidableEq ι] (s c : ι → ℝ) :
    0 ≤ kq univ (fun i j => |s i| + |s j| - |s i - s j|) c ∧
    ((∀ i, 0 < s i) → Function.Injective s → c ≠ 0 → 0 < kq univ (fun i j => |s i| + |s j| - |s i - s j|) c) := by
  have e : ∀ a b : ℝ, |a| + |b| - |a - b| = 2 * min (max a 0) (max b 0) + 2 * min (max (-a) 0) (max (-b) 0) := by
    intro a b
    rcases le_total 0 a with ha | ha <;> rcases le_total 0 b with hb | hb <;> rcases le_total a b with hab | hab <;>
      simp only [abs_of_nonneg, abs_of_nonpos, max_eq_left, max_eq_right, min_eq_left, min_eq_right, ha, hb, hab,
        sub_nonneg, sub_nonpos, neg_nonneg, neg_nonpos, neg_le_neg_iff, min_self] <;> linarith
  have h2 : kq univ (fun i j => |s i| + |s j| - |s i - s j|) c =
      2 * kq univ (fun i j => min (max (s i) 0) (max (s j) 0)) c +
      2 * kq univ (fun i j => min (max (-s i) 0) (max (-s j) 0)) c := by
    simp only [kq, mul_sum, ← sum_add_distrib]
    exact sum_congr rfl fun i _ => sum_congr rfl fun j _ => by rw [e]; ring
  obtain ⟨p1, p2⟩ := min_kernel _ (univ : Finset ι) rfl (fun i => max (s i) 0) c (fun i _ => le_max_right _ _)
  obtain ⟨q1, -⟩ := min_kernel _ (univ : Finset ι) rfl (fun i => max (-s i) 0) c (fun i _ => le_max_right _ _)
  rw [h2]
  refine ⟨by linarith, fun hpos hinj hc => ?_⟩
  have hex : ∃ i ∈ (univ : Finset ι), c i ≠ 0 := by
    by_contra h; push Not at h; exact hc (funext fun i => h i (mem_univ _))
  have := p2 (fun i _ => lt_of_lt_of_le (hpos i) (le_max_left _ _))
    (fun i _ j _ hij => hinj (by rwa [max_eq_left (hpos i).le, max_eq_left (hpos j).le] at hij)) hex
  linarith

/-- Mean of `|cos|` over a period, up to normalisation. -/
noncomputable def absCosInt : ℝ := ∫ θ in (0 : ℝ)..(2 * Real.pi), |Real.cos θ|

theorem absCosInt_pos : 0 < absCosInt := by
  unfold absCosInt
  apply intervalIntegral.integral_pos (by positivity)
  · exact (Real.continuous_cos.abs).continuousOn
  · intro x _; exact abs_nonneg _
  · exact ⟨0, ⟨le_refl _, by positivity⟩, by simp⟩

theorem integral_abs_proj (a b : ℝ) :
    ∫ θ in (0 : ℝ)..(2 * Real.pi), |a * Real.cos θ + b * Real.sin θ| = absCosInt * Real.sqrt (a ^ 2 + b ^ 2) := by
  set z : ℂ := ⟨a, b⟩ with hz
  have hn : ‖z‖ = Real.sqrt (a ^ 2 + b ^ 2) := by
    rw [Complex.norm_def, Complex.normSq_mk]; congr 1; ring
  have ha : a = ‖z‖ * Real.cos (Complex.arg z) := by rw [Complex.norm_mul_cos_arg]
  have hb : b = ‖z‖ * Real.sin (Complex.arg z) := by rw [Complex.norm_mul_sin_arg]
  have e : ∀ θ : ℝ, |a * Real.cos θ + b * Real.sin θ| = ‖z‖ * |Real.cos (θ - Complex.arg z)| := by
    intro θ
    conv_lhs => rw [ha, hb]
    rw [Real.cos_sub, show ‖z‖ * Real.cos z.arg * Real.cos θ + ‖z‖ * Real.sin z.arg * Real.sin θ =
      ‖z‖ * (Real.cos θ * Real.cos z.arg + Real.sin θ * Real.sin z.arg) by ring, abs_mul, abs_norm]
  simp_rw [e]
  rw [intervalIntegral.integral_const_mul, ← hn, mul_comm]
  congr 1
  rw [intervalIntegral.integral_comp_sub_right (fun θ => |Real.cos θ|)]
  have hper : Function.Periodic (fun θ : ℝ => |Real.cos θ|) (2 * Real.pi) := fun θ => by simp [Real.cos_add_two_pi]
  have := hper.intervalIntegral_add_eq (0 - Complex.arg z) 0
  rw [zero_add] at this
  unfold absCosInt
  rw [← this]
  congr 1; ring

/-- Euclidean norm on the plane, as used in the code. -/
noncomputable def nrm (x y : ℝ) : ℝ := Real.sqrt (x ^ 2 + y ^ 2)

/-- The planar kernel `‖p‖ + ‖q‖ - ‖p - q‖`. -/
theorem plane_kernel [Fintype ι] [DecidableEq ι] (x y c : ι → ℝ) :
    0 ≤ kq univ (fun i j => nrm (x i) (y i) + nrm (x j) (y j) - nrm (x i - x j) (y i - y j)) c ∧
    ((∃ θ ∈ Set.Icc 0 (2 * Real.pi), (∀ i, 0 < x i * Real.cos θ + y i * Real.sin θ) ∧
      Function.Injective fun i => x i * Real.cos θ + y i * Real.sin θ) → c ≠ 0 →
      0 < kq univ (fun i j => nrm (x i) (y i) + nrm (x j) (y j) - nrm (x i - x j) (y i - y j)) c) := by
  set s : ℝ → ι → ℝ := fun θ i => x i * Real.cos θ + y i * Real.sin θ with hs
  set f : ℝ → ℝ := fun θ => kq univ (fun i j => |s θ i| + |s θ j| - |s θ i - s θ j|) c with hf
  have hscont : ∀ i, Continuous fun θ => s θ i := fun i =>
    (Real.continuous_cos.const_mul _).add (Real.continuous_sin.const_mul _)
  have hcont : Continuous f := by
    simp only [hf, kq]
    refine continuous_finsetSum _ fun i _ => continuous_finsetSum _ fun j _ => Continuous.const_mul ?_ _
    exact ((hscont i).abs.add (hscont j).abs).sub ((hscont i).sub (hscont j)).abs
  have hint : ∫ θ in (0 : ℝ)..(2 * Real.pi), f θ =
      absCosInt * kq univ (fun i j => nrm (x i) (y i) + nrm (x j) (y j) - nrm (x i - x j) (y i - y j)) c := by
    have hi : ∀ g : ℝ → ℝ, Continuous g → IntervalIntegrable g MeasureTheory.volume 0 (2 * Real.pi) :=
      fun g hg => hg.intervalIntegrable _ _
    simp only [hf, kq]
    rw [intervalIntegral.integral_finsetSum, mul_sum]
    · refine sum_congr rfl fun i _ => ?_
      rw [intervalIntegral.integral_finsetSum, mul_sum]
      · refine sum_congr rfl fun j _ => ?_
        rw [intervalIntegral.integral_const_mul, intervalIntegral.integral_sub, intervalIntegral.integral_add]
        · have e : ∀ θ, s θ i - s θ j = (x i - x j) * Real.cos θ + (y i - y j) * Real.sin θ := fun θ => by
            simp only [hs]; ring
          simp_rw [e]
          simp only [hs]
          rw [integral_abs_proj, integral_abs_proj, integral_abs_proj]
          simp only [nrm]; ring
        · exact hi _ (hscont i).abs
        · exact hi _ (hscont j).abs
        · exact hi _ ((hscont i).abs.add (hscont j).abs)
        · exact hi _ ((hscont i).sub (hscont j)).abs
      · intro j _
        exact hi _ (Continuous.const_mul (((hscont i).abs.add (hscont j).abs).sub ((hscont i).sub (hscont j)).abs) _)
    · intro i _
      refine hi _ (continuous_finsetSum _ fun j _ => Continuous.const_mul ?_ _)
      exact ((hscont i).abs.add (hscont j).abs).sub ((hscont i).sub (hscont j)).abs
  have hnonneg : ∀ θ, 0 ≤ f θ := fun θ => (line_kernel (s θ) c).1
  refine ⟨?_, ?_⟩
  · have h0 : 0 ≤ ∫ θ in (0 : ℝ)..(2 * Real.pi), f θ :=
      intervalIntegral.integral_nonneg (by positivity) fun θ _ => hnonneg θ
    rw [hint] at h0
    exact nonneg_of_mul_nonneg_right h0 absCosInt_pos
  · rintro ⟨θ, hθ, hpos, hinj⟩ hc
    have h0 : 0 < ∫ θ in (0 : ℝ)..(2 * Real.pi), f θ :=
      intervalIntegral.integral_pos (by positivity) hcont.continuousOn (fun θ _ => hnonneg θ)
        ⟨θ, hθ, (line_kernel (s θ) c).2 hpos hinj hc⟩
    rw [hint] at h0
    exact pos_of_mul_pos_right h0 absCosInt_pos.le

theorem psd_of_kq [Fintype ι] {K : ι → ι → ℝ} (hsym : ∀ i j, K i j = K j i) (h : ∀ c, 0 ≤ kq univ K c) :
    (Matrix.of K).PosSemidef := by
  refine Matrix.PosSemidef.of_dotProduct_mulVec_nonneg (Matrix.IsHermitian.ext fun i j => by simp [hsym i j]) fun c => ?_
  have := h c
  simp only [kq] at this
  simp only [dotProduct, Matrix.mulVec, Matrix.of_apply, star_trivial, mul_sum]
  refine this.trans_eq (sum_congr rfl fun i _ => sum_congr rfl fun j _ => by ring)

theorem kq_of_psd [Fintype ι] {K : ι → ι → ℝ} (h : (Matrix.of K).PosSemidef) (c : ι → ℝ) : 0 ≤ kq univ K c := by
  have := h.dotProduct_mulVec_nonneg c
  simp only [dotProduct, Matrix.mulVec, Matrix.of_apply, star_trivial, mul_sum] at this
  refine this.trans_eq (sum_congr rfl fun i _ => sum_congr rfl fun j _ => by ring)

/-- Exponential of a positive semi-definite kernel. -/
theorem exp_kernel [Fintype ι] [DecidableEq ι] {K : ι → ι → ℝ} (hsym : ∀ i j, K i j = K j i) (h : ∀ c, 0 ≤ kq univ K c)
    (c : ι → ℝ) : kq univ K c ≤ kq univ (fun i j => Real.exp (K i j)) c := by
  have hpow : ∀ n : ℕ, (Matrix.of fun i j => K i j ^ n).PosSemidef := by
    intro n
    induction n with
    | zero =>
      refine psd_of_kq (fun _ _ => by simp) fun c => ?_
      simp only [pow_zero]
      rw [kq_const]; positivity
    | succ n ih =>
      have := Matrix.PosSemidef.hadamard ih (psd_of_kq hsym h)
      have e : (Matrix.of fun i j => K i j ^ (n + 1)) = Matrix.hadamard (Matrix.of fun i j => K i j ^ n) (Matrix.of K) := by
        ext i j; simp [pow_succ]
      rw [e]; exact this
  have hsum : HasSum (fun n : ℕ => kq univ (fun i j => K i j ^ n / (n.factorial : ℝ)) c) (kq univ (fun i j => Real.exp (K i j)) c) := by
    unfold kq
    refine hasSum_sum fun i _ => hasSum_sum fun j _ => HasSum.mul_left _ ?_
    rw [Real.exp_eq_exp_ℝ]
    exact NormedSpace.expSeries_div_hasSum_exp (K i j)
  have hn : ∀ n : ℕ, 0 ≤ kq univ (fun i j => K i j ^ n / (n.factorial : ℝ)) c := by
    intro n
    have := kq_of_psd (hpow n) c
    have e : kq univ (fun i j => K i j ^ n / (n.factorial : ℝ)) c = kq univ (fun i j => K i j ^ n) c / n.factorial := by
      simp only [kq, sum_div]
      exact sum_congr rfl fun i _ => sum_congr rfl fun j _ => by ring
    rw [e]; positivity
  have := le_hasSum hsum 1 fun n _ => hn n
  simpa using this

/-- A direction that separates finitely many distinct points. -/
theorem exists_direction [Fintype ι] (x y : ι → ℝ) (hd : ∀ i j, x i = x j → y i = y j → i = j) :
    ∃ θ ∈ Set.Icc 0 (2 * Real.pi), Function.Injective fun i => x i * Real.cos θ + y i * Real.sin θ := by
  classical
  -- slopes to avoid
  set bad : Finset ℝ := (univ : Finset (ι × ι)).image fun p => -(x p.1 - x p.2) / (y p.1 - y p.2) with hbad
  obtain ⟨t, ht⟩ := Infinite.exists_notMem_finset (bad ∪ (bad.image fun t => t))
  have ht' : t ∉ bad := fun h => ht (mem_union_left _ h)
  have key : Function.Injective fun i => x i * Real.cos (Real.arctan t) + y i * Real.sin (Real.arctan t) := by
    intro i j hij
    simp only at hij
    have hcos : 0 < Real.cos (Real.arctan t) := Real.cos_arctan_pos t
    have hsin : Real.sin (Real.arctan t) = t * Real.cos (Real.arctan t) := by
      rw [← Real.tan_mul_cos hcos.ne', Real.tan_arctan]
    rw [hsin] at hij
    have h1 : (x i - x j) + t * (y i - y j) = 0 := by
      have : ((x i - x j) + t * (y i - y j)) * Real.cos (Real.arctan t) = 0 := by linarith
      exact (mul_eq_zero.1 this).resolve_right hcos.ne'
    by_cases hy : y i - y j = 0
    · rw [hy, mul_zero, add_zero] at h1
      exact hd i j (sub_eq_zero.1 h1) (sub_eq_zero.1 hy)
    · exfalso; apply ht'
      rw [hbad, mem_image]
      exact ⟨(i, j), mem_univ _, by field_simp; linarith⟩
  by_cases h0 : 0 ≤ Real.arctan t
  · exact ⟨Real.arctan t, ⟨h0, by linarith [Real.arctan_lt_pi_div_two t, Real.pi_pos]⟩, key⟩
  · refine ⟨Real.arctan t + 2 * Real.pi, ⟨by linarith [Real.neg_pi_div_two_lt_arctan t, Real.pi_pos], by linarith⟩, ?_⟩
    simpa [Real.cos_add_two_pi, Real.sin_add_two_pi] using key

/-- The exponential correlation kernel on the plane. -/
theorem exp_dist_kernel [Fintype ι] [DecidableEq ι] (x y : ι → ℝ) {D : ℝ} (hD : 0 < D) (c : ι → ℝ) :
    0 ≤ kq univ (fun i j => Real.exp (-(nrm (x i - x j) (y i - y j) / D))) c ∧
    ((∀ i j, x i = x j → y i = y j → i = j) → c ≠ 0 →
      0 < kq univ (fun i j => Real.exp (-(nrm (x i - x j) (y i - y j) / D))) c) := by
  have hnrm : ∀ a b : ℝ, nrm (a / D) (b / D) = nrm a b / D := by
    intro a b
    unfold nrm
    rw [div_pow, div_pow, ← add_div, Real.sqrt_div' _ (by positivity), Real.sqrt_sq hD.le]
  have main : ∀ (ox oy : ℝ) (c : ι → ℝ), ∃ d : ι → ℝ, (c ≠ 0 → d ≠ 0) ∧
      kq univ (fun i j => nrm ((x i - ox) / D) ((y i - oy) / D) + nrm ((x j - ox) / D) ((y j - oy) / D) -
        nrm ((x i - ox) / D - (x j - ox) / D) ((y i - oy) / D - (y j - oy) / D)) d ≤
      kq univ (fun i j => Real.exp (-(nrm (x i - x j) (y i - y j) / D))) c := by
    intro ox oy c
    set w : ι → ℝ := fun i => nrm ((x i - ox) / D) ((y i - oy) / D) with hw
    refine ⟨fun i => c i * Real.exp (-w i), ?_, ?_⟩
    · intro hc hd
      apply hc; funext i
      have := congrFun hd i
      simpa [Real.exp_ne_zero] using this
    · refine (exp_kernel ?_ ?_ _).trans_eq ?_
      · intro i j
        have : nrm ((x i - ox) / D - (x j - ox) / D) ((y i - oy) / D - (y j - oy) / D) =
          nrm ((x j - ox) / D - (x i - ox) / D) ((y j - oy) / D - (y i - oy) / D) := by
          unfold nrm; congr 1; ring
        rw [this]; ring
      · exact fun c => (plane_kernel (fun i => (x i - ox) / D) (fun i => (y i - oy) / D) c).1
      · unfold kq
        refine sum_congr rfl fun i _ => sum_congr rfl fun j _ => ?_
        have e1 : nrm ((x i - ox) / D - (x j - ox) / D) ((y i - oy) / D - (y j - oy) / D) = nrm (x i - x j) (y i - y j) / D := by
          rw [← hnrm]; congr 1 <;> ring
        simp only [e1]
        change c i * Real.exp (-w i) * (c j * Real.exp (-w j)) * Real.exp (w i + w j - nrm (x i - x j) (y i - y j) / D) = _
        rw [show c i * Real.exp (-w i) * (c j * Real.exp (-w j)) *
          Real.exp (w i + w j - nrm (x i - x j) (y i - y j) / D) = c i * c j *
          (Real.exp (-w i) * Real.exp (-w j) * Real.exp (w i + w j - nrm (x i - x j) (y i - y j) / D)) by ring]
        rw [← Real.exp_add, ← Real.exp_add]
        congr 2; ring
  refine ⟨?_, ?_⟩
  · obtain ⟨d, -, hle⟩ := main 0 0 c
    exact le_trans (plane_kernel _ _ d).1 hle
  · intro hdist hc
    obtain ⟨θ, hθ, hinj⟩ := exists_direction x y hdist
    -- base point far away against the direction
    obtain ⟨B, hB⟩ : ∃ B : ℝ, ∀ i, -B < x i * Real.cos θ + y i * Real.sin θ := by
      by_cases hne : Nonempty ι
      · obtain ⟨i0, -, h0⟩ := exists_min_image univ (fun i => x i * Real.cos θ + y i * Real.sin θ) univ_nonempty
        exact ⟨-(x i0 * Real.cos θ + y i0 * Real.sin θ) + 1, fun i => by linarith [h0 i (mem_univ _)]⟩
      · exact ⟨0, fun i => absurd ⟨i⟩ hne⟩
    obtain ⟨d, hd, hle⟩ := main (-B * Real.cos θ) (-B * Real.sin θ) c
    have hproj : ∀ i, (x i - -B * Real.cos θ) / D * Real.cos θ + (y i - -B * Real.sin θ) / D * Real.sin θ =
        (x i * Real.cos θ + y i * Real.sin θ + B) / D := by
      intro i
      rw [show (x i - -B * Real.cos θ) / D * Real.cos θ + (y i - -B * Real.sin θ) / D * Real.sin θ =
        (x i * Real.cos θ + y i * Real.sin θ + B * (Real.sin θ ^ 2 + Real.cos θ ^ 2)) / D by ring,
        Real.sin_sq_add_cos_sq, mul_one]
    refine lt_of_lt_of_le ((plane_kernel _ _ d).2 ⟨θ, hθ, ?_, ?_⟩ (hd hc)) hle
    · intro i
      rw [hproj]
      exact div_pos (by linarith [hB i]) hD
    · intro i j hij
      simp only [hproj] at hij
      apply hinj
      have := (div_left_inj' hD.ne').1 hij
      simpa using this

end OpenNTN
