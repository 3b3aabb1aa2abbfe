import Verif.Props.Additional

/-
C130 continued: in the accepted frequency bands the rain loss can be computed nowhere.
-/
namespace OpenNTN

open Spec Classical

theorem sq_between {b l u L q c : ℝ} (hl : l ≤ L) (hu : L ≤ u) (h1 : (l - b) ^ 2 ≤ q * c ^ 2) (h2 : (u - b) ^ 2 ≤ q * c ^ 2) (hc : c ≠ 0) :
    ((L - b) / c) ^ 2 ≤ q := by
  have hc2 : 0 < c ^ 2 := by positivity
  rw [div_pow, div_le_iff₀ hc2]
  rcases le_total b L with h | h
  · calc (L - b) ^ 2 ≤ (u - b) ^ 2 := by gcongr
      _ ≤ _ := h2
  · calc (L - b) ^ 2 = (b - L) ^ 2 := by ring
      _ ≤ (b - l) ^ 2 := by gcongr
      _ = (l - b) ^ 2 := by ring
      _ ≤ _ := h1

/-- Lower bound of a Gaussian in an interval. -/
theorem gauss_ge {b c l u L : ℝ} (q E : ℝ) (hl : l ≤ L) (hu : L ≤ u) (hc : c ≠ 0) (h1 : (l - b) ^ 2 ≤ q * c ^ 2) (h2 : (u - b) ^ 2 ≤ q * c ^ 2)
    (hq : q ≤ 64) (hE : E ≤ (1 - q / 64) ^ 64) : E ≤ Real.exp (-((L - b) / c) ^ 2) := by
  have h := le_exp_neg (q := q) 64 (by norm_num) (by exact_mod_cast hq)
  push_cast at h
  refine hE.trans (h.trans (Real.exp_le_exp.2 ?_))
  linarith [sq_between hl hu h1 h2 hc]

theorem exp_neg_le_series {q E x : ℝ} (hq0 : 0 ≤ q) (hx : q ≤ x) (hE0 : 0 ≤ E) (hE : 1 ≤ E * ∑ k ∈ Finset.range 14, q ^ k / k.factorial) :
    Real.exp (-x) ≤ E := by
  have h := Real.sum_le_exp_of_nonneg hq0 14
  have h1 : 1 ≤ E * Real.exp q := hE.trans (by gcongr)
  calc Real.exp (-x) ≤ Real.exp (-q) := Real.exp_le_exp.2 (by linarith)
    _ = 1 * Real.exp (-q) := by ring
    _ ≤ E * Real.exp q * Real.exp (-q) := by gcongr
    _ = E := by rw [mul_assoc, ← Real.exp_add]; simp

/-- Upper bound of a Gaussian to the right of its centre. -/
theorem gauss_le_right {b c l L : ℝ} (q E : ℝ) (hl : l ≤ L) (hb : b ≤ l) (hc : c ≠ 0) (hq0 : 0 ≤ q) (hq : q * c ^ 2 ≤ (l - b) ^ 2) (hE0 : 0 ≤ E)
    (hE : 1 ≤ E * ∑ k ∈ Finset.range 14, q ^ k / k.factorial) : Real.exp (-((L - b) / c) ^ 2) ≤ E := by
  refine exp_neg_le_series hq0 ?_ hE0 hE
  have hc2 : 0 < c ^ 2 := by positivity
  rw [div_pow, le_div_iff₀ hc2]
  calc _ ≤ (l - b) ^ 2 := hq
    _ ≤ (L - b) ^ 2 := by gcongr

/-- Upper bound of a Gaussian to the left of its centre. -/
theorem gauss_le_left {b c u L : ℝ} (q E : ℝ) (hu : L ≤ u) (hb : u ≤ b) (hc : c ≠ 0) (hq0 : 0 ≤ q) (hq : q * c ^ 2 ≤ (u - b) ^ 2) (hE0 : 0 ≤ E)
    (hE : 1 ≤ E * ∑ k ∈ Finset.range 14, q ^ k / k.factorial) : Real.exp (-((L - b) / c) ^ 2) ≤ E := by
  refine exp_neg_le_series hq0 ?_ hE0 hE
  have hc2 : 0 < c ^ 2 := by positivity
  rw [div_pow, le_div_iff₀ hc2]
  calc _ ≤ (u - b) ^ 2 := hq
    _ = (b - u) ^ 2 := by ring
    _ ≤ (b - L) ^ 2 := by gcongr
    _ = (L - b) ^ 2 := by ring

/-- From bounds of the four curves to a bound of the specific attenuation. -/
theorem p838_le {f kh kv ah av l : ℝ} (K A : ℝ) (hf : 0 < f) (hl : l ≤ Real.logb 10 f) (hA : 0 ≤ A)
    (e1 : p838KH f = (10 : ℝ) ^ kh) (e2 : p838KV f = (10 : ℝ) ^ kv) (e3 : p838AH f = ah) (e4 : p838AV f = av)
    (h1 : kh ≤ K) (h2 : kv ≤ K) (h3 : ah ≤ A) (h4 : av ≤ A) (h5 : K + 1.605 * A - l ≤ -0.2) : p838 f 40 < 0.7 * f := by
  have hf10 : f = (10 : ℝ) ^ Real.logb 10 f := (Real.rpow_logb (by norm_num) (by norm_num) hf).symm
  have k1 : 0 < p838KH f := by rw [e1]; positivity
  have k2 : 0 < p838KV f := by rw [e2]; positivity
  have hK1 : p838KH f ≤ (10 : ℝ) ^ K := by rw [e1]; exact Real.rpow_le_rpow_of_exponent_le (by norm_num) h1
  have hK2 : p838KV f ≤ (10 : ℝ) ^ K := by rw [e2]; exact Real.rpow_le_rpow_of_exponent_le (by norm_num) h2
  have ha : (p838KH f * p838AH f + p838KV f * p838AV f) / (p838KH f + p838KV f) ≤ A := by
    rw [div_le_iff₀ (by positivity), e3, e4]
    nlinarith
  have h40 : (40 : ℝ) ≤ (10 : ℝ) ^ (1.605 : ℝ) := by
    by_contra hh
    push Not at hh
    have := pow_le_pow_left₀ (by positivity) hh.le 200
    rw [← Real.rpow_natCast ((10 : ℝ) ^ (1.605 : ℝ)), ← Real.rpow_mul (by norm_num)] at this
    have e : (1.605 * ((200 : ℕ) : ℝ)) = ((321 : ℕ) : ℝ) := by norm_num
    rw [e, Real.rpow_natCast] at this
    have h : (10 : ℝ) ^ 321 > 40 ^ 200 := by
      rw [show (321 : ℕ) = 160 + 161 by norm_num, show (200 : ℕ) = 100 + 100 by norm_num, pow_add, pow_add]
      norm_num
    exact absurd this (not_le.2 h)
  have hbase : (10 : ℝ) ^ (-0.2 : ℝ) < 0.7 := by
    by_contra hh
    push Not at hh
    have := pow_le_pow_left₀ (by norm_num) hh 5
    rw [← Real.rpow_natCast ((10 : ℝ) ^ (-0.2 : ℝ)), ← Real.rpow_mul (by norm_num)] at this
    norm_num at this
  unfold p838
  calc _ ≤ (10 : ℝ) ^ K * (40 : ℝ) ^ A := by
        have : (40 : ℝ) ^ ((p838KH f * p838AH f + p838KV f * p838AV f) / (p838KH f + p838KV f)) ≤ (40 : ℝ) ^ A :=
          Real.rpow_le_rpow_of_exponent_le (by norm_num) ha
        have hk : (p838KH f + p838KV f) / 2 ≤ (10 : ℝ) ^ K := by linarith
        gcongr
    _ ≤ (10 : ℝ) ^ K * ((10 : ℝ) ^ (1.605 : ℝ)) ^ A := by gcongr
    _ = (10 : ℝ) ^ (K + 1.605 * A) := by rw [← Real.rpow_mul (by norm_num), ← Real.rpow_add (by norm_num)]
    _ ≤ (10 : ℝ) ^ (-0.2 + Real.logb 10 f) := Real.rpow_le_rpow_of_exponent_le (by norm_num) (by linarith)
    _ = (10 : ℝ) ^ (-0.2 : ℝ) * f := by rw [Real.rpow_add (by norm_num), ← hf10]
    _ < 0.7 * f := by gcongr

/-- Two large Gaussians of opposite sign, nearly equal. -/
theorem rain_pair {L : ℝ} (hl : 0.5 ≤ L) (hu : L ≤ 0.605) :
    Real.exp (-((L - 0.791459) / 0.116479) ^ 2) ≤ 1.0527 * Real.exp (-((L - 0.791669) / 0.116226) ^ 2) := by
  have h : ((L - 0.791669) / 0.116226) ^ 2 - ((L - 0.791459) / 0.116479) ^ 2 ≤ 0.05 := by
    have := mul_nonneg (sub_nonneg.2 hl) (sub_nonneg.2 hu)
    rw [div_pow, div_pow]
    norm_num1 at this ⊢
    linarith
  have h2 : Real.exp 0.05 ≤ 1.0527 := by
    have h3 := Real.add_one_le_exp (-0.05)
    have h4 : Real.exp 0.05 * Real.exp (-0.05) = 1 := by rw [← Real.exp_add]; norm_num
    nlinarith [Real.exp_pos 0.05]
  calc Real.exp (-((L - 0.791459) / 0.116479) ^ 2)
      ≤ Real.exp (0.05 + -((L - 0.791669) / 0.116226) ^ 2) := Real.exp_le_exp.2 (by linarith)
    _ = Real.exp 0.05 * Real.exp (-((L - 0.791669) / 0.116226) ^ 2) := Real.exp_add _ _
    _ ≤ _ := by gcongr

theorem rainKH_s1 {L : ℝ} (hl : 0.275 ≤ L) (hu : L ≤ 0.4) :
    (-5.3398) * Real.exp (-((L - (-0.10008)) / 1.13098) ^ 2) + (-0.35351) * Real.exp (-((L - 1.2697) / 0.454) ^ 2) + (-0.23789) * Real.exp (-((L - 0.86036) / 0.15354) ^ 2) + (-0.94158) * Real.exp (-((L - 0.64552) / 0.16817) ^ 2) + (-0.18961) * L + 0.71147 ≤ (-3.737) := by
  have t0 := gauss_ge (b := (-0.10008)) (c := 1.13098) 0.196 0.82176 hl hu (by norm_num) (by norm_num) (by norm_num) (by norm_num) (by norm_num)
  have t1 := gauss_ge (b := 1.2697) (c := 0.454) 4.801 0.0068 hl hu (by norm_num) (by norm_num) (by norm_num) (by norm_num) (by norm_num)
  have t2 := (Real.exp_pos (-((L - 0.86036) / 0.15354) ^ 2)).le
  have t3 := gauss_ge (b := 0.64552) (c := 0.16817) 4.855 0.00641 hl hu (by norm_num) (by norm_num) (by norm_num) (by norm_num) (by norm_num)
  linarith

theorem rainKV_s1 {L : ℝ} (hl : 0.275 ≤ L) (hu : L ≤ 0.4) :
    (-3.80595) * Real.exp (-((L - 0.56934) / 0.81061) ^ 2) + (-3.44965) * Real.exp (-((L - (-0.22911)) / 0.51059) ^ 2) + (-0.39902) * Real.exp (-((L - 0.73042) / 0.11899) ^ 2) + 0.50167 * Real.exp (-((L - 1.07319) / 0.27195) ^ 2) + (-0.16398) * L + 0.63297 ≤ (-3.487) := by
  have t0 := gauss_ge (b := 0.56934) (c := 0.81061) 0.132 0.87622 hl hu (by norm_num) (by norm_num) (by norm_num) (by norm_num) (by norm_num)
  have t1 := gauss_ge (b := (-0.22911)) (c := 0.51059) 1.519 0.21495 hl hu (by norm_num) (by norm_num) (by norm_num) (by norm_num) (by norm_num)
  have t2 := (Real.exp_pos (-((L - 0.73042) / 0.11899) ^ 2)).le
  have t3 := gauss_le_left (b := 1.07319) (c := 0.27195) 6.127 0.0022 hu (by norm_num) (by norm_num) (by norm_num) (by norm_num) (by norm_num)
    (by norm_num [Finset.sum_range_succ, Nat.factorial])
  linarith

theorem rainAH_s1 {L : ℝ} (hl : 0.275 ≤ L) (hu : L ≤ 0.4) :
    (-0.14318) * Real.exp (-((L - 1.82442) / (-0.55187)) ^ 2) + 0.29591 * Real.exp (-((L - 0.77564) / 0.19822) ^ 2) + 0.32177 * Real.exp (-((L - 0.63773) / 0.13164) ^ 2) + (-5.3761) * Real.exp (-((L - (-0.9623)) / 1.47828) ^ 2) + 16.1721 * Real.exp (-((L - (-3.2998)) / 3.4399) ^ 2) + 0.67849 * L + (-1.95537) ≤ 1.55 := by
  have t0 := gauss_ge (b := 1.82442) (c := (-0.55187)) 7.883 0.00022 hl hu (by norm_num) (by norm_num) (by norm_num) (by norm_num) (by norm_num)
  have t1 := gauss_le_left (b := 0.77564) (c := 0.19822) 3.591 0.02758 hu (by norm_num) (by norm_num) (by norm_num) (by norm_num) (by norm_num)
    (by norm_num [Finset.sum_range_succ, Nat.factorial])
  have t2 := gauss_le_left (b := 0.63773) (c := 0.13164) 3.261 0.03836 hu (by norm_num) (by norm_num) (by norm_num) (by norm_num) (by norm_num)
    (by norm_num [Finset.sum_range_succ, Nat.factorial])
  have t3 := gauss_ge (b := (-0.9623)) (c := 1.47828) 0.85 0.42498 hl hu (by norm_num) (by norm_num) (by norm_num) (by norm_num) (by norm_num)
  have t4 := gauss_le_right (b := (-3.2998)) (c := 3.4399) 1.079 0.33994 hl (by norm_num) (by norm_num) (by norm_num) (by norm_num) (by norm_num)
    (by norm_num [Finset.sum_range_succ, Nat.factorial])
  linarith

theorem rainAV_s1 {L : ℝ} (hl : 0.275 ≤ L) (hu : L ≤ 0.4) :
    (-0.07771) * Real.exp (-((L - 2.3384) / (-0.76284)) ^ 2) + 0.56727 * Real.exp (-((L - 0.95545) / 0.54039) ^ 2) + (-0.20238) * Real.exp (-((L - 1.1452) / 0.26809) ^ 2) + (-48.2991) * Real.exp (-((L - 0.791669) / 0.116226) ^ 2) + 48.5833 * Real.exp (-((L - 0.791459) / 0.116479) ^ 2) + (-0.053739) * L + 0.83433 ≤ 1.018 := by
  have t0 := gauss_ge (b := 2.3384) (c := (-0.76284)) 7.317 0.00042 hl hu (by norm_num) (by norm_num) (by norm_num) (by norm_num) (by norm_num)
  have t1 := gauss_le_left (b := 0.95545) (c := 0.54039) 1.056 0.34785 hu (by norm_num) (by norm_num) (by norm_num) (by norm_num) (by norm_num)
    (by norm_num [Finset.sum_range_succ, Nat.factorial])
  have t2 := (Real.exp_pos (-((L - 1.1452) / 0.26809) ^ 2)).le
  have t3 := (Real.exp_pos (-((L - 0.791669) / 0.116226) ^ 2)).le
  have t4 := gauss_le_left (b := 0.791459) (c := 0.116479) 11.294 0.00002 hu (by norm_num) (by norm_num) (by norm_num) (by norm_num) (by norm_num)
    (by norm_num [Finset.sum_range_succ, Nat.factorial])
  linarith

theorem rainKH_s2 {L : ℝ} (hl : 0.4 ≤ L) (hu : L ≤ 0.5) :
    (-5.3398) * Real.exp (-((L - (-0.10008)) / 1.13098) ^ 2) + (-0.35351) * Real.exp (-((L - 1.2697) / 0.454) ^ 2) + (-0.23789) * Real.exp (-((L - 0.86036) / 0.15354) ^ 2) + (-0.94158) * Real.exp (-((L - 0.64552) / 0.16817) ^ 2) + (-0.18961) * L + 0.71147 ≤ (-3.505) := by
  have t0 := gauss_ge (b := (-0.10008)) (c := 1.13098) 0.282 0.7538 hl hu (by norm_num) (by norm_num) (by norm_num) (by norm_num) (by norm_num)
  have t1 := gauss_ge (b := 1.2697) (c := 0.454) 3.67 0.02283 hl hu (by norm_num) (by norm_num) (by norm_num) (by norm_num) (by norm_num)
  have t2 := (Real.exp_pos (-((L - 0.86036) / 0.15354) ^ 2)).le
  have t3 := gauss_ge (b := 0.64552) (c := 0.16817) 2.132 0.11436 hl hu (by norm_num) (by norm_num) (by norm_num) (by norm_num) (by norm_num)
  linarith

theorem rainKV_s2 {L : ℝ} (hl : 0.4 ≤ L) (hu : L ≤ 0.5) :
    (-3.80595) * Real.exp (-((L - 0.56934) / 0.81061) ^ 2) + (-3.44965) * Real.exp (-((L - (-0.22911)) / 0.51059) ^ 2) + (-0.39902) * Real.exp (-((L - 0.73042) / 0.11899) ^ 2) + 0.50167 * Real.exp (-((L - 1.07319) / 0.27195) ^ 2) + (-0.16398) * L + 0.63297 ≤ (-3.502) := by
  have t0 := gauss_ge (b := 0.56934) (c := 0.81061) 0.044 0.95693 hl hu (by norm_num) (by norm_num) (by norm_num) (by norm_num) (by norm_num)
  have t1 := gauss_ge (b := (-0.22911)) (c := 0.51059) 2.04 0.12578 hl hu (by norm_num) (by norm_num) (by norm_num) (by norm_num) (by norm_num)
  have t2 := gauss_ge (b := 0.73042) (c := 0.11899) 7.712 0.00026 hl hu (by norm_num) (by norm_num) (by norm_num) (by norm_num) (by norm_num)
  have t3 := gauss_le_left (b := 1.07319) (c := 0.27195) 4.442 0.01178 hu (by norm_num) (by norm_num) (by norm_num) (by norm_num) (by norm_num)
    (by norm_num [Finset.sum_range_succ, Nat.factorial])
  linarith

theorem rainAH_s2 {L : ℝ} (hl : 0.4 ≤ L) (hu : L ≤ 0.5) :
    (-0.14318) * Real.exp (-((L - 1.82442) / (-0.55187)) ^ 2) + 0.29591 * Real.exp (-((L - 0.77564) / 0.19822) ^ 2) + 0.32177 * Real.exp (-((L - 0.63773) / 0.13164) ^ 2) + (-5.3761) * Real.exp (-((L - (-0.9623)) / 1.47828) ^ 2) + 16.1721 * Real.exp (-((L - (-3.2998)) / 3.4399) ^ 2) + 0.67849 * L + (-1.95537) ≤ 1.621 := by
  have t0 := gauss_ge (b := 1.82442) (c := (-0.55187)) 6.662 0.00088 hl hu (by norm_num) (by norm_num) (by norm_num) (by norm_num) (by norm_num)
  have t1 := gauss_le_left (b := 0.77564) (c := 0.19822) 1.933 0.14472 hu (by norm_num) (by norm_num) (by norm_num) (by norm_num) (by norm_num)
    (by norm_num [Finset.sum_range_succ, Nat.factorial])
  have t2 := gauss_le_left (b := 0.63773) (c := 0.13164) 1.094 0.33488 hu (by norm_num) (by norm_num) (by norm_num) (by norm_num) (by norm_num)
    (by norm_num [Finset.sum_range_succ, Nat.factorial])
  have t3 := gauss_ge (b := (-0.9623)) (c := 1.47828) 0.979 0.37285 hl hu (by norm_num) (by norm_num) (by norm_num) (by norm_num) (by norm_num)
  have t4 := gauss_le_right (b := (-3.2998)) (c := 3.4399) 1.156 0.31475 hl (by norm_num) (by norm_num) (by norm_num) (by norm_num) (by norm_num)
    (by norm_num [Finset.sum_range_succ, Nat.factorial])
  linarith

theorem rainAV_s2 {L : ℝ} (hl : 0.4 ≤ L) (hu : L ≤ 0.5) :
    (-0.07771) * Real.exp (-((L - 2.3384) / (-0.76284)) ^ 2) + 0.56727 * Real.exp (-((L - 0.95545) / 0.54039) ^ 2) + (-0.20238) * Real.exp (-((L - 1.1452) / 0.26809) ^ 2) + (-48.2991) * Real.exp (-((L - 0.791669) / 0.116226) ^ 2) + 48.5833 * Real.exp (-((L - 0.791459) / 0.116479) ^ 2) + (-0.053739) * L + 0.83433 ≤ 1.185 := by
  have t0 := gauss_ge (b := 2.3384) (c := (-0.76284)) 6.457 0.0011 hl hu (by norm_num) (by norm_num) (by norm_num) (by norm_num) (by norm_num)
  have t1 := gauss_le_left (b := 0.95545) (c := 0.54039) 0.71 0.49165 hu (by norm_num) (by norm_num) (by norm_num) (by norm_num) (by norm_num)
    (by norm_num [Finset.sum_range_succ, Nat.factorial])
  have t2 := gauss_ge (b := 1.1452) (c := 0.26809) 7.727 0.00026 hl hu (by norm_num) (by norm_num) (by norm_num) (by norm_num) (by norm_num)
  have t3 := (Real.exp_pos (-((L - 0.791669) / 0.116226) ^ 2)).le
  have t4 := gauss_le_left (b := 0.791459) (c := 0.116479) 6.261 0.00192 hu (by norm_num) (by norm_num) (by norm_num) (by norm_num) (by norm_num)
    (by norm_num [Finset.sum_range_succ, Nat.factorial])
  linarith

theorem rainKH_s3 {L : ℝ} (hl : 0.5 ≤ L) (hu : L ≤ 0.605) :
    (-5.3398) * Real.exp (-((L - (-0.10008)) / 1.13098) ^ 2) + (-0.35351) * Real.exp (-((L - 1.2697) / 0.454) ^ 2) + (-0.23789) * Real.exp (-((L - 0.86036) / 0.15354) ^ 2) + (-0.94158) * Real.exp (-((L - 0.64552) / 0.16817) ^ 2) + (-0.18961) * L + 0.71147 ≤ (-3.46) := by
  have t0 := gauss_ge (b := (-0.10008)) (c := 1.13098) 0.389 0.67693 hl hu (by norm_num) (by norm_num) (by norm_num) (by norm_num) (by norm_num)
  have t1 := gauss_ge (b := 1.2697) (c := 0.454) 2.875 0.05278 hl hu (by norm_num) (by norm_num) (by norm_num) (by norm_num) (by norm_num)
  have t2 := gauss_ge (b := 0.86036) (c := 0.15354) 5.509 0.00314 hl hu (by norm_num) (by norm_num) (by norm_num) (by norm_num) (by norm_num)
  have t3 := gauss_ge (b := 0.64552) (c := 0.16817) 0.749 0.47075 hl hu (by norm_num) (by norm_num) (by norm_num) (by norm_num) (by norm_num)
  linarith

theorem rainKV_s3 {L : ℝ} (hl : 0.5 ≤ L) (hu : L ≤ 0.605) :
    (-3.80595) * Real.exp (-((L - 0.56934) / 0.81061) ^ 2) + (-3.44965) * Real.exp (-((L - (-0.22911)) / 0.51059) ^ 2) + (-0.39902) * Real.exp (-((L - 0.73042) / 0.11899) ^ 2) + 0.50167 * Real.exp (-((L - 1.07319) / 0.27195) ^ 2) + (-0.16398) * L + 0.63297 ≤ (-3.432) := by
  have t0 := gauss_ge (b := 0.56934) (c := 0.81061) 0.008 0.99203 hl hu (by norm_num) (by norm_num) (by norm_num) (by norm_num) (by norm_num)
  have t1 := gauss_ge (b := (-0.22911)) (c := 0.51059) 2.669 0.06546 hl hu (by norm_num) (by norm_num) (by norm_num) (by norm_num) (by norm_num)
  have t2 := gauss_ge (b := 0.73042) (c := 0.11899) 3.75 0.02097 hl hu (by norm_num) (by norm_num) (by norm_num) (by norm_num) (by norm_num)
  have t3 := gauss_le_left (b := 1.07319) (c := 0.27195) 2.963 0.05167 hu (by norm_num) (by norm_num) (by norm_num) (by norm_num) (by norm_num)
    (by norm_num [Finset.sum_range_succ, Nat.factorial])
  linarith

theorem rainAH_s3 {L : ℝ} (hl : 0.5 ≤ L) (hu : L ≤ 0.605) :
    (-0.14318) * Real.exp (-((L - 1.82442) / (-0.55187)) ^ 2) + 0.29591 * Real.exp (-((L - 0.77564) / 0.19822) ^ 2) + 0.32177 * Real.exp (-((L - 0.63773) / 0.13164) ^ 2) + (-5.3761) * Real.exp (-((L - (-0.9623)) / 1.47828) ^ 2) + 16.1721 * Real.exp (-((L - (-3.2998)) / 3.4399) ^ 2) + 0.67849 * L + (-1.95537) ≤ 1.946 := by
  have t0 := gauss_ge (b := 1.82442) (c := (-0.55187)) 5.76 0.00239 hl hu (by norm_num) (by norm_num) (by norm_num) (by norm_num) (by norm_num)
  have t1 := gauss_le_left (b := 0.77564) (c := 0.19822) 0.741 0.47664 hu (by norm_num) (by norm_num) (by norm_num) (by norm_num) (by norm_num)
    (by norm_num [Finset.sum_range_succ, Nat.factorial])
  have t2 := gauss_le_left (b := 0.63773) (c := 0.13164) 0.061 0.94083 hu (by norm_num) (by norm_num) (by norm_num) (by norm_num) (by norm_num)
    (by norm_num [Finset.sum_range_succ, Nat.factorial])
  have t3 := gauss_ge (b := (-0.9623)) (c := 1.47828) 1.125 0.32142 hl hu (by norm_num) (by norm_num) (by norm_num) (by norm_num) (by norm_num)
  have t4 := gauss_le_right (b := (-3.2998)) (c := 3.4399) 1.22 0.29524 hl (by norm_num) (by norm_num) (by norm_num) (by norm_num) (by norm_num)
    (by norm_num [Finset.sum_range_succ, Nat.factorial])
  linarith

theorem rainAV_s3 {L : ℝ} (hl : 0.5 ≤ L) (hu : L ≤ 0.605) :
    (-0.07771) * Real.exp (-((L - 2.3384) / (-0.76284)) ^ 2) + 0.56727 * Real.exp (-((L - 0.95545) / 0.54039) ^ 2) + (-0.20238) * Real.exp (-((L - 1.1452) / 0.26809) ^ 2) + (-48.2991) * Real.exp (-((L - 0.791669) / 0.116226) ^ 2) + 48.5833 * Real.exp (-((L - 0.791459) / 0.116479) ^ 2) + (-0.053739) * L + 0.83433 ≤ 1.4 := by
  have t0 := gauss_ge (b := 2.3384) (c := (-0.76284)) 5.808 0.00226 hl hu (by norm_num) (by norm_num) (by norm_num) (by norm_num) (by norm_num)
  have t1 := gauss_le_left (b := 0.95545) (c := 0.54039) 0.42 0.65705 hu (by norm_num) (by norm_num) (by norm_num) (by norm_num) (by norm_num)
    (by norm_num [Finset.sum_range_succ, Nat.factorial])
  have t2 := gauss_ge (b := 1.1452) (c := 0.26809) 5.792 0.0023 hl hu (by norm_num) (by norm_num) (by norm_num) (by norm_num) (by norm_num)
  have t3 := gauss_le_left (b := 0.791669) (c := 0.116226) 2.579 0.0765 hu (by norm_num) (by norm_num) (by norm_num) (by norm_num) (by norm_num)
    (by norm_num [Finset.sum_range_succ, Nat.factorial])
  have t4 := rain_pair hl hu
  linarith

theorem rainKH_k1 {L : ℝ} (hl : 1.275 ≤ L) (hu : L ≤ 1.33) :
    (-5.3398) * Real.exp (-((L - (-0.10008)) / 1.13098) ^ 2) + (-0.35351) * Real.exp (-((L - 1.2697) / 0.454) ^ 2) + (-0.23789) * Real.exp (-((L - 0.86036) / 0.15354) ^ 2) + (-0.94158) * Real.exp (-((L - 0.64552) / 0.16817) ^ 2) + (-0.18961) * L + 0.71147 ≤ (-0.934) := by
  have t0 := gauss_ge (b := (-0.10008)) (c := 1.13098) 1.599 0.19803 hl hu (by norm_num) (by norm_num) (by norm_num) (by norm_num) (by norm_num)
  have t1 := gauss_ge (b := 1.2697) (c := 0.454) 0.018 0.98215 hl hu (by norm_num) (by norm_num) (by norm_num) (by norm_num) (by norm_num)
  have t2 := (Real.exp_pos (-((L - 0.86036) / 0.15354) ^ 2)).le
  have t3 := (Real.exp_pos (-((L - 0.64552) / 0.16817) ^ 2)).le
  linarith

theorem rainKV_k1 {L : ℝ} (hl : 1.275 ≤ L) (hu : L ≤ 1.33) :
    (-3.80595) * Real.exp (-((L - 0.56934) / 0.81061) ^ 2) + (-3.44965) * Real.exp (-((L - (-0.22911)) / 0.51059) ^ 2) + (-0.39902) * Real.exp (-((L - 0.73042) / 0.11899) ^ 2) + 0.50167 * Real.exp (-((L - 1.07319) / 0.27195) ^ 2) + (-0.16398) * L + 0.63297 ≤ (-0.854) := by
  have t0 := gauss_ge (b := 0.56934) (c := 0.81061) 0.881 0.41184 hl hu (by norm_num) (by norm_num) (by norm_num) (by norm_num) (by norm_num)
  have t1 := (Real.exp_pos (-((L - (-0.22911)) / 0.51059) ^ 2)).le
  have t2 := (Real.exp_pos (-((L - 0.73042) / 0.11899) ^ 2)).le
  have t3 := gauss_le_right (b := 1.07319) (c := 0.27195) 0.55 0.57695 hl (by norm_num) (by norm_num) (by norm_num) (by norm_num) (by norm_num)
    (by norm_num [Finset.sum_range_succ, Nat.factorial])
  linarith

theorem rainAH_k1 {L : ℝ} (hl : 1.275 ≤ L) (hu : L ≤ 1.33) :
    (-0.14318) * Real.exp (-((L - 1.82442) / (-0.55187)) ^ 2) + 0.29591 * Real.exp (-((L - 0.77564) / 0.19822) ^ 2) + 0.32177 * Real.exp (-((L - 0.63773) / 0.13164) ^ 2) + (-5.3761) * Real.exp (-((L - (-0.9623)) / 1.47828) ^ 2) + 16.1721 * Real.exp (-((L - (-3.2998)) / 3.4399) ^ 2) + 0.67849 * L + (-1.95537) ≤ 1.192 := by
  have t0 := gauss_ge (b := 1.82442) (c := (-0.55187)) 0.992 0.36796 hl hu (by norm_num) (by norm_num) (by norm_num) (by norm_num) (by norm_num)
  have t1 := gauss_le_right (b := 0.77564) (c := 0.19822) 6.346 0.00177 hl (by norm_num) (by norm_num) (by norm_num) (by norm_num) (by norm_num)
    (by norm_num [Finset.sum_range_succ, Nat.factorial])
  have t2 := gauss_le_right (b := 0.63773) (c := 0.13164) 23.435 0.00001 hl (by norm_num) (by norm_num) (by norm_num) (by norm_num) (by norm_num)
    (by norm_num [Finset.sum_range_succ, Nat.factorial])
  have t3 := gauss_ge (b := (-0.9623)) (c := 1.47828) 2.405 0.08617 hl hu (by norm_num) (by norm_num) (by norm_num) (by norm_num) (by norm_num)
  have t4 := gauss_le_right (b := (-3.2998)) (c := 3.4399) 1.768 0.17068 hl (by norm_num) (by norm_num) (by norm_num) (by norm_num) (by norm_num)
    (by norm_num [Finset.sum_range_succ, Nat.factorial])
  linarith

theorem rainAV_k1 {L : ℝ} (hl : 1.275 ≤ L) (hu : L ≤ 1.33) :
    (-0.07771) * Real.exp (-((L - 2.3384) / (-0.76284)) ^ 2) + 0.56727 * Real.exp (-((L - 0.95545) / 0.54039) ^ 2) + (-0.20238) * Real.exp (-((L - 1.1452) / 0.26809) ^ 2) + (-48.2991) * Real.exp (-((L - 0.791669) / 0.116226) ^ 2) + 48.5833 * Real.exp (-((L - 0.791459) / 0.116479) ^ 2) + (-0.053739) * L + 0.83433 ≤ 1.031 := by
  have t0 := gauss_ge (b := 2.3384) (c := (-0.76284)) 1.944 0.13888 hl hu (by norm_num) (by norm_num) (by norm_num) (by norm_num) (by norm_num)
  have t1 := gauss_le_right (b := 0.95545) (c := 0.54039) 0.349 0.7054 hl (by norm_num) (by norm_num) (by norm_num) (by norm_num) (by norm_num)
    (by norm_num [Finset.sum_range_succ, Nat.factorial])
  have t2 := gauss_ge (b := 1.1452) (c := 0.26809) 0.476 0.62015 hl hu (by norm_num) (by norm_num) (by norm_num) (by norm_num) (by norm_num)
  have t3 := (Real.exp_pos (-((L - 0.791669) / 0.116226) ^ 2)).le
  have t4 := gauss_le_right (b := 0.791459) (c := 0.116479) 17.233 0.00001 hl (by norm_num) (by norm_num) (by norm_num) (by norm_num) (by norm_num)
    (by norm_num [Finset.sum_range_succ, Nat.factorial])
  linarith

theorem rainKH_k2 {L : ℝ} (hl : 1.33 ≤ L) (hu : L ≤ 1.385) :
    (-5.3398) * Real.exp (-((L - (-0.10008)) / 1.13098) ^ 2) + (-0.35351) * Real.exp (-((L - 1.2697) / 0.454) ^ 2) + (-0.23789) * Real.exp (-((L - 0.86036) / 0.15354) ^ 2) + (-0.94158) * Real.exp (-((L - 0.64552) / 0.16817) ^ 2) + (-0.18961) * L + 0.71147 ≤ (-0.801) := by
  have t0 := gauss_ge (b := (-0.10008)) (c := 1.13098) 1.725 0.174 hl hu (by norm_num) (by norm_num) (by norm_num) (by norm_num) (by norm_num)
  have t1 := gauss_ge (b := 1.2697) (c := 0.454) 0.065 0.93703 hl hu (by norm_num) (by norm_num) (by norm_num) (by norm_num) (by norm_num)
  have t2 := (Real.exp_pos (-((L - 0.86036) / 0.15354) ^ 2)).le
  have t3 := (Real.exp_pos (-((L - 0.64552) / 0.16817) ^ 2)).le
  linarith

theorem rainKV_k2 {L : ℝ} (hl : 1.33 ≤ L) (hu : L ≤ 1.385) :
    (-3.80595) * Real.exp (-((L - 0.56934) / 0.81061) ^ 2) + (-3.44965) * Real.exp (-((L - (-0.22911)) / 0.51059) ^ 2) + (-0.39902) * Real.exp (-((L - 0.73042) / 0.11899) ^ 2) + 0.50167 * Real.exp (-((L - 1.07319) / 0.27195) ^ 2) + (-0.16398) * L + 0.63297 ≤ (-0.75) := by
  have t0 := gauss_ge (b := 0.56934) (c := 0.81061) 1.013 0.36019 hl hu (by norm_num) (by norm_num) (by norm_num) (by norm_num) (by norm_num)
  have t1 := (Real.exp_pos (-((L - (-0.22911)) / 0.51059) ^ 2)).le
  have t2 := (Real.exp_pos (-((L - 0.73042) / 0.11899) ^ 2)).le
  have t3 := gauss_le_right (b := 1.07319) (c := 0.27195) 0.891 0.41025 hl (by norm_num) (by norm_num) (by norm_num) (by norm_num) (by norm_num)
    (by norm_num [Finset.sum_range_succ, Nat.factorial])
  linarith

theorem rainAH_k2 {L : ℝ} (hl : 1.33 ≤ L) (hu : L ≤ 1.385) :
    (-0.14318) * Real.exp (-((L - 1.82442) / (-0.55187)) ^ 2) + 0.29591 * Real.exp (-((L - 0.77564) / 0.19822) ^ 2) + 0.32177 * Real.exp (-((L - 0.63773) / 0.13164) ^ 2) + (-5.3761) * Real.exp (-((L - (-0.9623)) / 1.47828) ^ 2) + 16.1721 * Real.exp (-((L - (-3.2998)) / 3.4399) ^ 2) + 0.67849 * L + (-1.95537) ≤ 1.155 := by
  have t0 := gauss_ge (b := 1.82442) (c := (-0.55187)) 0.803 0.44571 hl hu (by norm_num) (by norm_num) (by norm_num) (by norm_num) (by norm_num)
  have t1 := gauss_le_right (b := 0.77564) (c := 0.19822) 7.821 0.00042 hl (by norm_num) (by norm_num) (by norm_num) (by norm_num) (by norm_num)
    (by norm_num [Finset.sum_range_succ, Nat.factorial])
  have t2 := gauss_le_right (b := 0.63773) (c := 0.13164) 27.655 0.00001 hl (by norm_num) (by norm_num) (by norm_num) (by norm_num) (by norm_num)
    (by norm_num [Finset.sum_range_succ, Nat.factorial])
  have t3 := gauss_ge (b := (-0.9623)) (c := 1.47828) 2.522 0.0763 hl hu (by norm_num) (by norm_num) (by norm_num) (by norm_num) (by norm_num)
  have t4 := gauss_le_right (b := (-3.2998)) (c := 3.4399) 1.811 0.1635 hl (by norm_num) (by norm_num) (by norm_num) (by norm_num) (by norm_num)
    (by norm_num [Finset.sum_range_succ, Nat.factorial])
  linarith

theorem rainAV_k2 {L : ℝ} (hl : 1.33 ≤ L) (hu : L ≤ 1.385) :
    (-0.07771) * Real.exp (-((L - 2.3384) / (-0.76284)) ^ 2) + 0.56727 * Real.exp (-((L - 0.95545) / 0.54039) ^ 2) + (-0.20238) * Real.exp (-((L - 1.1452) / 0.26809) ^ 2) + (-48.2991) * Real.exp (-((L - 0.791669) / 0.116226) ^ 2) + 48.5833 * Real.exp (-((L - 0.791459) / 0.116479) ^ 2) + (-0.053739) * L + 0.83433 ≤ 1.011 := by
  have t0 := gauss_ge (b := 2.3384) (c := (-0.76284)) 1.748 0.16993 hl hu (by norm_num) (by norm_num) (by norm_num) (by norm_num) (by norm_num)
  have t1 := gauss_le_right (b := 0.95545) (c := 0.54039) 0.48 0.61879 hl (by norm_num) (by norm_num) (by norm_num) (by norm_num) (by norm_num)
    (by norm_num [Finset.sum_range_succ, Nat.factorial])
  have t2 := gauss_ge (b := 1.1452) (c := 0.26809) 0.801 0.44661 hl hu (by norm_num) (by norm_num) (by norm_num) (by norm_num) (by norm_num)
  have t3 := (Real.exp_pos (-((L - 0.791669) / 0.116226) ^ 2)).le
  have t4 := gauss_le_right (b := 0.791459) (c := 0.116479) 21.376 0.00001 hl (by norm_num) (by norm_num) (by norm_num) (by norm_num) (by norm_num)
    (by norm_num [Finset.sum_range_succ, Nat.factorial])
  linarith

theorem rainKH_k3 {L : ℝ} (hl : 1.385 ≤ L) (hu : L ≤ 1.44) :
    (-5.3398) * Real.exp (-((L - (-0.10008)) / 1.13098) ^ 2) + (-0.35351) * Real.exp (-((L - 1.2697) / 0.454) ^ 2) + (-0.23789) * Real.exp (-((L - 0.86036) / 0.15354) ^ 2) + (-0.94158) * Real.exp (-((L - 0.64552) / 0.16817) ^ 2) + (-0.18961) * L + 0.71147 ≤ (-0.67) := by
  have t0 := gauss_ge (b := (-0.10008)) (c := 1.13098) 1.855 0.15222 hl hu (by norm_num) (by norm_num) (by norm_num) (by norm_num) (by norm_num)
  have t1 := gauss_ge (b := 1.2697) (c := 0.454) 0.141 0.86835 hl hu (by norm_num) (by norm_num) (by norm_num) (by norm_num) (by norm_num)
  have t2 := (Real.exp_pos (-((L - 0.86036) / 0.15354) ^ 2)).le
  have t3 := (Real.exp_pos (-((L - 0.64552) / 0.16817) ^ 2)).le
  linarith

theorem rainKV_k3 {L : ℝ} (hl : 1.385 ≤ L) (hu : L ≤ 1.44) :
    (-3.80595) * Real.exp (-((L - 0.56934) / 0.81061) ^ 2) + (-3.44965) * Real.exp (-((L - (-0.22911)) / 0.51059) ^ 2) + (-0.39902) * Real.exp (-((L - 0.73042) / 0.11899) ^ 2) + 0.50167 * Real.exp (-((L - 1.07319) / 0.27195) ^ 2) + (-0.16398) * L + 0.63297 ≤ (-0.647) := by
  have t0 := gauss_ge (b := 0.56934) (c := 0.81061) 1.154 0.31206 hl hu (by norm_num) (by norm_num) (by norm_num) (by norm_num) (by norm_num)
  have t1 := (Real.exp_pos (-((L - (-0.22911)) / 0.51059) ^ 2)).le
  have t2 := (Real.exp_pos (-((L - 0.73042) / 0.11899) ^ 2)).le
  have t3 := gauss_le_right (b := 1.07319) (c := 0.27195) 1.314 0.26875 hl (by norm_num) (by norm_num) (by norm_num) (by norm_num) (by norm_num)
    (by norm_num [Finset.sum_range_succ, Nat.factorial])
  linarith

theorem rainAH_k3 {L : ℝ} (hl : 1.385 ≤ L) (hu : L ≤ 1.44) :
    (-0.14318) * Real.exp (-((L - 1.82442) / (-0.55187)) ^ 2) + 0.29591 * Real.exp (-((L - 0.77564) / 0.19822) ^ 2) + 0.32177 * Real.exp (-((L - 0.63773) / 0.13164) ^ 2) + (-5.3761) * Real.exp (-((L - (-0.9623)) / 1.47828) ^ 2) + 16.1721 * Real.exp (-((L - (-3.2998)) / 3.4399) ^ 2) + 0.67849 * L + (-1.95537) ≤ 1.117 := by
  have t0 := gauss_ge (b := 1.82442) (c := (-0.55187)) 0.634 0.52879 hl hu (by norm_num) (by norm_num) (by norm_num) (by norm_num) (by norm_num)
  have t1 := gauss_le_right (b := 0.77564) (c := 0.19822) 9.45 0.00009 hl (by norm_num) (by norm_num) (by norm_num) (by norm_num) (by norm_num)
    (by norm_num [Finset.sum_range_succ, Nat.factorial])
  have t2 := gauss_le_right (b := 0.63773) (c := 0.13164) 32.223 0.00001 hl (by norm_num) (by norm_num) (by norm_num) (by norm_num) (by norm_num)
    (by norm_num [Finset.sum_range_succ, Nat.factorial])
  have t3 := gauss_ge (b := (-0.9623)) (c := 1.47828) 2.641 0.0674 hl hu (by norm_num) (by norm_num) (by norm_num) (by norm_num) (by norm_num)
  have t4 := gauss_le_right (b := (-3.2998)) (c := 3.4399) 1.854 0.15661 hl (by norm_num) (by norm_num) (by norm_num) (by norm_num) (by norm_num)
    (by norm_num [Finset.sum_range_succ, Nat.factorial])
  linarith

theorem rainAV_k3 {L : ℝ} (hl : 1.385 ≤ L) (hu : L ≤ 1.44) :
    (-0.07771) * Real.exp (-((L - 2.3384) / (-0.76284)) ^ 2) + 0.56727 * Real.exp (-((L - 0.95545) / 0.54039) ^ 2) + (-0.20238) * Real.exp (-((L - 1.1452) / 0.26809) ^ 2) + (-48.2991) * Real.exp (-((L - 0.791669) / 0.116226) ^ 2) + 48.5833 * Real.exp (-((L - 0.791459) / 0.116479) ^ 2) + (-0.053739) * L + 0.83433 ≤ 0.987 := by
  have t0 := gauss_ge (b := 2.3384) (c := (-0.76284)) 1.563 0.20548 hl hu (by norm_num) (by norm_num) (by norm_num) (by norm_num) (by norm_num)
  have t1 := gauss_le_right (b := 0.95545) (c := 0.54039) 0.631 0.53206 hl (by norm_num) (by norm_num) (by norm_num) (by norm_num) (by norm_num)
    (by norm_num [Finset.sum_range_succ, Nat.factorial])
  have t2 := gauss_ge (b := 1.1452) (c := 0.26809) 1.21 0.29476 hl hu (by norm_num) (by norm_num) (by norm_num) (by norm_num) (by norm_num)
  have t3 := (Real.exp_pos (-((L - 0.791669) / 0.116226) ^ 2)).le
  have t4 := gauss_le_right (b := 0.791459) (c := 0.116479) 25.966 0.00001 hl (by norm_num) (by norm_num) (by norm_num) (by norm_num) (by norm_num)
    (by norm_num [Finset.sum_range_succ, Nat.factorial])
  linarith

theorem rainKH_k4 {L : ℝ} (hl : 1.44 ≤ L) (hu : L ≤ 1.495) :
    (-5.3398) * Real.exp (-((L - (-0.10008)) / 1.13098) ^ 2) + (-0.35351) * Real.exp (-((L - 1.2697) / 0.454) ^ 2) + (-0.23789) * Real.exp (-((L - 0.86036) / 0.15354) ^ 2) + (-0.94158) * Real.exp (-((L - 0.64552) / 0.16817) ^ 2) + (-0.18961) * L + 0.71147 ≤ (-0.544) := by
  have t0 := gauss_ge (b := (-0.10008)) (c := 1.13098) 1.99 0.13244 hl hu (by norm_num) (by norm_num) (by norm_num) (by norm_num) (by norm_num)
  have t1 := gauss_ge (b := 1.2697) (c := 0.454) 0.247 0.78076 hl hu (by norm_num) (by norm_num) (by norm_num) (by norm_num) (by norm_num)
  have t2 := (Real.exp_pos (-((L - 0.86036) / 0.15354) ^ 2)).le
  have t3 := (Real.exp_pos (-((L - 0.64552) / 0.16817) ^ 2)).le
  linarith

theorem rainKV_k4 {L : ℝ} (hl : 1.44 ≤ L) (hu : L ≤ 1.495) :
    (-3.80595) * Real.exp (-((L - 0.56934) / 0.81061) ^ 2) + (-3.44965) * Real.exp (-((L - (-0.22911)) / 0.51059) ^ 2) + (-0.39902) * Real.exp (-((L - 0.73042) / 0.11899) ^ 2) + 0.50167 * Real.exp (-((L - 1.07319) / 0.27195) ^ 2) + (-0.16398) * L + 0.63297 ≤ (-0.54) := by
  have t0 := gauss_ge (b := 0.56934) (c := 0.81061) 1.305 0.26753 hl hu (by norm_num) (by norm_num) (by norm_num) (by norm_num) (by norm_num)
  have t1 := (Real.exp_pos (-((L - (-0.22911)) / 0.51059) ^ 2)).le
  have t2 := (Real.exp_pos (-((L - 0.73042) / 0.11899) ^ 2)).le
  have t3 := gauss_le_right (b := 1.07319) (c := 0.27195) 1.819 0.16219 hl (by norm_num) (by norm_num) (by norm_num) (by norm_num) (by norm_num)
    (by norm_num [Finset.sum_range_succ, Nat.factorial])
  linarith

theorem rainAH_k4 {L : ℝ} (hl : 1.44 ≤ L) (hu : L ≤ 1.495) :
    (-0.14318) * Real.exp (-((L - 1.82442) / (-0.55187)) ^ 2) + 0.29591 * Real.exp (-((L - 0.77564) / 0.19822) ^ 2) + 0.32177 * Real.exp (-((L - 0.63773) / 0.13164) ^ 2) + (-5.3761) * Real.exp (-((L - (-0.9623)) / 1.47828) ^ 2) + 16.1721 * Real.exp (-((L - (-3.2998)) / 3.4399) ^ 2) + 0.67849 * L + (-1.95537) ≤ 1.077 := by
  have t0 := gauss_ge (b := 1.82442) (c := (-0.55187)) 0.486 0.61394 hl hu (by norm_num) (by norm_num) (by norm_num) (by norm_num) (by norm_num)
  have t1 := gauss_le_right (b := 0.77564) (c := 0.19822) 11.233 0.00002 hl (by norm_num) (by norm_num) (by norm_num) (by norm_num) (by norm_num)
    (by norm_num [Finset.sum_range_succ, Nat.factorial])
  have t2 := gauss_le_right (b := 0.63773) (c := 0.13164) 37.142 0.00001 hl (by norm_num) (by norm_num) (by norm_num) (by norm_num) (by norm_num)
    (by norm_num [Finset.sum_range_succ, Nat.factorial])
  have t3 := gauss_ge (b := (-0.9623)) (c := 1.47828) 2.764 0.05928 hl hu (by norm_num) (by norm_num) (by norm_num) (by norm_num) (by norm_num)
  have t4 := gauss_le_right (b := (-3.2998)) (c := 3.4399) 1.898 0.14987 hl (by norm_num) (by norm_num) (by norm_num) (by norm_num) (by norm_num)
    (by norm_num [Finset.sum_range_succ, Nat.factorial])
  linarith

theorem rainAV_k4 {L : ℝ} (hl : 1.44 ≤ L) (hu : L ≤ 1.495) :
    (-0.07771) * Real.exp (-((L - 2.3384) / (-0.76284)) ^ 2) + 0.56727 * Real.exp (-((L - 0.95545) / 0.54039) ^ 2) + (-0.20238) * Real.exp (-((L - 1.1452) / 0.26809) ^ 2) + (-48.2991) * Real.exp (-((L - 0.791669) / 0.116226) ^ 2) + 48.5833 * Real.exp (-((L - 0.791459) / 0.116479) ^ 2) + (-0.053739) * L + 0.83433 ≤ 0.957 := by
  have t0 := gauss_ge (b := 2.3384) (c := (-0.76284)) 1.387 0.24604 hl hu (by norm_num) (by norm_num) (by norm_num) (by norm_num) (by norm_num)
  have t1 := gauss_le_right (b := 0.95545) (c := 0.54039) 0.804 0.44754 hl (by norm_num) (by norm_num) (by norm_num) (by norm_num) (by norm_num)
    (by norm_num [Finset.sum_range_succ, Nat.factorial])
  have t2 := gauss_ge (b := 1.1452) (c := 0.26809) 1.703 0.17798 hl hu (by norm_num) (by norm_num) (by norm_num) (by norm_num) (by norm_num)
  have t3 := (Real.exp_pos (-((L - 0.791669) / 0.116226) ^ 2)).le
  have t4 := gauss_le_right (b := 0.791459) (c := 0.116479) 31.001 0.00001 hl (by norm_num) (by norm_num) (by norm_num) (by norm_num) (by norm_num)
    (by norm_num [Finset.sum_range_succ, Nat.factorial])
  linarith

theorem rainKH_k5 {L : ℝ} (hl : 1.495 ≤ L) (hu : L ≤ 1.55) :
    (-5.3398) * Real.exp (-((L - (-0.10008)) / 1.13098) ^ 2) + (-0.35351) * Real.exp (-((L - 1.2697) / 0.454) ^ 2) + (-0.23789) * Real.exp (-((L - 0.86036) / 0.15354) ^ 2) + (-0.94158) * Real.exp (-((L - 0.64552) / 0.16817) ^ 2) + (-0.18961) * L + 0.71147 ≤ (-0.425) := by
  have t0 := gauss_ge (b := (-0.10008)) (c := 1.13098) 2.129 0.11472 hl hu (by norm_num) (by norm_num) (by norm_num) (by norm_num) (by norm_num)
  have t1 := gauss_ge (b := 1.2697) (c := 0.454) 0.382 0.68171 hl hu (by norm_num) (by norm_num) (by norm_num) (by norm_num) (by norm_num)
  have t2 := (Real.exp_pos (-((L - 0.86036) / 0.15354) ^ 2)).le
  have t3 := (Real.exp_pos (-((L - 0.64552) / 0.16817) ^ 2)).le
  linarith

theorem rainKV_k5 {L : ℝ} (hl : 1.495 ≤ L) (hu : L ≤ 1.55) :
    (-3.80595) * Real.exp (-((L - 0.56934) / 0.81061) ^ 2) + (-3.44965) * Real.exp (-((L - (-0.22911)) / 0.51059) ^ 2) + (-0.39902) * Real.exp (-((L - 0.73042) / 0.11899) ^ 2) + 0.50167 * Real.exp (-((L - 1.07319) / 0.27195) ^ 2) + (-0.16398) * L + 0.63297 ≤ (-0.432) := by
  have t0 := gauss_ge (b := 0.56934) (c := 0.81061) 1.464 0.2274 hl hu (by norm_num) (by norm_num) (by norm_num) (by norm_num) (by norm_num)
  have t1 := (Real.exp_pos (-((L - (-0.22911)) / 0.51059) ^ 2)).le
  have t2 := (Real.exp_pos (-((L - 0.73042) / 0.11899) ^ 2)).le
  have t3 := gauss_le_right (b := 1.07319) (c := 0.27195) 2.405 0.09027 hl (by norm_num) (by norm_num) (by norm_num) (by norm_num) (by norm_num)
    (by norm_num [Finset.sum_range_succ, Nat.factorial])
  linarith

theorem rainAH_k5 {L : ℝ} (hl : 1.495 ≤ L) (hu : L ≤ 1.55) :
    (-0.14318) * Real.exp (-((L - 1.82442) / (-0.55187)) ^ 2) + 0.29591 * Real.exp (-((L - 0.77564) / 0.19822) ^ 2) + 0.32177 * Real.exp (-((L - 0.63773) / 0.13164) ^ 2) + (-5.3761) * Real.exp (-((L - (-0.9623)) / 1.47828) ^ 2) + 16.1721 * Real.exp (-((L - (-3.2998)) / 3.4399) ^ 2) + 0.67849 * L + (-1.95537) ≤ 1.036 := by
  have t0 := gauss_ge (b := 1.82442) (c := (-0.55187)) 0.357 0.69907 hl hu (by norm_num) (by norm_num) (by norm_num) (by norm_num) (by norm_num)
  have t1 := gauss_le_right (b := 0.77564) (c := 0.19822) 13.17 0.00001 hl (by norm_num) (by norm_num) (by norm_num) (by norm_num) (by norm_num)
    (by norm_num [Finset.sum_range_succ, Nat.factorial])
  have t2 := gauss_le_right (b := 0.63773) (c := 0.13164) 42.409 0.00001 hl (by norm_num) (by norm_num) (by norm_num) (by norm_num) (by norm_num)
    (by norm_num [Finset.sum_range_succ, Nat.factorial])
  have t3 := gauss_ge (b := (-0.9623)) (c := 1.47828) 2.889 0.05201 hl hu (by norm_num) (by norm_num) (by norm_num) (by norm_num) (by norm_num)
  have t4 := gauss_le_right (b := (-3.2998)) (c := 3.4399) 1.942 0.14342 hl (by norm_num) (by norm_num) (by norm_num) (by norm_num) (by norm_num)
    (by norm_num [Finset.sum_range_succ, Nat.factorial])
  linarith

theorem rainAV_k5 {L : ℝ} (hl : 1.495 ≤ L) (hu : L ≤ 1.55) :
    (-0.07771) * Real.exp (-((L - 2.3384) / (-0.76284)) ^ 2) + 0.56727 * Real.exp (-((L - 0.95545) / 0.54039) ^ 2) + (-0.20238) * Real.exp (-((L - 1.1452) / 0.26809) ^ 2) + (-48.2991) * Real.exp (-((L - 0.791669) / 0.116226) ^ 2) + 48.5833 * Real.exp (-((L - 0.791459) / 0.116479) ^ 2) + (-0.053739) * L + 0.83433 ≤ 0.922 := by
  have t0 := gauss_ge (b := 2.3384) (c := (-0.76284)) 1.223 0.29088 hl hu (by norm_num) (by norm_num) (by norm_num) (by norm_num) (by norm_num)
  have t1 := gauss_le_right (b := 0.95545) (c := 0.54039) 0.996 0.36936 hl (by norm_num) (by norm_num) (by norm_num) (by norm_num) (by norm_num)
    (by norm_num [Finset.sum_range_succ, Nat.factorial])
  have t2 := gauss_ge (b := 1.1452) (c := 0.26809) 2.28 0.09811 hl hu (by norm_num) (by norm_num) (by norm_num) (by norm_num) (by norm_num)
  have t3 := (Real.exp_pos (-((L - 0.791669) / 0.116226) ^ 2)).le
  have t4 := gauss_le_right (b := 0.791459) (c := 0.116479) 36.482 0.00001 hl (by norm_num) (by norm_num) (by norm_num) (by norm_num) (by norm_num)
    (by norm_num [Finset.sum_range_succ, Nat.factorial])
  linarith

theorem rainKH_k6 {L : ℝ} (hl : 1.55 ≤ L) (hu : L ≤ 1.605) :
    (-5.3398) * Real.exp (-((L - (-0.10008)) / 1.13098) ^ 2) + (-0.35351) * Real.exp (-((L - 1.2697) / 0.454) ^ 2) + (-0.23789) * Real.exp (-((L - 0.86036) / 0.15354) ^ 2) + (-0.94158) * Real.exp (-((L - 0.64552) / 0.16817) ^ 2) + (-0.18961) * L + 0.71147 ≤ (-0.314) := by
  have t0 := gauss_ge (b := (-0.10008)) (c := 1.13098) 2.273 0.09883 hl hu (by norm_num) (by norm_num) (by norm_num) (by norm_num) (by norm_num)
  have t1 := gauss_ge (b := 1.2697) (c := 0.454) 0.546 0.5779 hl hu (by norm_num) (by norm_num) (by norm_num) (by norm_num) (by norm_num)
  have t2 := (Real.exp_pos (-((L - 0.86036) / 0.15354) ^ 2)).le
  have t3 := (Real.exp_pos (-((L - 0.64552) / 0.16817) ^ 2)).le
  linarith

theorem rainKV_k6 {L : ℝ} (hl : 1.55 ≤ L) (hu : L ≤ 1.605) :
    (-3.80595) * Real.exp (-((L - 0.56934) / 0.81061) ^ 2) + (-3.44965) * Real.exp (-((L - (-0.22911)) / 0.51059) ^ 2) + (-0.39902) * Real.exp (-((L - 0.73042) / 0.11899) ^ 2) + 0.50167 * Real.exp (-((L - 1.07319) / 0.27195) ^ 2) + (-0.16398) * L + 0.63297 ≤ (-0.325) := by
  have t0 := gauss_ge (b := 0.56934) (c := 0.81061) 1.633 0.19124 hl hu (by norm_num) (by norm_num) (by norm_num) (by norm_num) (by norm_num)
  have t1 := (Real.exp_pos (-((L - (-0.22911)) / 0.51059) ^ 2)).le
  have t2 := (Real.exp_pos (-((L - 0.73042) / 0.11899) ^ 2)).le
  have t3 := gauss_le_right (b := 1.07319) (c := 0.27195) 3.074 0.04624 hl (by norm_num) (by norm_num) (by norm_num) (by norm_num) (by norm_num)
    (by norm_num [Finset.sum_range_succ, Nat.factorial])
  linarith

theorem rainAH_k6 {L : ℝ} (hl : 1.55 ≤ L) (hu : L ≤ 1.605) :
    (-0.14318) * Real.exp (-((L - 1.82442) / (-0.55187)) ^ 2) + 0.29591 * Real.exp (-((L - 0.77564) / 0.19822) ^ 2) + 0.32177 * Real.exp (-((L - 0.63773) / 0.13164) ^ 2) + (-5.3761) * Real.exp (-((L - (-0.9623)) / 1.47828) ^ 2) + 16.1721 * Real.exp (-((L - (-3.2998)) / 3.4399) ^ 2) + 0.67849 * L + (-1.95537) ≤ 0.995 := by
  have t0 := gauss_ge (b := 1.82442) (c := (-0.55187)) 0.248 0.77998 hl hu (by norm_num) (by norm_num) (by norm_num) (by norm_num) (by norm_num)
  have t1 := gauss_le_right (b := 0.77564) (c := 0.19822) 15.261 0.00001 hl (by norm_num) (by norm_num) (by norm_num) (by norm_num) (by norm_num)
    (by norm_num [Finset.sum_range_succ, Nat.factorial])
  have t2 := gauss_le_right (b := 0.63773) (c := 0.13164) 48.025 0.00001 hl (by norm_num) (by norm_num) (by norm_num) (by norm_num) (by norm_num)
    (by norm_num [Finset.sum_range_succ, Nat.factorial])
  have t3 := gauss_ge (b := (-0.9623)) (c := 1.47828) 3.017 0.04548 hl hu (by norm_num) (by norm_num) (by norm_num) (by norm_num) (by norm_num)
  have t4 := gauss_le_right (b := (-3.2998)) (c := 3.4399) 1.987 0.13711 hl (by norm_num) (by norm_num) (by norm_num) (by norm_num) (by norm_num)
    (by norm_num [Finset.sum_range_succ, Nat.factorial])
  linarith

theorem rainAV_k6 {L : ℝ} (hl : 1.55 ≤ L) (hu : L ≤ 1.605) :
    (-0.07771) * Real.exp (-((L - 2.3384) / (-0.76284)) ^ 2) + 0.56727 * Real.exp (-((L - 0.95545) / 0.54039) ^ 2) + (-0.20238) * Real.exp (-((L - 1.1452) / 0.26809) ^ 2) + (-48.2991) * Real.exp (-((L - 0.791669) / 0.116226) ^ 2) + 48.5833 * Real.exp (-((L - 0.791459) / 0.116479) ^ 2) + (-0.053739) * L + 0.83433 ≤ 0.885 := by
  have t0 := gauss_ge (b := 2.3384) (c := (-0.76284)) 1.069 0.34026 hl hu (by norm_num) (by norm_num) (by norm_num) (by norm_num) (by norm_num)
  have t1 := gauss_le_right (b := 0.95545) (c := 0.54039) 1.21 0.2982 hl (by norm_num) (by norm_num) (by norm_num) (by norm_num) (by norm_num)
    (by norm_num [Finset.sum_range_succ, Nat.factorial])
  have t2 := gauss_ge (b := 1.1452) (c := 0.26809) 2.942 0.0492 hl hu (by norm_num) (by norm_num) (by norm_num) (by norm_num) (by norm_num)
  have t3 := (Real.exp_pos (-((L - 0.791669) / 0.116226) ^ 2)).le
  have t4 := gauss_le_right (b := 0.791459) (c := 0.116479) 42.409 0.00001 hl (by norm_num) (by norm_num) (by norm_num) (by norm_num) (by norm_num)
    (by norm_num [Finset.sum_range_succ, Nat.factorial])
  linarith

theorem kh_eq (f : ℝ) : p838KH f = (10 : ℝ) ^ ((-5.3398) * Real.exp (-((Real.logb 10 f - (-0.10008)) / 1.13098) ^ 2) + (-0.35351) * Real.exp (-((Real.logb 10 f - 1.2697) / 0.454) ^ 2) + (-0.23789) * Real.exp (-((Real.logb 10 f - 0.86036) / 0.15354) ^ 2) + (-0.94158) * Real.exp (-((Real.logb 10 f - 0.64552) / 0.16817) ^ 2) + (-0.18961) * Real.logb 10 f + 0.71147) := by
  unfold p838KH p838Curve
  congr 1
  simp only [Fin.sum_univ_four, Matrix.cons_val]
  norm_num

theorem kv_eq (f : ℝ) : p838KV f = (10 : ℝ) ^ ((-3.80595) * Real.exp (-((Real.logb 10 f - 0.56934) / 0.81061) ^ 2) + (-3.44965) * Real.exp (-((Real.logb 10 f - (-0.22911)) / 0.51059) ^ 2) + (-0.39902) * Real.exp (-((Real.logb 10 f - 0.73042) / 0.11899) ^ 2) + 0.50167 * Real.exp (-((Real.logb 10 f - 1.07319) / 0.27195) ^ 2) + (-0.16398) * Real.logb 10 f + 0.63297) := by
  unfold p838KV p838Curve
  congr 1
  simp only [Fin.sum_univ_four, Matrix.cons_val]


theorem ah_eq (f : ℝ) : p838AH f = (-0.14318) * Real.exp (-((Real.logb 10 f - 1.82442) / (-0.55187)) ^ 2) + 0.29591 * Real.exp (-((Real.logb 10 f - 0.77564) / 0.19822) ^ 2) + 0.32177 * Real.exp (-((Real.logb 10 f - 0.63773) / 0.13164) ^ 2) + (-5.3761) * Real.exp (-((Real.logb 10 f - (-0.9623)) / 1.47828) ^ 2) + 16.1721 * Real.exp (-((Real.logb 10 f - (-3.2998)) / 3.4399) ^ 2) + 0.67849 * Real.logb 10 f + (-1.95537) := by
  unfold p838AH p838Curve
  
  simp only [Fin.sum_univ_five, Matrix.cons_val]
  norm_num

theorem av_eq (f : ℝ) : p838AV f = (-0.07771) * Real.exp (-((Real.logb 10 f - 2.3384) / (-0.76284)) ^ 2) + 0.56727 * Real.exp (-((Real.logb 10 f - 0.95545) / 0.54039) ^ 2) + (-0.20238) * Real.exp (-((Real.logb 10 f - 1.1452) / 0.26809) ^ 2) + (-48.2991) * Real.exp (-((Real.logb 10 f - 0.791669) / 0.116226) ^ 2) + 48.5833 * Real.exp (-((Real.logb 10 f - 0.791459) / 0.116479) ^ 2) + (-0.053739) * Real.logb 10 f + 0.83433 := by
  unfold p838AV p838Curve
  
  simp only [Fin.sum_univ_five, Matrix.cons_val]
  norm_num

theorem p838_s1 {f : ℝ} (hf : 0 < f) (hl : 0.275 ≤ Real.logb 10 f) (hu : Real.logb 10 f ≤ 0.4) : p838 f 40 < 0.7 * f :=
  p838_le (-3.487) 1.55 hf hl (by norm_num) (kh_eq f) (kv_eq f) (ah_eq f) (av_eq f) ((rainKH_s1 hl hu).trans (by norm_num))
    ((rainKV_s1 hl hu).trans (by norm_num)) ((rainAH_s1 hl hu).trans (by norm_num)) ((rainAV_s1 hl hu).trans (by norm_num)) (by norm_num)

theorem p838_s2 {f : ℝ} (hf : 0 < f) (hl : 0.4 ≤ Real.logb 10 f) (hu : Real.logb 10 f ≤ 0.5) : p838 f 40 < 0.7 * f :=
  p838_le (-3.502) 1.621 hf hl (by norm_num) (kh_eq f) (kv_eq f) (ah_eq f) (av_eq f) ((rainKH_s2 hl hu).trans (by norm_num))
    ((rainKV_s2 hl hu).trans (by norm_num)) ((rainAH_s2 hl hu).trans (by norm_num)) ((rainAV_s2 hl hu).trans (by norm_num)) (by norm_num)

theorem p838_s3 {f : ℝ} (hf : 0 < f) (hl : 0.5 ≤ Real.logb 10 f) (hu : Real.logb 10 f ≤ 0.605) : p838 f 40 < 0.7 * f :=
  p838_le (-3.432) 1.946 hf hl (by norm_num) (kh_eq f) (kv_eq f) (ah_eq f) (av_eq f) ((rainKH_s3 hl hu).trans (by norm_num))
    ((rainKV_s3 hl hu).trans (by norm_num)) ((rainAH_s3 hl hu).trans (by norm_num)) ((rainAV_s3 hl hu).trans (by norm_num)) (by norm_num)

theorem p838_k1 {f : ℝ} (hf : 0 < f) (hl : 1.275 ≤ Real.logb 10 f) (hu : Real.logb 10 f ≤ 1.33) : p838 f 40 < 0.7 * f :=
  p838_le (-0.854) 1.192 hf hl (by norm_num) (kh_eq f) (kv_eq f) (ah_eq f) (av_eq f) ((rainKH_k1 hl hu).trans (by norm_num))
    ((rainKV_k1 hl hu).trans (by norm_num)) ((rainAH_k1 hl hu).trans (by norm_num)) ((rainAV_k1 hl hu).trans (by norm_num)) (by norm_num)

theorem p838_k2 {f : ℝ} (hf : 0 < f) (hl : 1.33 ≤ Real.logb 10 f) (hu : Real.logb 10 f ≤ 1.385) : p838 f 40 < 0.7 * f :=
  p838_le (-0.75) 1.155 hf hl (by norm_num) (kh_eq f) (kv_eq f) (ah_eq f) (av_eq f) ((rainKH_k2 hl hu).trans (by norm_num))
    ((rainKV_k2 hl hu).trans (by norm_num)) ((rainAH_k2 hl hu).trans (by norm_num)) ((rainAV_k2 hl hu).trans (by norm_num)) (by norm_num)

theorem p838_k3 {f : ℝ} (hf : 0 < f) (hl : 1.385 ≤ Real.logb 10 f) (hu : Real.logb 10 f ≤ 1.44) : p838 f 40 < 0.7 * f :=
  p838_le (-0.647) 1.117 hf hl (by norm_num) (kh_eq f) (kv_eq f) (ah_eq f) (av_eq f) ((rainKH_k3 hl hu).trans (by norm_num))
    ((rainKV_k3 hl hu).trans (by norm_num)) ((rainAH_k3 hl hu).trans (by norm_num)) ((rainAV_k3 hl hu).trans (by norm_num)) (by norm_num)

theorem p838_k4 {f : ℝ} (hf : 0 < f) (hl : 1.44 ≤ Real.logb 10 f) (hu : Real.logb 10 f ≤ 1.495) : p838 f 40 < 0.7 * f :=
  p838_le (-0.54) 1.077 hf hl (by norm_num) (kh_eq f) (kv_eq f) (ah_eq f) (av_eq f) ((rainKH_k4 hl hu).trans (by norm_num))
    ((rainKV_k4 hl hu).trans (by norm_num)) ((rainAH_k4 hl hu).trans (by norm_num)) ((rainAV_k4 hl hu).trans (by norm_num)) (by norm_num)

theorem p838_k5 {f : ℝ} (hf : 0 < f) (hl : 1.495 ≤ Real.logb 10 f) (hu : Real.logb 10 f ≤ 1.55) : p838 f 40 < 0.7 * f :=
  p838_le (-0.425) 1.036 hf hl (by norm_num) (kh_eq f) (kv_eq f) (ah_eq f) (av_eq f) ((rainKH_k5 hl hu).trans (by norm_num))
    ((rainKV_k5 hl hu).trans (by norm_num)) ((rainAH_k5 hl hu).trans (by norm_num)) ((rainAV_k5 hl hu).trans (by norm_num)) (by norm_num)

theorem p838_k6 {f : ℝ} (hf : 0 < f) (hl : 1.55 ≤ Real.logb 10 f) (hu : Real.logb 10 f ≤ 1.605) : p838 f 40 < 0.7 * f :=
  p838_le (-0.314) 0.995 hf hl (by norm_num) (kh_eq f) (kv_eq f) (ah_eq f) (av_eq f) ((rainKH_k6 hl hu).trans (by norm_num))
    ((rainKV_k6 hl hu).trans (by norm_num)) ((rainAH_k6 hl hu).trans (by norm_num)) ((rainAV_k6 hl hu).trans (by norm_num)) (by norm_num)

theorem logb_band_bounds {f : ℝ} (hf : 0 < f) {p q n : ℕ} (hn : 0 < n) {lo hi : ℝ} (h1 : lo ≤ f) (h2 : f ≤ hi) (h0 : 0 < lo) (hp : (10 : ℝ) ^ p ≤ lo ^ n)
    (hq : hi ^ n ≤ (10 : ℝ) ^ q) : (p : ℝ) / n ≤ Real.logb 10 f ∧ Real.logb 10 f ≤ (q : ℝ) / n := by
  have hn' : (0 : ℝ) < n := by exact_mod_cast hn
  have e : Real.logb 10 f * n = Real.logb 10 (f ^ n) := by rw [Real.logb_pow]; ring
  constructor
  · rw [div_le_iff₀ hn', e, Real.le_logb_iff_rpow_le (by norm_num) (by positivity), Real.rpow_natCast]
    exact hp.trans (by gcongr)
  · rw [le_div_iff₀ hn', e, Real.logb_le_iff_le_rpow (by norm_num) (by positivity), Real.rpow_natCast]
    exact le_trans (by gcongr) hq

/-- In the accepted bands the specific attenuation at 40 mm/h is less than 0.7 dB/km for every GHz. -/
theorem p838_band {fc : ℝ} (h : SBand fc ∨ KaBand fc) : p838 (fc / 10 ^ 9) 40 < 0.7 * (fc / 10 ^ 9) := by
  rcases h with ⟨h1, h2⟩ | ⟨h1, h2⟩
  · have hf : 0 < fc / 10 ^ 9 := by positivity
    have g1 : (1.9 : ℝ) ≤ fc / 10 ^ 9 := by rw [le_div_iff₀ (by norm_num)]; norm_num; linarith
    have g2 : fc / 10 ^ 9 ≤ (4 : ℝ) := by rw [div_le_iff₀ (by norm_num)]; norm_num; linarith
    obtain ⟨b1, b2⟩ := logb_band_bounds hf (p := 55) (q := 121) (n := 200) (by norm_num) g1 g2 (by norm_num) (by norm_num) (by norm_num)
    norm_num at b1 b2
    rcases le_total (Real.logb 10 (fc / 10 ^ 9)) 0.4 with c1 | c1
    · exact p838_s1 hf (by norm_num; linarith) c1
    rcases le_total (Real.logb 10 (fc / 10 ^ 9)) 0.5 with c2 | c2
    · exact p838_s2 hf c1 c2
    exact p838_s3 hf c2 (by norm_num; linarith)
  · have hf : 0 < fc / 10 ^ 9 := by positivity
    have g1 : (19 : ℝ) ≤ fc / 10 ^ 9 := by rw [le_div_iff₀ (by norm_num)]; norm_num; linarith
    have g2 : fc / 10 ^ 9 ≤ (40 : ℝ) := by rw [div_le_iff₀ (by norm_num)]; norm_num; linarith
    obtain ⟨b1, b2⟩ := logb_band_bounds hf (p := 255) (q := 321) (n := 200) (by norm_num) g1 g2 (by norm_num) (by norm_num)
      (by rw [show (321 : ℕ) = 160 + 161 by norm_num, pow_add]; norm_num)
    norm_num at b1 b2
    rcases le_total (Real.logb 10 (fc / 10 ^ 9)) 1.33 with c1 | c1
    · exact p838_k1 hf (by norm_num; linarith) c1
    rcases le_total (Real.logb 10 (fc / 10 ^ 9)) 1.385 with c2 | c2
    · exact p838_k2 hf c1 c2
    rcases le_total (Real.logb 10 (fc / 10 ^ 9)) 1.44 with c3 | c3
    · exact p838_k3 hf c2 c3
    rcases le_total (Real.logb 10 (fc / 10 ^ 9)) 1.495 with c4 | c4
    · exact p838_k4 hf c3 c4
    rcases le_total (Real.logb 10 (fc / 10 ^ 9)) 1.55 with c5 | c5
    · exact p838_k5 hf c4 c5
    exact p838_k6 hf c5 (by norm_num; linarith)

variable {B N U : ℕ} [NeZero B] {cls : ScenarioClass} {sa : ScenarioArgs} {c : Config} {log : List (TopoCall B N U)} {s : TopoState B N U}

/-- C130, how far it fails: below 90 degrees elevation, at latitudes from -90 to 89 degrees and in every atmosphere with clouds and a temperature
between 216 and 400 K, the cloud and rain loss can be computed neither in the uplink nor in the downlink of satellites above the rain height, for any
carrier frequency, scenario or history of calls. -/
theorem C130_never (h : mkScenario cls sa = .ok c) (r : TopoReach c log s) (hr : Relocated log) (h90 : sa.elevationAngle < 90)
    {t lat lwc : ℝ} (ht : s.getTemperature = .ok t) (h1 : 216 ≤ t) (h2 : t ≤ 400) (hlat : s.getLatitude = .ok lat) (hl0 : -90 ≤ lat) (hl : lat ≤ 89)
    (hw : s.getLwc = .ok lwc) (hw0 : 0 < lwc) (hbs : ∀ bs, s.getBsLoc = some bs → ∀ b n, 5 - 0.075 * (lat - 23) < (bs b n).z) :
    ¬ Readable (additionalLoss c s) := by
  obtain ⟨hd, hu⟩ := C130_additional_partial h r hr h90 ht h1 h2 hlat hl hw hw0
  have hb := mkScenario_built h
  rcases hb.dir_ok with e | e
  · obtain ⟨hiff, -⟩ := hu e
    rw [hiff, not_le]
    obtain ⟨t1, t2, -, t4⟩ := rain_trig hb.el_lo h90
    have hγ := p838_band hb.fc_ok
    set x := sa.elevationAngle * Real.pi / 180 with hx
    set f := sa.carrierFrequency / 10 ^ 9
    have hf : 0 < f := by
      rcases hb.fc_ok with hh | hh <;> · have := hh.1; simp only [f]; positivity
    have hx0 : 0.174 ≤ x := by
      have := hb.el_lo
      have := Real.pi_gt_d2
      rw [hx, le_div_iff₀ (by norm_num)]
      nlinarith
    have hx1 : x < Real.pi / 2 := by rw [hx]; nlinarith [Real.pi_pos]
    have hcot : Real.cos x / Real.sin x ≤ 1 / 0.174 := by
      have := Real.lt_tan t4 hx1
      rw [Real.tan_eq_sin_div_cos, lt_div_iff₀ t2] at this
      rw [div_le_div_iff₀ t1 (by norm_num)]
      nlinarith
    have hcot0 : 0 < Real.cos x / Real.sin x := by positivity
    set lg := (5 - 0.075 * (lat - 23)) / 1000 * (Real.cos x / Real.sin x) with hlg
    have hh0 : 0 < (5 - 0.075 * (lat - 23)) / 1000 := by linarith
    have hlg0 : 0 < lg := by positivity
    have hlg1 : lg ≤ 0.0775 := by
      have : (5 - 0.075 * (lat - 23)) / 1000 ≤ 0.013475 := by linarith
      calc lg ≤ 0.013475 * (1 / 0.174) := by rw [hlg]; gcongr
        _ ≤ 0.0775 := by norm_num
    have hexp : Real.exp (-2 * lg) ≤ 1 - 2 * lg + 2 * lg ^ 2 := by
      have hq := Real.quadratic_le_exp_of_nonneg (x := 2 * lg) (by positivity)
      have he : Real.exp (-2 * lg) * Real.exp (2 * lg) = 1 := by rw [← Real.exp_add]; simp
      have hp := Real.exp_pos (-2 * lg)
      refine le_of_mul_le_mul_right (a := 1 + 2 * lg + (2 * lg) ^ 2 / 2) ?_ (by positivity)
      calc Real.exp (-2 * lg) * (1 + 2 * lg + (2 * lg) ^ 2 / 2) ≤ Real.exp (-2 * lg) * Real.exp (2 * lg) := by gcongr
        _ = 1 := he
        _ ≤ 1 + 4 * lg ^ 4 := by have := pow_pos hlg0 4; linarith
        _ = (1 - 2 * lg + 2 * lg ^ 2) * (1 + 2 * lg + (2 * lg) ^ 2 / 2) := by ring
    have hm : lg * p838 f 40 / f < lg * 0.7 := by
      rw [div_lt_iff₀ hf]
      calc lg * p838 f 40 < lg * (0.7 * f) := mul_lt_mul_of_pos_left hγ hlg0
        _ = lg * 0.7 * f := by ring
    nlinarith
  · exact hd e hbs

/-- The hypotheses are met in the uplink and in the downlink of a satellite at 600 km in the standard atmosphere. -/
example (dir : String) (hdir : dir = "uplink" ∨ dir = "downlink") : ∃ (c : Config) (log : List (TopoCall 1 1 3)) (s : TopoState 1 1 3),
    mkScenario .urban (exArgs 2000000000 dir 50) = .ok c ∧ TopoReach c log s ∧ Relocated log ∧ s.getTemperature = .ok 273 ∧
    s.getLatitude = .ok 47 ∧ s.getLwc = .ok 0.41 ∧ ∀ bs, s.getBsLoc = some bs → ∀ b n, 5 - 0.075 * ((47 : ℝ) - 23) < (bs b n).z := by
  obtain ⟨c, hc⟩ : ∃ c, mkScenario .urban (exArgs 2000000000 dir 50) = .ok c := by
    rcases hdir with rfl | rfl
    · simpa using exArgs_ok .urban true false 50 (by norm_num) (by norm_num)
    · simpa using exArgs_ok .urban false false 50 (by norm_num) (by norm_num)
  have r := TopoReach.call (c := c) (exTopo 1 1 3) (exDraws 1 1 3) .init
  have hr : Relocated [((exTopo 1 1 3, exDraws 1 1 3, (setTopology c (TopoState.init c) (exTopo 1 1 3) (exDraws 1 1 3)).2) : TopoCall 1 1 3)] :=
    ⟨_, List.mem_cons_self, exTopo_single hc 1 3⟩
  obtain ⟨-, -, -, -, -, -, pb, -, -, -, -, -, -, -, pa⟩ := C127_attributes_partial hc r hr
  obtain ⟨q1, -, -, -, q2, q3, -⟩ := pa.1 _ _ _ rfl (by rw [exTopo_single hc]; intro hh; cases hh)
  refine ⟨c, _, _, hc, r, hr, q1, q2, q3, fun bs hbs b n => ?_⟩
  rw [pb, latest_cons_counted (by rw [TopoCall.accepted, exTopo_single hc]; intro hh; cases hh)] at hbs
  cases hbs
  show (5 - 0.075 * ((47 : ℝ) - 23)) < 600000
  norm_num

end OpenNTN
