import Verif.Spec.DelaySpread
import Verif.Props.Profiles

/-
C201: the delay spread of a tapped or clustered delay line is the requested one. The tables enter through C132 and C133; the powers are enclosed by
rational bounds, which the kernel checks with integer powers.
-/
namespace OpenNTN

open Classical

/-- A power of `-10 k / n` dB lies between two consecutive multiples of `10⁻⁹`. -/
theorem fromDb_bounds {x : ℝ} (k n a : ℕ) (hx : x = -(10 * k / n : ℝ)) (hn : n ≠ 0) (h : a ^ n * 10 ^ k ≤ 10 ^ (9 * n)) (h' : 10 ^ (9 * n) ≤ (a + 1) ^ n * 10 ^ k) :
    (a : ℝ) / 10 ^ 9 ≤ Spec.fromDb x ∧ Spec.fromDb x ≤ ((a : ℝ) + 1) / 10 ^ 9 := by
  have hn' : (n : ℝ) ≠ 0 := Nat.cast_ne_zero.mpr hn
  have hp : Spec.fromDb x ^ n = 1 / 10 ^ k := by
    unfold Spec.fromDb
    rw [← Real.rpow_natCast, ← Real.rpow_mul (by norm_num), hx, show -(10 * (k : ℝ) / n) / 10 * n = -(k : ℝ) by field_simp,
      Real.rpow_neg (by norm_num), Real.rpow_natCast, one_div]
  have h0 : 0 ≤ Spec.fromDb x := (Real.rpow_pos_of_pos (by norm_num) _).le
  have hR : (a : ℝ) ^ n * 10 ^ k ≤ 10 ^ (9 * n) := by exact_mod_cast h
  have hR' : (10 : ℝ) ^ (9 * n) ≤ ((a : ℝ) + 1) ^ n * 10 ^ k := by exact_mod_cast h'
  have hk : (0 : ℝ) < 10 ^ k := by positivity
  have h9 : (0 : ℝ) < (10 ^ 9) ^ n := by positivity
  rw [pow_mul] at hR hR'
  constructor
  · refine le_of_pow_le_pow_left₀ hn h0 ?_
    rw [hp, div_pow, div_le_div_iff₀ h9 hk, one_mul]
    exact hR
  · refine le_of_pow_le_pow_left₀ hn (by positivity) ?_
    rw [hp, div_pow, div_le_div_iff₀ hk h9, one_mul]
    exact hR'

theorem fromDb_zero : Spec.fromDb 0 = 1 := by norm_num [Spec.fromDb]

/-- The mean square deviation from the mean is the mean of the square minus the square of the mean. -/
theorem zipWith_square (m : ℝ) : ∀ p τ : List ℝ, p.length = τ.length → (List.zipWith (fun q s => q * (s - m) ^ 2) p τ).sum =
    (List.zipWith (fun q s => q * s ^ 2) p τ).sum - 2 * m * (List.zipWith (fun q s => q * s) p τ).sum + m ^ 2 * p.sum
  | [], [], _ => by simp
  | q :: p, s :: τ, h => by
    have := zipWith_square m p τ (by simpa using h)
    simp only [List.zipWith_cons_cons, List.sum_cons, this]
    ring

/-- Enclosures of the moments enclose the delay spread. -/
theorem rms_within {p τ : List ℝ} {S S' T T' U U' ε s : ℝ} (hl : p.length = τ.length) (hS : 0 < S) (hT : 0 ≤ T) (hU : 0 ≤ U) (hε : ε ≤ 1) (hε' : 0 ≤ ε) (hs : 0 ≤ s)
    (hb : ((1 - ε) * s) ^ 2 * S' ^ 2 ≤ S * U - T' ^ 2 ∧ S' * U' - T ^ 2 ≤ ((1 + ε) * s) ^ 2 * S ^ 2)
    (h0 : S ≤ p.sum ∧ p.sum ≤ S') (h1 : T ≤ (List.zipWith (fun q s => q * s) p τ).sum ∧ (List.zipWith (fun q s => q * s) p τ).sum ≤ T')
    (h2 : U ≤ (List.zipWith (fun q s => q * s ^ 2) p τ).sum ∧ (List.zipWith (fun q s => q * s ^ 2) p τ).sum ≤ U') :
    Spec.RelativelyWithin ε s (Spec.rmsDelaySpread p τ) := by
  unfold Spec.RelativelyWithin Spec.rmsDelaySpread
  rw [zipWith_square _ _ _ hl]
  unfold Spec.averageDelay
  generalize (List.zipWith (fun q s => q * s) p τ).sum = t at *
  generalize (List.zipWith (fun q s => q * s ^ 2) p τ).sum = u at *
  generalize p.sum = z at *
  have hz : 0 < z := lt_of_lt_of_le hS h0.1
  have hv : (u - 2 * (t / z) * t + (t / z) ^ 2 * z) / z = (z * u - t ^ 2) / z ^ 2 := by field_simp; ring
  rw [hv]
  have hzu : S * U ≤ z * u := mul_le_mul h0.1 h2.1 hU hz.le
  have hzu' : z * u ≤ S' * U' := mul_le_mul h0.2 h2.2 (hU.trans h2.1) (hz.le.trans h0.2)
  have ht : T ^ 2 ≤ t ^ 2 := pow_le_pow_left₀ hT h1.1 2
  have ht' : t ^ 2 ≤ T' ^ 2 := pow_le_pow_left₀ (hT.trans h1.1) h1.2 2
  have hz2 : S ^ 2 ≤ z ^ 2 := pow_le_pow_left₀ hS.le h0.1 2
  have hz2' : z ^ 2 ≤ S' ^ 2 := pow_le_pow_left₀ hz.le h0.2 2
  have hlo : ((1 - ε) * s) ^ 2 ≤ (z * u - t ^ 2) / z ^ 2 := by
    rw [le_div_iff₀ (by positivity)]
    nlinarith [mul_le_mul_of_nonneg_left hz2' (sq_nonneg ((1 - ε) * s))]
  have hhi : (z * u - t ^ 2) / z ^ 2 ≤ ((1 + ε) * s) ^ 2 := by
    rw [div_le_iff₀ (by positivity)]
    nlinarith [mul_le_mul_of_nonneg_left hz2 (sq_nonneg ((1 + ε) * s))]
  have h3 : (1 - ε) * s ≤ Real.sqrt ((z * u - t ^ 2) / z ^ 2) := Real.le_sqrt_of_sq_le hlo
  have h4 : Real.sqrt ((z * u - t ^ 2) / z ^ 2) ≤ (1 + ε) * s := by
    rw [Real.sqrt_le_left (mul_nonneg (by linarith) hs)]
    exact hhi
  rw [abs_le]
  constructor <;> linarith

theorem spread_A : ∀ P, ("A", P) ∈ Spec.profiles → Spec.RelativelyWithin 1e-4 1 (Spec.rmsDelaySpread P.powers (P.taps.map (·.1))) := by
  intro P hP
  simp only [Spec.profiles, List.mem_cons, Prod.mk.injEq, List.not_mem_nil, or_false, String.reduceEq, false_and, false_or, true_and] at hP
  subst hP
  refine rms_within (S := (313120447 / 200000000)) (S' := (1565602237 / 1000000000)) (T := (503618170287 / 500000000000)) (T' := (10072363444967 / 10000000000000)) (U := (11067627602367381 / 5000000000000000)) (U' := (221352552971694397 / 100000000000000000))
    rfl (by norm_num) (by norm_num) (by norm_num) (by norm_num) (by norm_num) (by norm_num) (by norm_num) ?_ ?_ ?_
  all_goals
    simp only [Spec.Profile.powers, List.map_cons, List.map_nil, List.zipWith_cons_cons, List.zipWith_nil_left, List.sum_cons, List.sum_nil, fromDb_zero]
    have h0 := fromDb_bounds (x := -4.675) 187 400 340800324 (by norm_num) (by norm_num) (by decide +kernel) (by decide +kernel)
    have h1 := fromDb_bounds (x := -6.482) 3241 5000 224801911 (by norm_num) (by norm_num) (by decide +kernel) (by decide +kernel)
    constructor <;> linarith

theorem spread_B : ∀ P, ("B", P) ∈ Spec.profiles → Spec.RelativelyWithin 1e-4 1 (Spec.rmsDelaySpread P.powers (P.taps.map (·.1))) := by
  intro P hP
  simp only [Spec.profiles, List.mem_cons, Prod.mk.injEq, List.not_mem_nil, or_false, String.reduceEq, false_and, false_or, true_and] at hP
  subst hP
  refine rms_within (S := (129253597 / 62500000)) (S' := (413611511 / 200000000)) (T := (5514405763487 / 5000000000000)) (T' := (441152463961 / 400000000000)) (U := (33199583453785073 / 12500000000000000)) (U' := (265596671031578349 / 100000000000000000))
    rfl (by norm_num) (by norm_num) (by norm_num) (by norm_num) (by norm_num) (by norm_num) (by norm_num) ?_ ?_ ?_
  all_goals
    simp only [Spec.Profile.powers, List.map_cons, List.map_nil, List.zipWith_cons_cons, List.zipWith_nil_left, List.sum_cons, List.sum_nil, fromDb_zero]
    have h0 := fromDb_bounds (x := -1.973) 1973 10000 634892212 (by norm_num) (by norm_num) (by decide +kernel) (by decide +kernel)
    have h1 := fromDb_bounds (x := -4.332) 1083 2500 368807717 (by norm_num) (by norm_num) (by decide +kernel) (by decide +kernel)
    have h2 := fromDb_bounds (x := -11.914) 5957 5000 64357623 (by norm_num) (by norm_num) (by decide +kernel) (by decide +kernel)
    constructor <;> linarith

theorem spread_C : ∀ P, ("C", P) ∈ Spec.profiles → Spec.RelativelyWithin 1e-4 1 (Spec.rmsDelaySpread P.powers (P.taps.map (·.1))) := by
  intro P hP
  simp only [Spec.profiles, List.mem_cons, Prod.mk.injEq, List.not_mem_nil, or_false, String.reduceEq, false_and, false_or, true_and] at hP
  subst hP
  refine rms_within (S := (1004607207 / 1000000000)) (S' := (100460721 / 100000000)) (T := (170319899997 / 2500000000000)) (T' := (42579984257 / 625000000000)) (U := (6307116216788907 / 6250000000000000)) (U' := (1576779397020967 / 1562500000000000))
    rfl (by norm_num) (by norm_num) (by norm_num) (by norm_num) (by norm_num) (by norm_num) (by norm_num) ?_ ?_ ?_
  all_goals
    simp only [Spec.Profile.powers, List.map_cons, List.map_nil, List.zipWith_cons_cons, List.zipWith_nil_left, List.sum_cons, List.sum_nil]
    have h0 := fromDb_bounds (x := -0.394) 197 5000 913271699 (by norm_num) (by norm_num) (by decide +kernel) (by decide +kernel)
    have h1 := fromDb_bounds (x := -10.618) 5309 5000 86736121 (by norm_num) (by norm_num) (by decide +kernel) (by decide +kernel)
    have h2 := fromDb_bounds (x := -23.373) 23373 10000 4599387 (by norm_num) (by norm_num) (by decide +kernel) (by decide +kernel)
    constructor <;> linarith

theorem spread_D : ∀ P, ("D", P) ∈ Spec.profiles → Spec.RelativelyWithin 1e-4 1 (Spec.rmsDelaySpread P.powers (P.taps.map (·.1))) := by
  intro P hP
  simp only [Spec.profiles, List.mem_cons, Prod.mk.injEq, List.not_mem_nil, or_false, String.reduceEq, false_and, false_or, true_and] at hP
  subst hP
  refine rms_within (S := (1123594507 / 1000000000)) (S' := (1123594511 / 1000000000)) (T := (264613405617 / 1250000000000)) (T' := (66153353871 / 312500000000)) (U := (3635784824551383 / 3125000000000000)) (U' := (113618281050503 / 97656250000000))
    rfl (by norm_num) (by norm_num) (by norm_num) (by norm_num) (by norm_num) (by norm_num) (by norm_num) ?_ ?_ ?_
  all_goals
    simp only [Spec.Profile.powers, List.map_cons, List.map_nil, List.zipWith_cons_cons, List.zipWith_nil_left, List.sum_cons, List.sum_nil]
    have h0 := fromDb_bounds (x := -0.284) 71 2500 936698877 (by norm_num) (by norm_num) (by decide +kernel) (by decide +kernel)
    have h1 := fromDb_bounds (x := -11.991) 11991 10000 63226624 (by norm_num) (by norm_num) (by decide +kernel) (by decide +kernel)
    have h2 := fromDb_bounds (x := -9.887) 9887 10000 102636066 (by norm_num) (by norm_num) (by decide +kernel) (by decide +kernel)
    have h3 := fromDb_bounds (x := -16.771) 16771 10000 21032940 (by norm_num) (by norm_num) (by decide +kernel) (by decide +kernel)
    constructor <;> linarith

theorem spread_A30 : ∀ P, ("A30", P) ∈ Spec.profiles → Spec.RelativelyWithin 4e-3 30 (Spec.rmsDelaySpread P.powers (P.taps.map (·.1))) := by
  intro P hP
  simp only [Spec.profiles, List.mem_cons, Prod.mk.injEq, List.not_mem_nil, or_false, String.reduceEq, false_and, false_or, true_and] at hP
  subst hP
  refine rms_within (S := (2154716917 / 1000000000)) (S' := (8416863 / 3906250)) (T := (11034873161 / 200000000)) (T' := (11034873347 / 200000000)) (U := (134085480421 / 40000000)) (U' := (134085486399 / 40000000))
    rfl (by norm_num) (by norm_num) (by norm_num) (by norm_num) (by norm_num) (by norm_num) (by norm_num) ?_ ?_ ?_
  all_goals
    simp only [Spec.Profile.powers, List.map_cons, List.map_nil, List.zipWith_cons_cons, List.zipWith_nil_left, List.sum_cons, List.sum_nil, fromDb_zero]
    have h0 := fromDb_bounds (x := -15.5) 31 20 28183829 (by norm_num) (by norm_num) (by decide +kernel) (by decide +kernel)
    have h1 := fromDb_bounds (x := -5.1) 51 100 309029543 (by norm_num) (by norm_num) (by decide +kernel) (by decide +kernel)
    have h2 := fromDb_bounds (x := -9.6) 24 25 109647819 (by norm_num) (by norm_num) (by decide +kernel) (by decide +kernel)
    have h3 := fromDb_bounds (x := -8.2) 41 50 151356124 (by norm_num) (by norm_num) (by decide +kernel) (by decide +kernel)
    have h4 := fromDb_bounds (x := -13.1) 131 100 48977881 (by norm_num) (by norm_num) (by decide +kernel) (by decide +kernel)
    have h5 := fromDb_bounds (x := -11.5) 23 20 70794578 (by norm_num) (by norm_num) (by decide +kernel) (by decide +kernel)
    have h6 := fromDb_bounds (x := -11.0) 11 10 79432823 (by norm_num) (by norm_num) (by decide +kernel) (by decide +kernel)
    have h7 := fromDb_bounds (x := -16.2) 81 50 23988329 (by norm_num) (by norm_num) (by decide +kernel) (by decide +kernel)
    have h8 := fromDb_bounds (x := -16.6) 83 50 21877616 (by norm_num) (by norm_num) (by decide +kernel) (by decide +kernel)
    have h9 := fromDb_bounds (x := -26.2) 131 50 2398832 (by norm_num) (by norm_num) (by decide +kernel) (by decide +kernel)
    constructor <;> linarith

theorem spread_B100 : ∀ P, ("B100", P) ∈ Spec.profiles → Spec.RelativelyWithin 4e-3 100 (Spec.rmsDelaySpread P.powers (P.taps.map (·.1))) := by
  intro P hP
  simp only [Spec.profiles, List.mem_cons, Prod.mk.injEq, List.not_mem_nil, or_false, String.reduceEq, false_and, false_or, true_and] at hP
  subst hP
  refine rms_within (S := (1466983371 / 200000000)) (S' := (3667458433 / 500000000)) (T := (13848180039 / 25000000)) (T' := (5539272031 / 10000000)) (U := (2314507120709 / 20000000)) (U' := (462901425943 / 4000000))
    rfl (by norm_num) (by norm_num) (by norm_num) (by norm_num) (by norm_num) (by norm_num) (by norm_num) ?_ ?_ ?_
  all_goals
    simp only [Spec.Profile.powers, List.map_cons, List.map_nil, List.zipWith_cons_cons, List.zipWith_nil_left, List.sum_cons, List.sum_nil, fromDb_zero]
    have h0 := fromDb_bounds (x := -2.2) 11 50 602559586 (by norm_num) (by norm_num) (by decide +kernel) (by decide +kernel)
    have h1 := fromDb_bounds (x := -0.6) 3 50 870963589 (by norm_num) (by norm_num) (by decide +kernel) (by decide +kernel)
    have h2 := fromDb_bounds (x := -0.3) 3 100 933254300 (by norm_num) (by norm_num) (by decide +kernel) (by decide +kernel)
    have h3 := fromDb_bounds (x := -1.2) 3 25 758577575 (by norm_num) (by norm_num) (by decide +kernel) (by decide +kernel)
    have h4 := fromDb_bounds (x := -5.9) 59 100 257039578 (by norm_num) (by norm_num) (by decide +kernel) (by decide +kernel)
    have h5 := fromDb_bounds (x := -0.8) 2 25 831763771 (by norm_num) (by norm_num) (by decide +kernel) (by decide +kernel)
    have h6 := fromDb_bounds (x := -6.3) 63 100 234422881 (by norm_num) (by norm_num) (by decide +kernel) (by decide +kernel)
    have h7 := fromDb_bounds (x := -7.5) 3 4 177827941 (by norm_num) (by norm_num) (by decide +kernel) (by decide +kernel)
    have h8 := fromDb_bounds (x := -7.1) 71 100 194984459 (by norm_num) (by norm_num) (by decide +kernel) (by decide +kernel)
    constructor <;> linarith

theorem spread_C300 : ∀ P, ("C300", P) ∈ Spec.profiles → Spec.RelativelyWithin 4e-3 300 (Spec.rmsDelaySpread P.powers (P.taps.map (·.1))) := by
  intro P hP
  simp only [Spec.profiles, List.mem_cons, Prod.mk.injEq, List.not_mem_nil, or_false, String.reduceEq, false_and, false_or, true_and] at hP
  subst hP
  refine rms_within (S := (1649807593 / 500000000)) (S' := (3299615197 / 1000000000)) (T := (70190692821 / 100000000)) (T' := (7019069351 / 10000000)) (U := (1787447563321 / 4000000)) (U' := (8937238029781 / 20000000))
    rfl (by norm_num) (by norm_num) (by norm_num) (by norm_num) (by norm_num) (by norm_num) (by norm_num) ?_ ?_ ?_
  all_goals
    simp only [Spec.Profile.powers, List.map_cons, List.map_nil, List.zipWith_cons_cons, List.zipWith_nil_left, List.sum_cons, List.sum_nil, fromDb_zero]
    have h0 := fromDb_bounds (x := -6.9) 69 100 204173794 (by norm_num) (by norm_num) (by decide +kernel) (by decide +kernel)
    have h1 := fromDb_bounds (x := -7.7) 77 100 169824365 (by norm_num) (by norm_num) (by decide +kernel) (by decide +kernel)
    have h2 := fromDb_bounds (x := -2.5) 1 4 562341325 (by norm_num) (by norm_num) (by decide +kernel) (by decide +kernel)
    have h3 := fromDb_bounds (x := -2.4) 6 25 575439937 (by norm_num) (by norm_num) (by decide +kernel) (by decide +kernel)
    have h4 := fromDb_bounds (x := -9.9) 99 100 102329299 (by norm_num) (by norm_num) (by decide +kernel) (by decide +kernel)
    have h5 := fromDb_bounds (x := -8.0) 4 5 158489319 (by norm_num) (by norm_num) (by decide +kernel) (by decide +kernel)
    have h6 := fromDb_bounds (x := -6.6) 33 50 218776162 (by norm_num) (by norm_num) (by decide +kernel) (by decide +kernel)
    have h7 := fromDb_bounds (x := -7.1) 71 100 194984459 (by norm_num) (by norm_num) (by decide +kernel) (by decide +kernel)
    have h8 := fromDb_bounds (x := -13.0) 13 10 50118723 (by norm_num) (by norm_num) (by decide +kernel) (by decide +kernel)
    have h9 := fromDb_bounds (x := -14.2) 71 50 38018939 (by norm_num) (by norm_num) (by decide +kernel) (by decide +kernel)
    have h10 := fromDb_bounds (x := -16.0) 8 5 25118864 (by norm_num) (by norm_num) (by decide +kernel) (by decide +kernel)
    constructor <;> linarith

/-- Scaling the delays scales the delay spread. -/
theorem rms_scale_delay (p τ : List ℝ) {c : ℝ} (hc : 0 ≤ c) : Spec.rmsDelaySpread p (τ.map (· * c)) = c * Spec.rmsDelaySpread p τ := by
  have hm : Spec.averageDelay p (τ.map (· * c)) = c * Spec.averageDelay p τ := by
    unfold Spec.averageDelay
    rw [List.zipWith_map_right, show (fun q s : ℝ => q * (s * c)) = fun q s => c * (q * s) by funext q s; ring,
      ← List.map_zipWith (f := fun x => c * x), List.sum_map_mul_left, List.map_id', mul_div_assoc]
  unfold Spec.rmsDelaySpread
  rw [hm, List.zipWith_map_right, show (fun q s : ℝ => q * (s * c - c * Spec.averageDelay p τ) ^ 2) = fun q s => c ^ 2 * (q * (s - Spec.averageDelay p τ) ^ 2) by
    funext q s; ring, ← List.map_zipWith (f := fun x => c ^ 2 * x), List.sum_map_mul_left, List.map_id', mul_div_assoc, Real.sqrt_mul (sq_nonneg c), Real.sqrt_sq hc]

/-- A common factor of the powers does not change the delay spread. -/
theorem rms_scale_power (p τ : List ℝ) {n : ℝ} (hn : n ≠ 0) : Spec.rmsDelaySpread (p.map (· / n)) τ = Spec.rmsDelaySpread p τ := by
  have hs : (p.map (· / n)).sum = p.sum / n := sum_div_eq p n
  have hz : ∀ f : ℝ → ℝ, (List.zipWith (fun q s => q * f s) (p.map (· / n)) τ).sum / (p.map (· / n)).sum = (List.zipWith (fun q s => q * f s) p τ).sum / p.sum := by
    intro f
    rw [hs, List.zipWith_map_left, show (fun q s : ℝ => q / n * f s) = fun q s => n⁻¹ * (q * f s) by funext q s; ring,
      ← List.map_zipWith (f := fun x => n⁻¹ * x), List.sum_map_mul_left, List.map_id', ← div_eq_inv_mul, div_div_div_cancel_right₀ hn]
  have hm : Spec.averageDelay (p.map (· / n)) τ = Spec.averageDelay p τ := hz fun s => s
  unfold Spec.rmsDelaySpread
  rw [hm, hz fun s => (s - Spec.averageDelay p τ) ^ 2]

theorem relativelyWithin_scale {ε s x c : ℝ} (hc : 0 ≤ c) (h : Spec.RelativelyWithin ε s x) : Spec.RelativelyWithin ε (s * c) (c * x) := by
  unfold Spec.RelativelyWithin at *
  rw [show c * x - s * c = c * (x - s) by ring, abs_mul, abs_of_nonneg hc]
  nlinarith [mul_le_mul_of_nonneg_left h hc]

/-- Every profile has the delay spread in its name; profiles in units of the delay spread have delay spread one. -/
theorem profile_spread {m : String} {P : Spec.Profile} (hP : (m, P) ∈ Spec.profiles) :
    Spec.RelativelyWithin (Spec.profileRounding m) (P.spread.getD 1) (Spec.rmsDelaySpread P.powers (P.taps.map (·.1))) ∧ 0 < P.powers.sum := by
  have hpos : 0 < P.powers.sum := by
    simp only [Spec.profiles, List.mem_cons, Prod.mk.injEq, List.not_mem_nil, or_false] at hP
    have h : ∀ x, 0 < Spec.fromDb x := fun x => Real.rpow_pos_of_pos (by norm_num) _
    rcases hP with ⟨-, rfl⟩ | ⟨-, rfl⟩ | ⟨-, rfl⟩ | ⟨-, rfl⟩ | ⟨-, rfl⟩ | ⟨-, rfl⟩ | ⟨-, rfl⟩ <;>
    · refine sum_pos_of_pos _ (by simp [Spec.Profile.powers]) fun x hx => ?_
      simp only [Spec.Profile.powers, List.map_cons, List.map_nil, List.mem_cons, List.not_mem_nil, or_false] at hx
      rcases hx with rfl | hx
      · first | exact h _ | exact add_pos (h _) (h _)
      · obtain ⟨y, rfl⟩ : ∃ y, x = Spec.fromDb y := by
          repeat' (rcases hx with rfl | hx)
          all_goals first | exact ⟨_, rfl⟩ | exact ⟨_, hx⟩
        exact h y
  refine ⟨?_, hpos⟩
  have hP' := hP
  simp only [Spec.profiles, List.mem_cons, Prod.mk.injEq, List.not_mem_nil, or_false] at hP'
  rcases hP' with ⟨rfl, h⟩ | ⟨rfl, h⟩ | ⟨rfl, h⟩ | ⟨rfl, h⟩ | ⟨rfl, h⟩ | ⟨rfl, h⟩ | ⟨rfl, h⟩
  · simpa [Spec.profileRounding, h] using spread_A P hP
  · simpa [Spec.profileRounding, h] using spread_B P hP
  · simpa [Spec.profileRounding, h] using spread_C P hP
  · simpa [Spec.profileRounding, h] using spread_D P hP
  · simpa [Spec.profileRounding, h] using spread_A30 P hP
  · simpa [Spec.profileRounding, h] using spread_B100 P hP
  · simpa [Spec.profileRounding, h] using spread_C300 P hP

theorem profile_length {m : String} {P : Spec.Profile} (hP : (m, P) ∈ Spec.profiles) : P.powers.length = P.taps.length := by
  simp only [Spec.profiles, List.mem_cons, Prod.mk.injEq, List.not_mem_nil, or_false] at hP
  rcases hP with ⟨-, rfl⟩ | ⟨-, rfl⟩ | ⟨-, rfl⟩ | ⟨-, rfl⟩ | ⟨-, rfl⟩ | ⟨-, rfl⟩ | ⟨-, rfl⟩ <;> rfl

/-- C201, tapped delay lines. The delay spread of the taps is the one that the object reports, and this is the one requested, or that in the name of
the profile. -/
theorem C201_tdl {a : TdlArgs} {t : Tdl} (h : tdlInit a = .ok t) (hd : 0 ≤ a.delaySpread) :
    (∃ p, t.meanPowers = .ok p ∧ p.length = t.delays.length ∧ Spec.RelativelyWithin (Spec.profileRounding a.model) t.delaySpread (Spec.rmsDelaySpread p t.delays)) ∧
      t.delaySpread = (if a.model = "A30" then 30e-9 else if a.model = "B100" then 100e-9 else if a.model = "C300" then 300e-9 else a.delaySpread) := by
  obtain ⟨⟨P, hP⟩, hall⟩ := C132_tdl_profiles h
  obtain ⟨hdel, hds, hpow, -, -⟩ := hall P hP
  obtain ⟨hw, hpos⟩ := profile_spread hP
  refine ⟨⟨_, hpow, ?_, ?_⟩, ?_⟩
  · rw [hdel, List.length_map, Spec.Profile.delays, List.length_map, profile_length hP]
  · have hc : (0 : ℝ) ≤ if P.spread = none then a.delaySpread else 10 ^ (-9 : ℤ) := by split <;> positivity
    have := relativelyWithin_scale hc hw
    rw [rms_scale_power _ _ hpos.ne', hdel, hds]
    rw [← rms_scale_delay _ _ hc, List.map_map] at this
    refine (congrArg₂ (Spec.RelativelyWithin (Spec.profileRounding a.model)) ?_ rfl).mp this
    cases hsp : P.spread <;> simp
  · rw [hds]
    simp only [Spec.profiles, List.mem_cons, Prod.mk.injEq, List.not_mem_nil, or_false] at hP
    rcases hP with ⟨h, rfl⟩ | ⟨h, rfl⟩ | ⟨h, rfl⟩ | ⟨h, rfl⟩ | ⟨h, rfl⟩ | ⟨h, rfl⟩ | ⟨h, rfl⟩ <;> simp only [h, String.reduceEq, if_true, if_false, Option.map_none, Option.map_some, Option.getD_none, Option.getD_some] <;> norm_num

/-- Setting the delay spread of a profile in units of the delay spread makes the object that the constructor makes with that delay spread; other
objects do not change. -/
theorem set_spread {a : TdlArgs} {t : Tdl} (h : tdlInit a = .ok t) (v : ℝ) :
    (a.model ∈ ["A", "B", "C", "D"] → tdlInit { a with delaySpread := v } = .ok (t.setDelaySpread v)) ∧
      (a.model ∉ ["A", "B", "C", "D"] → t.setDelaySpread v = t) := by
  obtain ⟨tab, spread, hf, hl, hs, -⟩ := tdlInit_ok h
  have hsc : t.params.scaleDelays = tab.scaleDelays := by
    unfold tdlLoad at hl
    dsimp only at hl
    split at hl
    · split at hl
      · cases hl
      · injection hl with hl
        rw [← hl]
    · injection hl with hl
      rw [← hl]
  constructor
  · intro hm
    have hv : tdlFile a.model v = .ok (some tab, v) ∧ tab.scaleDelays = true := by
      simp only [List.mem_cons, List.not_mem_nil, or_false] at hm
      unfold tdlFile at hf ⊢
      rcases hm with h | h | h | h <;> rw [h] at hf ⊢ <;> simp at hf ⊢ <;> simp [← hf.1, tdlA, tdlB, tdlC, tdlD]
    unfold tdlInit at h ⊢
    rw [hf] at h
    dsimp only
    rw [hv.1]
    simp only [bind, Except.bind, hl] at h ⊢
    repeat' (split at h)
    all_goals try cases h
    rename_i h1 h2 h3 h4
    rw [if_neg h1, if_neg h2, if_neg h3, if_neg h4]
    unfold Tdl.setDelaySpread
    rw [if_pos (hsc.trans hv.2)]
    injection h with h
    rw [← h]
  · intro hm
    have : tab.scaleDelays = false := by
      simp only [List.mem_cons, List.not_mem_nil, or_false, not_or] at hm
      unfold tdlFile at hf
      rw [if_neg hm.1, if_neg hm.2.1, if_neg hm.2.2.1, if_neg hm.2.2.2] at hf
      repeat' (split at hf)
      all_goals first | cases hf | skip
      all_goals rfl
    unfold Tdl.setDelaySpread
    rw [hsc, this]
    rfl

/-- C201, after a change of the delay spread. -/
theorem C201_tdl_set {a : TdlArgs} {t : Tdl} (h : tdlInit a = .ok t) (hd : 0 ≤ a.delaySpread) {v : ℝ} (hv : 0 ≤ v) :
    (∃ p, (t.setDelaySpread v).meanPowers = .ok p ∧
      Spec.RelativelyWithin (Spec.profileRounding a.model) (t.setDelaySpread v).delaySpread (Spec.rmsDelaySpread p (t.setDelaySpread v).delays)) ∧
      (a.model ∈ ["A", "B", "C", "D"] → (t.setDelaySpread v).delaySpread = v) := by
  by_cases hm : a.model ∈ ["A", "B", "C", "D"]
  · have h' := (set_spread h v).1 hm
    obtain ⟨⟨p, hp, -, hw⟩, hs⟩ := C201_tdl h' hv
    refine ⟨⟨p, hp, hw⟩, fun _ => ?_⟩
    rw [hs]
    simp only [List.mem_cons, List.not_mem_nil, or_false] at hm
    rcases hm with h | h | h | h <;> simp [h]
  · rw [(set_spread h v).2 hm]
    obtain ⟨⟨p, hp, -, hw⟩, -⟩ := C201_tdl h hd
    exact ⟨⟨p, hp, hw⟩, fun h => absurd h hm⟩

/-- C201, clustered delay lines. -/
theorem C201_cdl {a : CdlArgs} {t : Cdl} (h : cdlInit a = .ok t) (hd : 0 ≤ a.delaySpread) :
    ∃ p, t.powers = .ok p ∧ p.length = t.delays.length ∧ Spec.RelativelyWithin 1e-4 a.delaySpread (Spec.rmsDelaySpread p t.delays) := by
  obtain ⟨⟨P, hP⟩, hall⟩ := C133_cdl_profiles h hd
  obtain ⟨hdel, hpow, -⟩ := hall P hP
  obtain ⟨hw, hpos⟩ := profile_spread hP
  obtain ⟨tab, hf, -⟩ := cdlInit_ok h
  have hm : a.model ∈ ["A", "B", "C", "D"] := by
    unfold cdlFile at hf
    repeat' (split at hf)
    all_goals simp_all
  have hn : P.spread = none ∧ Spec.profileRounding a.model = 1e-4 := by
    refine ⟨?_, if_pos hm⟩
    simp only [Spec.profiles, List.mem_cons, Prod.mk.injEq, List.not_mem_nil, or_false] at hP hm
    rcases hP with ⟨h, rfl⟩ | ⟨h, rfl⟩ | ⟨h, rfl⟩ | ⟨h, rfl⟩ | ⟨h, rfl⟩ | ⟨h, rfl⟩ | ⟨h, rfl⟩ <;> simp_all
  refine ⟨_, hpow, ?_, ?_⟩
  · rw [hdel, List.length_map, Spec.Profile.delays, List.length_map, profile_length hP]
  · have := relativelyWithin_scale hd hw
    rw [rms_scale_power _ _ hpos.ne', hdel]
    rw [← rms_scale_delay _ _ hd, List.map_map, hn.1, hn.2] at this
    simpa [Spec.Profile.delays, hn.1, Function.comp_def] using this

/-- The hypotheses can be met: a line with a delay spread of 300 ns in a file with a specular path, and one whose name fixes the delay spread. -/
example : ∀ m ∈ ["C", "A30"], ∃ t, tdlInit { model := m, delaySpread := 3e-7, carrierFrequency := 2e9 } = .ok t := by
  intro m hm
  obtain ⟨t, h, -⟩ := (C79_names_partial _ (exTdl_valid m)).1 (by
    simp only [List.mem_cons, List.not_mem_nil, or_false] at hm
    rcases hm with rfl | rfl <;> simp [Spec.tdlNames]) (by
    simp only [List.mem_cons, List.not_mem_nil, or_false] at hm
    rcases hm with rfl | rfl <;> decide)
  exact ⟨t, h⟩

example : ∃ t, cdlInit { model := "C", delaySpread := 1e-7, direction := "downlink" } = .ok t := (C80_call_partial _).1 (by simp) (by simp) (by simp)

end OpenNTN
