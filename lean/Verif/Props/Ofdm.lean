import Mathlib.Analysis.SpecialFunctions.Integrals.Basic
import Mathlib.Data.Int.ModEq
import Mathlib.Tactic.FieldSimp
import Mathlib.Tactic.FinCases
import Mathlib.Tactic.Linarith
import Mathlib.Tactic.NormNum
import Mathlib.Tactic.Positivity
import Mathlib.Tactic.Ring
import Verif.Model.Ofdm

/-
C63-C67, C83, C84: conversions between impulse responses, taps and frequency responses (utils.py 21-451).
-/
namespace OpenNTN

open Classical

/-! ### C63, C83: grids -/

/-- Centred index `k` of `n`. -/
def Spec.centred (n k : ℕ) : ℤ := (k : ℤ) - (n / 2 : ℕ)

theorem centred_cast (n k : ℕ) : (Spec.centred n k : ℝ) = k - ((n / 2 : ℕ) : ℝ) := by
  unfold Spec.centred; rw [Int.cast_sub, Int.cast_natCast, Int.cast_natCast]

theorem even_half {n : ℕ} (h : n % 2 = 0) : (n : ℝ) = 2 * (n / 2 : ℕ) := by
  have : n = 2 * (n / 2) := by omega
  exact_mod_cast this

theorem odd_half {n : ℕ} (h : n % 2 ≠ 0) : (n : ℝ) = 2 * (n / 2 : ℕ) + 1 := by
  have : n = 2 * (n / 2) + 1 := by omega
  exact_mod_cast this

/-- C63. There are `n` subcarriers; number `k` lies at `(k - ⌊n/2⌋)` times the spacing, so subcarrier `⌊n/2⌋` is at zero and they
increase by exactly the spacing. A negative number is rejected. -/
theorem C63_subcarriers (spacing : ℝ) :
    (∀ n : ℕ, ∃ f, subcarrierFrequencies n spacing = .ok f ∧ f.length = n ∧
      (∀ (k : ℕ) (hk : k < f.length), f[k] = Spec.centred n k * spacing) ∧
      (0 < n → ∃ hk : n / 2 < f.length, f[n / 2] = 0) ∧
      (∀ (k : ℕ) (hk : k + 1 < f.length), f[k + 1] - f[k] = spacing)) ∧
    (∀ n : ℤ, n < 0 → subcarrierFrequencies n spacing = .error .invalidArgument) := by
  constructor
  · intro n
    have key : ∃ f, subcarrierFrequencies n spacing = .ok f ∧ f.length = n ∧
        ∀ (k : ℕ) (hk : k < f.length), f[k] = Spec.centred n k * spacing := by
      unfold subcarrierFrequencies tfRange
      by_cases he : n % 2 = 0
      · have h2 := even_half he
        have he' : (n : ℤ) % 2 = 0 := by omega
        simp only [he', decide_true, if_true, Int.cast_natCast]
        have hc : ⌈(n : ℝ) / 2 - -(n : ℝ) / 2⌉.toNat = n := by
          rw [show (n : ℝ) / 2 - -(n : ℝ) / 2 = (n : ℝ) by ring, Int.ceil_natCast]; simp
        rw [if_neg (by have : (0 : ℝ) ≤ n := n.cast_nonneg; linarith), hc]
        refine ⟨_, rfl, by simp, ?_⟩
        intro k hk
        simp only [List.getElem_map, List.getElem_range, centred_cast]
        generalize n / 2 = m at h2
        rw [h2]; ring
      · have h2 := odd_half he
        have he' : ¬ (n : ℤ) % 2 = 0 := by omega
        simp only [he', decide_false, Bool.false_eq_true, if_false, Int.cast_natCast]
        have hc : ⌈((n : ℝ) - 1) / 2 + 1 - -((n : ℝ) - 1) / 2⌉.toNat = n := by
          rw [show ((n : ℝ) - 1) / 2 + 1 - -((n : ℝ) - 1) / 2 = (n : ℝ) by ring, Int.ceil_natCast]; simp
        rw [if_neg (by have : (0 : ℝ) ≤ n := n.cast_nonneg; linarith), hc]
        refine ⟨_, rfl, by simp, ?_⟩
        intro k hk
        simp only [List.getElem_map, List.getElem_range, centred_cast]
        generalize n / 2 = m at h2
        rw [h2]; ring
    obtain ⟨f, h1, h2, h3⟩ := key
    refine ⟨f, h1, h2, h3, fun h0 => ?_, fun k hk => ?_⟩
    · have hk : n / 2 < f.length := by omega
      refine ⟨hk, ?_⟩
      rw [h3 _ hk]; simp [Spec.centred]
    · rw [h3 _ hk, h3 _ (by omega)]
      simp only [centred_cast]
      push_cast
      ring
  · intro n hn
    have hn' : (n : ℝ) ≤ -1 := by exact_mod_cast (by omega : n ≤ -1)
    unfold subcarrierFrequencies tfRange
    by_cases he : n % 2 = 0
    · simp only [he, decide_true, if_true]
      rw [if_pos (by linarith)]; rfl
    · have h2 : (n : ℝ) < 0 := by linarith
      simp only [he, decide_false, Bool.false_eq_true, if_false]
      rw [if_pos (by linarith)]; rfl

/-- Five subcarriers at -30, -15, 0, 15, 30 kHz. -/
example : ∃ f, subcarrierFrequencies 5 15000 = .ok f ∧ f.length = 5 ∧ ∃ h : 4 < f.length, f[4] = 30000 := by
  obtain ⟨f, h1, h2, h3, -⟩ := (C63_subcarriers 15000).1 5
  refine ⟨f, h1, h2, by omega, ?_⟩
  rw [h3 4 (by omega)]; norm_num [Spec.centred]

theorem truncInt_int (z : ℤ) : truncInt (z : ℝ) = z := by
  unfold truncInt; split_ifs <;> simp

/-- C83. The `n` time instants are `(k - ⌊n/2⌋) * duration` and the `n` frequencies `(k - ⌊n/2⌋) / (n * duration)`. -/
theorem C83_time_frequency (n : ℕ) (duration : ℝ) :
    (timeFrequencyVector n duration).1.length = n ∧ (timeFrequencyVector n duration).2.length = n ∧
    (∀ (k : ℕ) (hk : k < (timeFrequencyVector n duration).1.length), (timeFrequencyVector n duration).1[k] =
      Spec.centred n k * duration) ∧
    ∀ (k : ℕ) (hk : k < (timeFrequencyVector n duration).2.length), (timeFrequencyVector n duration).2[k] =
      Spec.centred n k / (n * duration) := by
  have key : ∀ k : ℕ, k < n → ∀ nMin nMax : ℤ,
      nMin = (if n % 2 = 0 then truncInt (-(n : ℝ) / 2) else truncInt (-((n : ℝ) - 1) / 2)) →
      nMax = (if n % 2 = 0 then truncInt ((n : ℝ) / 2 - 1) else truncInt (((n : ℝ) + 1) / 2 - 1)) →
      (nMin : ℝ) + k * (((nMax : ℝ) - nMin) / max ((n : ℝ) - 1) 1) = Spec.centred n k := by
    intro k hk nMin nMax h1 h2
    have hlen : nMin = -((n / 2 : ℕ) : ℤ) ∧ nMax = nMin + n - 1 := by
      by_cases he : n % 2 = 0
      · have e := even_half he
        rw [if_pos he] at h1 h2
        rw [show -(n : ℝ) / 2 = ((-((n / 2 : ℕ) : ℤ) : ℤ) : ℝ) by
          generalize n / 2 = m at e; rw [e]; push_cast; ring, truncInt_int] at h1
        rw [show (n : ℝ) / 2 - 1 = ((((n / 2 : ℕ) : ℤ) - 1 : ℤ) : ℝ) by
          generalize n / 2 = m at e; rw [e]; push_cast; ring, truncInt_int] at h2
        refine ⟨h1, ?_⟩
        rw [h1, h2]; omega
      · have e := odd_half he
        rw [if_neg he] at h1 h2
        rw [show -((n : ℝ) - 1) / 2 = ((-((n / 2 : ℕ) : ℤ) : ℤ) : ℝ) by
          generalize n / 2 = m at e; rw [e]; push_cast; ring, truncInt_int] at h1
        rw [show ((n : ℝ) + 1) / 2 - 1 = ((((n / 2 : ℕ) : ℤ) : ℤ) : ℝ) by
          generalize n / 2 = m at e; rw [e]; push_cast; ring, truncInt_int] at h2
        refine ⟨h1, ?_⟩
        rw [h1, h2]; omega
    obtain ⟨e1, e2⟩ := hlen
    rw [e2, e1, centred_cast]
    generalize n / 2 = m
    push_cast
    by_cases h1 : n = 1
    · subst h1
      have : k = 0 := by omega
      subst this
      simp
    · have : (2 : ℝ) ≤ n := by exact_mod_cast (by omega : 2 ≤ n)
      rw [max_eq_left (by linarith), show (-(m : ℝ) + n - 1 - -(m : ℝ)) = (n : ℝ) - 1 by ring, div_self (by linarith)]
      ring
  refine ⟨by simp [timeFrequencyVector, tfLinspace], by simp [timeFrequencyVector, tfLinspace], fun k hk => ?_, fun k hk => ?_⟩
  · have hk' : k < n := by simpa [timeFrequencyVector, tfLinspace] using hk
    rw [← key k hk' _ _ rfl rfl]
    simp only [timeFrequencyVector, tfLinspace, List.getElem_map, List.getElem_range]
  · have hk' : k < n := by simpa [timeFrequencyVector, tfLinspace] using hk
    rw [← key k hk' _ _ rfl rfl]
    simp only [timeFrequencyVector, tfLinspace, List.getElem_map, List.getElem_range]
    rw [div_div, mul_comm duration, mul_one_div]

example : ∃ h : 0 < (timeFrequencyVector 4 2).2.length, (timeFrequencyVector 4 2).2[0] = -1 / 4 := by
  refine ⟨by rw [(C83_time_frequency 4 2).2.1]; norm_num, ?_⟩
  rw [(C83_time_frequency 4 2).2.2.2]; norm_num [Spec.centred]

/-! ### C67: range of the taps -/

/-- C67. The range of lags is the smallest one from -6 that keeps six lags beyond the largest delay: it contains every delay up to
the maximum delay spread, in samples, with a margin of six on both sides. -/
theorem C67_tap_range (bandwidth maxDelay : ℝ) (hb : 0 ≤ bandwidth) :
    (timeLag bandwidth maxDelay).1 = -6 ∧
    (∀ tau, 0 ≤ tau → tau ≤ maxDelay → ((timeLag bandwidth maxDelay).1 : ℝ) + 6 ≤ bandwidth * tau ∧
      bandwidth * tau ≤ ((timeLag bandwidth maxDelay).2 : ℝ) - 6) ∧
    ∀ l : ℤ, bandwidth * maxDelay ≤ (l : ℝ) - 6 → (timeLag bandwidth maxDelay).2 ≤ l := by
  have e : (timeLag bandwidth maxDelay).2 = ⌈maxDelay * bandwidth⌉ + 6 := by
    unfold timeLag
    rw [show ((⌈maxDelay * bandwidth⌉ : ℝ) + 6) = ((⌈maxDelay * bandwidth⌉ + 6 : ℤ) : ℝ) by push_cast; ring]
    exact truncInt_int _
  refine ⟨rfl, fun tau h0 h1 => ⟨?_, ?_⟩, fun l hl => ?_⟩
  · have : 0 ≤ bandwidth * tau := mul_nonneg hb h0
    have e1 : (timeLag bandwidth maxDelay).1 = -6 := rfl
    rw [e1]; push_cast; linarith
  · rw [e]
    have h1 := mul_le_mul_of_nonneg_left h1 hb
    have h2 := Int.le_ceil (maxDelay * bandwidth)
    push_cast
    linarith
  · rw [e]
    have : ⌈maxDelay * bandwidth⌉ ≤ l - 6 := Int.ceil_le.2 (by push_cast; linarith)
    omega

example : (timeLag 10000000 0.000003).2 = 36 := by
  refine le_antisymm ((C67_tap_range _ _ (by norm_num)).2.2 36 (by norm_num)) ?_
  have := ((C67_tap_range 10000000 0.000003 (by norm_num)).2.1 0.000003 (by norm_num) le_rfl).2
  have : (36 : ℝ) ≤ ((timeLag 10000000 0.000003).2 : ℝ) := by linarith
  exact_mod_cast this

/-! ### C64: frequency response -/

variable {B Y RA X TA P T F : ℕ}

/-- The energy of a link divided by `n`: over antennas, time samples and frequencies or taps. -/
noncomputable def Spec.linkEnergy (h : Response B Y RA X TA T F) (n : ℝ) (b : Fin B) (y : Fin Y) (x : Fin X) : ℝ :=
  (∑ j : Fin RA × Fin TA × Fin T × Fin F, Complex.normSq (h b y j.1 x j.2.1 j.2.2.1 j.2.2.2)) / n

theorem linkEnergy_eq (h : Response B Y RA X TA T F) (n : ℝ) (b : Fin B) (y : Fin Y) (x : Fin X) :
    (∑ ra : Fin RA, ∑ ta : Fin TA, ∑ t : Fin T, ∑ n : Fin F, ‖h b y ra x ta t n‖ ^ 2) / n = Spec.linkEnergy h n b y x := by
  unfold Spec.linkEnergy
  simp only [Fintype.sum_prod_type, Complex.normSq_eq_norm_sq]

theorem linkEnergy_nonneg (h : Response B Y RA X TA T F) {n : ℝ} (hn : 0 ≤ n) (b : Fin B) (y : Fin Y) (x : Fin X) :
    0 ≤ Spec.linkEnergy h n b y x := div_nonneg (Finset.sum_nonneg fun _ _ => Complex.normSq_nonneg _) hn

/-- Division by the root of the energy gives energy one, or leaves a zero response. -/
theorem normalized_energy (h g : Response B Y RA X TA T F) {n : ℝ} (hn : 0 < n)
    (hg : ∀ b y ra x ta t k, g b y ra x ta t k = divideNoNan (h b y ra x ta t k) (Real.sqrt (Spec.linkEnergy h n b y x) : ℝ))
    (b : Fin B) (y : Fin Y) (x : Fin X) :
    (Spec.linkEnergy g n b y x = 1 ∧ ∃ s : ℝ, 0 < s ∧ ∀ ra ta t k, g b y ra x ta t k = s * h b y ra x ta t k) ∨
    ∀ ra ta t k, h b y ra x ta t k = 0 ∧ g b y ra x ta t k = 0 := by
  set c := Spec.linkEnergy h n b y x with hc
  rcases (linkEnergy_nonneg h hn.le b y x).eq_or_lt with h0 | h0
  · right
    intro ra ta t k
    have hs : (∑ j : Fin RA × Fin TA × Fin T × Fin F, Complex.normSq (h b y j.1 x j.2.1 j.2.2.1 j.2.2.2)) = 0 := by
      have := h0.symm
      unfold Spec.linkEnergy at this
      rcases div_eq_zero_iff.1 this with h1 | h1
      · exact h1
      · exact absurd h1 hn.ne'
    have := (Finset.sum_eq_zero_iff_of_nonneg fun _ _ => Complex.normSq_nonneg _).1 hs (ra, ta, t, k) (Finset.mem_univ _)
    refine ⟨Complex.normSq_eq_zero.1 this, ?_⟩
    rw [hg, ← hc, hc, ← h0]
    simp [divideNoNan]
  · left
    have hs : 0 < Real.sqrt c := Real.sqrt_pos.2 h0
    have hgs : ∀ ra ta t k, g b y ra x ta t k = ((Real.sqrt c)⁻¹ : ℝ) * h b y ra x ta t k := by
      intro ra ta t k
      rw [hg, ← hc, divideNoNan, if_neg (by exact_mod_cast hs.ne')]
      push_cast
      rw [div_eq_inv_mul]
    refine ⟨?_, _, inv_pos.2 hs, hgs⟩
    have : Spec.linkEnergy g n b y x = c⁻¹ * c := by
      have e : Spec.linkEnergy g n b y x = (Real.sqrt c)⁻¹ * (Real.sqrt c)⁻¹ * Spec.linkEnergy h n b y x := by
        unfold Spec.linkEnergy
        simp only [hgs, Complex.normSq_mul, Complex.normSq_ofReal, ← Finset.mul_sum]
        rw [mul_div_assoc]
      rw [e, ← mul_inv, Real.mul_self_sqrt h0.le]
    rw [this, inv_mul_cancel₀ h0.ne']

/-- The response of a path with delay `tau` at frequency `f`. -/
noncomputable def Spec.rotation (f tau : ℝ) : ℂ := Complex.exp (-2 * Real.pi * f * tau * Complex.I)

theorem rotation_eq (f tau : ℝ) : Complex.exp ⟨0, -2 * Real.pi * f * tau⟩ = Spec.rotation f tau := by
  unfold Spec.rotation
  congr 1
  apply Complex.ext <;> simp

theorem rotation_add (f s t : ℝ) : Spec.rotation f (s + t) = Spec.rotation f s * Spec.rotation f t := by
  unfold Spec.rotation
  rw [← Complex.exp_add]; congr 1; push_cast; ring

theorem rotation_norm (f t : ℝ) : ‖Spec.rotation f t‖ = 1 := by
  rw [← rotation_eq, Complex.norm_exp]; simp

/-- The delay of path `p` between two antennas. -/
def Spec.delayOf (tau : PathDelays B Y RA X TA P) (b : Fin B) (y : Fin Y) (ra : Fin RA) (x : Fin X) (ta : Fin TA) (p : Fin P) : ℝ :=
  match tau with
  | .link t => t b y x p
  | .antenna t => t b y ra x ta p

theorem expand_eq (tau : PathDelays B Y RA X TA P) : tau.expand = Spec.delayOf tau := by cases tau <;> rfl

/-- All delays increased by `d`. -/
def Spec.later (d : ℝ) : PathDelays B Y RA X TA P → PathDelays B Y RA X TA P
  | .link t => .link fun b y x p => t b y x p + d
  | .antenna t => .antenna fun b y ra x ta p => t b y ra x ta p + d

theorem delayOf_later (d : ℝ) (tau : PathDelays B Y RA X TA P) (b : Fin B) (y : Fin Y) (ra : Fin RA) (x : Fin X) (ta : Fin TA)
    (p : Fin P) : Spec.delayOf (Spec.later d tau) b y ra x ta p = Spec.delayOf tau b y ra x ta p + d := by cases tau <;> rfl

/-- C64. The response of a link at frequency `f` is the sum over its paths of the coefficient times `exp(-j 2π f τ)`, for delays per
link or per antenna pair. It is linear in the coefficients, and a common additional delay rotates it without changing any modulus.
With normalisation each link is scaled by a positive number such that the mean energy over antennas, time samples and
frequencies is one; a link that is zero stays zero. -/
theorem C64_frequency_response (freq : Fin F → ℝ) (a a' : PathCoeffs B Y RA X TA P T) (z : ℂ) (d : ℝ) (tau : PathDelays B Y RA X TA P)
    (b : Fin B) (y : Fin Y) (x : Fin X) :
    (∀ ra ta t n, cirToOfdm freq a tau false b y ra x ta t n =
      ∑ p, a b y ra x ta p t * Spec.rotation (freq n) (Spec.delayOf tau b y ra x ta p)) ∧
    (∀ ra ta t n, cirToOfdm freq (fun b y ra x ta p t => a b y ra x ta p t + z * a' b y ra x ta p t) tau false b y ra x ta t n =
      cirToOfdm freq a tau false b y ra x ta t n + z * cirToOfdm freq a' tau false b y ra x ta t n) ∧
    (∀ ra ta t n, cirToOfdm freq a (Spec.later d tau) false b y ra x ta t n =
      Spec.rotation (freq n) d * cirToOfdm freq a tau false b y ra x ta t n) ∧
    (∀ ra ta t n, ‖cirToOfdm freq a (Spec.later d tau) false b y ra x ta t n‖ = ‖cirToOfdm freq a tau false b y ra x ta t n‖) ∧
    (0 < RA → 0 < TA → 0 < T → 0 < F →
      (Spec.linkEnergy (cirToOfdm freq a tau true) (RA * TA * T * F) b y x = 1 ∧
        ∃ s : ℝ, 0 < s ∧ ∀ ra ta t n, cirToOfdm freq a tau true b y ra x ta t n = s * cirToOfdm freq a tau false b y ra x ta t n) ∨
      ∀ ra ta t n, cirToOfdm freq a tau false b y ra x ta t n = 0 ∧ cirToOfdm freq a tau true b y ra x ta t n = 0) := by
  have h1 : ∀ (a : PathCoeffs B Y RA X TA P T) tau ra ta t n, cirToOfdm freq a tau false b y ra x ta t n =
      ∑ p, a b y ra x ta p t * Spec.rotation (freq n) (Spec.delayOf tau b y ra x ta p) := by
    intro a tau ra ta t n
    simp only [cirToOfdm, Bool.false_eq_true, if_false, rotation_eq, expand_eq]
  have h3 : ∀ ra ta t n, cirToOfdm freq a (Spec.later d tau) false b y ra x ta t n =
      Spec.rotation (freq n) d * cirToOfdm freq a tau false b y ra x ta t n := by
    intro ra ta t n
    rw [h1, h1, Finset.mul_sum]
    refine Finset.sum_congr rfl fun p _ => ?_
    rw [delayOf_later, rotation_add]; ring
  refine ⟨h1 a tau, fun ra ta t n => ?_, h3, fun ra ta t n => ?_, fun r1 r2 r3 r4 => ?_⟩
  · rw [h1, h1, h1, Finset.mul_sum, ← Finset.sum_add_distrib]
    refine Finset.sum_congr rfl fun p _ => ?_
    ring
  · rw [h3, norm_mul, rotation_norm, one_mul]
  · have hn : (0 : ℝ) < (RA : ℝ) * TA * T * F := by positivity
    apply normalized_energy _ _ hn _ b y x
    intro b y ra x ta t k
    show normalizeOfdm (cirToOfdm freq a tau false) b y ra x ta t k = _
    unfold normalizeOfdm
    rw [← linkEnergy_eq]

/-- Two paths of opposite sign and a delay difference of half a period add up. -/
example : cirToOfdm (B := 1) (Y := 1) (RA := 1) (X := 1) (TA := 1) (P := 2) (T := 1) (F := 1) (fun _ => 1)
    (fun _ _ _ _ _ p _ => if p = 0 then 1 else -1) (.link fun _ _ _ p => if p = 0 then 0 else 1 / 2) false 0 0 0 0 0 0 0 = 2 := by
  rw [(C64_frequency_response _ _ (fun _ _ _ _ _ _ _ => 0) 0 0 _ 0 0 0).1]
  simp only [Fin.sum_univ_two, Spec.delayOf, Spec.rotation]
  norm_num
  rw [show -(2 * (Real.pi : ℂ) * (1 / 2) * Complex.I) = -(Real.pi * Complex.I) by ring, Complex.exp_neg, Complex.exp_pi_mul_I]
  norm_num

/-! ### C65: taps -/

theorem npSinc_int (z : ℤ) : npSinc (z : ℝ) = if z = 0 then 1 else 0 := by
  unfold npSinc
  by_cases hz : z = 0
  · simp [hz]
  · rw [if_neg (by exact_mod_cast hz), if_neg hz, mul_comm, Real.sin_int_mul_pi, zero_div]

/-- The normalised cardinal sine, as the inverse Fourier transform of an ideal low pass of unit bandwidth. -/
noncomputable def Spec.sinc (x : ℝ) : ℝ := ∫ f in (-(1 / 2 : ℝ))..(1 / 2), Real.cos (2 * Real.pi * f * x)

theorem npSinc_eq (x : ℝ) : npSinc x = Spec.sinc x := by
  unfold npSinc Spec.sinc
  by_cases hx : x = 0
  · simp [hx]; norm_num
  · have hpx : 2 * Real.pi * x ≠ 0 := by have := Real.pi_ne_zero; positivity
    rw [if_neg hx]
    have e : (fun f : ℝ => Real.cos (2 * Real.pi * f * x)) = fun f => Real.cos ((2 * Real.pi * x) * f) := by
      funext f; congr 1; ring
    rw [e, intervalIntegral.integral_comp_mul_left (fun y => Real.cos y) hpx, integral_cos]
    rw [show 2 * Real.pi * x * -(1 / 2) = -(Real.pi * x) by ring, show 2 * Real.pi * x * (1 / 2) = Real.pi * x by ring, Real.sin_neg,
      smul_eq_mul]
    have := Real.pi_ne_zero
    field_simp
    ring

/-- C65. The tap of lag `l_min + l` is the sum over the paths of the coefficient times `sinc(lag - W τ)`, the impulse response of an
ideal low pass. A path whose delay is exactly `k` samples contributes its coefficient to lag `k` and nothing to any other.
With normalisation each link is scaled by a positive number such that the mean over antennas and time samples of the energy
of all taps is one; a link whose taps are all zero stays zero. -/
theorem C65_taps (W : ℝ) (a : PathCoeffs B Y RA X TA P T) (tau : PathDelays B Y RA X TA P) (lMin lMax : ℤ) (b : Fin B) (y : Fin Y) (x : Fin X) :
    (∀ ra ta t l, cirToTime W a tau lMin lMax false b y ra x ta t l =
      ∑ p, a b y ra x ta p t * (Spec.sinc (((lMin + l.val : ℤ) : ℝ) - W * Spec.delayOf tau b y ra x ta p) : ℂ)) ∧
    (∀ ra ta, (∀ p, ∃ k : ℤ, W * Spec.delayOf tau b y ra x ta p = k) → ∀ t l, cirToTime W a tau lMin lMax false b y ra x ta t l =
      ∑ p, if W * Spec.delayOf tau b y ra x ta p = ((lMin + l.val : ℤ) : ℝ) then a b y ra x ta p t else 0) ∧
    (0 < RA → 0 < TA → 0 < T →
      (Spec.linkEnergy (cirToTime W a tau lMin lMax true) (RA * TA * T) b y x = 1 ∧ ∃ s : ℝ, 0 < s ∧ ∀ ra ta t l,
        cirToTime W a tau lMin lMax true b y ra x ta t l = s * cirToTime W a tau lMin lMax false b y ra x ta t l) ∨
      ∀ ra ta t l, cirToTime W a tau lMin lMax false b y ra x ta t l = 0 ∧ cirToTime W a tau lMin lMax true b y ra x ta t l = 0) := by
  have h1 : ∀ ra ta t l, cirToTime W a tau lMin lMax false b y ra x ta t l =
      ∑ p, a b y ra x ta p t * (Spec.sinc (((lMin + l.val : ℤ) : ℝ) - W * Spec.delayOf tau b y ra x ta p) : ℂ) := by
    intro ra ta t l
    simp only [cirToTime, Bool.false_eq_true, if_false, npSinc_eq, expand_eq]
    refine Finset.sum_congr rfl fun p _ => ?_
    congr 1
    push_cast
    rw [mul_comm W]
    rfl
  refine ⟨h1, fun ra ta hk t l => ?_, fun r1 r2 r3 => ?_⟩
  · rw [h1]
    refine Finset.sum_congr rfl fun p _ => ?_
    obtain ⟨k, hk⟩ := hk p
    rw [hk, ← npSinc_eq, ← Int.cast_sub, npSinc_int]
    by_cases e : (k : ℝ) = ((lMin + l.val : ℤ) : ℝ)
    · have e' : k = lMin + l.val := by exact_mod_cast e
      rw [if_pos e, if_pos (by omega)]; simp
    · have e' : k ≠ lMin + l.val := fun hh => e (by rw [hh])
      rw [if_neg e, if_neg (by omega)]; simp
  · have hn : (0 : ℝ) < (RA : ℝ) * TA * T := by positivity
    apply normalized_energy _ _ hn _ b y x
    intro b y ra x ta t k
    show normalizeTime (cirToTime W a tau lMin lMax false) b y ra x ta t k = _
    unfold normalizeTime
    rw [← linkEnergy_eq]

/-- A single path of two samples delay: lag 2 is entry 8 of the range from -6. -/
example : cirToTime (B := 1) (Y := 1) (RA := 1) (X := 1) (TA := 1) (P := 1) (T := 1) 1000 (fun _ _ _ _ _ _ _ => 3)
    (.link fun _ _ _ _ => 0.002) (-6) 10 false 0 0 0 0 0 0 ⟨8, by decide⟩ = 3 := by
  rw [(C65_taps 1000 _ _ (-6) 10 0 0 0).2.1 0 0 (fun _ => ⟨2, by norm_num [Spec.delayOf]⟩)]
  norm_num [Spec.delayOf]

/-! ### C66: taps to frequency response -/

/-- The root of unity of order `N` to the power `-z`. -/
noncomputable def Spec.unityRoot (N : ℕ) (z : ℤ) : ℂ := Complex.exp (-2 * Real.pi * z / N * Complex.I)

theorem unityRoot_periodic {N : ℕ} (hN : N ≠ 0) {z w : ℤ} (h : z ≡ w [ZMOD N]) : Spec.unityRoot N z = Spec.unityRoot N w := by
  obtain ⟨k, hk⟩ := h.dvd
  unfold Spec.unityRoot
  have hw : w = z + N * k := by omega
  rw [hw, Complex.exp_eq_exp_iff_exists_int]
  refine ⟨k, ?_⟩
  have : (N : ℂ) ≠ 0 := by exact_mod_cast hN
  push_cast
  field_simp
  ring

/-- The index used by `rollEntries`. -/
def rollIndex {N : ℕ} [NeZero N] (shift : ℤ) (i : Fin N) : Fin N := rollEntries (fun j => j) shift i

theorem rollEntries_eq {α : Type} {N : ℕ} [NeZero N] (x : Fin N → α) (shift : ℤ) (i : Fin N) :
    rollEntries x shift i = x (rollIndex shift i) := rfl

theorem rollIndex_mod {N : ℕ} [NeZero N] (shift : ℤ) (i : Fin N) : ((rollIndex shift i).val : ℤ) ≡ i.val - shift [ZMOD N] := by
  have h0 : (N : ℤ) ≠ 0 := by exact_mod_cast NeZero.ne N
  have h1 := Int.emod_nonneg ((i.val : ℤ) - shift) h0
  have : ((rollIndex shift i).val : ℤ) = ((i.val : ℤ) - shift) % N := by
    show ((((i.val : ℤ) - shift) % N).toNat : ℤ) = _
    omega
  rw [this]
  exact Int.mod_modEq _ _

theorem rollIndex_bijective {N : ℕ} [NeZero N] (shift : ℤ) : Function.Bijective (rollIndex (N := N) shift) := by
  rw [← Finite.injective_iff_bijective]
  intro i j hij
  have h1 := rollIndex_mod shift i
  have h2 := rollIndex_mod shift j
  rw [hij] at h1
  have h3 : (i.val : ℤ) ≡ j.val [ZMOD N] := by
    have := (h1.symm.trans h2).add_right shift
    simpa using this
  have h4 : i.val ≡ j.val [MOD N] := (Int.natCast_modEq_iff).1 h3
  exact Fin.ext (Nat.ModEq.eq_of_lt_of_lt h4 i.isLt j.isLt)

theorem sum_padded {N L : ℕ} (h : L ≤ N) (f : Fin L → ℂ) (g : Fin N → ℂ) :
    ∑ j : Fin N, (if hj : j.val < L then f ⟨j.val, hj⟩ else 0) * g j = ∑ l : Fin L, f l * g ⟨l.val, lt_of_lt_of_le l.isLt h⟩ := by
  symm
  apply Finset.sum_of_injOn (Fin.castLE h)
  · intro a _ b _ hab
    exact Fin.castLE_injective h hab
  · intro a _; simp
  · intro j _ hj
    rw [dif_neg, zero_mul]
    intro hl
    exact hj ⟨⟨j.val, hl⟩, by simp, by simp⟩
  · intro l _
    simp [Fin.castLE]

theorem sliceLength_grid (g : ResourceGrid) [NeZero g.fftSize] {T : ℕ} (hT : g.numTimeSamples ≤ T) :
    sliceLength T g.cyclicPrefix g.numTimeSamples (g.fftSize + g.cyclicPrefix) = g.numSymbols := by
  have hN := NeZero.pos g.fftSize
  unfold sliceLength
  rw [min_eq_left hT, ResourceGrid.numTimeSamples]
  set N := g.fftSize
  set cp := g.cyclicPrefix
  set S := g.numSymbols
  rcases Nat.eq_zero_or_pos S with h0 | h0
  · rw [h0, mul_zero]
    simp only [zero_tsub, zero_add]
    exact Nat.div_eq_of_lt (by omega)
  · have h1 : cp ≤ (N + cp) * S := by nlinarith
    have h2 : (N + cp) * S - cp + (N + cp) - 1 = (N - 1) + (N + cp) * S := by omega
    rw [h2, Nat.add_mul_div_left _ _ (by omega), Nat.div_eq_of_lt (by omega), zero_add]

/-- C66. If there are more taps than subcarriers the conversion fails. Otherwise, for a series with at least the time samples of the
grid, there is one response per OFDM symbol; at subcarrier `n` it is the sum over the lags `k` from `l_min` on of the tap times
`exp(-j 2π k (n - ⌊N/2⌋)/N)`, the taps being those of the first sample after the cyclic prefix of the symbol. -/
theorem C66_taps_to_ofdm {T L : ℕ} (g : ResourceGrid) [NeZero g.fftSize] (h : Fin T → Fin L → ℂ) (lMin : ℤ) :
    (g.fftSize < L → timeToOfdm g h lMin = .error .invalidArgument) ∧
    (L ≤ g.fftSize → g.numTimeSamples ≤ T →
      sliceLength T g.cyclicPrefix g.numTimeSamples (g.fftSize + g.cyclicPrefix) = g.numSymbols ∧
      ∃ out, timeToOfdm g h lMin = .ok out ∧ ∀ s : Fin _, ∃ hs : g.cyclicPrefix + s.val * (g.fftSize + g.cyclicPrefix) < T,
        ∀ n : Fin g.fftSize, out s n = ∑ l : Fin L,
          h ⟨g.cyclicPrefix + s.val * (g.fftSize + g.cyclicPrefix), hs⟩ l *
            Spec.unityRoot g.fftSize ((lMin + l.val) * Spec.centred g.fftSize n.val)) := by
  refine ⟨fun hL => by rw [timeToOfdm, if_pos hL], fun hL hT => ⟨sliceLength_grid g hT, ?_⟩⟩
  have hN := NeZero.pos g.fftSize
  refine ⟨_, by rw [timeToOfdm, if_neg (by omega)], fun s => ?_⟩
  have hs' : s.val < g.numSymbols := lt_of_lt_of_eq s.isLt (sliceLength_grid g hT)
  have hs : g.cyclicPrefix + s.val * (g.fftSize + g.cyclicPrefix) < T := by
    refine lt_of_lt_of_le ?_ hT
    unfold ResourceGrid.numTimeSamples
    nlinarith
  refine ⟨hs, fun n => ?_⟩
  dsimp only
  simp only [hs, dif_pos]
  rw [rollEntries_eq]
  set m := rollIndex ((g.fftSize / 2 : ℕ) : ℤ) n with hm
  have hmm : (m.val : ℤ) ≡ Spec.centred g.fftSize n.val [ZMOD g.fftSize] := rollIndex_mod _ n
  unfold fft
  have e : ∀ k : Fin g.fftSize, Complex.exp ⟨0, -2 * Real.pi * ((k.val : ℝ) * m.val) / g.fftSize⟩ =
      Spec.unityRoot g.fftSize ((((rollIndex lMin k).val : ℤ) + lMin) * Spec.centred g.fftSize n.val) := by
    intro k
    have e1 : Complex.exp ⟨0, -2 * Real.pi * ((k.val : ℝ) * m.val) / g.fftSize⟩ = Spec.unityRoot g.fftSize ((k.val : ℤ) * m.val) := by
      unfold Spec.unityRoot
      congr 1
      rw [show -2 * (Real.pi : ℂ) * (((k.val : ℤ) * m.val : ℤ) : ℂ) / g.fftSize * Complex.I =
        ((-2 * Real.pi * ((k.val : ℝ) * m.val) / g.fftSize : ℝ) : ℂ) * Complex.I by push_cast; ring]
      apply Complex.ext <;> simp
    rw [e1]
    apply unityRoot_periodic hN.ne'
    refine Int.ModEq.mul ?_ hmm
    have := (rollIndex_mod lMin k).add_right lMin
    simpa using this.symm
  let G : Fin g.fftSize → ℂ := fun j => (if hk : j.val < L then h ⟨_, hs⟩ ⟨j.val, hk⟩ else 0) *
    Spec.unityRoot g.fftSize (((j.val : ℤ) + lMin) * Spec.centred g.fftSize n.val)
  have e2 : ∀ k : Fin g.fftSize,
      rollEntries (fun k : Fin g.fftSize => if hk : k.val < L then h ⟨_, hs⟩ ⟨k.val, hk⟩ else 0) lMin k *
        Complex.exp ⟨0, -2 * Real.pi * ((k.val : ℝ) * m.val) / g.fftSize⟩ = G (rollIndex lMin k) := by
    intro k
    rw [e k, rollEntries_eq]
  refine (Finset.sum_congr rfl fun k _ => e2 k).trans ((Function.Bijective.sum_comp (rollIndex_bijective lMin) G).trans ?_)
  dsimp only [G]
  rw [sum_padded hL]
  refine Finset.sum_congr rfl fun l _ => ?_
  rw [add_comm lMin]

/-- A grid of two symbols of four subcarriers with a prefix of one sample, three taps from lag -1. -/
example : (3 : ℕ) ≤ (ResourceGrid.mk 4 1 2).fftSize ∧ (ResourceGrid.mk 4 1 2).numTimeSamples ≤ 12 := by decide

/-! ### C84: both ways agree -/

/-- C84. If all delays are whole numbers of samples, less than `fft_size` apart from `l_min` and within the range of taps, then
converting a channel that does not change over a symbol to taps and these to OFDM gives the same response as the direct conversion
at the subcarrier frequencies, at every symbol, the bandwidth being `fft_size` times the spacing. -/
theorem C84_agreement (g : ResourceGrid) [NeZero g.fftSize] (spacing : ℝ) (hsp : 0 < spacing) (a : PathCoeffs B Y RA X TA P T)
    (tau : PathDelays B Y RA X TA P) (lMin lMax : ℤ) (hL : (lMax + 1 - lMin).toNat ≤ g.fftSize) (hT : g.numTimeSamples ≤ T)
    (b : Fin B) (y : Fin Y) (ra : Fin RA) (x : Fin X) (ta : Fin TA)
    (hk : ∀ p, ∃ k : ℤ, g.fftSize * spacing * Spec.delayOf tau b y ra x ta p = k ∧ lMin ≤ k ∧ k ≤ lMax) :
    ∃ f, ∃ hf : f.length = g.fftSize, subcarrierFrequencies g.fftSize spacing = .ok f ∧
    ∃ out, timeToOfdm g (cirToTime (g.fftSize * spacing) a tau lMin lMax false b y ra x ta) lMin = .ok out ∧
    ∀ s : Fin _, ∃ hs : g.cyclicPrefix + s.val * (g.fftSize + g.cyclicPrefix) < T, ∀ n : Fin g.fftSize, out s n =
      cirToOfdm (fun n : Fin g.fftSize => f[n.val]'(by rw [hf]; exact n.isLt)) a tau false b y ra x ta
        ⟨g.cyclicPrefix + s.val * (g.fftSize + g.cyclicPrefix), hs⟩ n := by
  obtain ⟨f, hf1, hf2, hf3, -⟩ := (C63_subcarriers spacing).1 g.fftSize
  obtain ⟨-, out, ho, hout⟩ := (C66_taps_to_ofdm g (cirToTime (g.fftSize * spacing) a tau lMin lMax false b y ra x ta) lMin).2 hL hT
  refine ⟨f, hf2, hf1, out, ho, fun s => ?_⟩
  obtain ⟨hs, hn⟩ := hout s
  refine ⟨hs, fun n => ?_⟩
  rw [hn n, (C64_frequency_response _ a a 0 0 tau b y x).1]
  simp only [(C65_taps (g.fftSize * spacing) a tau lMin lMax b y x).2.1 ra ta (fun p => ⟨_, (hk p).choose_spec.1⟩), Finset.sum_mul]
  rw [Finset.sum_comm]
  refine Finset.sum_congr rfl fun p _ => ?_
  obtain ⟨k, hk1, hk2, hk3⟩ := hk p
  have hl : (k - lMin).toNat < (lMax + 1 - lMin).toNat := by omega
  rw [Finset.sum_eq_single ⟨(k - lMin).toNat, hl⟩]
  · have hkl : lMin + (((k - lMin).toNat : ℕ) : ℤ) = k := by omega
    dsimp only
    rw [hkl, if_pos hk1]
    congr 1
    rw [hf3 n.val (by rw [hf2]; exact n.isLt)]
    unfold Spec.unityRoot Spec.rotation
    congr 1
    have hN : (g.fftSize : ℝ) ≠ 0 := by exact_mod_cast NeZero.ne g.fftSize
    have ht : Spec.delayOf tau b y ra x ta p = k / (g.fftSize * spacing) := by
      rw [eq_div_iff (by positivity), mul_comm, hk1]
    rw [ht]
    have hN' : (g.fftSize : ℂ) ≠ 0 := by exact_mod_cast NeZero.ne g.fftSize
    have hs' : (spacing : ℂ) ≠ 0 := by exact_mod_cast hsp.ne'
    push_cast
    field_simp
  · intro l _ hne
    rw [if_neg, zero_mul]
    intro hh
    rw [hk1] at hh
    have : k = lMin + l.val := by exact_mod_cast hh
    exact hne (Fin.ext (by simp only; omega))
  · intro hh; exact absurd (Finset.mem_univ _) hh

/-- Delays of 0 and 3 samples, taps from -1 to 4, eight subcarriers. -/
example : ∀ p : Fin 2, ∃ k : ℤ, (8 : ℝ) * 1000 * Spec.delayOf (B := 1) (Y := 1) (RA := 1) (X := 1) (TA := 1) (P := 2)
    (.link fun _ _ _ p => if p = 0 then 0 else 3 / 8000) 0 0 0 0 0 p = k ∧ -1 ≤ k ∧ k ≤ 4 := by
  intro p
  fin_cases p
  · exact ⟨0, by norm_num [Spec.delayOf], by norm_num, by norm_num⟩
  · exact ⟨3, by norm_num [Spec.delayOf], by norm_num, by norm_num⟩

end OpenNTN
