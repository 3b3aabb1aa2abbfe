import Mathlib.Analysis.Fourier.AddCircle
import Mathlib.Analysis.SpecialFunctions.Integrals.Basic
import Mathlib.Analysis.Real.Pi.Bounds
import Verif.Props.Ofdm

/-
C163: how well the taps of a finite window represent the frequency response (utils.py 129-345).
-/
namespace OpenNTN
open MeasureTheory

variable {B Y RA X TA P T F : ℕ}

/-! ### Fourier coefficients of superposed rotations -/

theorem integral_rotation (z : ℝ) : ∫ u in (-(1 / 2 : ℝ))..(1 / 2), Complex.exp (2 * Real.pi * Complex.I * z * u) = (npSinc z : ℂ) := by
  unfold npSinc
  by_cases hz : z = 0
  · simp [hz]; norm_num
  · have hp := Real.pi_ne_zero
    have hc : (2 * Real.pi * Complex.I * z : ℂ) ≠ 0 := by simp [hz, hp]
    rw [integral_exp_mul_complex hc, if_neg hz]
    push_cast
    rw [Complex.sin]
    have e1 : (2 * Real.pi * Complex.I * z : ℂ) * (1 / 2) = Real.pi * z * Complex.I := by ring
    have e2 : (2 * Real.pi * Complex.I * z : ℂ) * -(1 / 2) = -(Real.pi * z) * Complex.I := by ring
    rw [e1, e2]
    have hz' : (z : ℂ) ≠ 0 := by exact_mod_cast hz
    have hp' : (Real.pi : ℂ) ≠ 0 := by exact_mod_cast hp
    field_simp
    ring_nf
    rw [Complex.I_sq]
    ring

theorem half_lt : (-(1 / 2 : ℝ)) < 1 / 2 := by norm_num

/-- A finite sum of rotations. -/
noncomputable def rotSum {ι : Type} [Fintype ι] (w : ι → ℂ) (y : ι → ℝ) (u : ℝ) : ℂ :=
  ∑ i, w i * Complex.exp (2 * Real.pi * Complex.I * (-(y i) : ℝ) * u)

theorem rotSum_continuous {ι : Type} [Fintype ι] (w : ι → ℂ) (y : ι → ℝ) : Continuous (rotSum w y) := by
  unfold rotSum
  fun_prop

theorem rotSum_coeff {ι : Type} [Fintype ι] (w : ι → ℂ) (y : ι → ℝ) (l : ℤ) :
    fourierCoeffOn half_lt (rotSum w y) (-l) = ∑ i, w i * (npSinc (l - y i) : ℂ) := by
  rw [fourierCoeffOn_eq_integral]
  have e : ∀ u : ℝ, (fourier (-(-l)) (u : AddCircle ((1 / 2 : ℝ) - -(1 / 2)))) • rotSum w y u =
      ∑ i, w i * Complex.exp (2 * Real.pi * Complex.I * ((l - y i : ℝ) : ℂ) * u) := by
    intro u
    rw [fourier_coe_apply, rotSum, smul_eq_mul, Finset.mul_sum]
    refine Finset.sum_congr rfl fun i _ => ?_
    rw [mul_left_comm, ← Complex.exp_add]
    congr 2
    push_cast
    ring
  simp only [e]
  rw [intervalIntegral.integral_finset_sum (fun i _ => (by fun_prop : Continuous _).intervalIntegrable _ _)]
  simp only [intervalIntegral.integral_const_mul, integral_rotation]
  norm_num

theorem rotSum_parseval {ι : Type} [Fintype ι] (w : ι → ℂ) (y : ι → ℝ) :
    HasSum (fun l : ℤ => ‖∑ i, w i * (npSinc (l - y i) : ℂ)‖ ^ 2) (∫ u in (-(1 / 2 : ℝ))..(1 / 2), ‖rotSum w y u‖ ^ 2) := by
  have hm : MemLp (rotSum w y) 2 (volume.restrict (Set.Ioc (-(1 / 2 : ℝ)) (1 / 2))) := by
    have hb : ∀ u, ‖rotSum w y u‖ ≤ ∑ i, ‖w i‖ := by
      intro u
      unfold rotSum
      refine (norm_sum_le _ _).trans (Finset.sum_le_sum fun i _ => ?_)
      rw [norm_mul, Complex.norm_exp]
      simp
    exact MemLp.of_bound (rotSum_continuous w y).aestronglyMeasurable _ (Filter.Eventually.of_forall hb)
  have h := hasSum_sq_fourierCoeffOn half_lt hm
  rw [show ((1 / 2 : ℝ) - -(1 / 2))⁻¹ = 1 by norm_num, one_smul] at h
  have h' := (Equiv.neg ℤ).hasSum_iff.2 h
  convert h' using 2 with l
  show _ = ‖fourierCoeffOn half_lt (rotSum w y) (-l)‖ ^ 2
  rw [rotSum_coeff]

/-! ### The energy outside a window -/

theorem npSinc_le {z d : ℝ} (hd : 0 < d) (hz : d ≤ |z|) : |npSinc z| ≤ 1 / (Real.pi * d) := by
  have hz0 : z ≠ 0 := by rintro rfl; simp at hz; linarith
  unfold npSinc
  rw [if_neg hz0, abs_div, abs_mul, abs_of_pos Real.pi_pos]
  exact div_le_div₀ zero_le_one (Real.abs_sin_le_one _) (by have := Real.pi_pos; positivity)
    (mul_le_mul_of_nonneg_left hz Real.pi_pos.le)

/-- `∑ 1 / (m + k + 1)^2` over any finite set of `k` is at most `1 / m`. -/
theorem sum_inv_sq_le {m : ℝ} (hm : 0 < m) (n : ℕ) : ∑ k ∈ Finset.range n, 1 / (m + k + 1) ^ 2 ≤ 1 / m - 1 / (m + n) := by
  induction n with
  | zero => simp
  | succ n ih =>
    rw [Finset.sum_range_succ]
    have h1 : 1 / (m + n + 1) ^ 2 ≤ 1 / (m + n) - 1 / (m + (n + 1 : ℕ)) := by
      push_cast
      rw [div_sub_div _ _ (by positivity) (by positivity), div_le_div_iff₀ (by positivity) (by positivity)]
      nlinarith [(by positivity : 0 < m + n)]
    linarith

theorem sum_side_le {m : ℝ} (hm : 0 < m) (s : Finset ℤ) (k : ℤ → ℕ) (hk : Set.InjOn k s) :
    ∑ l ∈ s, 1 / (m + k l + 1) ^ 2 ≤ 1 / m := by
  rw [← Finset.sum_image (f := fun j : ℕ => 1 / (m + j + 1) ^ 2) hk]
  obtain ⟨n, hn⟩ := (s.image k).exists_nat_subset_range
  refine (Finset.sum_le_sum_of_subset_of_nonneg hn fun _ _ _ => by positivity).trans ((sum_inv_sq_le hm n).trans ?_)
  have : 0 ≤ 1 / (m + n) := by positivity
  linarith

theorem outside_le {m A : ℝ} (hm : 0 < m) (hA : 0 ≤ A) {lMin lMax : ℤ} (g : ℤ → ℝ) (hin : ∀ l, lMin ≤ l → l ≤ lMax → g l = 0)
    (hright : ∀ l, lMax < l → g l ≤ A * (1 / (m + (l - lMax)) ^ 2)) (hleft : ∀ l, l < lMin → g l ≤ A * (1 / (m + (lMin - l)) ^ 2))
    {v : ℝ} (hg : HasSum g v) : v ≤ A * (2 / m) := by
  refine hasSum_le_of_sum_le hg fun s => ?_
  have h1 := sum_side_le hm (s.filter fun l => lMax < l) (fun l => (l - lMax - 1).toNat) (by
    intro i hi j hj h
    simp only [Finset.coe_filter, Set.mem_setOf_eq] at hi hj
    simp only at h
    omega)
  have h2 := sum_side_le hm (s.filter fun l => l < lMin) (fun l => (lMin - l - 1).toNat) (by
    intro i hi j hj h
    simp only [Finset.coe_filter, Set.mem_setOf_eq] at hi hj
    simp only at h
    omega)
  have h3 : ∑ l ∈ s, g l ≤ ∑ l ∈ s, ((if lMax < l then A * (1 / (m + ((l - lMax - 1).toNat : ℕ) + 1) ^ 2) else 0) +
      if l < lMin then A * (1 / (m + ((lMin - l - 1).toNat : ℕ) + 1) ^ 2) else 0) := by
    refine Finset.sum_le_sum fun l _ => ?_
    by_cases c1 : lMax < l
    · rw [if_pos c1]
      have e : (((l - lMax - 1).toNat : ℕ) : ℝ) = (l : ℝ) - lMax - 1 := by
        have : (((l - lMax - 1).toNat : ℕ) : ℤ) = l - lMax - 1 := by omega
        exact_mod_cast this
      have h := hright l c1
      rw [e, show m + ((l : ℝ) - lMax - 1) + 1 = m + (l - lMax) by ring]
      have : 0 ≤ if l < lMin then A * (1 / (m + ((lMin - l - 1).toNat : ℕ) + 1) ^ 2) else 0 := by split_ifs <;> positivity
      linarith
    · rw [if_neg c1, zero_add]
      by_cases c2 : l < lMin
      · rw [if_pos c2]
        have e : (((lMin - l - 1).toNat : ℕ) : ℝ) = (lMin : ℝ) - l - 1 := by
          have : (((lMin - l - 1).toNat : ℕ) : ℤ) = lMin - l - 1 := by omega
          exact_mod_cast this
        have h := hleft l c2
        rwa [e, show m + ((lMin : ℝ) - l - 1) + 1 = m + (lMin - l) by ring]
      · rw [if_neg c2, hin l (by omega) (by omega)]
  rw [Finset.sum_add_distrib, ← Finset.sum_filter, ← Finset.sum_filter, ← Finset.mul_sum, ← Finset.mul_sum] at h3
  calc _ ≤ _ := h3
    _ ≤ A * (1 / m) + A * (1 / m) := add_le_add (mul_le_mul_of_nonneg_left h1 hA) (mul_le_mul_of_nonneg_left h2 hA)
    _ = A * (2 / m) := by ring

/-! ### C163 -/

/-- Mean over the band of width `W` around the carrier. -/
noncomputable def Spec.bandMean (W : ℝ) (g : ℝ → ℝ) : ℝ := (1 / W) * ∫ f in (-(W / 2))..(W / 2), g f

theorem bandMean_eq {W : ℝ} (hW : 0 < W) (g : ℝ → ℝ) : Spec.bandMean W g = ∫ u in (-(1 / 2 : ℝ))..(1 / 2), g (W * u) := by
  unfold Spec.bandMean
  rw [intervalIntegral.integral_comp_mul_left g hW.ne', smul_eq_mul, one_div]
  congr 3 <;> ring

/-- The frequency response of one link and antenna pair at frequency `f`, from the conversion to OFDM with a single frequency. -/
noncomputable def Spec.linkResponse (a : PathCoeffs B Y RA X TA P T) (tau : PathDelays B Y RA X TA P) (b : Fin B) (y : Fin Y) (ra : Fin RA)
    (x : Fin X) (ta : Fin TA) (t : Fin T) (f : ℝ) : ℂ := cirToOfdm (fun _ : Fin 1 => f) a tau false b y ra x ta t 0

/-- The frequency response of a filter with the tap `d l` at lag `lMin + l`, sampled at rate `W`. -/
noncomputable def Spec.filterResponse (W : ℝ) (lMin : ℤ) {L : ℕ} (d : Fin L → ℂ) (f : ℝ) : ℂ :=
  ∑ l, d l * Spec.rotation f (((lMin + l.val : ℤ) : ℝ) / W)

theorem linkResponse_eq {W : ℝ} (hW : 0 < W) (a : PathCoeffs B Y RA X TA P T) (tau : PathDelays B Y RA X TA P) (b : Fin B) (y : Fin Y) (ra : Fin RA)
    (x : Fin X) (ta : Fin TA) (t : Fin T) (lMin : ℤ) {L : ℕ} (d : Fin L → ℂ) (u : ℝ) :
    Spec.linkResponse a tau b y ra x ta t (W * u) - Spec.filterResponse W lMin d (W * u) =
      rotSum (Sum.elim (fun p => a b y ra x ta p t) fun l => -d l)
        (Sum.elim (fun p => W * Spec.delayOf tau b y ra x ta p) fun l => ((lMin + l.val : ℤ) : ℝ)) u := by
  unfold Spec.linkResponse rotSum Spec.filterResponse
  rw [(C64_frequency_response _ a a 0 0 tau b y x).1, Fintype.sum_sum_type, sub_eq_add_neg, ← Finset.sum_neg_distrib]
  unfold Spec.rotation
  congr 1
  · refine Finset.sum_congr rfl fun p _ => ?_
    simp only [Sum.elim_inl]
    congr 2
    push_cast
    ring
  · refine Finset.sum_congr rfl fun l _ => ?_
    simp only [Sum.elim_inr]
    rw [neg_mul]
    congr 3
    have : (W : ℂ) ≠ 0 := by exact_mod_cast hW.ne'
    push_cast
    field_simp

theorem coeff_eq (W : ℝ) (w : Fin P → ℂ) (y : Fin P → ℝ) (lMin : ℤ) {L : ℕ} (d : Fin L → ℂ) (k : ℤ) :
    ∑ i, (Sum.elim w (fun l => -d l) i) * (npSinc (k - (Sum.elim y (fun l : Fin L => ((lMin + l.val : ℤ) : ℝ)) i)) : ℂ) =
      ∑ p, w p * (npSinc (k - y p) : ℂ) - if h : lMin ≤ k ∧ k < lMin + L then d ⟨(k - lMin).toNat, by omega⟩ else 0 := by
  rw [Fintype.sum_sum_type, sub_eq_add_neg]
  congr 1
  simp only [Sum.elim_inr]
  have e : ∀ l : Fin L, (npSinc ((k : ℝ) - ((lMin + l.val : ℤ) : ℝ)) : ℂ) = if k = lMin + l.val then 1 else 0 := by
    intro l
    rw [← Int.cast_sub, npSinc_int]
    by_cases h : k = lMin + l.val
    · rw [if_pos (by omega), if_pos h]; simp
    · rw [if_neg (by omega), if_neg h]; simp
  simp only [e]
  by_cases h : lMin ≤ k ∧ k < lMin + L
  · rw [dif_pos h, Finset.sum_eq_single ⟨(k - lMin).toNat, by omega⟩]
    · rw [if_pos (by simp only; omega)]; ring
    · intro l _ hl
      rw [if_neg, mul_zero]
      intro hh
      exact hl (Fin.ext (by simp only; omega))
    · intro hh; exact absurd (Finset.mem_univ _) hh
  · rw [dif_neg h, neg_zero]
    refine Finset.sum_eq_zero fun l _ => ?_
    rw [if_neg, mul_zero]
    have := l.isLt
    omega

theorem hasSum_window (lMin : ℤ) {L : ℕ} (phi : Fin L → ℝ) :
    HasSum (fun k : ℤ => if h : lMin ≤ k ∧ k < lMin + L then phi ⟨(k - lMin).toNat, by omega⟩ else 0) (∑ l, phi l) := by
  have hi : Function.Injective fun l : Fin L => lMin + (l.val : ℤ) := fun i j h => Fin.ext (by simp only at h; omega)
  rw [← hi.hasSum_iff]
  · have e : ((fun k : ℤ => if h : lMin ≤ k ∧ k < lMin + L then phi ⟨(k - lMin).toNat, by omega⟩ else 0) ∘ fun l : Fin L => lMin + (l.val : ℤ)) =
        phi := by
      funext l
      have := l.isLt
      simp only [Function.comp]
      rw [dif_pos (by omega)]
      congr 1
      exact Fin.ext (by simp)
    rw [e]
    exact hasSum_fintype _
  · intro k hk
    rw [dif_neg]
    intro h
    exact hk ⟨⟨(k - lMin).toNat, by omega⟩, by simp only; omega⟩

/-- C163. `H` is the frequency response of a link and antenna pair at a time sample, from `cir_to_ofdm_channel`; the taps are those of
`cir_to_time_channel` for any window of lags. First, the mean over the band of the squared deviation between `H` and the response of
the taps is the mean energy of `H` less the energy of the taps, so no window has too much energy and the window misses exactly what it
leaves out. Second, any other taps `d` in the window deviate more, by their squared distance to the taps: the taps are
the unique best ones. Third, if the window keeps a margin of `m` samples around all delays, the deviation is at most
`2 / (π² m)` times the square of the sum of the moduli of the coefficients. -/
theorem C163_window {W : ℝ} (hW : 0 < W) (a : PathCoeffs B Y RA X TA P T) (tau : PathDelays B Y RA X TA P) (lMin lMax : ℤ)
    (b : Fin B) (y : Fin Y) (ra : Fin RA) (x : Fin X) (ta : Fin TA) (t : Fin T) :
    let H := Spec.linkResponse a tau b y ra x ta t
    let taps := cirToTime W a tau lMin lMax false b y ra x ta t
    Spec.bandMean W (fun f => ‖H f - Spec.filterResponse W lMin taps f‖ ^ 2) = Spec.bandMean W (fun f => ‖H f‖ ^ 2) - ∑ l, ‖taps l‖ ^ 2 ∧
    (∀ d, Spec.bandMean W (fun f => ‖H f - Spec.filterResponse W lMin d f‖ ^ 2) =
      Spec.bandMean W (fun f => ‖H f - Spec.filterResponse W lMin taps f‖ ^ 2) + ∑ l, ‖d l - taps l‖ ^ 2) ∧
    ∀ m : ℝ, 0 < m → (∀ p, lMin + m ≤ W * Spec.delayOf tau b y ra x ta p ∧ W * Spec.delayOf tau b y ra x ta p ≤ lMax - m) →
      Spec.bandMean W (fun f => ‖H f - Spec.filterResponse W lMin taps f‖ ^ 2) ≤
        2 / (Real.pi ^ 2 * m) * (∑ p, ‖a b y ra x ta p t‖) ^ 2 := by
  intro H taps
  set c : ℤ → ℂ := fun k => ∑ p, a b y ra x ta p t * (npSinc (k - W * Spec.delayOf tau b y ra x ta p) : ℂ) with hc
  have htaps : ∀ l, taps l = c (lMin + l.val) := by
    intro l
    rw [hc]
    simp only [npSinc_eq]
    exact (C65_taps W a tau lMin lMax b y x).1 ra ta t l
  have hE : ∀ d : Fin (lMax + 1 - lMin).toNat → ℂ,
      HasSum (fun k : ℤ => ‖c k - if h : lMin ≤ k ∧ k < lMin + (lMax + 1 - lMin).toNat then d ⟨(k - lMin).toNat, by omega⟩ else 0‖ ^ 2)
        (Spec.bandMean W (fun f => ‖H f - Spec.filterResponse W lMin d f‖ ^ 2)) := by
    intro d
    rw [bandMean_eq hW]
    have h := rotSum_parseval (Sum.elim (fun p => a b y ra x ta p t) fun l => -d l)
        (Sum.elim (fun p => W * Spec.delayOf tau b y ra x ta p) fun l => ((lMin + l.val : ℤ) : ℝ))
    simp only [← linkResponse_eq hW] at h
    convert h using 3 with k
    rw [coeff_eq W]
  have hdiff : ∀ d, Spec.bandMean W (fun f => ‖H f - Spec.filterResponse W lMin d f‖ ^ 2) =
      Spec.bandMean W (fun f => ‖H f - Spec.filterResponse W lMin taps f‖ ^ 2) + ∑ l, ‖d l - taps l‖ ^ 2 := by
    intro d
    refine (hE d).unique ?_
    have h := (hE taps).add (hasSum_window lMin fun l => ‖d l - taps l‖ ^ 2)
    convert h using 2 with k
    by_cases hk : lMin ≤ k ∧ k < lMin + (lMax + 1 - lMin).toNat
    · rw [dif_pos hk, dif_pos hk, dif_pos hk, htaps]
      have e : lMin + (((k - lMin).toNat : ℕ) : ℤ) = k := by omega
      simp only [e, sub_self, norm_zero]
      rw [norm_sub_rev]
      ring
    · rw [dif_neg hk, dif_neg hk, dif_neg hk, add_zero]
  refine ⟨?_, hdiff, fun m hm hmar => ?_⟩
  · have h := hdiff 0
    have e : ∀ f, Spec.filterResponse W lMin (0 : Fin (lMax + 1 - lMin).toNat → ℂ) f = 0 := by
      intro f; simp [Spec.filterResponse]
    simp only [e, sub_zero, Pi.zero_apply, zero_sub, norm_neg] at h
    linarith
  · set A : ℝ := ∑ p, ‖a b y ra x ta p t‖ with hA
    have hA0 : 0 ≤ A := Finset.sum_nonneg fun p _ => norm_nonneg _
    have hbound : ∀ (k : ℤ) (δ : ℝ), 0 < δ → (∀ p, δ ≤ |(k : ℝ) - W * Spec.delayOf tau b y ra x ta p|) →
        ‖c k‖ ^ 2 ≤ A ^ 2 / Real.pi ^ 2 * (1 / δ ^ 2) := by
      intro k δ hδ h
      have h1 : ‖c k‖ ≤ A * (1 / (Real.pi * δ)) := by
        rw [hc, hA, Finset.sum_mul]
        refine (norm_sum_le _ _).trans (Finset.sum_le_sum fun p _ => ?_)
        rw [norm_mul, Complex.norm_real, Real.norm_eq_abs]
        exact mul_le_mul_of_nonneg_left (npSinc_le hδ (h p)) (norm_nonneg _)
      calc ‖c k‖ ^ 2 ≤ (A * (1 / (Real.pi * δ))) ^ 2 := pow_le_pow_left₀ (norm_nonneg _) h1 2
        _ = _ := by have := Real.pi_ne_zero; field_simp
    have h := outside_le (lMin := lMin) (lMax := lMax) (A := A ^ 2 / Real.pi ^ 2) hm (by positivity) _ ?_ ?_ ?_ (hE taps)
    · calc _ ≤ _ := h
        _ = _ := by have := Real.pi_ne_zero; field_simp
    · intro k h1 h2
      rw [dif_pos (by omega), htaps]
      have e : lMin + (((k - lMin).toNat : ℕ) : ℤ) = k := by omega
      simp only [e, sub_self, norm_zero]
      norm_num
    · intro k hk
      rw [dif_neg (by omega), sub_zero]
      have hk' : (lMax : ℝ) < k := by exact_mod_cast hk
      refine hbound k _ (by linarith) fun p => ?_
      have := (hmar p).2
      exact le_trans (by linarith) (le_abs_self _)
    · intro k hk
      rw [dif_neg (by omega), sub_zero]
      have hk' : (k : ℝ) < lMin := by exact_mod_cast hk
      refine hbound k _ (by linarith) fun p => ?_
      have := (hmar p).1
      exact le_trans (by linarith) (neg_le_abs _)

/-- C163. With the window of `time_lag_discrete_time_channel`, the deviation over the band is at most `1 / (3π²)`, about 3.4 per cent,
of the square of the sum of the moduli; a single path keeps at least 96.6 per cent of its energy in the window and never gains any. -/
theorem C163_default {W : ℝ} (hW : 0 < W) (maxDelay : ℝ) (a : PathCoeffs B Y RA X TA P T) (tau : PathDelays B Y RA X TA P)
    (b : Fin B) (y : Fin Y) (ra : Fin RA) (x : Fin X) (ta : Fin TA) (t : Fin T)
    (htau : ∀ p, 0 ≤ Spec.delayOf tau b y ra x ta p ∧ Spec.delayOf tau b y ra x ta p ≤ maxDelay) :
    let taps := cirToTime W a tau (timeLag W maxDelay).1 (timeLag W maxDelay).2 false b y ra x ta t
    Spec.bandMean W (fun f => ‖Spec.linkResponse a tau b y ra x ta t f - Spec.filterResponse W (timeLag W maxDelay).1 taps f‖ ^ 2) ≤
      1 / (3 * Real.pi ^ 2) * (∑ p, ‖a b y ra x ta p t‖) ^ 2 ∧
    ∀ p, (∀ q, q ≠ p → a b y ra x ta q t = 0) →
      0.966 * ‖a b y ra x ta p t‖ ^ 2 ≤ ∑ l, ‖taps l‖ ^ 2 ∧ ∑ l, ‖taps l‖ ^ 2 ≤ ‖a b y ra x ta p t‖ ^ 2 := by
  intro taps
  obtain ⟨h1, h2, h3⟩ := C163_window hW a tau (timeLag W maxDelay).1 (timeLag W maxDelay).2 b y ra x ta t
  have h4 := h3 6 (by norm_num) fun p => (C67_tap_range W maxDelay hW.le).2.1 _ (htau p).1 (htau p).2
  have h5 : Spec.bandMean W (fun f => ‖Spec.linkResponse a tau b y ra x ta t f - Spec.filterResponse W (timeLag W maxDelay).1 taps f‖ ^ 2) ≤
      1 / (3 * Real.pi ^ 2) * (∑ p, ‖a b y ra x ta p t‖) ^ 2 := by
    refine h4.trans (le_of_eq ?_)
    rw [show 2 / (Real.pi ^ 2 * 6) = 1 / (3 * Real.pi ^ 2) by
      have := Real.pi_ne_zero
      field_simp
      norm_num]
  refine ⟨h5, fun p hp => ?_⟩
  have e1 : ∑ q, ‖a b y ra x ta q t‖ = ‖a b y ra x ta p t‖ :=
    Finset.sum_eq_single p (fun q _ hq => by rw [hp q hq, norm_zero]) fun hh => absurd (Finset.mem_univ _) hh
  have e2 : ∀ f, ‖Spec.linkResponse a tau b y ra x ta t f‖ = ‖a b y ra x ta p t‖ := by
    intro f
    unfold Spec.linkResponse
    rw [(C64_frequency_response _ a a 0 0 tau b y x).1, Finset.sum_eq_single p (fun q _ hq => by rw [hp q hq, zero_mul])
      fun hh => absurd (Finset.mem_univ _) hh, norm_mul, rotation_norm, mul_one]
  have e3 : Spec.bandMean W (fun f => ‖Spec.linkResponse a tau b y ra x ta t f‖ ^ 2) = ‖a b y ra x ta p t‖ ^ 2 := by
    simp only [e2]
    rw [bandMean_eq hW, intervalIntegral.integral_const, smul_eq_mul]
    norm_num
  rw [e1] at h5
  have h6 : 0 ≤ Spec.bandMean W (fun f => ‖Spec.linkResponse a tau b y ra x ta t f - Spec.filterResponse W (timeLag W maxDelay).1 taps f‖ ^ 2) := by
    rw [bandMean_eq hW]
    exact intervalIntegral.integral_nonneg half_lt.le fun u _ => by positivity
  rw [h1, e3] at h5 h6
  have hpi : 1 / (3 * Real.pi ^ 2) ≤ 0.034 := by
    rw [div_le_iff₀ (by have := Real.pi_pos; positivity)]
    nlinarith [Real.pi_gt_d2]
  have := mul_le_mul_of_nonneg_right hpi (sq_nonneg ‖a b y ra x ta p t‖)
  exact ⟨by linarith, by linarith⟩

/-- Two paths, one of them half-way between two samples, at 1 MHz and a largest delay of 3 µs. -/
example : ∀ p : Fin 2, 0 ≤ Spec.delayOf (B := 1) (Y := 1) (RA := 1) (X := 1) (TA := 1) (P := 2)
    (.link fun _ _ _ p => if p = 0 then 0 else 0.0000025) 0 0 0 0 0 p ∧
    Spec.delayOf (B := 1) (Y := 1) (RA := 1) (X := 1) (TA := 1) (P := 2)
    (.link fun _ _ _ p => if p = 0 then 0 else 0.0000025) 0 0 0 0 0 p ≤ 0.000003 := by
  intro p
  fin_cases p <;> norm_num [Spec.delayOf]

end OpenNTN
