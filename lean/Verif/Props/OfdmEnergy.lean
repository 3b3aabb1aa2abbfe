import Mathlib.Algebra.Field.GeomSum
import Verif.Props.Ofdm

/-
C153: conversion of taps to the resource grid keeps energy and loses nothing.
-/
namespace OpenNTN

open Spec

theorem unityRoot_add (N : ℕ) (z w : ℤ) : unityRoot N (z + w) = unityRoot N z * unityRoot N w := by
  unfold unityRoot
  rw [← Complex.exp_add]
  congr 1
  push_cast
  ring

theorem unityRoot_nat (N : ℕ) (z : ℤ) (k : ℕ) : unityRoot N (z * k) = unityRoot N z ^ k := by
  unfold unityRoot
  rw [← Complex.exp_nat_mul]
  congr 1
  push_cast
  ring

theorem unityRoot_conj (N : ℕ) (z : ℤ) : (starRingEnd ℂ) (unityRoot N z) = unityRoot N (-z) := by
  unfold unityRoot
  rw [← Complex.exp_conj]
  congr 1
  simp only [map_mul, map_div₀, map_neg, Complex.conj_ofReal, Complex.conj_I, map_ofNat, map_intCast, map_natCast]
  push_cast
  ring

theorem unityRoot_one {N : ℕ} (hN : N ≠ 0) {z : ℤ} (h : unityRoot N z = 1) : (N : ℤ) ∣ z := by
  unfold unityRoot at h
  rw [Complex.exp_eq_one_iff] at h
  obtain ⟨k, hk⟩ := h
  refine ⟨-k, ?_⟩
  have hN' : (N : ℂ) ≠ 0 := by exact_mod_cast hN
  have hp : (Real.pi : ℂ) ≠ 0 := by exact_mod_cast Real.pi_ne_zero
  have hI := Complex.I_ne_zero
  have : (z : ℂ) = ((N : ℤ) * -k : ℤ) := by
    push_cast
    field_simp at hk
    linear_combination -hk
  exact_mod_cast this

/-- Orthogonality. -/
theorem unityRoot_sum {N : ℕ} (hN : N ≠ 0) (z : ℤ) :
    ∑ n : Fin N, unityRoot N (z * centred N n.val) = if (N : ℤ) ∣ z then (N : ℂ) else 0 := by
  have h1 : ∀ n : Fin N, unityRoot N (z * centred N n.val) = unityRoot N (-(z * (N / 2 : ℕ))) * unityRoot N z ^ n.val := by
    intro n
    rw [← unityRoot_nat, ← unityRoot_add]
    congr 1
    unfold centred
    ring
  simp only [h1, ← Finset.mul_sum]
  split_ifs with hd
  · have e : ∀ w : ℤ, (N : ℤ) ∣ w → unityRoot N w = 1 := by
      intro w hw
      rw [unityRoot_periodic hN (w := 0) (Int.modEq_zero_iff_dvd.2 hw)]
      simp [unityRoot]
    rw [e z hd, e _ ((hd.mul_right _).neg_right)]
    simp
  · have hne : unityRoot N z ≠ 1 := fun h => hd (unityRoot_one hN h)
    rw [Fin.sum_univ_eq_sum_range (fun k => unityRoot N z ^ k) N, geom_sum_eq hne]
    have : unityRoot N z ^ N = 1 := by
      rw [← unityRoot_nat, unityRoot_periodic hN (w := 0) (Int.modEq_zero_iff_dvd.2 (dvd_mul_left _ _))]
      simp [unityRoot]
    rw [this]
    simp

/-- From the response back to the taps. -/
theorem taps_back {N L : ℕ} (hN : N ≠ 0) (hL : L ≤ N) (x : Fin L → ℂ) (lMin : ℤ) (l : Fin L) :
    ∑ n : Fin N, (∑ j : Fin L, x j * unityRoot N ((lMin + j.val) * centred N n.val)) * unityRoot N (-((lMin + l.val) * centred N n.val)) = N * x l := by
  simp only [Finset.sum_mul]
  rw [Finset.sum_comm]
  rw [Finset.sum_eq_single l]
  · have : ∀ n : Fin N, x l * unityRoot N ((lMin + l.val) * centred N n.val) * unityRoot N (-((lMin + l.val) * centred N n.val)) = x l := by
      intro n
      rw [mul_assoc, ← unityRoot_add, add_neg_cancel]
      simp [unityRoot]
    simp only [this]
    simp
  · intro j _ hj
    have : ∀ n : Fin N, x j * unityRoot N ((lMin + j.val) * centred N n.val) * unityRoot N (-((lMin + l.val) * centred N n.val)) =
        x j * unityRoot N (((j.val : ℤ) - l.val) * centred N n.val) := by
      intro n
      rw [mul_assoc, ← unityRoot_add]
      congr 2
      ring
    simp only [this, ← Finset.mul_sum]
    rw [unityRoot_sum hN, if_neg, mul_zero]
    intro hd
    have h1 := j.isLt
    have h2 := l.isLt
    have := Int.eq_zero_of_abs_lt_dvd hd (by rw [abs_lt]; constructor <;> omega)
    exact hj (Fin.ext (by omega))
  · intro h
    exact absurd (Finset.mem_univ _) h

/-- C153. Conversion of taps to the resource grid loses nothing: with at most `fft_size` taps, the mean energy over the subcarriers of a symbol is
the energy of the taps at the start of the symbol, and these are recovered from the response by the inverse transform. -/
theorem C153_energy {T L : ℕ} (g : ResourceGrid) [NeZero g.fftSize] (h : Fin T → Fin L → ℂ) (lMin : ℤ) (hL : L ≤ g.fftSize)
    (hT : g.numTimeSamples ≤ T) :
    ∃ out, timeToOfdm g h lMin = .ok out ∧ ∀ s : Fin _, ∃ hs : g.cyclicPrefix + s.val * (g.fftSize + g.cyclicPrefix) < T,
      (∑ n, ‖out s n‖ ^ 2) / g.fftSize = ∑ l, ‖h ⟨g.cyclicPrefix + s.val * (g.fftSize + g.cyclicPrefix), hs⟩ l‖ ^ 2 ∧
      ∀ l, h ⟨g.cyclicPrefix + s.val * (g.fftSize + g.cyclicPrefix), hs⟩ l =
        (∑ n, out s n * unityRoot g.fftSize (-((lMin + l.val) * centred g.fftSize n.val))) / g.fftSize := by
  obtain ⟨-, out, ho, hout⟩ := (C66_taps_to_ofdm g h lMin).2 hL hT
  have hN := NeZero.ne g.fftSize
  have hNc : (g.fftSize : ℂ) ≠ 0 := by exact_mod_cast hN
  refine ⟨out, ho, fun s => ?_⟩
  obtain ⟨hs, hn⟩ := hout s
  have hback : ∀ l, ∑ n, out s n * unityRoot g.fftSize (-((lMin + l.val) * centred g.fftSize n.val)) =
      g.fftSize * h ⟨g.cyclicPrefix + s.val * (g.fftSize + g.cyclicPrefix), hs⟩ l := by
    intro l
    simp only [hn]
    exact taps_back hN hL _ lMin l
  refine ⟨hs, ?_, fun l => ?_⟩
  · have hsq : ∀ x : ℂ, ((‖x‖ ^ 2 : ℝ) : ℂ) = x * (starRingEnd ℂ) x := fun x => by rw [Complex.mul_conj, Complex.normSq_eq_norm_sq]
    have key : ((∑ n, ‖out s n‖ ^ 2 : ℝ) : ℂ) =
        ((g.fftSize * ∑ l, ‖h ⟨g.cyclicPrefix + s.val * (g.fftSize + g.cyclicPrefix), hs⟩ l‖ ^ 2 : ℝ) : ℂ) := by
      rw [Complex.ofReal_mul, Complex.ofReal_sum, Complex.ofReal_sum, Complex.ofReal_natCast]
      simp only [hsq]
      have e : ∀ n, out s n * (starRingEnd ℂ) (out s n) = ∑ l, (starRingEnd ℂ) (h ⟨g.cyclicPrefix + s.val * (g.fftSize + g.cyclicPrefix), hs⟩ l) *
          (out s n * unityRoot g.fftSize (-((lMin + l.val) * centred g.fftSize n.val))) := by
        intro n
        conv_lhs => rw [hn n, map_sum, Finset.mul_sum]
        refine Finset.sum_congr rfl fun l _ => ?_
        rw [map_mul, unityRoot_conj, ← hn n]
        ring
      simp only [e]
      rw [Finset.sum_comm]
      simp only [← Finset.mul_sum, hback]
      rw [Finset.mul_sum]
      refine Finset.sum_congr rfl fun l _ => ?_
      ring
    have := Complex.ofReal_injective key
    rw [this]
    have hNr : (g.fftSize : ℝ) ≠ 0 := by exact_mod_cast hN
    field_simp
  · rw [hback l]
    field_simp

variable {B Y RA X TA P T : ℕ}

/-- C153, normalised taps: if the channel does not change over time and some tap of a link is not zero, the resource elements of the link have mean
energy one, over antennas, symbols and subcarriers. -/
theorem C153_normalised (g : ResourceGrid) [NeZero g.fftSize] (W : ℝ) (a : PathCoeffs B Y RA X TA P T) (tau : PathDelays B Y RA X TA P)
    (lMin lMax : ℤ) (hL : (lMax + 1 - lMin).toNat ≤ g.fftSize) (hT : g.numTimeSamples ≤ T) (hS : 0 < g.numSymbols) (b : Fin B) (y : Fin Y) (x : Fin X)
    (hc : ∀ ra ta p t t', a b y ra x ta p t = a b y ra x ta p t') (hne : ∃ ra ta t l, cirToTime W a tau lMin lMax false b y ra x ta t l ≠ 0) :
    ∃ out : Fin RA → Fin TA → Fin _ → Fin g.fftSize → ℂ,
      (∀ ra ta, timeToOfdm g (cirToTime W a tau lMin lMax true b y ra x ta) lMin = .ok (out ra ta)) ∧
      (∑ ra, ∑ ta, ∑ s, ∑ n, ‖out ra ta s n‖ ^ 2) / (RA * TA * g.numSymbols * g.fftSize) = 1 := by
  have hN : (0 : ℝ) < g.fftSize := by exact_mod_cast NeZero.pos g.fftSize
  have hS' : (0 : ℝ) < g.numSymbols := by exact_mod_cast hS
  choose out ho hout using fun ra ta => C153_energy g (cirToTime W a tau lMin lMax true b y ra x ta) lMin hL hT
  refine ⟨out, ho, ?_⟩
  obtain ⟨ra0, ta0, t0, l0, h0⟩ := hne
  have hra : (0 : ℝ) < RA := by exact_mod_cast ra0.pos
  have hta : (0 : ℝ) < TA := by exact_mod_cast ta0.pos
  have ht : (0 : ℝ) < T := by exact_mod_cast t0.pos
  rcases (C65_taps W a tau lMin lMax b y x).2.2 ra0.pos ta0.pos t0.pos with ⟨he, σ, -, hσ⟩ | hz
  swap
  · exact absurd (hz ra0 ta0 t0 l0).1 h0
  have hconst : ∀ ra ta t l, cirToTime W a tau lMin lMax true b y ra x ta t l = cirToTime W a tau lMin lMax true b y ra x ta t0 l := by
    intro ra ta t l
    rw [hσ, hσ, (C65_taps W a tau lMin lMax b y x).1, (C65_taps W a tau lMin lMax b y x).1]
    simp only [hc ra ta _ t t0]
  have hE : ∑ ra : Fin RA, ∑ ta : Fin TA, ∑ l, ‖cirToTime W a tau lMin lMax true b y ra x ta t0 l‖ ^ 2 = RA * TA := by
    rw [← linkEnergy_eq, div_eq_one_iff_eq (by positivity)] at he
    simp only [hconst] at he
    simp only [Finset.sum_const, Finset.card_univ, Fintype.card_fin, nsmul_eq_mul, ← Finset.mul_sum] at he
    have : (T : ℝ) * (∑ ra : Fin RA, ∑ ta : Fin TA, ∑ l, ‖cirToTime W a tau lMin lMax true b y ra x ta t0 l‖ ^ 2) = T * (RA * TA) := by
      rw [he]
      ring
    exact mul_left_cancel₀ ht.ne' this
  have hs : ∀ ra ta s, ∑ n, ‖out ra ta s n‖ ^ 2 = g.fftSize * ∑ l, ‖cirToTime W a tau lMin lMax true b y ra x ta t0 l‖ ^ 2 := by
    intro ra ta s
    obtain ⟨hs, e, -⟩ := hout ra ta s
    rw [div_eq_iff hN.ne'] at e
    rw [e, mul_comm]
    simp only [hconst]
  simp only [hs, Finset.sum_const, Finset.card_univ, Fintype.card_fin, nsmul_eq_mul, ← Finset.mul_sum, hE]
  rw [sliceLength_grid g hT]
  field_simp

/-- Two symbols of four subcarriers with a prefix of one sample; a path of one sample delay, taps from lag -1 to 2. -/
example : ∃ out : Fin 1 → Fin 1 → Fin _ → Fin 4 → ℂ,
    (∀ ra ta, timeToOfdm ⟨4, 1, 2⟩ (cirToTime (B := 1) (Y := 1) (RA := 1) (X := 1) (TA := 1) (P := 1) (T := 10) 1000 (fun _ _ _ _ _ _ _ => 3)
      (.link fun _ _ _ _ => 0.001) (-1) 2 true 0 0 ra 0 ta) (-1) = .ok (out ra ta)) ∧
    (∑ ra, ∑ ta, ∑ s, ∑ n, ‖out ra ta s n‖ ^ 2) / (((1 : ℕ) : ℝ) * ((1 : ℕ) : ℝ) * ((2 : ℕ) : ℝ) * ((4 : ℕ) : ℝ)) = 1 := by
  have : NeZero (ResourceGrid.mk 4 1 2).fftSize := ⟨by decide⟩
  refine C153_normalised ⟨4, 1, 2⟩ 1000 _ _ (-1) 2 (by decide) (by decide) (by decide) 0 0 0 (fun _ _ _ _ _ => rfl) ⟨0, 0, 0, ⟨2, by decide⟩, ?_⟩
  rw [(C65_taps 1000 _ _ (-1) 2 0 0 0).2.1 0 0 (fun _ => ⟨1, by norm_num [Spec.delayOf]⟩)]
  norm_num [Spec.delayOf]

end OpenNTN
