import Verif.Model.RoundingNormalize
import Verif.Props.RoundingOfdm

/-
Normalization of responses and taps, every operation rounded: C229.
-/
namespace OpenNTN

open Spec

/-- Magnitude and division of complex numbers by the library. -/
structure Spec.AccurateMagnitude (abs : ℂ → ℝ) (div : ℂ → ℝ → ℂ) : Prop where
  abs : ∀ z, ‖z‖ ≤ 10 ^ 10 → |abs z - ‖z‖| ≤ (2 : ℝ) ^ (-21 : ℤ) * ‖z‖ + 1e-37
  div : ∀ (z : ℂ) (c : ℝ), ‖z‖ ≤ 10 ^ 10 → 1e-12 ≤ c → c ≤ 10 ^ 15 → ‖div z c - z / c‖ ≤ (2 : ℝ) ^ (-21 : ℤ) * (‖z‖ / c) + 1e-10

/-- With exact arithmetic the normalized values are those of the model. -/
theorem C229_model {B Y RA X TA T F : ℕ} (h : Response B Y RA X TA T F) (b : Fin B) (y : Fin Y) (ra : Fin RA) (x : Fin X) (ta : Fin TA) (t : Fin T) (n : Fin F) (c : ℝ) :
    (Arith.exact.IsMeanEnergy (fun z => ‖z‖) (fun i : Fin RA × Fin TA × Fin T × Fin F => h b y i.1 x i.2.1 i.2.2.1 i.2.2.2) (RA * TA * T * F) c →
      Arith.exact.normalized (fun z c => z / c) c (h b y ra x ta t n) = normalizeOfdm h b y ra x ta t n) ∧
    (Arith.exact.IsMeanEnergy (fun z => ‖z‖) (fun i : Fin RA × Fin TA × Fin T × Fin F => h b y i.1 x i.2.1 i.2.2.1 i.2.2.2) (RA * TA * T) c →
      Arith.exact.normalized (fun z c => z / c) c (h b y ra x ta t n) = normalizeTime h b y ra x ta t n) := by
  have tot : ∀ s, RoundedSum Arith.exact.rnd (Finset.univ.toList.map fun i : Fin RA × Fin TA × Fin T × Fin F => Arith.exact.energy (fun z => ‖z‖) (h b y i.1 x i.2.1 i.2.2.1 i.2.2.2)) s →
      s = ∑ ra : Fin RA, ∑ ta : Fin TA, ∑ t : Fin T, ∑ n : Fin F, ‖h b y ra x ta t n‖ ^ 2 := by
    intro s hs
    rw [roundedSum_exact (show RoundedSum id _ s from hs), Finset.sum_map_toList]
    simp only [Fintype.sum_prod_type, Arith.energy, Arith.exact, id, sq]
  constructor <;>
  · rintro ⟨s, hs, rfl⟩
    rw [tot s hs]
    simp only [Arith.normalized, normalizeOfdm, normalizeTime, divideNoNan, Arith.exact, id, Complex.ofReal_eq_zero]
    push_cast
    rfl

section

variable {f : Format} (hf : IEEE f) {A : Arith} (hr : Nearest f A.rnd)

include hf hr

/-- Long sums in any order. -/
theorem long_sum_err {l : List ℝ} {s : ℝ} (h : RoundedSum A.rnd l s) (n : l.length ≤ 10 ^ 6) (b : (l.map abs).sum ≤ 10 ^ 28) :
    1 ≤ l.length ∧ |l.sum| ≤ (l.map abs).sum ∧ |s - l.sum| ≤ ((l.length : ℝ) - 1) * (7e-8 * (l.map abs).sum + 3e-38) := by
  induction h with
  | single x => simp
  | @add l r u v _ _ il ir =>
    rw [List.length_append] at n
    rw [List.map_append, List.sum_append] at b
    have l0 : 0 ≤ (l.map abs).sum := List.sum_nonneg (by simp)
    have r0 : 0 ≤ (r.map abs).sum := List.sum_nonneg (by simp)
    obtain ⟨l1, l2, l3⟩ := il (by omega) (by linarith)
    obtain ⟨r1, r2, r3⟩ := ir (by omega) (by linarith)
    rw [List.length_append, List.map_append, List.sum_append, List.sum_append]
    have nl : (1 : ℝ) ≤ l.length := by exact_mod_cast l1
    have nr : (1 : ℝ) ≤ r.length := by exact_mod_cast r1
    have nn : (l.length : ℝ) + r.length ≤ 10 ^ 6 := by exact_mod_cast n
    push_cast
    generalize (l.length : ℝ) = x at *
    generalize (r.length : ℝ) = y at *
    generalize (l.map abs).sum = P at *
    generalize (r.map abs).sum = Q at *
    have m1 : (x - 1) * (7e-8 * P + 3e-38) ≤ (x - 1) * (7e-8 * (P + Q) + 3e-38) := mul_le_mul_of_nonneg_left (by norm_num at *; linarith) (by linarith)
    have m2 : (y - 1) * (7e-8 * Q + 3e-38) ≤ (y - 1) * (7e-8 * (P + Q) + 3e-38) := mul_le_mul_of_nonneg_left (by norm_num at *; linarith) (by linarith)
    have m3 : (x + y - 2) * (7e-8 * (P + Q) + 3e-38) ≤ 10 ^ 6 * (7e-8 * (P + Q) + 3e-38) := mul_le_mul_of_nonneg_right (by linarith) (by positivity)
    have e : |u + v - (l.sum + r.sum)| ≤ (x + y - 2) * (7e-8 * (P + Q) + 3e-38) := by
      rw [show u + v - (l.sum + r.sum) = (u - l.sum) + (v - r.sum) by ring]
      refine (abs_add_le _ _).trans ((add_le_add (l3.trans m1) (r3.trans m2)).trans (le_of_eq (by ring)))
    have w : |l.sum + r.sum| ≤ P + Q := (abs_add_le _ _).trans (add_le_add l2 r2)
    have g := near_of (e.trans m3) w
    have c := rnd_small hf hr (x := u + v) (g.trans (by norm_num at *; linarith))
    refine ⟨by omega, w, (tri_of c e).trans ?_⟩
    rw [show x + y - 1 = (x + y - 2) + 1 by ring, add_mul, one_mul]
    norm_num at *; linarith
  | perm hp _ ih =>
    rw [← hp.length_eq] at n ⊢
    have := (hp.map abs).sum_eq
    rw [← this] at b ⊢
    rw [← hp.sum_eq]
    exact ih n b

/-- Energy of an entry. -/
theorem energy_err {mag : ℂ → ℝ} {div : ℂ → ℝ → ℂ} (hm : AccurateMagnitude mag div) {z : ℂ} (hz : ‖z‖ ≤ 10 ^ 10) :
    |A.energy mag z - ‖z‖ ^ 2| ≤ 1.2e-6 * ‖z‖ ^ 2 + 1e-35 := by
  have h := hm.abs z hz
  unfold Arith.energy
  have n0 := norm_nonneg z
  generalize ‖z‖ = n at *
  generalize mag z = r at *
  have d : |r - n| ≤ 5e-7 * n + 1e-37 := h.trans (by norm_num at *; linarith)
  have s : |r * r - n ^ 2| ≤ 1.1e-6 * n ^ 2 + 1e-36 := by
    have b : |r + n| ≤ 2.1 * n + 1e-37 := by
      have := near_of d (abs_of_nonneg n0).le
      refine (abs_add_le _ _).trans ?_
      rw [abs_of_nonneg n0]; norm_num at *; linarith
    rw [show r * r - n ^ 2 = (r - n) * (r + n) by ring, abs_mul]
    refine (mul_le_mul d b (abs_nonneg _) (by positivity)).trans ?_
    norm_num
    nlinarith [sq_nonneg (n - 1)]
  have q : n ^ 2 ≤ 10 ^ 20 := by
    have := pow_le_pow_left₀ n0 hz 2
    norm_num at *; linarith
  have g := near_of s (abs_of_nonneg (sq_nonneg n)).le
  have c := rnd_small hf hr (x := r * r) (g.trans (by norm_num at *; linarith))
  refine (tri_of c s).trans ?_
  have n2 := sq_nonneg n
  norm_num at *; linarith

/-- The mean energy. -/
theorem mean_energy_err {mag : ℂ → ℝ} {div : ℂ → ℝ → ℂ} (hm : AccurateMagnitude mag div) {ι : Type} [Fintype ι] {z : ι → ℂ} (hz : ∀ i, ‖z i‖ ≤ 10 ^ 10) {count : ℕ} (k1 : 1 ≤ count)
    (n : Fintype.card ι ≤ 10 ^ 6) (lo : 1e-22 ≤ (∑ i, ‖z i‖ ^ 2) / count) (hi : (∑ i, ‖z i‖ ^ 2) / count ≤ 10 ^ 20) {c : ℝ} (hc : A.IsMeanEnergy mag z count c) :
    |c - (∑ i, ‖z i‖ ^ 2) / count| ≤ (1.6e-6 + 7.2e-8 * Fintype.card ι) * ((∑ i, ‖z i‖ ^ 2) / count) := by
  obtain ⟨s, hs, rfl⟩ := hc
  have K1 : (1 : ℝ) ≤ count := by exact_mod_cast k1
  have K0 : (0 : ℝ) < count := by linarith
  have N1 : (Fintype.card ι : ℝ) ≤ 10 ^ 6 := by exact_mod_cast n
  have N0 : (0 : ℝ) ≤ Fintype.card ι := Nat.cast_nonneg _
  have len : (Finset.univ.toList.map fun i => A.energy mag (z i)).length = Fintype.card ι := by simp
  have each : ∀ i, |A.energy mag (z i) - ‖z i‖ ^ 2| ≤ 1.2e-6 * ‖z i‖ ^ 2 + 1e-35 := fun i => energy_err hf hr hm (hz i)
  have S2 : ∑ i, ‖z i‖ ^ 2 ≤ Fintype.card ι * 10 ^ 20 := by
    refine (Finset.sum_le_card_nsmul _ _ (10 ^ 20) fun i _ => ?_).trans (by simp)
    refine (pow_le_pow_left₀ (norm_nonneg _) (hz i) 2).trans (by norm_num)
  have S1 : 1e-22 ≤ ∑ i, ‖z i‖ ^ 2 := by
    rw [le_div_iff₀ K0] at lo
    exact le_trans (le_mul_of_one_le_right (by norm_num) K1) lo
  have part : |∑ i, A.energy mag (z i) - ∑ i, ‖z i‖ ^ 2| ≤ 1.2e-6 * (∑ i, ‖z i‖ ^ 2) + Fintype.card ι * 1e-35 := by
    rw [← Finset.sum_sub_distrib]
    refine (Finset.abs_sum_le_sum_abs _ _).trans ((Finset.sum_le_sum fun i _ => each i).trans (le_of_eq ?_))
    rw [Finset.sum_add_distrib, ← Finset.mul_sum]
    simp
  have absb : ∑ i, |A.energy mag (z i)| ≤ 1.0000012 * (∑ i, ‖z i‖ ^ 2) + Fintype.card ι * 1e-35 := by
    refine (Finset.sum_le_sum (g := fun i => 1.0000012 * ‖z i‖ ^ 2 + 1e-35) fun i _ => ?_).trans (le_of_eq ?_)
    · have := near_of (each i) (abs_of_nonneg (sq_nonneg _)).le
      norm_num at *; linarith
    · rw [Finset.sum_add_distrib, ← Finset.mul_sum]
      simp
  have la : ((Finset.univ.toList.map fun i => A.energy mag (z i)).map abs).sum = ∑ i, |A.energy mag (z i)| := by
    rw [List.map_map]; exact Finset.sum_map_toList _ _
  have ls : (Finset.univ.toList.map fun i => A.energy mag (z i)).sum = ∑ i, A.energy mag (z i) := Finset.sum_map_toList _ _
  have big : ∑ i, |A.energy mag (z i)| ≤ 10 ^ 28 := by
    refine absb.trans ?_
    generalize ∑ i, ‖z i‖ ^ 2 = Q at S2 ⊢
    generalize (Fintype.card ι : ℝ) = N at S2 N1 ⊢
    norm_num at S2 N1 ⊢; linarith
  obtain ⟨N2, _, e⟩ := long_sum_err hf hr hs (by rw [len]; exact n) (by rw [la]; exact big)
  have N3 : (1 : ℝ) ≤ Fintype.card ι := by exact_mod_cast (len ▸ N2)
  rw [len, la, ls] at e
  have tot : |s - ∑ i, ‖z i‖ ^ 2| ≤ (1.4e-6 + 7.1e-8 * Fintype.card ι) * ∑ i, ‖z i‖ ^ 2 := by
    refine (tri_of e part).trans ?_
    generalize ∑ i, |A.energy mag (z i)| = P at *
    generalize ∑ i, ‖z i‖ ^ 2 = Q at *
    generalize (Fintype.card ι : ℝ) = N at *
    have P2 : 7e-8 * P + 3e-38 ≤ 7.05e-8 * Q := by norm_num at *; linarith
    have m0 : 0 ≤ 7.05e-8 * Q := by norm_num at *; linarith
    have m : (N - 1) * (7e-8 * P + 3e-38) ≤ N * (7.05e-8 * Q) := by
      exact (mul_le_mul_of_nonneg_left P2 (by linarith)).trans (mul_le_mul_of_nonneg_right (by linarith) m0)
    have q : N * Q ≥ 0 := by norm_num at *; positivity
    have : N * (7.05e-8 * Q) = 7.05e-8 * (N * Q) := by ring
    rw [add_mul, mul_assoc]
    norm_num at *; linarith
  have tot' : |s / count - (∑ i, ‖z i‖ ^ 2) / count| ≤ (1.4e-6 + 7.1e-8 * Fintype.card ι) * ((∑ i, ‖z i‖ ^ 2) / count) := by
    rw [← sub_div, abs_div, abs_of_pos K0, ← mul_div_assoc]
    gcongr
  generalize (∑ i, ‖z i‖ ^ 2) / (count : ℝ) = m at *
  generalize (Fintype.card ι : ℝ) = N at *
  have m0 : 0 ≤ m := le_trans (by norm_num) lo
  have N4 : (1.4e-6 + 7.1e-8 * N) * m ≤ 0.08 * m := mul_le_mul_of_nonneg_right (by norm_num at *; linarith) m0
  have g := near_of (tot'.trans N4) (abs_of_nonneg m0).le
  have c := rnd_small hf hr (x := s / count) (g.trans (by norm_num at *; linarith))
  refine (tri_of c tot').trans ?_
  have : 0 ≤ N * m := mul_nonneg N0 m0
  rw [add_mul, add_mul, mul_assoc, mul_assoc]
  norm_num at *; linarith

/-- Normalized entries: the error is 3e-6 plus 8e-8 per entry of the mean. -/
theorem C229_normalized {mag : ℂ → ℝ} {div : ℂ → ℝ → ℂ} (hm : AccurateMagnitude mag div) {ι : Type} [Fintype ι] {z : ι → ℂ} (hz : ∀ i, ‖z i‖ ≤ 10 ^ 10) {count : ℕ} (k1 : 1 ≤ count)
    (n : Fintype.card ι ≤ 10 ^ 6) (lo : 1e-22 ≤ (∑ i, ‖z i‖ ^ 2) / count) (hi : (∑ i, ‖z i‖ ^ 2) / count ≤ 10 ^ 20) {c : ℝ} (hc : A.IsMeanEnergy mag z count c) (i : ι) :
    ‖A.normalized div c (z i) - z i / (Real.sqrt ((∑ i, ‖z i‖ ^ 2) / count) : ℝ)‖ ≤
      (3e-6 + 8e-8 * Fintype.card ι) * (‖z i‖ / Real.sqrt ((∑ i, ‖z i‖ ^ 2) / count)) + 1e-10 := by
  have e := mean_energy_err hf hr hm hz k1 n lo hi hc
  have N1 : (Fintype.card ι : ℝ) ≤ 10 ^ 6 := by exact_mod_cast n
  have N0 : (0 : ℝ) ≤ Fintype.card ι := Nat.cast_nonneg _
  have zi := hz i
  generalize (∑ i, ‖z i‖ ^ 2) / (count : ℝ) = m at *
  generalize (Fintype.card ι : ℝ) = N at *
  generalize z i = w at *
  have m0 : 0 ≤ m := le_trans (by norm_num) lo
  have c0 : 0 ≤ c := by
    have := (abs_le.1 e).1
    have : (1.6e-6 + 7.2e-8 * N) * m ≤ 0.08 * m := mul_le_mul_of_nonneg_right (by norm_num at *; linarith) m0
    norm_num at *; linarith
  have r := sqrt_within m0 c0 e
  have lo' : 1e-11 ≤ Real.sqrt m := Real.le_sqrt_of_sq_le (le_trans (by norm_num) lo)
  have hi' : Real.sqrt m ≤ 10 ^ 10 := Real.sqrt_le_iff.2 ⟨by norm_num, hi.trans (by norm_num)⟩
  unfold Arith.normalized
  generalize Real.sqrt m = g at *
  generalize Real.sqrt c = d at *
  have g0 : 0 < g := lt_of_lt_of_le (by norm_num) lo'
  have small : (1.6e-6 + 7.2e-8 * N) * g ≤ 0.08 * g := mul_le_mul_of_nonneg_right (by norm_num at *; linarith) g0.le
  have dd := near_of (r.trans small) (abs_of_pos g0).le
  have cr := rnd_small hf hr (x := d) (dd.trans (by norm_num at *; linarith))
  have t := tri_of cr r
  generalize A.rnd d = γ at *
  have t' : |γ - g| ≤ (1.7e-6 + 7.2e-8 * N) * g := by
    refine t.trans ?_
    have : 0 ≤ N * g := mul_nonneg N0 g0.le
    rw [add_mul, add_mul, mul_assoc]
    norm_num at *; linarith
  have small' : (1.7e-6 + 7.2e-8 * N) * g ≤ 0.08 * g := mul_le_mul_of_nonneg_right (by norm_num at *; linarith) g0.le
  obtain ⟨b1, b2⟩ := abs_le.1 (t'.trans small')
  have γ1 : 0.92 * g ≤ γ := by norm_num at *; linarith
  have γ0 : 0 < γ := lt_of_lt_of_le (by positivity) γ1
  rw [if_neg γ0.ne']
  have dv := hm.div w γ zi (by norm_num at γ1 lo' ⊢; linarith) (by norm_num at b2 hi' ⊢; linarith)
  have inv : ‖w‖ / γ ≤ 1.09 * (‖w‖ / g) := by
    rw [← mul_div_assoc, div_le_div_iff₀ γ0 g0]
    have : ‖w‖ * (0.92 * g) ≤ ‖w‖ * γ := mul_le_mul_of_nonneg_left γ1 (norm_nonneg _)
    have wg : 0 ≤ ‖w‖ * g := by positivity
    norm_num at *; linarith
  have q : ‖w / (γ : ℂ) - w / (g : ℂ)‖ ≤ (1.7e-6 + 7.2e-8 * N) * (1.09 * (‖w‖ / g)) := by
    have gc : (g : ℂ) ≠ 0 := by exact_mod_cast g0.ne'
    have γc : (γ : ℂ) ≠ 0 := by exact_mod_cast γ0.ne'
    have : w / (γ : ℂ) - w / (g : ℂ) = -(w / γ) * ((γ - g : ℝ) : ℂ) / g := by push_cast; field_simp; ring
    rw [this, norm_div, norm_mul, norm_neg, norm_div, Complex.norm_real, Complex.norm_real, Complex.norm_real, Real.norm_eq_abs, Real.norm_eq_abs, Real.norm_eq_abs, abs_of_pos γ0, abs_of_pos g0,
      div_le_iff₀ g0]
    refine (mul_le_mul inv t' (abs_nonneg _) (by positivity)).trans (le_of_eq (by ring))
  refine (norm_sub_le_norm_sub_add_norm_sub _ _ _).trans ((add_le_add dv q).trans ?_)
  have v0 : 0 ≤ ‖w‖ / g := by positivity
  generalize ‖w‖ / g = v at *
  have : 0 ≤ N * v := mul_nonneg N0 v0
  norm_num at *; nlinarith

end

/-- The mean energy of normalized entries is one, up to twice the error of an entry. -/
theorem C229_unit {f : Format} (hf : IEEE f) {A : Arith} (hr : Nearest f A.rnd) {mag : ℂ → ℝ} {div : ℂ → ℝ → ℂ} (hm : AccurateMagnitude mag div) {ι : Type} [Fintype ι] {z : ι → ℂ}
    (hz : ∀ i, ‖z i‖ ≤ 10 ^ 10) {count : ℕ} (k1 : 1 ≤ count)
    (n : Fintype.card ι ≤ 10 ^ 6) (lo : 1e-22 ≤ (∑ i, ‖z i‖ ^ 2) / count) (hi : (∑ i, ‖z i‖ ^ 2) / count ≤ 10 ^ 20) {c : ℝ} (hc : A.IsMeanEnergy mag z count c) :
    |(∑ i, ‖A.normalized div c (z i)‖ ^ 2) / count - 1| ≤ 2.2 * (3e-6 + 8e-8 * Fintype.card ι) + 4e-10 * (1 + Fintype.card ι / count) := by
  have K0 : (0 : ℝ) < count := by exact_mod_cast k1
  have N1 : (Fintype.card ι : ℝ) ≤ 10 ^ 6 := by exact_mod_cast n
  have N0 : (0 : ℝ) ≤ Fintype.card ι := Nat.cast_nonneg _
  have m0 : 0 < (∑ i, ‖z i‖ ^ 2) / count := lt_of_lt_of_le (by norm_num) lo
  have g0 := Real.sqrt_pos.2 m0
  obtain ⟨ε, hε⟩ : ∃ ε : ℝ, ε = 3e-6 + 8e-8 * Fintype.card ι := ⟨_, rfl⟩
  have ε0 : 0 ≤ ε := by rw [hε]; positivity
  have ε1 : ε ≤ 0.09 := by
    rw [hε]
    generalize (Fintype.card ι : ℝ) = N at N1 ⊢
    norm_num at N1 ⊢; linarith
  have one : (∑ i, (‖z i‖ / Real.sqrt ((∑ i, ‖z i‖ ^ 2) / count)) ^ 2) / count = 1 := by
    simp only [div_pow]
    rw [← Finset.sum_div, Real.sq_sqrt m0.le]
    have : ∑ i, ‖z i‖ ^ 2 ≠ 0 := fun h => by rw [h] at m0; simp at m0
    field_simp
  have each : ∀ i, |‖A.normalized div c (z i)‖ ^ 2 - (‖z i‖ / Real.sqrt ((∑ i, ‖z i‖ ^ 2) / count)) ^ 2| ≤
      (2.1 * ε + 4e-10) * (‖z i‖ / Real.sqrt ((∑ i, ‖z i‖ ^ 2) / count)) ^ 2 + 4e-10 := by
    intro i
    have h := C229_normalized hf hr hm hz k1 n lo hi hc i
    rw [← hε] at h
    have d := (abs_norm_sub_norm_le _ _).trans h
    rw [norm_div, Complex.norm_real, Real.norm_eq_abs, abs_of_pos g0] at d
    have v0 : 0 ≤ ‖z i‖ / Real.sqrt ((∑ i, ‖z i‖ ^ 2) / count) := by positivity
    generalize ‖z i‖ / Real.sqrt ((∑ i, ‖z i‖ ^ 2) / count) = v at *
    have o0 := norm_nonneg (A.normalized div c (z i))
    generalize ‖A.normalized div c (z i)‖ = o at *
    have b : |o + v| ≤ 2.1 * v + 1e-10 := by
      have u := abs_le.1 d
      have : ε * v ≤ 0.09 * v := mul_le_mul_of_nonneg_right ε1 v0
      rw [abs_of_nonneg (by linarith)]
      have := u.2
      norm_num at *; linarith
    rw [show o ^ 2 - v ^ 2 = (o - v) * (o + v) by ring, abs_mul]
    refine (mul_le_mul d b (abs_nonneg _) (by positivity)).trans ?_
    have e1 : ε * v ≤ 0.09 * v := mul_le_mul_of_nonneg_right ε1 v0
    have e2 : 2 * v ≤ v ^ 2 + 1 := by have := sq_nonneg (v - 1); linarith [sub_sq v 1]
    have e3 := sq_nonneg v
    rw [add_mul (2.1 * ε)]
    rw [show (ε * v + 1e-10) * (2.1 * v + 1e-10) = 2.1 * ε * v ^ 2 + 1e-10 * (ε * v) + 2.1e-10 * v + 1e-20 by norm_num; ring]
    norm_num at *; linarith
  rw [← hε]
  have tot : |(∑ i, ‖A.normalized div c (z i)‖ ^ 2) / count - 1| ≤ ((2.1 * ε + 4e-10) * (∑ i, (‖z i‖ / Real.sqrt ((∑ i, ‖z i‖ ^ 2) / count)) ^ 2) + Fintype.card ι * 4e-10) / count := by
    rw [← one, ← sub_div, abs_div, abs_of_pos K0, ← Finset.sum_sub_distrib]
    gcongr
    refine (Finset.abs_sum_le_sum_abs _ _).trans ((Finset.sum_le_sum fun i _ => each i).trans (le_of_eq ?_))
    rw [Finset.sum_add_distrib, ← Finset.mul_sum]
    simp
  refine tot.trans ?_
  rw [add_div, mul_div_assoc, one, mul_one, mul_div_right_comm]
  have : 0 ≤ (Fintype.card ι : ℝ) / count := by positivity
  generalize (Fintype.card ι : ℝ) / count = y at *
  norm_num at *; linarith

/-- Two entries of 120 dB and 126 dB loss in single precision, normalized over both. -/
example : ∃ A : Arith, Nearest Spec.single A.rnd ∧
    let z : Fin 2 → ℂ := ![1e-6, 5e-7]
    (∃ c, A.IsMeanEnergy (fun z => ‖z‖) z 2 c) ∧ ∀ c, A.IsMeanEnergy (fun z => ‖z‖) z 2 c → |(∑ i, ‖A.normalized (fun z c => z / c) c (z i)‖ ^ 2) / (2 : ℕ) - 1| ≤ 1e-5 := by
  obtain ⟨A, hr, hp⟩ := exists_arith single (Or.inl rfl)
  have hm : AccurateMagnitude (fun z => ‖z‖) (fun z c => z / c) := ⟨fun z _ => by simp only [sub_self, abs_zero]; positivity, fun z c _ h _ => by
    have : 0 ≤ c := le_trans (by norm_num) h
    simp only [sub_self, norm_zero]; positivity⟩
  have n1 : ‖(1e-6 : ℂ)‖ = 1e-6 := by rw [show (1e-6 : ℂ) = ((1e-6 : ℝ) : ℂ) by norm_num, Complex.norm_real, Real.norm_eq_abs, abs_of_pos (by norm_num)]
  have n2 : ‖(5e-7 : ℂ)‖ = 5e-7 := by rw [show (5e-7 : ℂ) = ((5e-7 : ℝ) : ℂ) by norm_num, Complex.norm_real, Real.norm_eq_abs, abs_of_pos (by norm_num)]
  have sm : ∑ i, ‖(![1e-6, 5e-7] : Fin 2 → ℂ) i‖ ^ 2 = 1.25e-12 := by
    rw [Fin.sum_univ_two]
    change ‖(1e-6 : ℂ)‖ ^ 2 + ‖(5e-7 : ℂ)‖ ^ 2 = _
    rw [n1, n2]; norm_num
  refine ⟨A, hr, ?_, fun c hc => ?_⟩
  · have : ∃ s, RoundedSum A.rnd ((Finset.univ : Finset (Fin 2)).toList.map fun i => A.energy (fun z => ‖z‖) ((![1e-6, 5e-7] : Fin 2 → ℂ) i)) s := by
      obtain ⟨x, xs, h⟩ := List.exists_cons_of_ne_nil (l := (Finset.univ : Finset (Fin 2)).toList) (by rw [Ne, Finset.toList_eq_nil]; exact Finset.univ_nonempty.ne_empty)
      rw [h]
      exact exists_sum _ _ _
    obtain ⟨s, hs⟩ := this
    exact ⟨_, s, hs, rfl⟩
  · refine (C229_unit (Or.inl rfl) hr hm (fun i => ?_) (by norm_num) (by simp) (by rw [sm]; norm_num) (by rw [sm]; norm_num) hc).trans ?_
    · fin_cases i
      · change ‖(1e-6 : ℂ)‖ ≤ _; rw [n1]; norm_num
      · change ‖(5e-7 : ℂ)‖ ≤ _; rw [n2]; norm_num
    · norm_num

end OpenNTN
