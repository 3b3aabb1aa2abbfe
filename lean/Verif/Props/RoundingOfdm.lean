import Verif.Model.RoundingOfdm
import Verif.Props.RoundingConvert
import Verif.Props.RoundingPaths

/-
Conversions of an impulse response with errors, every operation rounded: C228.
-/
namespace OpenNTN

open Spec

/-- The sinc function of the library. -/
def Spec.AccurateSinc (S : ℝ → ℝ) : Prop := ∀ x, |x| ≤ 10 ^ 5 → |S x - Spec.sinc x| ≤ (2 : ℝ) ^ (-20 : ℤ)

/-- With exact arithmetic the code returns the responses and taps of the model. -/
theorem C228_model {B Y RA X TA P T F : ℕ} (k : Fin F → ℤ) (spacing bandwidth : ℝ) (a : PathCoeffs B Y RA X TA P T) (tau : PathDelays B Y RA X TA P) (lMin lMax : ℤ)
    (b : Fin B) (y : Fin Y) (ra : Fin RA) (x : Fin X) (ta : Fin TA) (t : Fin T) (s : ℂ) :
    (∀ n, Arith.exact.IsResponse (fun x => Complex.exp (x * Complex.I)) (k n) spacing (fun p => a b y ra x ta p t) (tau.expand b y ra x ta) s →
      s = cirToOfdm (fun n => k n * spacing) a tau false b y ra x ta t n) ∧
    ∀ l, Arith.exact.IsTap npSinc bandwidth (lMin + (l.val : ℤ)) (fun p => a b y ra x ta p t) (tau.expand b y ra x ta) s →
      s = cirToTime bandwidth a tau lMin lMax false b y ra x ta t l := by
  constructor
  · intro n h
    have m := (C184_model k spacing bandwidth a tau lMin lMax b y ra x ta t).1 n
    rw [raySum_exact h, show (fun n => (k n : ℝ) * spacing) = fun n => Arith.exact.subcarrier (k n) spacing from rfl, m, ← List.ofFn_eq_map, List.sum_ofFn]
    refine Finset.sum_congr rfl fun p _ => ?_
    rw [exact_cmul, mul_comm (Complex.I)]
  · intro l h
    have m := (C184_model (F := F) k spacing bandwidth a tau lMin lMax b y ra x ta t).2 l
    rw [raySum_exact h, m, ← List.ofFn_eq_map, List.sum_ofFn]
    refine Finset.sum_congr rfl fun p _ => ?_
    rw [exact_cmul]

theorem sinc_bound (x : ℝ) : |Spec.sinc x| ≤ 1 := by
  have := intervalIntegral.norm_integral_le_of_norm_le_const (a := (-(1 / 2) : ℝ)) (b := 1 / 2) (f := fun f => Real.cos (2 * Real.pi * f * x)) (C := 1)
    fun f _ => by rw [Real.norm_eq_abs]; exact Real.abs_cos_le_one _
  rw [Real.norm_eq_abs] at this
  refine this.trans ?_
  norm_num

section

variable {f : Format} (hf : IEEE f) {A : Arith} (hr : Nearest f A.rnd)

include hf hr

/-- Sum over the paths of coefficients with errors, each times a factor with an error. -/
theorem weighted_close {P : ℕ} {a' a w' w : Fin P → ℂ} {e d B : ℝ} {s : ℂ} (ha : ∀ p, Close e B (a' p) (a p)) (hw : ∀ p, Close d 1 (w' p) (w p)) (e0 : 0 ≤ e) (e1 : e ≤ 1 / 20)
    (d0 : 0 ≤ d) (d1 : d ≤ 1 / 25) (b1 : 1 / 10 ^ 25 ≤ B) (b2 : B ≤ 10 ^ 25) (n : P ≤ 20) (hs : A.IsRaySum ((List.finRange P).map fun p => A.cmul (a' p) (w' p)) s) :
    Close (e + 1.05 * d + 2.8e-6) (P * B) s (∑ p, a p * w p) := by
  have each : ∀ p ∈ List.finRange P, Close (e + 1.05 * d + 6e-7) B (A.cmul (a' p) (w' p)) (a p * w p) := by
    intro p _
    have c := close_mul hf hr (ha p) (hw p) e0 (e1.trans (by norm_num)) d0 (d1.trans (by norm_num)) (by rwa [mul_one]) (by rwa [mul_one])
    rw [mul_one] at c
    have m : e * d ≤ 1 / 20 * d := mul_le_mul_of_nonneg_right e1 d0
    exact c.mono (by norm_num at *; linarith) le_rfl (by positivity)
  have c := ray_sum_close hf hr _ _ (List.finRange P) each hs (by simpa using n) (by positivity) (by norm_num at *; linarith) b1 b2
  rw [List.length_finRange, ← List.ofFn_eq_map, List.sum_ofFn] at c
  exact c.mono (by norm_num at *; linarith) le_rfl (by positivity)

/-- Conversion to frequency: `e` is the error of the coefficients, `q` that of the phases due to the errors of the delays, and `R` bounds the phases. -/
theorem C228_frequency (hp : Nearest double A.py) {E : ℝ → ℂ} (hE : AccurateCis E) {k : ℤ} {spacing : ℝ} (s1 : 1 ≤ spacing) (hb : |k * spacing| ≤ 10 ^ 9)
    {P : ℕ} (n : P ≤ 20) {a' a : Fin P → ℂ} {tau' tau : Fin P → ℝ} {e B q R : ℝ} (ha : ∀ p, Close e B (a' p) (a p)) (e0 : 0 ≤ e) (e1 : e ≤ 1 / 20) (b1 : 1 / 10 ^ 25 ≤ B) (b2 : B ≤ 10 ^ 25)
    (t0 : ∀ p, 0 ≤ tau' p ∧ tau' p ≤ 1) (hR : ∀ p, 2 * Real.pi * |k * spacing| * tau' p ≤ R) (R1 : R ≤ 9000)
    (hq : ∀ p, 2 * Real.pi * |k * spacing| * |tau' p - tau p| ≤ q) (q1 : q ≤ 3 / 100) {s : ℂ} (hs : A.IsResponse E k spacing a' tau' s) :
    Close (e + 1.05 * q + 1e-6 * R + 4e-6) (P * B) s (exactResponse a tau (k * spacing)) := by
  rcases P.eq_zero_or_pos with h0 | h0
  · subst h0
    have := (rounded_sum_err hf hr hs.1 (by simp) (by simp)).1
    simp at this
  have pp := Real.pi_pos
  have ul := unit_le hf
  have up := unit_pos f
  have R0 : 0 ≤ R := le_trans (mul_nonneg (by positivity) (t0 ⟨0, h0⟩).1) (hR ⟨0, h0⟩)
  have q0 : 0 ≤ q := le_trans (by positivity) (hq ⟨0, h0⟩)
  have hb' : |(k : ℝ)| * spacing ≤ 10 ^ 9 := by rwa [abs_mul, abs_of_pos (by linarith : 0 < spacing)] at hb
  have w : ∀ p, Close (q + 9e-7 * R + 5e-7) 1 (E (A.ofdmPhase (A.subcarrier k spacing) (tau' p))) (Complex.exp (Complex.I * (-(2 * Real.pi * (k * spacing) * tau p) : ℝ))) := by
    intro p
    have err := ofdmPhase_err hf hr hp s1 hb' (t0 p).1 (t0 p).2
    have big : 15 * f.unit * (2 * Real.pi * |k * spacing| * tau' p) ≤ 15 * (1 / 16777216) * R := by
      have := hR p
      have := (t0 p).1
      gcongr
    have err' := err.trans (add_le_add_left big _)
    have size : |-(2 * Real.pi * (k * spacing) * tau' p)| ≤ R := by
      rw [abs_neg, abs_mul, abs_mul, abs_of_pos (by positivity : 0 < 2 * Real.pi), abs_of_nonneg (t0 p).1]
      exact hR p
    have shift : |-(2 * Real.pi * (k * spacing) * tau' p) - -(2 * Real.pi * (k * spacing) * tau p)| ≤ q := by
      refine le_trans (le_of_eq ?_) (hq p)
      rw [show -(2 * Real.pi * (k * spacing) * tau' p) - -(2 * Real.pi * (k * spacing) * tau p) = -(2 * Real.pi * (k * spacing) * (tau' p - tau p)) by ring, abs_neg, abs_mul, abs_mul,
        abs_of_pos (by positivity : 0 < 2 * Real.pi)]
    have inside : |A.ofdmPhase (A.subcarrier k spacing) (tau' p)| ≤ 10 ^ 4 := by
      have := near_of err' size
      norm_num at *; linarith
    refine ⟨by rw [mul_comm, Complex.norm_exp_ofReal_mul_I], ?_⟩
    rw [mul_comm Complex.I]
    have c1 := hE _ inside
    have c2 := cis_sub (A.ofdmPhase (A.subcarrier k spacing) (tau' p)) (-(2 * Real.pi * (k * spacing) * tau p))
    have c3 := tri_of err' shift
    refine (norm_sub_le_norm_sub_add_norm_sub _ _ _).trans ((add_le_add c1 (c2.trans c3)).trans ?_)
    norm_num at *; linarith
  have c := weighted_close hf hr ha w e0 e1 (by positivity) (by norm_num at *; linarith) b1 b2 n hs
  exact c.mono (by norm_num at *; linarith) le_rfl (by positivity)

/-- Conversion to time: `q` is the error of the delays in samples, and `R` bounds lags and delays in samples. -/
theorem C228_time {S : ℝ → ℝ} (hS : AccurateSinc S) {l : ℤ} {bandwidth : ℝ} (w1 : 1 ≤ bandwidth) (w2 : bandwidth ≤ 10 ^ 9)
    {P : ℕ} (n : P ≤ 20) {a' a : Fin P → ℂ} {tau' tau : Fin P → ℝ} {e B q R : ℝ} (ha : ∀ p, Close e B (a' p) (a p)) (e0 : 0 ≤ e) (e1 : e ≤ 1 / 20) (b1 : 1 / 10 ^ 25 ≤ B) (b2 : B ≤ 10 ^ 25)
    (t0 : ∀ p, 0 ≤ tau' p ∧ tau' p ≤ 1) (hR : ∀ p, |(l : ℝ)| + tau' p * bandwidth ≤ R) (R1 : R ≤ 9000)
    (hq : ∀ p, |tau' p - tau p| * bandwidth ≤ q) (q1 : q ≤ 9 / 1000) {s : ℂ} (hs : A.IsTap S bandwidth l a' tau' s) :
    Close (e + 3.4 * q + 1e-6 * R + 4e-6) (P * B) s (tap a tau bandwidth l) := by
  rcases P.eq_zero_or_pos with h0 | h0
  · subst h0
    have := (rounded_sum_err hf hr hs.1 (by simp) (by simp)).1
    simp at this
  have pp := Real.pi_pos
  have p4 := Real.pi_lt_d2
  have ul := unit_le hf
  have up := unit_pos f
  have bp : 0 < bandwidth := by linarith
  have R0 : 0 ≤ R := le_trans (add_nonneg (abs_nonneg _) (mul_nonneg (t0 ⟨0, h0⟩).1 bp.le)) (hR ⟨0, h0⟩)
  have q0 : 0 ≤ q := le_trans (by positivity) (hq ⟨0, h0⟩)
  have w : ∀ p, Close (3.15 * q + 9.45e-7 * R + 9.6e-7) 1 (S (A.tapArgument bandwidth l (tau' p)) : ℂ) (Spec.sinc (l - tau p * bandwidth) : ℂ) := by
    intro p
    have lb : |(l : ℝ)| ≤ R := le_trans (le_add_of_nonneg_right (mul_nonneg (t0 p).1 bp.le)) (hR p)
    have err := tapArgument_err hf hr w1 w2 (t0 p).1 (t0 p).2 (l := l) (lb.trans (R1.trans (by norm_num)))
    have big : 5 * f.unit * (|(l : ℝ)| + tau' p * bandwidth) ≤ 5 * (1 / 16777216) * R := by
      have := hR p
      have := (t0 p).1
      gcongr
    have err' := err.trans (add_le_add_left big _)
    have size : |(l : ℝ) - tau' p * bandwidth| ≤ R := by
      refine (abs_sub _ _).trans ?_
      rw [abs_of_nonneg (mul_nonneg (t0 p).1 bp.le)]
      exact hR p
    have shift : |((l : ℝ) - tau' p * bandwidth) - (l - tau p * bandwidth)| ≤ q := by
      refine le_trans (le_of_eq ?_) (hq p)
      rw [show ((l : ℝ) - tau' p * bandwidth) - (l - tau p * bandwidth) = -((tau' p - tau p) * bandwidth) by ring, abs_neg, abs_mul, abs_of_pos bp]
    have inside : |A.tapArgument bandwidth l (tau' p)| ≤ 10 ^ 5 := by
      have := near_of err' size
      norm_num at *; linarith
    have c1 := hS _ inside
    have c2 := sinc_lipschitz (A.tapArgument bandwidth l (tau' p)) (l - tau p * bandwidth)
    have c3 := tri_of err' shift
    have c4 : Real.pi * |A.tapArgument bandwidth l (tau' p) - (l - tau p * bandwidth)| ≤ 3.15 * (5 * (1 / 16777216) * R + 1 / 10 ^ 30 + q) :=
      mul_le_mul (by norm_num at *; linarith) c3 (abs_nonneg _) (by norm_num)
    refine close_real (sinc_bound _) ((tri_of c1 (c2.trans c4)).trans ?_)
    norm_num at *; linarith
  have c := weighted_close hf hr ha w e0 e1 (by positivity) (by norm_num at *; linarith) b1 b2 n hs
  exact c.mono (by norm_num at *; linarith) le_rfl (by positivity)

end

/-- Two paths with delays of 0 and 3 µs, coefficients and delays with errors, 120 kHz subcarriers and 400 MHz bandwidth, single precision: responses and taps exist and are right up to a hundredth. -/
example : ∃ A : Arith, Nearest Spec.single A.rnd ∧ Nearest Spec.double A.py ∧
    let a : Fin 2 → ℂ := ![1, 1 / 2]
    let a' : Fin 2 → ℂ := ![1 + 1e-5, 1 / 2]
    let tau : Fin 2 → ℝ := ![0, 3e-6]
    let tau' : Fin 2 → ℝ := ![0, 3e-6 + 1e-13]
    (∃ s, A.IsResponse (fun x => Complex.exp (x * Complex.I)) 1000 120000 a' tau' s) ∧ (∃ s, A.IsTap Spec.sinc 4e8 1200 a' tau' s) ∧
    (∀ s, A.IsResponse (fun x => Complex.exp (x * Complex.I)) 1000 120000 a' tau' s → Close 1e-2 (2 * 1) s (exactResponse a tau (1000 * 120000))) ∧
    ∀ s, A.IsTap Spec.sinc 4e8 1200 a' tau' s → Close 1e-2 (2 * 1) s (tap a tau 4e8 1200) := by
  obtain ⟨A, hr, hp⟩ := exists_arith single (Or.inl rfl)
  have some (w : Fin 2 → ℂ) : ∃ s, A.IsRaySum ((List.finRange 2).map w) s := by
    obtain ⟨x, hx⟩ := exists_sum A.rnd (w 0).re [(w 1).re]
    obtain ⟨y, hy⟩ := exists_sum A.rnd (w 0).im [(w 1).im]
    exact ⟨⟨x, y⟩, hx, hy⟩
  have p0 := Real.pi_pos
  have p4 := Real.pi_lt_d2
  have ha : ∀ p : Fin 2, Close 2e-5 1 ((![1 + 1e-5, 1 / 2] : Fin 2 → ℂ) p) ((![1, 1 / 2] : Fin 2 → ℂ) p) := by
    intro p
    fin_cases p
    · refine ⟨by simp, ?_⟩
      have : ‖((1e-5 : ℝ) : ℂ)‖ ≤ 2e-5 := by rw [Complex.norm_real, Real.norm_eq_abs, abs_of_pos] <;> norm_num
      simpa using this
    · refine ⟨by norm_num, by norm_num⟩
  refine ⟨A, hr, hp, some _, some _, fun s hs => ?_, fun s hs => ?_⟩
  · have c := C228_frequency (Or.inl rfl) hr hp exact_accurate.2 (k := 1000) (spacing := 120000) (by norm_num) (by norm_num) (by norm_num) (tau := ![0, 3e-6]) (q := 1e-4) (R := 2300) ha (by norm_num) (by norm_num)
      (by norm_num) (by norm_num) (by intro p; fin_cases p <;> norm_num) (by intro p; fin_cases p <;> norm_num; linarith) (by norm_num)
      (by intro p; fin_cases p <;> norm_num; linarith) (by norm_num) hs
    have := c.mono (e' := 1e-2) (B' := 2 * 1) (by norm_num) (by norm_num) (by norm_num)
    simpa using this
  · have c := C228_time (Or.inl rfl) hr (S := Spec.sinc) (fun x _ => by simp) (l := 1200) (bandwidth := 4e8) (by norm_num) (by norm_num) (by norm_num) (tau := ![0, 3e-6]) (q := 1e-4) (R := 2500) ha (by norm_num) (by norm_num)
      (by norm_num) (by norm_num) (by intro p; fin_cases p <;> norm_num) (by intro p; fin_cases p <;> norm_num) (by norm_num)
      (by intro p; fin_cases p <;> norm_num) (by norm_num) hs
    exact c.mono (e' := 1e-2) (B' := 2 * 1) (by norm_num) (by norm_num) (by norm_num)

end OpenNTN
