import Verif.Props.Rounding
import Verif.Props.Ofdm

/-
C184: rounding in the conversions of an impulse response to frequency and to time.
-/
namespace OpenNTN

open Spec

/-- The frequency response at subcarrier `k` and the tap `l` of an impulse response with coefficients `a` and delays `tau`. -/
noncomputable def Spec.exactResponse {P : ℕ} (a : Fin P → ℂ) (tau : Fin P → ℝ) (freq : ℝ) : ℂ := ∑ p, a p * Complex.exp (Complex.I * (-(2 * Real.pi * freq * tau p) : ℝ))

noncomputable def Spec.tap {P : ℕ} (a : Fin P → ℂ) (tau : Fin P → ℝ) (bandwidth : ℝ) (l : ℤ) : ℂ := ∑ p, a p * (Spec.sinc (l - tau p * bandwidth) : ℂ)

/-- C184: with exact arithmetic, phases and arguments are those of the model. -/
theorem C184_model {B Y RA X TA P T F : ℕ} (k : Fin F → ℤ) (spacing bandwidth : ℝ) (a : PathCoeffs B Y RA X TA P T) (tau : PathDelays B Y RA X TA P) (lMin lMax : ℤ)
    (b : Fin B) (y : Fin Y) (ra : Fin RA) (x : Fin X) (ta : Fin TA) (t : Fin T) :
    (∀ n, cirToOfdm (fun n => Arith.exact.subcarrier (k n) spacing) a tau false b y ra x ta t n =
      ∑ p, a b y ra x ta p t * Complex.exp (Complex.I * (Arith.exact.ofdmPhase (Arith.exact.subcarrier (k n) spacing) (tau.expand b y ra x ta p) : ℂ))) ∧
    ∀ l, cirToTime bandwidth a tau lMin lMax false b y ra x ta t l =
      ∑ p, a b y ra x ta p t * (npSinc (Arith.exact.tapArgument bandwidth (lMin + (l.val : ℤ)) (tau.expand b y ra x ta p)) : ℂ) := by
  constructor
  · intro n
    simp only [cirToOfdm, Arith.ofdmPhase, Arith.exact, id]
    refine Finset.sum_congr rfl fun p _ => ?_
    congr 2
    apply Complex.ext <;> simp
  · intro l
    simp only [cirToTime, Arith.tapArgument, Arith.exact, id]
    refine Finset.sum_congr rfl fun p _ => ?_
    congr 1
    push_cast
    rfl

theorem subcarrier_rel {f : Format} (hf : IEEE f) {A : Arith} (hr : Nearest f A.rnd) {k : ℤ} {spacing : ℝ} (s1 : 1 ≤ spacing) (hb : |(k : ℝ)| * spacing ≤ 10 ^ 9) :
    Rel f.unit 2 (k * spacing) (A.subcarrier k spacing) := by
  have u1 := unit_lt_one hf
  have sp : 0 < spacing := by linarith
  rcases eq_or_ne k 0 with rfl | hk
  · have : A.subcarrier 0 spacing = 0 := by unfold Arith.subcarrier; simpa using hr.zero (emin_le hf)
    rw [this]
    exact Rel.mono (unit_pos f).le u1 (k := 0) (by norm_num) (by simpa using Rel.refl f.unit 0)
  have k1 : (1 : ℝ) ≤ |(k : ℝ)| := by exact_mod_cast Int.one_le_abs hk
  have sb : spacing ≤ 10 ^ 9 := by nlinarith
  have h1 := rnd_rel hf hr (x := spacing) (by rw [abs_of_pos sp]; exact le_trans (by norm_num) s1) (by rw [abs_of_pos sp]; exact sb.trans (by norm_num))
  obtain ⟨a, b⟩ := Rel.bounds hf (by norm_num) sp h1
  have h2 := Rel.mul u1 (Rel.refl f.unit (k : ℝ)) h1
  refine Rel.trans u1 h2 (rnd_rel hf hr ?_ ?_)
  · rw [abs_mul, abs_of_pos (by linarith : 0 < A.rnd spacing)]
    refine le_trans (b := 1 * (1 / 2)) (by norm_num) (by gcongr; linarith)
  · rw [abs_mul, abs_of_pos (by linarith : 0 < A.rnd spacing)]
    calc |(k : ℝ)| * A.rnd spacing ≤ |(k : ℝ)| * (2 * spacing) := by gcongr
      _ ≤ 2 * 10 ^ 9 := by linarith
      _ ≤ 10 ^ 30 := by norm_num

theorem negTwoPi_rel {f : Format} (hf : IEEE f) {A : Arith} (hr : Nearest f A.rnd) (hp : Nearest double A.py) :
    Rel f.unit 2 (2 * Real.pi) (-A.rnd (A.py (-2 * Real.pi))) := by
  have p3 := Real.pi_gt_three
  have p4 := Real.pi_le_four
  have e : |-2 * Real.pi| = 2 * Real.pi := by rw [abs_mul, abs_of_pos Real.pi_pos]; norm_num
  have u1 := unit_lt_one hf
  have h1 : |A.py (-2 * Real.pi) - -2 * Real.pi| ≤ double.unit * |-2 * Real.pi| := hp.rel (by norm_num [double])
    (by rw [e]; exact (tiny_le (Or.inr rfl)).trans (le_trans (by norm_num) (by linarith : (1 : ℝ) ≤ 2 * Real.pi)))
    (by rw [e]; exact lt_trans (by linarith) (range_ge (Or.inr rfl)))
  have h2 : |A.py (-2 * Real.pi) - -2 * Real.pi| ≤ f.unit * |-2 * Real.pi| := h1.trans (by gcongr; exact unit_double_le hf)
  have ud : double.unit ≤ 1 / 100 := by rw [unit_double]; norm_num
  have h3 : |A.py (-2 * Real.pi) - -2 * Real.pi| ≤ 1 / 10 := h1.trans (by rw [e]; nlinarith [unit_pos double])
  obtain ⟨a, b⟩ := abs_le.1 h3
  have h4 : Rel f.unit 2 (-2 * Real.pi) (A.rnd (A.py (-2 * Real.pi))) := by
    refine Rel.trans u1 (Rel.of_err (unit_pos f).le u1 h2) (rnd_rel hf hr ?_ ?_)
    · rw [abs_of_neg (by linarith)]; refine le_trans (b := 1) (by norm_num) (by linarith)
    · rw [abs_of_neg (by linarith)]; linarith
  obtain ⟨r, r1, r2, h⟩ := h4
  exact ⟨r, r1, r2, by rw [h]; ring⟩

theorem ofdmPhase_err {f : Format} (hf : IEEE f) {A : Arith} (hr : Nearest f A.rnd) (hp : Nearest double A.py) {k : ℤ} {spacing tau : ℝ} (s1 : 1 ≤ spacing)
    (hb : |(k : ℝ)| * spacing ≤ 10 ^ 9) (t0 : 0 ≤ tau) (t1 : tau ≤ 1) :
    |A.ofdmPhase (A.subcarrier k spacing) tau - -(2 * Real.pi * (k * spacing) * tau)| ≤ 15 * f.unit * (2 * Real.pi * |k * spacing| * tau) + 1 / 10 ^ 30 := by
  have up := unit_pos f
  have ul := unit_le hf
  have pp := Real.pi_pos
  have hs := subcarrier_rel hf hr s1 hb
  have hsa := hs.abs up.le (by push_cast; linarith)
  push_cast at hsa
  set F := A.subcarrier k spacing
  set x : ℝ := k * spacing with hx
  have xb : |x| ≤ 10 ^ 9 := by rw [hx, abs_mul, abs_of_pos (by linarith : 0 < spacing)]; exact hb
  have x0 := abs_nonneg x
  have Fb : |F| ≤ |x| + |F - x| := by
    have := abs_add_le x (F - x)
    rwa [add_sub_cancel] at this
  have ux : f.unit * |x| ≤ 1 / 16777216 * |x| := by gcongr
  have Fx : |F| ≤ 1.01 * |x| := by linarith
  have h := product_err hf hr (k := 5) (by norm_num) (q := 2 * Real.pi) (s := -F) (t := tau) (Rel.mono up.le (unit_lt_one hf) (by norm_num) (negTwoPi_rel hf hr hp))
    (Rel.mono up.le (unit_lt_one hf) (k := 0) (by norm_num) (Rel.refl f.unit tau)) (by positivity) (by linarith [Real.pi_le_four])
    (by rw [abs_neg]; linarith) t0 (t1.trans (by norm_num))
  rw [neg_mul_neg, show (((5 : ℕ) : ℝ) + 6) = 11 by norm_num] at h
  change |A.ofdmPhase F tau - _| ≤ _ at h
  have e1 : |2 * Real.pi * -F * tau| = 2 * Real.pi * tau * |F| := by
    rw [abs_mul, abs_mul, abs_neg, abs_of_pos (by positivity : 0 < 2 * Real.pi), abs_of_nonneg t0]; ring
  rw [e1] at h
  have e2 : |2 * Real.pi * -F * tau - -(2 * Real.pi * x * tau)| = 2 * Real.pi * tau * |F - x| := by
    rw [show 2 * Real.pi * -F * tau - -(2 * Real.pi * x * tau) = -(2 * Real.pi * tau * (F - x)) by ring, abs_neg, abs_mul, abs_of_nonneg (by positivity)]
  have tri := abs_sub_le (A.ofdmPhase F tau) (2 * Real.pi * -F * tau) (-(2 * Real.pi * x * tau))
  rw [e2] at tri
  have c1 : 2 * Real.pi * tau * |F| ≤ 2 * Real.pi * tau * (1.01 * |x|) := by gcongr
  have c2 : 2 * Real.pi * tau * |F - x| ≤ 2 * Real.pi * tau * ((2 + 1) * f.unit * |x|) := by gcongr
  have c3 : 11 * f.unit * (2 * Real.pi * tau * |F|) ≤ 11 * f.unit * (2 * Real.pi * tau * (1.01 * |x|)) := by gcongr
  have c4 : 0 ≤ f.unit * (2 * Real.pi * tau * |x|) := by positivity
  nlinarith

theorem tapArgument_err {f : Format} (hf : IEEE f) {A : Arith} (hr : Nearest f A.rnd) {bandwidth tau : ℝ} {l : ℤ} (b1 : 1 ≤ bandwidth) (b2 : bandwidth ≤ 10 ^ 9)
    (t0 : 0 ≤ tau) (t1 : tau ≤ 1) (hl : |(l : ℝ)| ≤ 10 ^ 9) :
    |A.tapArgument bandwidth l tau - (l - tau * bandwidth)| ≤ 5 * f.unit * (|(l : ℝ)| + tau * bandwidth) + 1 / 10 ^ 30 := by
  have up := unit_pos f
  have ul := unit_le hf
  have bp : 0 < bandwidth := by linarith
  have h1 := rnd_rel hf hr (x := bandwidth) (by rw [abs_of_pos bp]; exact le_trans (by norm_num) b1) (by rw [abs_of_pos bp]; exact b2.trans (by norm_num))
  have h1a := h1.abs up.le (by push_cast; linarith)
  push_cast at h1a
  rw [abs_of_pos bp] at h1a
  obtain ⟨c1, c2⟩ := Rel.bounds hf (by norm_num) bp h1
  unfold Arith.tapArgument
  set b' := A.rnd bandwidth
  have b0 : 0 ≤ b' := by linarith
  set η : ℝ := (2 : ℝ) ^ (-126 : ℤ) with hη
  have ηs : η ≤ 1 / 10 ^ 37 := by rw [hη]; norm_num
  have η0 : 0 < η := by rw [hη]; positivity
  have tb : tau * b' ≤ 2 * 10 ^ 9 := by nlinarith
  have tb0 : 0 ≤ tau * b' := by positivity
  have e1 := rnd_err hf hr (x := tau * b') (by rw [abs_of_nonneg tb0]; exact tb.trans (by norm_num))
  rw [abs_of_nonneg tb0, ← hη] at e1
  set q := A.rnd (tau * b')
  have d1 : |tau * b' - tau * bandwidth| ≤ 2 * f.unit * (tau * bandwidth) := by
    rw [← mul_sub, abs_mul, abs_of_nonneg t0]
    calc tau * |b' - bandwidth| ≤ tau * ((1 + 1) * f.unit * bandwidth) := by gcongr
      _ = _ := by ring
  set X := tau * bandwidth with hX
  have X0 : 0 ≤ X := by positivity
  have uX : f.unit * X ≤ 1 / 16777216 * X := by gcongr
  have tb1 : tau * b' ≤ 1.01 * X := by linarith [(abs_le.1 d1).2]
  have e1' : |q - tau * b'| ≤ f.unit * (1.01 * X) + η := e1.trans (by gcongr)
  have d2 : |q - X| ≤ 3.01 * f.unit * X + η := by
    have := abs_sub_le q (tau * b') X
    linarith
  have Xb : X ≤ 10 ^ 9 := by rw [hX]; nlinarith
  have lq : |(l : ℝ) - q| ≤ |(l : ℝ)| + X + (3.01 * f.unit * X + η) := by
    have h3 := abs_sub (l : ℝ) q
    have h4 : |q| ≤ X + |q - X| := by
      have := abs_add_le X (q - X)
      rwa [add_sub_cancel, abs_of_nonneg X0] at this
    linarith
  have e2 := rnd_err hf hr (x := (l : ℝ) - q) (by linarith)
  rw [← hη] at e2
  have tri := abs_sub_le (A.rnd ((l : ℝ) - q)) ((l : ℝ) - q) (l - X)
  rw [show (l : ℝ) - q - (l - X) = -(q - X) by ring, abs_neg] at tri
  have l0 := abs_nonneg (l : ℝ)
  have c5 : f.unit * |(l : ℝ) - q| ≤ f.unit * (|(l : ℝ)| + X + (3.01 * f.unit * X + η)) := by gcongr
  have c6 : f.unit * (3.01 * f.unit * X) ≤ (1 / 16777216) * (3.01 * f.unit * X) := by gcongr
  have c7 : f.unit * η ≤ 1 * η := by gcongr; linarith
  have c8 : 0 ≤ f.unit * X := by positivity
  have c9 : 0 ≤ f.unit * |(l : ℝ)| := by positivity
  have c10 : 3 * η ≤ 1 / 10 ^ 30 := by
    calc 3 * η ≤ 3 * (1 / 10 ^ 37) := by gcongr
      _ ≤ _ := by norm_num
  generalize |A.rnd ((l : ℝ) - q) - (l - X)| = z0 at *
  generalize |A.rnd ((l : ℝ) - q) - ((l : ℝ) - q)| = z1 at *
  generalize |q - X| = z2 at *
  generalize |(l : ℝ) - q| = z3 at *
  generalize |(l : ℝ)| = z4 at *
  generalize (1 : ℝ) / 10 ^ 30 = z5 at *
  clear_value X η
  clear e1 e1' lq tb1 d1 h1a uX c1 c2 tb tb0 ηs
  linarith

theorem sinc_lipschitz (x y : ℝ) : |Spec.sinc x - Spec.sinc y| ≤ Real.pi * |x - y| := by
  unfold Spec.sinc
  rw [← intervalIntegral.integral_sub (Continuous.intervalIntegrable (by fun_prop) _ _) (Continuous.intervalIntegrable (by fun_prop) _ _)]
  have h := intervalIntegral.norm_integral_le_of_norm_le_const (a := -(1 / 2 : ℝ)) (b := 1 / 2) (C := Real.pi * |x - y|)
    (f := fun t => Real.cos (2 * Real.pi * t * x) - Real.cos (2 * Real.pi * t * y)) (fun t ht => by
      rw [Set.uIoc_of_le (by norm_num)] at ht
      have ta : |t| ≤ 1 / 2 := abs_le.2 ⟨by linarith [ht.1], ht.2⟩
      have := Real.abs_cos_sub_cos_le (2 * Real.pi * t * x) (2 * Real.pi * t * y)
      refine this.trans ?_
      rw [show 2 * Real.pi * t * x - 2 * Real.pi * t * y = 2 * Real.pi * t * (x - y) by ring, abs_mul, abs_mul, abs_of_pos (by positivity : 0 < 2 * Real.pi)]
      have pp := Real.pi_pos
      have := abs_nonneg (x - y)
      have : 2 * Real.pi * |t| ≤ Real.pi := by nlinarith
      gcongr)
  rw [Real.norm_eq_abs] at h
  refine h.trans (le_of_eq ?_)
  norm_num

theorem weighted_sum_le {P : ℕ} (a x y : Fin P → ℂ) {C : ℝ} (h : ∀ p, ‖x p - y p‖ ≤ C) : ‖∑ p, a p * x p - ∑ p, a p * y p‖ ≤ C * ∑ p, ‖a p‖ := by
  rw [← Finset.sum_sub_distrib, Finset.mul_sum]
  refine (norm_sum_le _ _).trans (Finset.sum_le_sum fun p _ => ?_)
  rw [← mul_sub, norm_mul, mul_comm]
  exact mul_le_mul_of_nonneg_right (h p) (norm_nonneg _)

/-- C184, conversion to frequency: the rotation of each path is that of subcarrier and delay up to 15 units. For the bands and delay spreads of the standard the response at
each subcarrier is exact up to a fiftieth of the sum of the path amplitudes in single precision. -/
theorem C184_frequency (f : Format) (hf : IEEE f) (A : Arith) (hr : Nearest f A.rnd) (hp : Nearest double A.py) (k : ℤ) (spacing : ℝ) (s1 : 1 ≤ spacing)
    {P : ℕ} (a : Fin P → ℂ) (tau : Fin P → ℝ) (T : ℝ) (ht : ∀ p, 0 ≤ tau p ∧ tau p ≤ T) :
    (|k * spacing| ≤ 10 ^ 9 → T ≤ 1 →
      (∀ p, |A.ofdmPhase (A.subcarrier k spacing) (tau p) - -(2 * Real.pi * (k * spacing) * tau p)| ≤
        15 * (2 : ℝ) ^ (-(f.digits : ℤ)) * (2 * Real.pi * |k * spacing| * tau p) + 1 / 10 ^ 30) ∧
      ‖∑ p, a p * Complex.exp (Complex.I * (A.ofdmPhase (A.subcarrier k spacing) (tau p) : ℂ)) - exactResponse a tau (k * spacing)‖ ≤
        (15 * (2 : ℝ) ^ (-(f.digits : ℤ)) * (2 * Real.pi * |k * spacing| * T) + 1 / 10 ^ 30) * ∑ p, ‖a p‖) ∧
    (|k * spacing| ≤ 2 * 10 ^ 8 → T ≤ 1 / 10 ^ 5 →
      ‖∑ p, a p * Complex.exp (Complex.I * (A.ofdmPhase (A.subcarrier k spacing) (tau p) : ℂ)) - exactResponse a tau (k * spacing)‖ ≤ 1 / 50 * ∑ p, ‖a p‖) := by
  have ul := unit_le hf
  have up := unit_pos f
  have pp := Real.pi_pos
  have first : |k * spacing| ≤ 10 ^ 9 → T ≤ 1 →
      (∀ p, |A.ofdmPhase (A.subcarrier k spacing) (tau p) - -(2 * Real.pi * (k * spacing) * tau p)| ≤
        15 * f.unit * (2 * Real.pi * |k * spacing| * tau p) + 1 / 10 ^ 30) ∧
      ‖∑ p, a p * Complex.exp (Complex.I * (A.ofdmPhase (A.subcarrier k spacing) (tau p) : ℂ)) - exactResponse a tau (k * spacing)‖ ≤
        (15 * f.unit * (2 * Real.pi * |k * spacing| * T) + 1 / 10 ^ 30) * ∑ p, ‖a p‖ := by
    intro hb hT
    have hb' : |(k : ℝ)| * spacing ≤ 10 ^ 9 := by rwa [abs_mul, abs_of_pos (by linarith : 0 < spacing)] at hb
    have key : ∀ p, |A.ofdmPhase (A.subcarrier k spacing) (tau p) - -(2 * Real.pi * (k * spacing) * tau p)| ≤
        15 * f.unit * (2 * Real.pi * |k * spacing| * tau p) + 1 / 10 ^ 30 := fun p =>
      ofdmPhase_err hf hr hp s1 hb' (ht p).1 ((ht p).2.trans hT)
    refine ⟨key, weighted_sum_le _ _ _ fun p => (circle_dist_le _ _).trans ((key p).trans ?_)⟩
    have := (ht p).2
    gcongr
  refine ⟨first, fun hb hT => (first (hb.trans (by norm_num)) (hT.trans (by norm_num))).2.trans ?_⟩
  refine mul_le_mul_of_nonneg_right ?_ (Finset.sum_nonneg fun p _ => norm_nonneg _)
  have hT0 : 0 ≤ 1 / 10 ^ 5 - T := by linarith
  have : 15 * f.unit * (2 * Real.pi * |k * spacing| * T) ≤ 15 * (1 / 16777216) * (2 * 3.15 * (2 * 10 ^ 8) * (1 / 10 ^ 5)) := by
    rcases le_or_gt 0 T with h0 | h0
    · have := Real.pi_lt_d2
      gcongr
    · refine le_trans (b := 0) ?_ (by norm_num)
      refine mul_nonpos_of_nonneg_of_nonpos (by positivity) (mul_nonpos_of_nonneg_of_nonpos (by positivity) h0.le)
  refine (add_le_add_left this _).trans ?_
  norm_num

/-- C184, conversion to time: the argument of the sinc function is exact up to five units of tap number and delay in samples. For the bandwidths and delay spreads of the standard
each tap is exact up to a hundredth of the sum of the path amplitudes in single precision. -/
theorem C184_time (f : Format) (hf : IEEE f) (A : Arith) (hr : Nearest f A.rnd) (bandwidth : ℝ) (b1 : 1 ≤ bandwidth) (l : ℤ)
    {P : ℕ} (a : Fin P → ℂ) (tau : Fin P → ℝ) (T : ℝ) (ht : ∀ p, 0 ≤ tau p ∧ tau p ≤ T) :
    (bandwidth ≤ 10 ^ 9 → T ≤ 1 → |(l : ℝ)| ≤ 10 ^ 9 →
      (∀ p, |A.tapArgument bandwidth l (tau p) - (l - tau p * bandwidth)| ≤ 5 * (2 : ℝ) ^ (-(f.digits : ℤ)) * (|(l : ℝ)| + tau p * bandwidth) + 1 / 10 ^ 30) ∧
      ‖∑ p, a p * (npSinc (A.tapArgument bandwidth l (tau p)) : ℂ) - tap a tau bandwidth l‖ ≤
        Real.pi * (5 * (2 : ℝ) ^ (-(f.digits : ℤ)) * (|(l : ℝ)| + T * bandwidth) + 1 / 10 ^ 30) * ∑ p, ‖a p‖) ∧
    (bandwidth ≤ 4 * 10 ^ 8 → T ≤ 1 / 10 ^ 5 → |(l : ℝ)| ≤ 5000 →
      ‖∑ p, a p * (npSinc (A.tapArgument bandwidth l (tau p)) : ℂ) - tap a tau bandwidth l‖ ≤ 1 / 100 * ∑ p, ‖a p‖) := by
  have ul := unit_le hf
  have up := unit_pos f
  have pp := Real.pi_pos
  have bp : 0 < bandwidth := by linarith
  have first : bandwidth ≤ 10 ^ 9 → T ≤ 1 → |(l : ℝ)| ≤ 10 ^ 9 →
      (∀ p, |A.tapArgument bandwidth l (tau p) - (l - tau p * bandwidth)| ≤ 5 * f.unit * (|(l : ℝ)| + tau p * bandwidth) + 1 / 10 ^ 30) ∧
      ‖∑ p, a p * (npSinc (A.tapArgument bandwidth l (tau p)) : ℂ) - tap a tau bandwidth l‖ ≤
        Real.pi * (5 * f.unit * (|(l : ℝ)| + T * bandwidth) + 1 / 10 ^ 30) * ∑ p, ‖a p‖ := by
    intro hb hT hl
    have key : ∀ p, |A.tapArgument bandwidth l (tau p) - (l - tau p * bandwidth)| ≤ 5 * f.unit * (|(l : ℝ)| + tau p * bandwidth) + 1 / 10 ^ 30 := fun p =>
      tapArgument_err hf hr b1 hb (ht p).1 ((ht p).2.trans hT) hl
    refine ⟨key, weighted_sum_le _ _ _ fun p => ?_⟩
    rw [npSinc_eq, ← Complex.ofReal_sub, Complex.norm_real, Real.norm_eq_abs]
    refine (sinc_lipschitz _ _).trans ?_
    have := (ht p).2
    refine mul_le_mul_of_nonneg_left ((key p).trans ?_) pp.le
    gcongr
  refine ⟨first, fun hb hT hl => (first (hb.trans (by norm_num)) (hT.trans (by norm_num)) (hl.trans (by norm_num))).2.trans ?_⟩
  refine mul_le_mul_of_nonneg_right ?_ (Finset.sum_nonneg fun p _ => norm_nonneg _)
  have p4 := Real.pi_lt_d2
  have hTb : T * bandwidth ≤ 4000 := by
    rcases le_or_gt 0 T with h0 | h0
    · calc T * bandwidth ≤ 1 / 10 ^ 5 * (4 * 10 ^ 8) := by gcongr
        _ = 4000 := by norm_num
    · nlinarith
  have h1 : 5 * f.unit * (|(l : ℝ)| + T * bandwidth) ≤ 5 * f.unit * (5000 + 4000) := by gcongr
  have h2 : 5 * f.unit * (5000 + 4000) + 1 / 10 ^ 30 ≤ 3 / 1000 := by
    have : (1 : ℝ) / 10 ^ 30 ≤ 1 / 10 ^ 6 := by norm_num
    linarith
  calc Real.pi * (5 * f.unit * (|(l : ℝ)| + T * bandwidth) + 1 / 10 ^ 30) ≤ Real.pi * (3 / 1000) := by
        gcongr; linarith
    _ ≤ 1 / 100 := by linarith

/-- The hypotheses of C184_frequency and C184_time are met by two paths with delays of 0 and 3 µs, 120 kHz subcarriers and single precision. -/
example : ∃ A : Arith, ∃ tau : Fin 2 → ℝ, IEEE single ∧ Nearest single A.rnd ∧ Nearest double A.py ∧ (∀ p, 0 ≤ tau p ∧ tau p ≤ 1 / 10 ^ 5) ∧ tau 1 ≠ tau 0 ∧
    (1 : ℝ) ≤ 120000 ∧ |((1584 : ℤ) : ℝ) * 120000| ≤ 2 * 10 ^ 8 ∧ (1 : ℝ) ≤ 38 * 10 ^ 7 ∧ (38 * 10 ^ 7 : ℝ) ≤ 4 * 10 ^ 8 ∧ |((1200 : ℤ) : ℝ)| ≤ 5000 := by
  obtain ⟨A, hr, hp⟩ := exists_arith single (Or.inl rfl)
  refine ⟨A, ![0, 3 / 10 ^ 6], Or.inl rfl, hr, hp, fun p => ?_, by norm_num, by norm_num, ?_, by norm_num, by norm_num, ?_⟩
  · fin_cases p <;> norm_num
  · rw [abs_of_pos] <;> norm_num
  · rw [abs_of_pos] <;> norm_num

end OpenNTN
