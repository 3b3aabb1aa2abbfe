import Verif.Model.RoundingGain
import Verif.Props.RoundingArray
import Verif.Props.RoundingTdl
import Verif.Props.RoundingLsp

/-
Combination of LoS and NLoS coefficients and step 12 with rounding: C222.
-/
namespace OpenNTN

open Spec

/-- With exact operations the operations give the coefficients of the model. -/
theorem C222_model {p : ℕ} (los : Bool) (k : ℝ) (hLos : Coeff) (hNlos : Fin (p + 1) → Coeff) (q : Fin (p + 1)) (u s : ℕ) (t : ℝ) (pe se : Bool) (pl sf : ℝ) (h : ℂ) :
    combineLos los k hLos hNlos q u s t = Arith.exact.combineLos ⟨(· / ·), Real.sqrt⟩ los k (hLos u s t) (fun q => hNlos q u s t) q ∧
    h * (step12Gain pe se pl sf : ℂ) = Arith.exact.step12 pow10 pe se pl sf h := by
  have hc (z w : ℂ) : Arith.exact.cmul z w = z * w := Complex.ext (by simp [Arith.cmul, Arith.exact]) (by simp [Arith.cmul, Arith.exact])
  have ha (z w : ℂ) : Arith.exact.cadd z w = z + w := Complex.ext (by simp [Arith.cadd, Arith.exact]) (by simp [Arith.cadd, Arith.exact])
  constructor
  · unfold combineLos Arith.combineLos
    simp only [hc, ha, Arith.losFactor, Arith.nlosFactor]
    cases los
    · rfl
    · by_cases h0 : q = 0
      · subst h0; simp [Arith.exact]
      · simp [h0, Arith.exact]
  · rw [Arith.step12, hc]; rfl

/-- Division and root have a relative error of at most `2⁻²⁰`. -/
structure Spec.AccurateComplex (L : ComplexLib) : Prop where
  div : ∀ x y, 0 ≤ x → x ≤ 10 ^ 12 → 1 ≤ y → y ≤ 10 ^ 13 → |L.div x y - x / y| ≤ (2 : ℝ) ^ (-20 : ℤ) * (x / y)
  sqrt : ∀ x, 0 ≤ x → x ≤ 2 → |L.sqrt x - Real.sqrt x| ≤ (2 : ℝ) ^ (-20 : ℤ) * Real.sqrt x

theorem sqrt_within {x y e : ℝ} (y0 : 0 ≤ y) (x0 : 0 ≤ x) (h : |x - y| ≤ e * y) : |Real.sqrt x - Real.sqrt y| ≤ e * Real.sqrt y := by
  rcases y0.eq_or_lt with h0 | h0
  · subst h0
    have : x = 0 := by simpa using h
    simp [this]
  · exact sqrt_rel h0 x0 h

section

variable {f : Format} (hf : IEEE f) {A : Arith} (hr : Nearest f A.rnd)

include hf hr

theorem rnd_small {x : ℝ} (hx : |x| ≤ 10 ^ 30) : |A.rnd x - x| ≤ 6e-8 * |x| + 2e-38 := by
  have e := rnd_err hf hr hx
  have h1 : f.unit * |x| ≤ 1 / 16777216 * |x| := by have := unit_le hf; gcongr
  have h2 : (2 : ℝ) ^ (-126 : ℤ) ≤ 2e-38 := by norm_num
  have := abs_nonneg x
  norm_num at e h1 h2 ⊢; linarith

/-- Product with a real number. -/
theorem scale_err {h : ℂ} {g : ℝ} (hh : ‖h‖ ≤ 10 ^ 6) (hg : |g| ≤ 10 ^ 10) : ‖A.cmul h (g : ℂ) - h * g‖ ≤ 1.9e-7 * (‖h‖ * |g|) + 1e-37 := by
  have z0 : A.rnd 0 = 0 := by
    have := rnd_abs_le hf hr (x := 0) (n := 0) (by simp) (by norm_num)
    simpa using this
  have part : ∀ x : ℝ, |x| ≤ ‖h‖ → |A.rnd (A.rnd (x * g)) - x * g| ≤ 1.3e-7 * (‖h‖ * |g|) + 5e-38 := fun x hx => by
    have xg : |x * g| ≤ ‖h‖ * |g| := by rw [abs_mul]; exact mul_le_mul_of_nonneg_right hx (abs_nonneg _)
    have big : ‖h‖ * |g| ≤ 10 ^ 16 := (mul_le_mul hh hg (abs_nonneg _) (by norm_num)).trans (by norm_num)
    have e1 := rnd_small hf hr (x := x * g) (xg.trans (big.trans (by norm_num)))
    have e1' : |A.rnd (x * g) - x * g| ≤ 6e-8 * (‖h‖ * |g|) + 2e-38 := e1.trans (by norm_num at *; linarith)
    have n1 := near_of e1' xg
    have e2 := rnd_small hf hr (x := A.rnd (x * g)) (n1.trans (by norm_num at *; linarith))
    refine (tri_of e2 e1').trans ?_
    have : 0 ≤ ‖h‖ * |g| := by positivity
    norm_num at *; linarith
  have r1 : (A.cmul h (g : ℂ) - h * g).re = A.rnd (A.rnd (h.re * g)) - h.re * g := by simp [Arith.cmul, z0]
  have r2 : (A.cmul h (g : ℂ) - h * g).im = A.rnd (A.rnd (h.im * g)) - h.im * g := by simp [Arith.cmul, z0]
  refine (norm_le_parts (e := 1.3e-7 * (‖h‖ * |g|) + 5e-38) (by rw [r1]; exact part _ (Complex.abs_re_le_norm h)) (by rw [r2]; exact part _ (Complex.abs_im_le_norm h))).trans ?_
  have : 0 ≤ ‖h‖ * |g| := by positivity
  norm_num; linarith

/-- Product with a factor that has an error. -/
theorem scale_within {h : ℂ} {g g' e : ℝ} (hh : ‖h‖ ≤ 10 ^ 6) (g0 : 0 ≤ g) (hg : g ≤ 10 ^ 9) (e1 : e ≤ 1e-2) (he : |g' - g| ≤ e * g) :
    ‖A.cmul h (g' : ℂ) - h * g‖ ≤ (e + 2e-7) * (‖h‖ * g) + 1e-37 := by
  have e0 : e * g ≤ 1e-2 * g := mul_le_mul_of_nonneg_right e1 g0
  have n := near_of he (abs_of_nonneg g0).le
  have s := scale_err hf hr hh (n.trans (by norm_num at *; linarith))
  have d : ‖h * (g' : ℂ) - h * g‖ ≤ e * (‖h‖ * g) := by
    rw [← mul_sub, norm_mul, ← Complex.ofReal_sub, Complex.norm_real, Real.norm_eq_abs]
    calc ‖h‖ * |g' - g| ≤ ‖h‖ * (e * g) := by gcongr
      _ = _ := by ring
  have t : ‖A.cmul h (g' : ℂ) - h * g‖ ≤ ‖A.cmul h (g' : ℂ) - h * g'‖ + ‖h * (g' : ℂ) - h * g‖ := norm_sub_le_norm_sub_add_norm_sub _ _ _
  have m : ‖h‖ * |g'| ≤ 1.01 * (‖h‖ * g) := by
    calc ‖h‖ * |g'| ≤ ‖h‖ * (1.01 * g) := by gcongr; norm_num at *; linarith
      _ = _ := by ring
  have p : 0 ≤ ‖h‖ * g := by positivity
  norm_num at *; linarith

theorem factor_within {L : ComplexLib} (hL : AccurateComplex L) {x k : ℝ} (x0 : 0 ≤ x) (xk : x ≤ k + 1) (x1 : x ≤ 10 ^ 12) (k0 : 0 ≤ k) (k1 : k ≤ 10 ^ 12) :
    |L.sqrt (L.div x (A.rnd (k + 1))) - Real.sqrt (x / (k + 1))| ≤ 2.2e-6 * Real.sqrt (x / (k + 1)) := by
  have kp : 0 < k + 1 := by linarith
  have ka : |k + 1| ≤ 10 ^ 30 := by rw [abs_of_pos kp]; linarith
  have y1 : 1 ≤ A.rnd (k + 1) := by
    have := (rnd_le_int hf hr (n := 1) ka (by norm_num)).2 (by push_cast; linarith)
    exact_mod_cast this
  have y2 := rnd_small hf hr ka
  rw [abs_of_pos kp] at y2
  have y2' := abs_le.1 y2
  have y3 : A.rnd (k + 1) ≤ 10 ^ 13 := by norm_num at *; linarith
  have d := hL.div x (A.rnd (k + 1)) x0 x1 y1 y3
  have yp : 0 < A.rnd (k + 1) := by linarith
  have w0 : 0 ≤ x / (k + 1) := by positivity
  have w1 : x / (k + 1) ≤ 1 := (div_le_one kp).2 xk
  have c : |x / A.rnd (k + 1) - x / (k + 1)| ≤ 6.2e-8 * (x / (k + 1)) := by
    rw [show x / A.rnd (k + 1) - x / (k + 1) = x / (k + 1) * ((k + 1 - A.rnd (k + 1)) / A.rnd (k + 1)) by field_simp, abs_mul, abs_of_nonneg w0, mul_comm]
    refine mul_le_mul_of_nonneg_right ?_ w0
    rw [abs_div, abs_of_pos yp, div_le_iff₀ yp, abs_sub_comm]
    refine y2.trans ?_
    norm_num at *; linarith
  have v0 : 0 ≤ x / A.rnd (k + 1) := by positivity
  have c' := abs_le.1 c
  have e1 : |L.div x (A.rnd (k + 1)) - x / (k + 1)| ≤ 1.1e-6 * (x / (k + 1)) := by
    refine (tri_of d c).trans ?_
    norm_num at *; linarith
  have e1' := abs_le.1 e1
  have q0 : 0 ≤ L.div x (A.rnd (k + 1)) := by norm_num at *; linarith
  have q1 : L.div x (A.rnd (k + 1)) ≤ 2 := by norm_num at *; linarith
  have s1 := hL.sqrt _ q0 q1
  have s2 := sqrt_within w0 q0 e1
  have s2' := abs_le.1 s2
  have sp := Real.sqrt_nonneg (x / (k + 1))
  refine (tri_of s1 s2).trans ?_
  generalize Real.sqrt (x / (k + 1)) = a at *
  generalize Real.sqrt (L.div x (A.rnd (k + 1))) = b at *
  norm_num at *; linarith

/-- Factors of LoS and NLoS components have a relative error below 3e-6, and their squares add up to one up to 1e-5. -/
theorem C222_split {L : ComplexLib} (hL : AccurateComplex L) {k : ℝ} (k0 : 0 ≤ k) (k1 : k ≤ 10 ^ 12) :
    |A.losFactor L k - Real.sqrt (k / (k + 1))| ≤ 3e-6 * Real.sqrt (k / (k + 1)) ∧ |A.nlosFactor L k - Real.sqrt (1 / (k + 1))| ≤ 3e-6 * Real.sqrt (1 / (k + 1)) ∧
    |A.losFactor L k ^ 2 + A.nlosFactor L k ^ 2 - 1| ≤ 1e-5 := by
  have a := factor_within hf hr hL k0 (by linarith) k1 k0 k1
  have b := factor_within hf hr hL (x := 1) (by norm_num) (by linarith) (by norm_num) k0 k1
  have kp : 0 < k + 1 := by linarith
  have a0 : 0 ≤ k / (k + 1) := by positivity
  have b0 : 0 ≤ 1 / (k + 1) := by positivity
  have sa := Real.sq_sqrt a0
  have sb := Real.sq_sqrt b0
  have sum : k / (k + 1) + 1 / (k + 1) = 1 := by field_simp
  have pa := Real.sqrt_nonneg (k / (k + 1))
  have pb := Real.sqrt_nonneg (1 / (k + 1))
  have A1 : |A.losFactor L k - Real.sqrt (k / (k + 1))| ≤ 2.2e-6 * Real.sqrt (k / (k + 1)) := a
  have B1 : |A.nlosFactor L k - Real.sqrt (1 / (k + 1))| ≤ 2.2e-6 * Real.sqrt (1 / (k + 1)) := b
  have sq : ∀ {x y : ℝ}, 0 ≤ y → |x - y| ≤ 2.2e-6 * y → |x ^ 2 - y ^ 2| ≤ 5e-6 * y ^ 2 := fun {x y} y0 h => by
    have h' := abs_le.1 h
    rw [show x ^ 2 - y ^ 2 = (x - y) * (x + y) by ring, abs_mul]
    have : |x + y| ≤ 2.1 * y := by rw [abs_le]; constructor <;> (norm_num at *; linarith)
    refine (mul_le_mul h this (abs_nonneg _) (by positivity)).trans ?_
    have : 0 ≤ y ^ 2 := by positivity
    norm_num; nlinarith
  refine ⟨A1.trans (mul_le_mul_of_nonneg_right (by norm_num) pa), B1.trans (mul_le_mul_of_nonneg_right (by norm_num) pb), ?_⟩
  have qa := sq pa A1
  have qb := sq pb B1
  rw [sa] at qa
  rw [sb] at qb
  rw [show A.losFactor L k ^ 2 + A.nlosFactor L k ^ 2 - 1 = (A.losFactor L k ^ 2 - k / (k + 1)) + (A.nlosFactor L k ^ 2 - 1 / (k + 1)) by linarith]
  refine (abs_add_le _ _).trans ((add_le_add qa qb).trans ?_)
  rw [← mul_add, sum]
  norm_num

/-- Norm error of each coefficient: a hundred-thousandth of the components it is made of. -/
theorem C222_combined {L : ComplexLib} (hL : AccurateComplex L) {p : ℕ} (los : Bool) {k : ℝ} (k0 : 0 ≤ k) (k1 : k ≤ 10 ^ 12) {hLos : ℂ} {hNlos : Fin (p + 1) → ℂ}
    (h1 : ‖hLos‖ ≤ 10 ^ 6) (h2 : ∀ q, ‖hNlos q‖ ≤ 10 ^ 6) (q : Fin (p + 1)) (u s : ℕ) (t : ℝ) :
    ‖A.combineLos L los k hLos hNlos q - combineLos los k (fun _ _ _ => hLos) (fun q _ _ _ => hNlos q) q u s t‖ ≤ 1e-5 * ((if q = 0 then ‖hLos‖ else 0) + ‖hNlos q‖) + 1e-36 := by
  obtain ⟨fa, fb, -⟩ := C222_split hf hr hL k0 k1
  have kp : 0 < k + 1 := by linarith
  have pa := Real.sqrt_nonneg (k / (k + 1))
  have pb := Real.sqrt_nonneg (1 / (k + 1))
  have la : Real.sqrt (k / (k + 1)) ≤ 1 := Real.sqrt_le_one.2 ((div_le_one kp).2 (by linarith))
  have lb : Real.sqrt (1 / (k + 1)) ≤ 1 := Real.sqrt_le_one.2 ((div_le_one kp).2 (by linarith))
  have sa := scale_within hf hr h1 pa (la.trans (by norm_num)) (by norm_num) fa
  have sb := fun q => scale_within hf hr (h2 q) pb (lb.trans (by norm_num)) (by norm_num) fb
  have ma : ‖hLos‖ * Real.sqrt (k / (k + 1)) ≤ ‖hLos‖ := mul_le_of_le_one_right (norm_nonneg _) la
  have mb := fun q => (mul_le_of_le_one_right (norm_nonneg (hNlos q)) lb : ‖hNlos q‖ * Real.sqrt (1 / (k + 1)) ≤ ‖hNlos q‖)
  have na := norm_nonneg hLos
  have nb := norm_nonneg (hNlos q)
  unfold Arith.combineLos OpenNTN.combineLos
  generalize Real.sqrt (k / (k + 1)) = α at *
  generalize Real.sqrt (1 / (k + 1)) = β at *
  cases los
  · simp only [Bool.false_eq_true, if_false, sub_self, norm_zero]
    split_ifs <;> positivity
  · by_cases h0 : q = 0
    · subst h0
      simp only [if_true]
      have sb0 := sb 0
      have mb0 := mb 0
      set z := A.cmul hLos (A.losFactor L k : ℂ)
      set w := A.cmul (hNlos 0) (A.nlosFactor L k : ℂ)
      clear_value z w
      set a : ℂ := hLos * (α : ℂ) with hadef
      set b : ℂ := hNlos 0 * (β : ℂ) with hbdef
      have za : ‖a‖ ≤ ‖hLos‖ := by rw [hadef, norm_mul, Complex.norm_real, Real.norm_of_nonneg pa]; exact ma
      have zb : ‖b‖ ≤ ‖hNlos 0‖ := by rw [hbdef, norm_mul, Complex.norm_real, Real.norm_of_nonneg pb]; exact mb0
      have sa' : ‖z - a‖ ≤ 3.2e-6 * ‖hLos‖ + 1e-37 := sa.trans (by norm_num at *; linarith)
      have sb' : ‖w - b‖ ≤ 3.2e-6 * ‖hNlos 0‖ + 1e-37 := sb0.trans (by norm_num at *; linarith)
      clear_value a b
      have hn0 := h2 0
      generalize ‖hLos‖ = H at *
      generalize ‖hNlos 0‖ = N at *
      have zn : ‖z‖ ≤ ‖z - a‖ + ‖a‖ := by simpa using norm_add_le (z - a) a
      have wn : ‖w‖ ≤ ‖w - b‖ + ‖b‖ := by simpa using norm_add_le (w - b) b
      have hs : ‖z + w‖ ≤ 1.1 * (H + N) + 2e-37 := (norm_add_le _ _).trans (by norm_num at *; linarith)
      have part : ∀ x : ℝ, |x| ≤ ‖z + w‖ → |A.rnd x - x| ≤ 7e-8 * (H + N) + 3e-38 := fun x hx => by
        have := rnd_small hf hr (x := x) (by norm_num at *; linarith)
        norm_num at *; linarith
      have e : ‖A.cadd z w - (z + w)‖ ≤ 1.415 * (7e-8 * (H + N) + 3e-38) :=
        norm_le_parts (part _ (Complex.abs_re_le_norm (z + w))) (part _ (Complex.abs_im_le_norm (z + w)))
      have e2 : ‖z + w - (a + b)‖ ≤ ‖z - a‖ + ‖w - b‖ := by
        rw [show z + w - (a + b) = (z - a) + (w - b) by ring]; exact norm_add_le _ _
      have t : ‖A.cadd z w - (a + b)‖ ≤ ‖A.cadd z w - (z + w)‖ + ‖z + w - (a + b)‖ := norm_sub_le_norm_sub_add_norm_sub _ _ _
      refine t.trans ?_
      norm_num at *; linarith
    · simp only [if_true, if_neg h0]
      have s := sb q
      have m := mb q
      refine s.trans ?_
      norm_num at m ⊢; linarith

omit hf hr in
theorem pow_fine {P : ℝ → ℝ} (hP : AccuratePowWide P) {y y' : ℝ} (h : |y' - y| ≤ 1.2e-6) (hy : |y| ≤ 20) : |P y' - pow10 y| ≤ 7e-6 * pow10 y := by
  have b := hP y' ((near_of h hy).trans (by norm_num))
  unfold pow10
  have e : (10 : ℝ) ^ y' = (10 : ℝ) ^ y * (10 : ℝ) ^ (y' - y) := by
    rw [← Real.rpow_add (by norm_num)]; ring_nf
  have p0 : 0 < (10 : ℝ) ^ y := by positivity
  have l := log_ten_lt
  have l0 : 0 < Real.log 10 := Real.log_pos (by norm_num)
  have s : |Real.log 10 * (y' - y)| ≤ 2.764e-6 := by
    rw [abs_mul, abs_of_pos l0]
    calc Real.log 10 * |y' - y| ≤ 2.303 * 1.2e-6 := by gcongr
      _ ≤ _ := by norm_num
  have x := (Real.abs_exp_sub_one_le (s.trans (by norm_num)))
  rw [← Real.rpow_def_of_pos (by norm_num)] at x
  have c : |(10 : ℝ) ^ y' - (10 : ℝ) ^ y| ≤ 5.53e-6 * (10 : ℝ) ^ y := by
    rw [e, show (10 : ℝ) ^ y * (10 : ℝ) ^ (y' - y) - (10 : ℝ) ^ y = ((10 : ℝ) ^ (y' - y) - 1) * (10 : ℝ) ^ y by ring, abs_mul, abs_of_pos p0]
    refine mul_le_mul_of_nonneg_right ?_ p0.le
    norm_num at *; linarith
  have c' := abs_le.1 c
  refine (tri_of b c).trans ?_
  norm_num at *; linarith

/-- The gain has a relative error below 1e-5 for path losses up to 400 dB. -/
theorem C222_gain {P : ℝ → ℝ} (hP : AccuratePowWide P) (pe se : Bool) {pl sf : ℝ} (h1 : |pl| ≤ 400) (h2 : 1e-8 ≤ sf) (h3 : sf ≤ 1e8) :
    0 < A.step12Gain P pe se pl sf ∧ |A.step12Gain P pe se pl sf - step12Gain pe se pl sf| ≤ 1e-5 * step12Gain pe se pl sf := by
  unfold Arith.step12Gain step12Gain
  extract_lets d v
  have hd : |(-d) / 20| ≤ 20 := by
    have : |d| ≤ 400 := by
      unfold d; split_ifs
      · exact h1
      · simp
    rw [abs_div, abs_neg, abs_of_pos (by norm_num : (0 : ℝ) < 20)]; linarith
  have v1 : 1e-8 ≤ v := by
    unfold v; split_ifs
    · exact h2
    · norm_num
  have v2 : v ≤ 1e8 := by
    unfold v; split_ifs
    · exact h3
    · norm_num
  clear_value d v
  have e1 := rnd_size hf hr hd (by norm_num) (by norm_num)
  have e2 := pow_fine hP (e1.trans (by norm_num)) hd
  have r1 : 1e-4 ≤ Real.sqrt v := by
    rw [show (1e-4 : ℝ) = Real.sqrt 1e-8 by rw [eq_comm, Real.sqrt_eq_iff_mul_self_eq (by norm_num) (by norm_num)]; norm_num]
    exact Real.sqrt_le_sqrt v1
  have r2 : Real.sqrt v ≤ 1e4 := by
    rw [show (1e4 : ℝ) = Real.sqrt 1e8 by rw [eq_comm, Real.sqrt_eq_iff_mul_self_eq (by norm_num) (by norm_num)]; norm_num]
    exact Real.sqrt_le_sqrt v2
  have g1 : 1e-20 ≤ pow10 (-d / 20) := by
    have : (10 : ℝ) ^ (-20 : ℝ) ≤ (10 : ℝ) ^ (-d / 20) := Real.rpow_le_rpow_of_exponent_le (by norm_num) (by linarith [(abs_le.1 hd).1])
    refine le_trans ?_ this
    rw [show (-20 : ℝ) = ((-20 : ℤ) : ℝ) by norm_num, Real.rpow_intCast]; norm_num
  have g2 : pow10 (-d / 20) ≤ 1e20 := by
    have : (10 : ℝ) ^ (-d / 20) ≤ (10 : ℝ) ^ (20 : ℝ) := Real.rpow_le_rpow_of_exponent_le (by norm_num) (by linarith [(abs_le.1 hd).2])
    refine this.trans ?_
    rw [show (20 : ℝ) = ((20 : ℤ) : ℝ) by norm_num, Real.rpow_intCast]; norm_num
  have r0 : 0 ≤ Real.sqrt v := Real.sqrt_nonneg v
  have e3 := rnd_small hf hr (x := Real.sqrt v) (by rw [abs_of_nonneg r0]; exact r2.trans (by norm_num))
  rw [abs_of_nonneg r0] at e3
  generalize P (A.rnd (-d / 20)) = p' at *
  generalize pow10 (-d / 20) = p at *
  generalize A.rnd (Real.sqrt v) = q' at *
  generalize Real.sqrt v = q at *
  have e3' : |q' - q| ≤ 7e-8 * q := e3.trans (by norm_num at *; linarith)
  have p0 : 0 < p := lt_of_lt_of_le (by norm_num) g1
  have q0 : 0 < q := lt_of_lt_of_le (by norm_num) r1
  have pq : 1e-24 ≤ p * q := by
    calc (1e-24 : ℝ) = 1e-20 * 1e-4 := by norm_num
      _ ≤ p * q := mul_le_mul g1 r1 (by norm_num) p0.le
  have pq2 : p * q ≤ 1e24 := by
    calc p * q ≤ 1e20 * 1e4 := mul_le_mul g2 r2 q0.le (by norm_num)
      _ = 1e24 := by norm_num
  have c : |p' * q' - p * q| ≤ 8e-6 * (p * q) := by
    rw [show p' * q' - p * q = (p' - p) * q' + p * (q' - q) by ring]
    have q2 : |q'| ≤ 1.0000001 * q := (near_of e3' (abs_of_pos q0).le).trans (by norm_num; linarith)
    have a1 : |(p' - p) * q'| ≤ 7e-6 * p * (1.0000001 * q) := by rw [abs_mul]; exact mul_le_mul e2 q2 (abs_nonneg _) (by positivity)
    have a2 : |p * (q' - q)| ≤ p * (7e-8 * q) := by rw [abs_mul, abs_of_pos p0]; exact mul_le_mul_of_nonneg_left e3' p0.le
    refine (abs_add_le _ _).trans ((add_le_add a1 a2).trans ?_)
    have : 0 < p * q := by positivity
    norm_num; linarith
  have n : |p' * q'| ≤ 1.00001 * (p * q) := (near_of c (abs_of_pos (by linarith)).le).trans (by norm_num at *; linarith)
  have e4 := rnd_small hf hr (x := p' * q') (n.trans (by norm_num at *; linarith))
  have e5 : |A.rnd (p' * q') - p * q| ≤ 1e-5 * (p * q) := by
    refine (tri_of e4 c).trans ?_
    norm_num at *; linarith
  refine ⟨?_, e5⟩
  have := (abs_le.1 e5).1
  norm_num at *; linarith

/-- Norm error of the coefficient after step 12. -/
theorem C222_coefficient {P : ℝ → ℝ} (hP : AccuratePowWide P) (pe se : Bool) {pl sf : ℝ} (h0 : 0 ≤ pl) (h1 : pl ≤ 400) (h2 : 1e-8 ≤ sf) (h3 : sf ≤ 1e8) {h : ℂ} (hh : ‖h‖ ≤ 10 ^ 6) :
    ‖A.step12 P pe se pl sf h - h * (step12Gain pe se pl sf : ℂ)‖ ≤ 1.1e-5 * (‖h‖ * step12Gain pe se pl sf) + 1e-37 := by
  obtain ⟨g0, g⟩ := C222_gain hf hr hP pe se (pl := pl) (by rw [abs_of_nonneg h0]; exact h1) h2 h3
  have n0 : 0 ≤ step12Gain pe se pl sf := by unfold step12Gain pow10; positivity
  have n1 : step12Gain pe se pl sf ≤ 10 ^ 9 := by
    unfold step12Gain
    extract_lets d v
    have a : pow10 (-d / 20) ≤ 1 := by
      refine Real.rpow_le_one_of_one_le_of_nonpos (by norm_num) ?_
      have : 0 ≤ d := by unfold d; split_ifs <;> [exact h0; exact le_rfl]
      linarith
    have b : Real.sqrt v ≤ 10 ^ 9 := by
      rw [Real.sqrt_le_left (by norm_num)]
      unfold v; split_ifs
      · exact h3.trans (by norm_num)
      · norm_num
    exact (mul_le_mul a b (Real.sqrt_nonneg _) (by norm_num)).trans (by norm_num)
  refine (scale_within hf hr hh n0 n1 (by norm_num) g).trans ?_
  have : 0 ≤ ‖h‖ * step12Gain pe se pl sf := by positivity
  norm_num; linarith

end

/-- The conditions hold for single precision with libraries that are exact. -/
example : ∃ A : Arith, Nearest Spec.single A.rnd ∧ AccurateComplex ⟨(· / ·), Real.sqrt⟩ ∧ AccuratePowWide (fun x => (10 : ℝ) ^ x) := by
  obtain ⟨A, hr, _⟩ := exists_arith Spec.single (Or.inl rfl)
  exact ⟨A, hr, ⟨fun x y x0 _ y1 _ => by simp; positivity, fun x _ _ => by simp⟩, fun x _ => by simp; positivity⟩

/-- A link with 165 dB path loss and 6 dB shadow fading that is attenuated further. -/
example : ∃ A : Arith, Nearest Spec.single A.rnd ∧ |A.step12Gain (fun x => (10 : ℝ) ^ x) true true 165 0.25 - step12Gain true true 165 0.25| ≤ 1e-5 * step12Gain true true 165 0.25 := by
  obtain ⟨A, hr, _⟩ := exists_arith Spec.single (Or.inl rfl)
  exact ⟨A, hr, (C222_gain (Or.inl rfl) hr (fun x _ => by simp; positivity) true true (by norm_num) (by norm_num) (by norm_num)).2⟩

/-- A link in LoS with a K-factor of 10 and two paths. -/
example : ∃ A : Arith, Nearest Spec.single A.rnd ∧
    ‖A.combineLos ⟨(· / ·), Real.sqrt⟩ true 10 ⟨0.6, 0.8⟩ ![⟨1, 0⟩, ⟨0, 1⟩] 0 - combineLos true 10 (fun _ _ _ => ⟨0.6, 0.8⟩) (fun q _ _ _ => (![⟨1, 0⟩, ⟨0, 1⟩] : Fin 2 → ℂ) q) 0 0 0 0‖ ≤
      1e-5 * (‖(⟨0.6, 0.8⟩ : ℂ)‖ + 1) + 1e-36 := by
  obtain ⟨A, hr, _⟩ := exists_arith Spec.single (Or.inl rfl)
  have o : ‖(⟨1, 0⟩ : ℂ)‖ = 1 := norm_one
  have i : ‖(⟨0, 1⟩ : ℂ)‖ = 1 := Complex.norm_I
  have l : ‖(⟨0.6, 0.8⟩ : ℂ)‖ ≤ 10 ^ 6 := (Complex.norm_le_abs_re_add_abs_im _).trans (by norm_num)
  have h := C222_combined (Or.inl rfl) hr (L := ⟨(· / ·), Real.sqrt⟩) ⟨fun x y x0 _ y1 _ => by simp; positivity, fun x _ _ => by simp⟩ true (k := 10) (by norm_num) (by norm_num)
    (hNlos := (![⟨1, 0⟩, ⟨0, 1⟩] : Fin 2 → ℂ)) l (fun q => by fin_cases q <;> simp [o, i] <;> norm_num) 0 0 0 0
  exact ⟨A, hr, by simpa [o] using h⟩

end OpenNTN
