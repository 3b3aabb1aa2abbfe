import Verif.Model.RoundingLsp
import Verif.Props.RoundingPattern
import Mathlib.Algebra.Order.Chebyshev

/-
Large scale parameters with rounding: C220.
-/
namespace OpenNTN

open Spec

/-- With exact operations the operations give the parameters of the model. -/
theorem C220_model {U : ℕ} (crossSqrt : Fin U → Fin 7 → Fin 7 → ℝ) (spatialSqrt : Fin 7 → Fin U → Fin U → ℝ) (s r : Fin U → Fin 7 → ℝ)
    (h : Arith.exact.IsCorrelated crossSqrt spatialSqrt s r) (mean : Fin 7 → WithBot ℝ) (std : Fin 7 → ℝ) (u : Fin U) :
    Arith.exact.lspOf pow10 mean std (r u) = lspOf mean std (correlateDraws crossSqrt spatialSqrt s u) := by
  obtain ⟨s1, h1, h2⟩ := h
  have e1 : ∀ u i, s1 u i = ∑ j, crossSqrt u i j * s u j := fun u i => by
    have := roundedSum_exact (show RoundedSum id _ _ from h1 u i)
    rwa [List.sum_ofFn] at this
  have e2 : r u = correlateDraws crossSqrt spatialSqrt s u := by
    funext i
    have := roundedSum_exact (show RoundedSum id _ _ from h2 u i)
    rw [List.sum_ofFn] at this
    simpa [Arith.exact, e1, correlateDraws] using this
  have e3 : ∀ (m : WithBot ℝ) (x y : ℝ), powLib pow10 (Arith.exact.lspLog m x y) = pow10X (lspLog m x y) := fun m x y => by
    cases m <;> rfl
  simp only [Arith.lspOf, lspOf, e2, e3]

/-- The power function of the library has a relative error of at most `2⁻²⁰` in a wide range. -/
def Spec.AccuratePowWide (P : ℝ → ℝ) : Prop := ∀ x, |x| ≤ 31 → |P x - (10 : ℝ) ^ x| ≤ (2 : ℝ) ^ (-20 : ℤ) * (10 : ℝ) ^ x

/-- All parameters agree up to the fraction `e`. -/
def Spec.LspWithin (e : ℝ) (v w : LspValues) : Prop :=
  |v.ds - w.ds| ≤ e * w.ds ∧ |v.asd - w.asd| ≤ e * w.asd ∧ |v.asa - w.asa| ≤ e * w.asa ∧ |v.sf - w.sf| ≤ e * w.sf ∧ |v.kFactor - w.kFactor| ≤ e * w.kFactor ∧
    |v.zsa - w.zsa| ≤ e * w.zsa ∧ |v.zsd - w.zsd| ≤ e * w.zsd

theorem within_min {a b c e : ℝ} (e0 : 0 ≤ e) (e1 : e ≤ 1) (c0 : 0 ≤ c) (h : |a - b| ≤ e * b) : |min a c - min b c| ≤ e * min b c := by
  have := abs_le.1 h
  rcases le_total b c with hb | hb
  · rw [min_eq_left hb, abs_le]
    have l : (1 - e) * b ≤ min a c := le_min (by linarith) (by nlinarith [abs_nonneg (a - b)])
    constructor
    · linarith
    · linarith [min_le_left a c]
  · rw [min_eq_right hb, abs_le]
    have l : (1 - e) * c ≤ min a c := le_min (by nlinarith) (by nlinarith)
    constructor
    · linarith
    · have := min_le_right a c
      have : 0 ≤ e * c := by positivity
      linarith

section

variable {f : Format} (hf : IEEE f) {A : Arith} (hr : Nearest f A.rnd)

include hf hr

/-- A sum in any order. -/
theorem sum_abs_err {l : List ℝ} {s : ℝ} (h : RoundedSum A.rnd l s) : ∀ S : ℝ, (l.map (|·|)).sum ≤ S → S ≤ 10 ^ 6 → l.length ≤ 1000 →
    1 ≤ l.length ∧ |s - l.sum| ≤ 6.1e-8 * ((l.length : ℝ) - 1) * ((l.map (|·|)).sum + 1e-6) ∧ |l.sum| ≤ (l.map (|·|)).sum := by
  induction h with
  | single x =>
    intro S _ _ _
    exact ⟨by simp, by simp, by simp⟩
  | @add l r a b _ _ ha hb =>
    intro S hS S6 hl
    rw [List.length_append] at hl
    rw [List.map_append, List.sum_append] at hS
    have lp : 0 ≤ (l.map (|·|)).sum := List.sum_nonneg (by simp)
    have rp : 0 ≤ (r.map (|·|)).sum := List.sum_nonneg (by simp)
    obtain ⟨a0, a1, a2⟩ := ha S (by linarith) S6 (by omega)
    obtain ⟨b0, b1, b2⟩ := hb S (by linarith) S6 (by omega)
    refine ⟨by rw [List.length_append]; omega, ?_⟩
    rw [List.length_append, List.sum_append, List.map_append, List.sum_append]
    push_cast
    have m1 : (1 : ℝ) ≤ l.length := by exact_mod_cast a0
    have n1 : (1 : ℝ) ≤ r.length := by exact_mod_cast b0
    have mn : (l.length : ℝ) + r.length ≤ 1000 := by exact_mod_cast hl
    generalize (l.length : ℝ) = m at *
    generalize (r.length : ℝ) = n at *
    generalize (l.map (|·|)).sum = P at *
    generalize (r.map (|·|)).sum = Q at *
    generalize l.sum = p at *
    generalize r.sum = q at *
    have ab0 : |a + b - (p + q)| ≤ 6.1e-8 * (m + n - 2) * (P + Q + 1e-6) := by
      rw [show a + b - (p + q) = (a - p) + (b - q) by ring]
      refine (abs_add_le _ _).trans ((add_le_add a1 b1).trans ?_)
      norm_num
      nlinarith [mul_nonneg (show 0 ≤ m - 1 by linarith) rp, mul_nonneg (show 0 ≤ n - 1 by linarith) lp]
    have pq : |p + q| ≤ P + Q := (abs_add_le _ _).trans (add_le_add a2 b2)
    have k : 6.1e-8 * (m + n - 2) * (P + Q + 1e-6) ≤ 6.1e-5 * (P + Q + 1e-6) := by
      refine mul_le_mul_of_nonneg_right ?_ (by norm_num; linarith)
      norm_num; linarith
    have rd := rnd_size hf hr (x := a + b) (B := 1.0001 * (P + Q) + 1e-7) ((near_of ab0 pq).trans (by norm_num at *; linarith)) (by norm_num; linarith) (by norm_num; linarith)
    refine ⟨(tri_of rd ab0).trans ?_, pq⟩
    norm_num
    nlinarith
  | perm p _ ha =>
    intro S hS S6 hl
    rw [← p.length_eq] at hl ⊢
    rw [← (p.map _).sum_eq] at hS ⊢
    rw [← p.sum_eq]
    exact ha S hS S6 hl

/-- A scalar product of rounded products. -/
theorem dot_err {n : ℕ} {x x' y : Fin n → ℝ} {s X D : ℝ} (n1 : n ≤ 100) (hx : ∀ k, |x k| ≤ X) (hd : ∀ k, |x' k - x k| ≤ D) (X1 : 1 ≤ X) (X2 : X ≤ 100) (D1 : D ≤ 0.01)
    (hy : ∑ k, y k ^ 2 ≤ 1.01) (h : RoundedSum A.rnd (List.ofFn fun k => A.rnd (x' k * y k)) s) :
    |s - ∑ k, x k * y k| ≤ Real.sqrt (1.01 * n) * (D + 6.2e-8 * (n * X)) + 1e-11 ∧ |∑ k, x k * y k| ≤ X * Real.sqrt (1.01 * n) := by
  have X0 : 0 ≤ X := by linarith
  have nn : (n : ℝ) ≤ 100 := by exact_mod_cast n1
  have T1 : ∑ k, |y k| ≤ Real.sqrt (1.01 * n) := by
    apply Real.le_sqrt_of_sq_le
    have := sq_sum_le_card_mul_sum_sq (s := Finset.univ) (f := fun k => |y k|)
    simp only [sq_abs, Finset.card_univ, Fintype.card_fin] at this
    nlinarith
  have T0 : 0 ≤ ∑ k, |y k| := Finset.sum_nonneg fun k _ => abs_nonneg _
  have T11 : Real.sqrt (1.01 * n) ≤ 11 := by
    rw [Real.sqrt_le_iff]
    constructor
    · norm_num
    · norm_num; linarith
  have yk : ∀ k, |y k| ≤ 11 := fun k => (Finset.single_le_sum (f := fun k => |y k|) (fun k _ => abs_nonneg _) (Finset.mem_univ k)).trans (T1.trans T11)
  have main : |∑ k, x k * y k| ≤ X * ∑ k, |y k| := by
    refine (Finset.abs_sum_le_sum_abs _ _).trans ?_
    rw [Finset.mul_sum]
    exact Finset.sum_le_sum fun k _ => by rw [abs_mul]; exact mul_le_mul_of_nonneg_right (hx k) (abs_nonneg _)
  refine ⟨?_, main.trans (mul_le_mul_of_nonneg_left T1 X0)⟩
  rcases Nat.eq_zero_or_pos n with rfl | npos
  · have := (sum_abs_err hf hr h 0 (by simp) (by norm_num) (by simp)).1
    simp at this
  have n1' : (1 : ℝ) ≤ n := by exact_mod_cast npos
  have D0 : 0 ≤ D := (abs_nonneg _).trans (hd ⟨0, npos⟩)
  have e1 : ∀ k, |x' k| ≤ X + D := fun k => (near_of (hd k) (hx k)).trans (by linarith)
  have e2 : ∀ k, |x' k * y k| ≤ (X + D) * |y k| := fun k => by
    rw [abs_mul]; exact mul_le_mul_of_nonneg_right (e1 k) (abs_nonneg _)
  have e3 : ∀ k, |A.rnd (x' k * y k) - x' k * y k| ≤ 6e-8 * ((X + D) * |y k| + 1e-7) := fun k => by
    have p0 : 0 ≤ (X + D) * |y k| := by positivity
    have p1 : (X + D) * |y k| ≤ 101 * 11 := mul_le_mul (by norm_num at D1; linarith) (yk k) (abs_nonneg _) (by norm_num)
    exact rnd_size hf hr ((e2 k).trans (by norm_num)) (by norm_num; linarith) (by norm_num at *; linarith)
  have e4 : ∀ k, |A.rnd (x' k * y k) - x k * y k| ≤ (D + 6e-8 * (X + D)) * |y k| + 6e-15 := fun k => by
    have : |x' k * y k - x k * y k| ≤ D * |y k| := by
      rw [← sub_mul, abs_mul]; exact mul_le_mul_of_nonneg_right (hd k) (abs_nonneg _)
    exact (tri_of (e3 k) this).trans (le_of_eq (by ring))
  have e5 : ∀ k, |A.rnd (x' k * y k)| ≤ 1.0000001 * (X + D) * |y k| + 6e-15 := fun k => by
    have p0 : 0 ≤ (X + D) * |y k| := by positivity
    refine (near_of (e3 k) (e2 k)).trans ?_
    norm_num; nlinarith
  have s1 : |∑ k, A.rnd (x' k * y k) - ∑ k, x k * y k| ≤ (D + 6e-8 * (X + D)) * ∑ k, |y k| + n * 6e-15 := by
    rw [← Finset.sum_sub_distrib]
    refine (Finset.abs_sum_le_sum_abs _ _).trans ((Finset.sum_le_sum fun k _ => e4 k).trans (le_of_eq ?_))
    rw [Finset.sum_add_distrib, Finset.mul_sum]
    simp
  have s2 : ∑ k, |A.rnd (x' k * y k)| ≤ 1.0000001 * (X + D) * ∑ k, |y k| + n * 6e-15 := by
    refine (Finset.sum_le_sum fun k _ => e5 k).trans (le_of_eq ?_)
    rw [Finset.sum_add_distrib, Finset.mul_sum]
    simp
  have s2' : ((List.ofFn fun k => A.rnd (x' k * y k)).map (|·|)).sum = ∑ k, |A.rnd (x' k * y k)| := by
    rw [List.map_ofFn, List.sum_ofFn]; rfl
  have q1 : (X + D) * ∑ k, |y k| ≤ 101 * 11 := mul_le_mul (by norm_num at D1; linarith) (T1.trans T11) T0 (by norm_num)
  have big : ∑ k, |A.rnd (x' k * y k)| ≤ 10 ^ 6 := by
    refine s2.trans ?_
    rw [mul_assoc]
    norm_num at q1 ⊢
    linarith
  have s3 := (sum_abs_err hf hr h (10 ^ 6) (by rw [s2']; exact big) le_rfl (by rw [List.length_ofFn]; omega)).2.1
  rw [s2', List.sum_ofFn, List.length_ofFn] at s3
  have XD : X + D ≤ 1.01 * X := by norm_num at D1 ⊢; linarith
  generalize ∑ k, |A.rnd (x' k * y k)| = W at *
  have s4 : 6.1e-8 * ((n : ℝ) - 1) * (W + 1e-6) ≤ 6.1e-8 * ((n : ℝ) - 1) * (1.0000001 * (X + D) * ∑ k, |y k| + n * 6e-15 + 1e-6) :=
    mul_le_mul_of_nonneg_left (by linarith) (by norm_num; linarith)
  refine (tri_of (s3.trans s4) s1).trans ?_
  have fin : (∑ k, |y k|) * (D + 6.2e-8 * (n * X)) ≤ Real.sqrt (1.01 * n) * (D + 6.2e-8 * (n * X)) :=
    mul_le_mul_of_nonneg_right T1 (by positivity)
  refine le_trans ?_ (add_le_add fin le_rfl)
  generalize ∑ k, |y k| = T at *
  have a1 : (6.1e-8 * ((n : ℝ) - 1) * 1.0000001 + 6e-8) * (X + D) ≤ 6.2e-8 * (n * X) := by
    have : (6.1e-8 * ((n : ℝ) - 1) * 1.0000001 + 6e-8) ≤ 6.1000007e-8 * n := by norm_num; linarith
    refine (mul_le_mul this XD (by linarith) (by norm_num)).trans ?_
    have : 0 ≤ (n : ℝ) * X := by positivity
    norm_num; nlinarith
  have a2 := mul_le_mul_of_nonneg_right a1 T0
  have a3 : 6.1e-8 * ((n : ℝ) - 1) * (n * 6e-15 + 1e-6) + n * 6e-15 ≤ 1e-11 := by
    have h3 : ((n : ℝ) - 1) * (n * 6e-15 + 1e-6) ≤ 99 * (100 * 6e-15 + 1e-6) := mul_le_mul (by linarith) (by norm_num; linarith) (by positivity) (by norm_num)
    rw [mul_assoc]
    generalize ((n : ℝ) - 1) * (n * 6e-15 + 1e-6) = z at *
    norm_num at h3 ⊢; linarith
  nlinarith

/-- Correlated variables of up to 100 users. -/
theorem correlated_err {U : ℕ} (hU : U ≤ 100) {crossSqrt : Fin U → Fin 7 → Fin 7 → ℝ} {spatialSqrt : Fin 7 → Fin U → Fin U → ℝ} {s r : Fin U → Fin 7 → ℝ}
    (hc : ∀ u i, ∑ j, crossSqrt u i j ^ 2 ≤ 1.01) (hp : ∀ i u, ∑ v, spatialSqrt i u v ^ 2 ≤ 1.01) (hs : ∀ u i, |s u i| ≤ 6)
    (h : A.IsCorrelated crossSqrt spatialSqrt s r) (u : Fin U) (i : Fin 7) :
    |r u i - correlateDraws crossSqrt spatialSqrt s u i| ≤ 1.2e-3 ∧ |correlateDraws crossSqrt spatialSqrt s u i| ≤ 170 := by
  obtain ⟨s1, h1, h2⟩ := h
  have r7 : Real.sqrt (1.01 * (7 : ℕ)) ≤ 2.66 := by rw [Real.sqrt_le_iff]; norm_num
  have rU : Real.sqrt (1.01 * U) ≤ 10.05 := by
    have : (U : ℝ) ≤ 100 := by exact_mod_cast hU
    rw [Real.sqrt_le_iff]
    constructor
    · norm_num
    · norm_num; linarith
  have c1 : ∀ v, |s1 v i - ∑ j, crossSqrt v i j * s v j| ≤ 7.1e-6 ∧ |∑ j, crossSqrt v i j * s v j| ≤ 16 := fun v => by
    have hh := h1 v i
    simp only [mul_comm (crossSqrt v i _)] at hh ⊢
    have := dot_err hf hr (x := s v) (x' := s v) (D := 0) (X := 6) (by norm_num) (hs v) (by simp) (by norm_num) (by norm_num) (by norm_num) (hc v i) hh
    constructor
    · refine this.1.trans ?_
      norm_num at *; nlinarith
    · exact this.2.trans (by norm_num at *; linarith)
  have := dot_err hf hr (x := fun v => ∑ j, crossSqrt v i j * s v j) (x' := fun v => s1 v i) (D := 7.1e-6) (X := 16) hU (fun v => (c1 v).2) (fun v => (c1 v).1)
    (by norm_num) (by norm_num) (by norm_num) (hp i u) (h2 u i)
  have U1 : (U : ℝ) ≤ 100 := by exact_mod_cast hU
  have U0 : (0 : ℝ) ≤ U := by positivity
  have e : correlateDraws crossSqrt spatialSqrt s u i = ∑ v, (∑ j, crossSqrt v i j * s v j) * spatialSqrt i u v := rfl
  rw [e]
  constructor
  · refine this.1.trans ?_
    have : Real.sqrt (1.01 * U) * (7.1e-6 + 6.2e-8 * (U * 16)) ≤ 10.05 * (7.1e-6 + 6.2e-8 * (100 * 16)) :=
      mul_le_mul rU (by norm_num; linarith) (by positivity) (by norm_num)
    norm_num at *; linarith
  · exact this.2.trans (by norm_num at *; linarith)

/-- The exponent of a parameter. -/
theorem exponent_err {m d s r : ℝ} (d0 : 0 ≤ d) (d2 : d ≤ 2) (hs : |s| ≤ 170) (hr' : |r - s| ≤ 1.2e-3) (hl : |d * s + m| ≤ 30) :
    |A.rnd (A.rnd (d * r) + m) - (d * s + m)| ≤ 2.43e-3 := by
  have a1 : |d * r - d * s| ≤ 2.4e-3 := by
    rw [← mul_sub, abs_mul, abs_of_nonneg d0]
    exact (mul_le_mul d2 hr' (abs_nonneg _) (by norm_num)).trans (by norm_num)
  have a2 : |d * s| ≤ 340 := by
    rw [abs_mul, abs_of_nonneg d0]
    exact (mul_le_mul d2 hs (abs_nonneg _) (by norm_num)).trans (by norm_num)
  have a3 := rnd_size hf hr (x := d * r) (B := 341) ((near_of a1 a2).trans (by norm_num)) (by norm_num) (by norm_num)
  have a4 : |A.rnd (d * r) + m - (d * s + m)| ≤ 2.4205e-3 := by
    rw [show A.rnd (d * r) + m - (d * s + m) = A.rnd (d * r) - d * s by ring]
    exact (tri_of a3 a1).trans (by norm_num)
  have a5 := rnd_size hf hr (x := A.rnd (d * r) + m) (B := 31) ((near_of a4 hl).trans (by norm_num)) (by norm_num) (by norm_num)
  exact (tri_of a5 a4).trans (by norm_num)

end

/-- The power function after an error of the exponent. -/
theorem pow_wide {P : ℝ → ℝ} (hP : AccuratePowWide P) {y y' : ℝ} (h : |y' - y| ≤ 2.43e-3) (hy : |y| ≤ 30) : |P y' - pow10 y| ≤ 1.2e-2 * pow10 y := by
  have b := hP y' ((near_of h hy).trans (by norm_num))
  unfold pow10
  have e : (10 : ℝ) ^ y' = (10 : ℝ) ^ y * (10 : ℝ) ^ (y' - y) := by
    rw [← Real.rpow_add (by norm_num)]; ring_nf
  have p0 : 0 < (10 : ℝ) ^ y := by positivity
  have l := log_ten_lt
  have l0 : 0 < Real.log 10 := Real.log_pos (by norm_num)
  have s : |Real.log 10 * (y' - y)| ≤ 5.597e-3 := by
    rw [abs_mul, abs_of_pos l0]
    calc Real.log 10 * |y' - y| ≤ 2.303 * 2.43e-3 := by gcongr
      _ ≤ _ := by norm_num
  have x := (Real.abs_exp_sub_one_le (s.trans (by norm_num)))
  rw [show Real.exp (Real.log 10 * (y' - y)) = (10 : ℝ) ^ (y' - y) from (Real.rpow_def_of_pos (by norm_num) _).symm] at x
  have x2 : |(10 : ℝ) ^ (y' - y) - 1| ≤ 1.12e-2 := x.trans (by norm_num at *; linarith)
  have q : |(10 : ℝ) ^ y' - (10 : ℝ) ^ y| ≤ 1.12e-2 * (10 : ℝ) ^ y := by
    rw [e, show (10 : ℝ) ^ y * (10 : ℝ) ^ (y' - y) - (10 : ℝ) ^ y = (10 : ℝ) ^ y * ((10 : ℝ) ^ (y' - y) - 1) by ring, abs_mul, abs_of_pos p0, mul_comm]
    gcongr
  have q' := near_of q (abs_of_pos p0).le
  rw [abs_of_pos (show 0 < (10 : ℝ) ^ y' by positivity)] at q'
  refine (tri_of b q).trans ?_
  have : (2 : ℝ) ^ (-20 : ℤ) * (10 : ℝ) ^ y' ≤ (2 : ℝ) ^ (-20 : ℤ) * ((10 : ℝ) ^ y + 1.12e-2 * (10 : ℝ) ^ y) := by gcongr
  norm_num at *
  linarith

/-- What the accuracy of the parameters of up to 100 users is based on: rows of the factors have length about 1, draws are at most 6, deviations at most 2, and
decimal logarithms of exact parameters are at most 30. -/
structure Spec.LspRange {U : ℕ} (crossSqrt : Fin U → Fin 7 → Fin 7 → ℝ) (spatialSqrt : Fin 7 → Fin U → Fin U → ℝ) (mean : Fin U → Fin 7 → WithBot ℝ)
    (std s : Fin U → Fin 7 → ℝ) : Prop where
  users : U ≤ 100
  cross : ∀ u i, ∑ j, crossSqrt u i j ^ 2 ≤ 1.01
  spatial : ∀ i u, ∑ v, spatialSqrt i u v ^ 2 ≤ 1.01
  draws : ∀ u i, |s u i| ≤ 6
  std_nonneg : ∀ u i, 0 ≤ std u i
  std_le : ∀ u i, std u i ≤ 2
  log : ∀ u i (m : ℝ), mean u i = m → |std u i * (∑ v, (∑ j, crossSqrt v i j * s v j) * spatialSqrt i u v) + m| ≤ 30

/-- In single or double precision all large scale parameters of up to 100 users are within 1.2 percent, in whatever order the library adds. -/
theorem C220_accuracy {f : Format} (hf : IEEE f) {A : Arith} (hr : Nearest f A.rnd) {P : ℝ → ℝ} (hP : AccuratePowWide P) {U : ℕ}
    {crossSqrt : Fin U → Fin 7 → Fin 7 → ℝ} {spatialSqrt : Fin 7 → Fin U → Fin U → ℝ} {mean : Fin U → Fin 7 → WithBot ℝ} {std s r : Fin U → Fin 7 → ℝ}
    (h : LspRange crossSqrt spatialSqrt mean std s) (hc : A.IsCorrelated crossSqrt spatialSqrt s r) (u : Fin U) :
    LspWithin 0.012 (A.lspOf P (mean u) (std u) (r u)) (lspOf (mean u) (std u) (correlateDraws crossSqrt spatialSqrt s u)) := by
  have k : ∀ i, |powLib P (A.lspLog (mean u i) (std u i) (r u i)) - pow10X (lspLog (mean u i) (std u i) (correlateDraws crossSqrt spatialSqrt s u i))| ≤
      1.2e-2 * pow10X (lspLog (mean u i) (std u i) (correlateDraws crossSqrt spatialSqrt s u i)) := fun i => by
    have c := correlated_err hf hr h.users h.cross h.spatial h.draws hc u i
    have l := h.log u i
    generalize mean u i = m at *
    cases m with
    | bot => simp [Arith.lspLog, lspLog, powLib, pow10X]
    | coe m =>
      have l := l m rfl
      exact pow_wide hP (exponent_err hf hr (h.std_nonneg u i) (h.std_le u i) c.2 c.1 l) l
  have k' : (0.012 : ℝ) = 1.2e-2 := by norm_num
  rw [k']
  refine ⟨k 0, ?_, ?_, k 3, k 4, ?_, ?_⟩
  · exact within_min (by norm_num) (by norm_num) (by norm_num) (k 1)
  · exact within_min (by norm_num) (by norm_num) (by norm_num) (k 2)
  · exact within_min (by norm_num) (by norm_num) (by norm_num) (k 5)
  · exact within_min (by norm_num) (by norm_num) (by norm_num) (k 6)

/-- The limits of the angular spreads hold without any error, whatever the arithmetic, the power function, the draws and the factors. -/
theorem C220_limits (A : Arith) (P : ℝ → ℝ) (mean : Fin 7 → WithBot ℝ) (std s : Fin 7 → ℝ) :
    (A.lspOf P mean std s).asd ≤ 104 ∧ (A.lspOf P mean std s).asa ≤ 104 ∧ (A.lspOf P mean std s).zsa ≤ 52 ∧ (A.lspOf P mean std s).zsd ≤ 52 :=
  ⟨min_le_right _ _, min_le_right _ _, min_le_right _ _, min_le_right _ _⟩

/-- The exact factors that the model uses satisfy the condition on the rows. -/
theorem C220_rows {n : ℕ} {C L : Fin n → Fin n → ℝ} (h : IsCholesky C L) (h1 : ∀ i, C i i = 1) (i : Fin n) : ∑ j, L i j ^ 2 ≤ 1.01 := by
  have := h.prod i i
  rw [h1] at this
  simp only [pow_two]
  rw [this]
  norm_num

/-- Non-vacuity: two users with identities as factors, draws 1, deviation 1/2 and the delay spread of a table. -/
example : LspRange (U := 2) (fun _ i j => if i = j then 1 else 0) (fun _ u v => if u = v then 1 else 0) (fun _ i => if i = 4 then ⊥ else ((-7 : ℝ) : WithBot ℝ))
    (fun _ _ => 1 / 2) (fun _ _ => 1) where
  users := by norm_num
  cross _ _ := by simp; norm_num
  spatial _ _ := by simp; norm_num
  draws _ _ := by norm_num
  std_nonneg _ _ := by norm_num
  std_le _ _ := by norm_num
  log u i m hm := by
    have : m = -7 := by
      split at hm
      · exact absurd hm (by simp)
      · exact (WithBot.coe_injective hm).symm
    subst this
    simp
    norm_num [abs_le]

theorem exists_sum (rnd : ℝ → ℝ) (x : ℝ) (l : List ℝ) : ∃ s, RoundedSum rnd (x :: l) s := by
  induction l generalizing x with
  | nil => exact ⟨x, .single x⟩
  | cons y l ih =>
    obtain ⟨s, h⟩ := ih y
    exact ⟨_, .add (.single x) h⟩

/-- Computed variables exist for all factors and draws. -/
theorem exists_correlated (A : Arith) {U : ℕ} (crossSqrt : Fin U → Fin 7 → Fin 7 → ℝ) (spatialSqrt : Fin 7 → Fin U → Fin U → ℝ) (s : Fin U → Fin 7 → ℝ) :
    ∃ r, A.IsCorrelated crossSqrt spatialSqrt s r := by
  have e : ∀ (n : ℕ) (_ : Fin n) (g : Fin n → ℝ), ∃ s, RoundedSum A.rnd (List.ofFn g) s := fun n k g => by
    cases n with
    | zero => exact k.elim0
    | succ n => rw [List.ofFn_succ]; exact exists_sum _ _ _
  choose s1 h1 using fun (u : Fin U) (i : Fin 7) => e 7 0 fun j => A.rnd (crossSqrt u i j * s u j)
  choose r h2 using fun (u : Fin U) (i : Fin 7) => e U u fun v => A.rnd (s1 v i * spatialSqrt i u v)
  exact ⟨r, s1, h1, h2⟩

example : ∃ A : Arith, ∃ r, Nearest Spec.single A.rnd ∧
    A.IsCorrelated (U := 2) (fun _ i j => if i = j then 1 else 0) (fun _ u v => if u = v then 1 else 0) (fun _ _ => 1) r ∧ AccuratePowWide fun x => (10 : ℝ) ^ x := by
  obtain ⟨A, hr, _⟩ := exists_arith Spec.single (Or.inl rfl)
  obtain ⟨r, h⟩ := exists_correlated A (U := 2) (fun _ i j => if i = j then 1 else 0) (fun _ u v => if u = v then 1 else 0) (fun _ _ => 1)
  exact ⟨A, r, hr, h, fun x _ => by simp; positivity⟩

/-- The condition on the rows holds for a factor that is not the identity. -/
example : IsCholesky (n := 2) ![![1, 3 / 5], ![3 / 5, 1]] ![![1, 0], ![3 / 5, 4 / 5]] where
  lower i j h := by fin_cases i <;> fin_cases j <;> simp_all
  diag i := by fin_cases i <;> norm_num
  prod i j := by fin_cases i <;> fin_cases j <;> norm_num [Fin.sum_univ_two]

end OpenNTN
