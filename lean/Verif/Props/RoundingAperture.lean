import Verif.Model.RoundingAperture
import Verif.Props.RoundingLocal
import Verif.Props.RoundingArray
import Verif.Props.RoundingClusters
import Verif.Props.Patterns
import Verif.Props.ShowElement
import Mathlib.Analysis.Calculus.MeanValue

/-
Pattern of the circular aperture with rounding: C217.
-/
namespace OpenNTN

open Spec

/-- With exact operations the operations give the pattern of the model. -/
theorem C217_model (theta phi : ℝ) : Arith.exact.aperturePower TrigLib.exact besselJ1 theta phi = patternAperture theta phi := by
  simp only [Arith.aperturePower, Arith.apertureAngle, Arith.apertureCos, Arith.apertureDen, Arith.apertureKa, patternAperture, Arith.exact, TrigLib.exact, id]
  norm_num

/-! ### The quotient of the Bessel function and its argument -/

theorem bessel_sin (x : ℝ) : besselJ1 x = (1 / Real.pi) * ∫ t in (0 : ℝ)..Real.pi, Real.sin t * Real.sin (x * Real.sin t) := by
  have h0 : ∫ t in (0 : ℝ)..Real.pi, Real.cos t * Real.cos (x * Real.sin t) = 0 := by
    by_cases hx : x = 0
    · simp [hx]
    · have hd : ∀ t ∈ Set.uIcc (0 : ℝ) Real.pi, HasDerivAt (fun t => Real.sin (x * Real.sin t) / x)
          (Real.cos t * Real.cos (x * Real.sin t)) t := by
        intro t _
        have := (((Real.hasDerivAt_sin t).const_mul x).sin).div_const x
        rwa [mul_comm (Real.cos (x * Real.sin t)), mul_assoc, mul_div_cancel_left₀ _ hx] at this
      rw [intervalIntegral.integral_eq_sub_of_hasDerivAt hd
        (Continuous.intervalIntegrable (by fun_prop) _ _)]
      simp
  simp only [besselJ1, Real.cos_sub]
  rw [intervalIntegral.integral_add (Continuous.intervalIntegrable (by fun_prop) _ _)
    (Continuous.intervalIntegrable (by fun_prop) _ _), h0, zero_add]

/-- `sin (x s) / x` with its limit. -/
noncomputable def sinQuot (s x : ℝ) : ℝ := if x = 0 then s else Real.sin (x * s) / x

theorem sinQuot_deriv (x s : ℝ) : HasDerivAt (fun s => sinQuot s x) (Real.cos (x * s)) s := by
  by_cases hx : x = 0
  · simp only [sinQuot, hx, if_true, zero_mul, Real.cos_zero]; exact hasDerivAt_id' s
  · simp only [sinQuot, hx, if_false]
    have := (((hasDerivAt_id' s).const_mul x).sin).div_const x
    rwa [mul_one, mul_div_assoc, div_self hx, mul_one] at this

theorem cos_sub_le (p q : ℝ) : |Real.cos p - Real.cos q| ≤ |p ^ 2 - q ^ 2| / 2 := by
  rw [Real.cos_sub_cos, abs_mul, abs_mul]
  have h1 := Real.abs_sin_le_abs (x := (p + q) / 2)
  have h2 := Real.abs_sin_le_abs (x := (p - q) / 2)
  calc |(-2 : ℝ)| * |Real.sin ((p + q) / 2)| * |Real.sin ((p - q) / 2)| ≤ |(-2 : ℝ)| * |(p + q) / 2| * |(p - q) / 2| := by gcongr
    _ = |p ^ 2 - q ^ 2| / 2 := by
      rw [← abs_mul, ← abs_mul, show (-2 : ℝ) * ((p + q) / 2) * ((p - q) / 2) = -((p ^ 2 - q ^ 2) / 2) by ring, abs_neg, abs_div, abs_two]

theorem sinQuot_near {s : ℝ} (s0 : 0 ≤ s) (s1 : s ≤ 1) (x y : ℝ) : |sinQuot s x - sinQuot s y| ≤ |x ^ 2 - y ^ 2| / 2 * s := by
  have h := (convex_Icc (0 : ℝ) s).norm_image_sub_le_of_norm_hasDerivWithin_le (f := fun u => sinQuot u x - sinQuot u y)
    (f' := fun u => Real.cos (x * u) - Real.cos (y * u)) (C := |x ^ 2 - y ^ 2| / 2)
    (fun u _ => ((sinQuot_deriv x u).sub (sinQuot_deriv y u)).hasDerivWithinAt) (fun u hu => ?_) (Set.left_mem_Icc.2 s0) (Set.right_mem_Icc.2 s0)
  · have z : ∀ x, sinQuot 0 x = 0 := fun x => by simp [sinQuot]
    simpa [z, abs_of_nonneg s0] using h
  · rw [Real.norm_eq_abs]
    refine (cos_sub_le _ _).trans ?_
    rw [show (x * u) ^ 2 - (y * u) ^ 2 = (x ^ 2 - y ^ 2) * u ^ 2 by ring, abs_mul, abs_of_nonneg (sq_nonneg u)]
    have : u ^ 2 ≤ 1 := by nlinarith [hu.1, hu.2]
    nlinarith [abs_nonneg (x ^ 2 - y ^ 2)]

/-- `J1 x / x` with its limit. -/
noncomputable def besselQuot (x : ℝ) : ℝ := if x = 0 then 1 / 2 else besselJ1 x / x

theorem sinQuot_cont (x : ℝ) : Continuous fun t => Real.sin t * sinQuot (Real.sin t) x := by
  by_cases hx : x = 0
  · simp only [sinQuot, hx, if_true]; fun_prop
  · simp only [sinQuot, hx, if_false]; fun_prop

theorem besselQuot_eq (x : ℝ) : besselQuot x = (1 / Real.pi) * ∫ t in (0 : ℝ)..Real.pi, Real.sin t * sinQuot (Real.sin t) x := by
  by_cases hx : x = 0
  · simp only [besselQuot, sinQuot, hx, if_true, ← pow_two, integral_sin_sq]
    have := Real.pi_pos
    simp
    field_simp
  · simp only [besselQuot, sinQuot, hx, if_false, bessel_sin, ← mul_div_assoc, intervalIntegral.integral_div]

theorem besselQuot_near (x y : ℝ) : |besselQuot x - besselQuot y| ≤ |x ^ 2 - y ^ 2| / 4 := by
  have pp := Real.pi_pos
  rw [besselQuot_eq, besselQuot_eq, ← mul_sub, ← intervalIntegral.integral_sub ((sinQuot_cont x).intervalIntegrable _ _) ((sinQuot_cont y).intervalIntegrable _ _),
    abs_mul, abs_of_pos (by positivity)]
  have hb : |∫ t in (0 : ℝ)..Real.pi, (Real.sin t * sinQuot (Real.sin t) x - Real.sin t * sinQuot (Real.sin t) y)|
      ≤ ∫ t in (0 : ℝ)..Real.pi, |x ^ 2 - y ^ 2| / 2 * Real.sin t ^ 2 := by
    rw [← Real.norm_eq_abs]
    refine intervalIntegral.norm_integral_le_of_norm_le pp.le ?_ (Continuous.intervalIntegrable (by fun_prop) _ _)
    refine Filter.Eventually.of_forall fun t ht => ?_
    have s0 := Real.sin_nonneg_of_mem_Icc ⟨ht.1.le, ht.2⟩
    rw [← mul_sub, Real.norm_eq_abs, abs_mul, abs_of_nonneg s0]
    calc Real.sin t * _ ≤ Real.sin t * (|x ^ 2 - y ^ 2| / 2 * Real.sin t) := by gcongr; exact sinQuot_near s0 (Real.sin_le_one t) x y
      _ = _ := by ring
  rw [intervalIntegral.integral_const_mul, integral_sin_sq] at hb
  simp only [Real.sin_zero, Real.sin_pi, zero_mul, sub_zero, zero_add] at hb
  refine (mul_le_mul_of_nonneg_left hb (by positivity)).trans_eq ?_
  field_simp
  norm_num

theorem besselQuot_le (x : ℝ) : |besselQuot x| ≤ 1 / 2 := by
  by_cases hx : x = 0
  · simp [besselQuot, hx]
  · simp only [besselQuot, hx, if_false, abs_div]
    rw [div_le_iff₀ (abs_pos.2 hx)]
    linarith [bessel_bound x]

theorem besselQuot_far {x : ℝ} (hx : 0 < x) : |besselQuot x| ≤ 1 / x := by
  simp only [besselQuot, hx.ne', if_false, abs_div, abs_of_pos hx]
  gcongr
  exact bessel_le_one x

/-- The pattern of the model by the quotient. -/
theorem patternAperture_eq (theta phi : ℝ) : patternAperture theta phi = if Real.sin theta * Real.cos phi < 0 then 0 else
    4 * besselQuot (20 * Real.pi * Real.sqrt (1 - (Real.sin theta * Real.cos phi) ^ 2)) ^ 2 := by
  simp only [patternAperture]
  have c1 : |Real.sin theta * Real.cos phi| ≤ 1 := by
    rw [abs_mul]; exact mul_le_one₀ (Real.abs_sin_le_one _) (abs_nonneg _) (Real.abs_cos_le_one _)
  generalize Real.sin theta * Real.cos phi = c at c1 ⊢
  have c2 := abs_le.1 c1
  rw [abs_of_nonneg (Real.arccos_nonneg c), Real.sin_arccos]
  have iff : 0.5 * Real.pi < Real.arccos c ↔ c < 0 := by
    rw [show 0.5 * Real.pi = Real.pi / 2 by ring, ← not_le, Real.arccos_le_pi_div_two, not_le]
  simp only [iff]
  split_ifs with h1 h2
  · rfl
  · have : c = 1 := le_antisymm c2.2 (Real.arccos_eq_zero.1 h2.symm)
    subst this
    norm_num [besselQuot]
  · have cl : c < 1 := lt_of_le_of_ne c2.2 fun h => h2 (by rw [h, Real.arccos_one])
    have sp : 0 < Real.sqrt (1 - c ^ 2) := Real.sqrt_pos.2 (by nlinarith)
    have ne : 20 * Real.pi * Real.sqrt (1 - c ^ 2) ≠ 0 := by have := Real.pi_pos; positivity
    rw [besselQuot, if_neg ne, sq_abs, show Real.sqrt (1 - c ^ 2) * (10 * 2 * Real.pi) = 20 * Real.pi * Real.sqrt (1 - c ^ 2) by ring,
      show 10 * 2 * Real.pi * Real.sqrt (1 - c ^ 2) = 20 * Real.pi * Real.sqrt (1 - c ^ 2) by ring]

/-! ### The operations -/

theorem cos_ge_of_le {r d : ℝ} (h1 : r ≤ Real.pi / 2 + d) (h0 : -1 ≤ r) (d0 : 0 ≤ d) : -d ≤ Real.cos r := by
  rw [← Real.sin_pi_div_two_sub]
  rcases le_total 0 (Real.pi / 2 - r) with h | h
  · have := Real.sin_nonneg_of_nonneg_of_le_pi h (by linarith [Real.pi_gt_three])
    linarith
  · have := Real.sin_le (x := -(Real.pi / 2 - r)) (by linarith)
    rw [Real.sin_neg] at this
    linarith

theorem cos_le_of_ge {r d : ℝ} (h1 : Real.pi / 2 - d ≤ r) (h0 : r ≤ 4) (d0 : 0 ≤ d) : Real.cos r ≤ d := by
  rw [← Real.sin_pi_div_two_sub]
  rcases le_total 0 (Real.pi / 2 - r) with h | h
  · have := Real.sin_le h
    linarith
  · have := Real.sin_nonpos_of_nonpos_of_neg_pi_le h (by linarith [Real.pi_gt_three])
    linarith

/-- What is used about the operations. -/
structure ApertureFacts (c c' r t S S0 : ℝ) : Prop where
  c1 : |c| ≤ 1
  c1' : |c'| ≤ 1
  cc : |c' - c| ≤ 3.1e-7
  cosr : |Real.cos r - c'| ≤ 4.8e-7
  sinr : |Real.sin r - S| ≤ 4.8e-7
  r0 : -1e-6 ≤ r
  r4 : r ≤ 3.2
  thr : |t - Real.pi / 2| ≤ 5e-7
  s0 : 0 ≤ S
  s00 : 0 ≤ S0
  ss : S ^ 2 = 1 - c' ^ 2
  ss0 : S0 ^ 2 = 1 - c ^ 2

theorem pi_bounds : 3.1415 < Real.pi ∧ Real.pi < 3.1416 := ⟨Real.pi_gt_d4, Real.pi_lt_d4⟩

theorem py_pi {p : ℝ → ℝ} (hp : Nearest double p) : |p Real.pi - Real.pi| ≤ 1.9e-7 := by
  have := pi_bounds
  refine (rnd_six (Or.inr rfl) hp (B := 3.15) (abs_le.2 ⟨by linarith, by linarith⟩) (by norm_num) (by norm_num)).trans (by norm_num)

theorem thr_near {A : Arith} (hr : Nearest single A.rnd) (hp : Nearest double A.py) : |A.rnd (A.py (0.5 * A.py Real.pi)) - Real.pi / 2| ≤ 5e-7 := by
  have h := pi_bounds
  have h1 := abs_le.1 (py_pi hp)
  norm_num at h h1
  have b2 := abs_le.1 ((rnd_six (Or.inr rfl) hp (x := 0.5 * A.py Real.pi) (B := 1.6) (abs_le.2 ⟨by linarith, by linarith⟩) (by norm_num) (by norm_num)))
  norm_num at b2
  have b3 := abs_le.1 ((rnd_six (Or.inl rfl) hr (x := A.py (0.5 * A.py Real.pi)) (B := 1.7) (abs_le.2 ⟨by norm_num; linarith, by norm_num; linarith⟩) (by norm_num) (by norm_num)))
  norm_num at b3 ⊢
  rw [abs_le]
  constructor <;> linarith

theorem ka_near {A : Arith} (hr : Nearest single A.rnd) (hp : Nearest double A.py) : |A.apertureKa - 20 * Real.pi| ≤ 1.2e-5 := by
  have h := pi_bounds
  have h1 := abs_le.1 (py_pi hp)
  norm_num at h h1
  have b2 := abs_le.1 ((rnd_six (Or.inr rfl) hp (x := 20 * A.py Real.pi) (B := 63) (abs_le.2 ⟨by linarith, by linarith⟩) (by norm_num) (by norm_num)))
  norm_num at b2
  have b3 := abs_le.1 ((rnd_six (Or.inl rfl) hr (x := A.py (20 * A.py Real.pi)) (B := 63) (abs_le.2 ⟨by norm_num; linarith, by norm_num; linarith⟩) (by norm_num) (by norm_num)))
  norm_num [Arith.apertureKa] at b3 ⊢
  rw [abs_le]
  constructor <;> linarith

/-- Behaviour of the functions at the end of their range: nothing above one, and `tf.acos(1) = 0`. -/
structure Spec.BoundedTrig (T : TrigLib) : Prop where
  sin : ∀ x, |T.sin x| ≤ 1
  cos : ∀ x, |T.cos x| ≤ 1
  acos : T.acos 1 = 0

/-- `tf.math.special.bessel_j1` is accurate to `2⁻²²`. -/
def Spec.AccurateBessel (J : ℝ → ℝ) : Prop := ∀ x, |x| ≤ 100 → |J x - besselJ1 x| ≤ (2 : ℝ) ^ (-22 : ℤ)

theorem cos_lip (x y : ℝ) : |Real.cos x - Real.cos y| ≤ |x - y| := by
  rw [Real.cos_sub_cos, abs_mul, abs_mul]
  have h1 := Real.abs_sin_le_one ((x + y) / 2)
  have h2 := Real.abs_sin_le_abs (x := (x - y) / 2)
  calc |(-2 : ℝ)| * |Real.sin ((x + y) / 2)| * |Real.sin ((x - y) / 2)| ≤ |(-2 : ℝ)| * 1 * |(x - y) / 2| := by gcongr
    _ = |x - y| := by rw [abs_div]; norm_num; ring

theorem sin_lip (x y : ℝ) : |Real.sin x - Real.sin y| ≤ |x - y| := by
  have := cos_lip (Real.pi / 2 - x) (Real.pi / 2 - y)
  rw [Real.cos_pi_div_two_sub, Real.cos_pi_div_two_sub] at this
  rwa [show Real.pi / 2 - x - (Real.pi / 2 - y) = -(x - y) by ring, abs_neg] at this

theorem aperture_facts {A : Arith} (hr : Nearest single A.rnd) (hp : Nearest double A.py) {T : TrigLib} (hT : AccurateTrig T) (hB : BoundedTrig T)
    {theta phi : ℝ} (ht : |theta| ≤ 10) (hf : |phi| ≤ 10) :
    ApertureFacts (Real.sin theta * Real.cos phi) (A.apertureCos T theta phi) (A.apertureAngle T theta phi) (A.rnd (A.py (0.5 * A.py Real.pi)))
      (Real.sqrt (1 - A.apertureCos T theta phi ^ 2)) (Real.sqrt (1 - (Real.sin theta * Real.cos phi) ^ 2)) := by
  have n := unitSphere_near (Or.inl rfl) hr hT ht hf 0
  have c1' : |A.apertureCos T theta phi| ≤ 1 := by
    have := rnd_abs_le (Or.inl rfl) hr (x := T.sin theta * T.cos phi) (n := 1) (by
      rw [abs_mul]; push_cast; exact mul_le_one₀ (hB.sin _) (abs_nonneg _) (hB.cos _)) (by norm_num)
    simpa [Arith.apertureCos] using this
  have c1 : |Real.sin theta * Real.cos phi| ≤ 1 := by
    rw [abs_mul]; exact mul_le_one₀ (Real.abs_sin_le_one _) (abs_nonneg _) (Real.abs_cos_le_one _)
  have q := abs_le.1 c1'
  have ac := (hT.acos _ c1').trans (show (2 : ℝ) ^ (-21 : ℤ) ≤ 4.8e-7 by norm_num)
  change |A.apertureAngle T theta phi - _| ≤ _ at ac
  have a0 := Real.arccos_nonneg (A.apertureCos T theta phi)
  have a1 := Real.arccos_le_pi (A.apertureCos T theta phi)
  have acl := abs_le.1 ac
  have pb := pi_bounds
  norm_num at acl pb
  refine ⟨c1, c1', n.1, ?_, ?_, by norm_num; linarith, by norm_num; linarith, thr_near hr hp, Real.sqrt_nonneg _, Real.sqrt_nonneg _, Real.sq_sqrt ?_, Real.sq_sqrt ?_⟩
  · have := (cos_lip (A.apertureAngle T theta phi) (Real.arccos (A.apertureCos T theta phi))).trans ac
    rwa [Real.cos_arccos q.1 q.2] at this
  · have := (sin_lip (A.apertureAngle T theta phi) (Real.arccos (A.apertureCos T theta phi))).trans ac
    rwa [Real.sin_arccos] at this
  · nlinarith [q.1, q.2]
  · nlinarith [(abs_le.1 c1).1, (abs_le.1 c1).2]

/-- The largest number below one. -/
theorem below_one {A : Arith} (hr : Nearest single A.rnd) {x : ℝ} (hx : |x| ≤ 1) (h : A.rnd x < 1) : A.rnd x ≤ 1 - 1 / 2 ^ 25 := by
  by_contra hc
  push Not at hc
  have n := (hr x (hx.trans_lt (by norm_num [Format.range, Spec.single]))).1
  have := rnd_one hr hc h.le
  rw [hr.num n (by
    rw [abs_lt]
    constructor
    · have : (0 : ℝ) < A.rnd x := lt_trans (by norm_num) hc
      have r : (0 : ℝ) < single.range := by norm_num [Format.range, Spec.single]
      linarith
    · exact h.trans (by norm_num [Format.range, Spec.single]))] at this
  linarith

/-- The denominator of a selected quotient. -/
theorem aperture_den {A : Arith} (hr : Nearest single A.rnd) (hp : Nearest double A.py) {T : TrigLib} (hT : AccurateTrig T) (hB : BoundedTrig T)
    {theta phi : ℝ} (ht : |theta| ≤ 10) (hf : |phi| ≤ 10) (hq : A.apertureQuotient T theta phi) :
    -1e-6 ≤ A.apertureCos T theta phi ∧ 0.009 ≤ A.apertureDen T theta phi ∧
      |A.apertureDen T theta phi - 20 * Real.pi * Real.sqrt (1 - A.apertureCos T theta phi ^ 2)| ≤ 5.45e-5 := by
  have F := aperture_facts hr hp hT hB ht hf
  have kn := ka_near hr hp
  obtain ⟨h0, h1⟩ := hq
  have ne : A.apertureCos T theta phi ≠ 1 := fun h => h0 (by rw [Arith.apertureAngle, h, hB.acos])
  have lt : A.apertureCos T theta phi < 1 := lt_of_le_of_ne (abs_le.1 F.c1').2 ne
  have le := below_one hr (x := T.sin theta * T.cos phi) (by rw [abs_mul]; exact mul_le_one₀ (hB.sin _) (abs_nonneg _) (hB.cos _)) lt
  change A.apertureCos T theta phi ≤ _ at le
  have sT := hT.sin (A.apertureAngle T theta phi) (abs_le.2 ⟨by have := F.r0; norm_num at this; linarith, by have := F.r4; norm_num at this; linarith⟩)
  have sB := hB.sin (A.apertureAngle T theta phi)
  have den : A.apertureDen T theta phi = A.rnd (A.apertureKa * T.sin (A.apertureAngle T theta phi)) := rfl
  rw [den]
  generalize A.rnd (A.py (0.5 * A.py Real.pi)) = t at F h1
  generalize Real.sqrt (1 - A.apertureCos T theta phi ^ 2) = S at F ⊢
  generalize Real.sqrt (1 - (Real.sin theta * Real.cos phi) ^ 2) = S0 at F
  generalize A.apertureCos T theta phi = c' at F le ⊢
  generalize A.apertureAngle T theta phi = r at F h1 sT sB ⊢
  generalize T.sin r = s at sT sB ⊢
  generalize A.apertureKa = k at kn ⊢
  push Not at h1
  have cg : -1e-6 ≤ c' := by
    have := cos_ge_of_le (r := r) (d := 5e-7) (by linarith [le_abs_self r, (abs_le.1 F.thr).2]) (by have := F.r0; norm_num at this; linarith) (by norm_num)
    have c := (abs_le.1 F.cosr).2
    norm_num at *
    linarith
  have ss : |s - S| ≤ 6e-7 := by
    refine (abs_sub_le s (Real.sin r) S).trans ((add_le_add sT F.sinr).trans (by norm_num))
  have S1 : 1.6e-4 ≤ S := by
    have : (1.6e-4 : ℝ) ^ 2 ≤ S ^ 2 := by
      rw [F.ss]
      norm_num at *
      nlinarith
    exact le_of_sq_le_sq this F.s0
  have Su : S ≤ 1 := by
    have : S ^ 2 ≤ 1 ^ 2 := by rw [F.ss]; nlinarith [sq_nonneg c']
    exact le_of_sq_le_sq this (by norm_num)
  have pb := pi_bounds
  have kl := abs_le.1 kn
  have sl := abs_le.1 ss
  norm_num at kl sl pb S1
  have s1 := (abs_le.1 sB).2
  have ks : |k * s| ≤ 63 := by
    rw [abs_of_nonneg (mul_nonneg (by linarith) (by linarith))]
    nlinarith
  have re := abs_le.1 (rnd_six (Or.inl rfl) hr ks (by norm_num) (by norm_num))
  have dif : |k * s - 20 * Real.pi * S| ≤ 5.05e-5 := by
    have : k * s - 20 * Real.pi * S = (k - 20 * Real.pi) * s + 20 * Real.pi * (s - S) := by ring
    rw [this]
    refine (abs_add_le _ _).trans ?_
    rw [abs_mul, abs_mul, abs_of_nonneg (show 0 ≤ 20 * Real.pi by linarith)]
    have a : |k - 20 * Real.pi| * |s| ≤ 1.2e-5 * 1 := by gcongr
    have b : 20 * Real.pi * |s - S| ≤ 62.84 * 6e-7 := by gcongr; norm_num; linarith
    norm_num at a b ⊢
    linarith
  have dl := abs_le.1 dif
  norm_num at re dl
  refine ⟨cg, ?_, ?_⟩
  · norm_num
    nlinarith
  · rw [abs_le]; norm_num
    constructor <;> linarith

/-- The value of a selected quotient. -/
theorem aperture_value {A : Arith} (hr : Nearest single A.rnd) {J : ℝ → ℝ} (hJ : AccurateBessel J) {u : ℝ} (u0 : 0.009 ≤ u) (u1 : u ≤ 64) :
    |A.rnd (4 * A.rnd (|A.rnd (J u / u)| ^ 2)) - 4 * besselQuot u ^ 2| ≤ 2e-4 ∧ 0 ≤ A.rnd (4 * A.rnd (|A.rnd (J u / u)| ^ 2)) := by
  have up : 0 < u := lt_of_lt_of_le (by norm_num) u0
  have e : besselQuot u = besselJ1 u / u := if_neg up.ne'
  have j : |J u / u - besselQuot u| ≤ 2.7e-5 := by
    rw [e, ← sub_div, abs_div, abs_of_pos up, div_le_iff₀ up]
    refine (hJ u (by rw [abs_of_pos up]; linarith)).trans ?_
    norm_num at *
    linarith
  have F := abs_le.1 (besselQuot_le u)
  have jl := abs_le.1 j
  norm_num at jl F
  have b1 := abs_le.1 (rnd_six (Or.inl rfl) hr (x := J u / u) (B := 0.6) (abs_le.2 ⟨by norm_num; linarith, by norm_num; linarith⟩) (by norm_num) (by norm_num))
  generalize A.rnd (J u / u) = q at *
  norm_num at b1
  have q1 : |q - besselQuot u| ≤ 2.71e-5 := by
    rw [abs_le]; norm_num; constructor <;> linarith
  have q2 : |q| ≤ 0.51 := by rw [abs_le]; norm_num; constructor <;> linarith
  have sq : |q ^ 2 - besselQuot u ^ 2| ≤ 2.74e-5 := by
    rw [show q ^ 2 - besselQuot u ^ 2 = (q - besselQuot u) * (q + besselQuot u) by ring, abs_mul]
    have : |q + besselQuot u| ≤ 1.01 := (abs_add_le _ _).trans ((add_le_add q2 (besselQuot_le u)).trans (by norm_num))
    exact (mul_le_mul q1 this (abs_nonneg _) (by norm_num)).trans (by norm_num)
  have q3 : |q ^ 2| ≤ 0.27 := by
    rw [abs_pow]
    exact (pow_le_pow_left₀ (abs_nonneg q) q2 2).trans (by norm_num)
  rw [sq_abs]
  have b2 := abs_le.1 (rnd_six (Or.inl rfl) hr q3 (by norm_num) (by norm_num))
  have n2 := rnd_nonneg (Or.inl rfl) hr (x := q ^ 2) ((le_abs_self _).trans (q3.trans (by norm_num))) (sq_nonneg q)
  generalize A.rnd (q ^ 2) = p at *
  have q4 := (abs_le.1 q3).2
  norm_num at b2 q4
  have p4 : |4 * p| ≤ 1.1 := by rw [abs_of_nonneg (by linarith)]; norm_num; linarith
  have b3 := abs_le.1 (rnd_six (Or.inl rfl) hr p4 (by norm_num) (by norm_num))
  refine ⟨?_, rnd_nonneg (Or.inl rfl) hr ((le_abs_self _).trans (p4.trans (by norm_num))) (by linarith)⟩
  have sl := abs_le.1 sq
  norm_num at b3 sl
  rw [abs_le]; norm_num
  constructor <;> linarith

theorem quot_sq_near (x y : ℝ) : |4 * besselQuot x ^ 2 - 4 * besselQuot y ^ 2| ≤ |x ^ 2 - y ^ 2| := by
  have h := besselQuot_near x y
  have s : |besselQuot x + besselQuot y| ≤ 1 := (abs_add_le _ _).trans ((add_le_add (besselQuot_le x) (besselQuot_le y)).trans (by norm_num))
  rw [show 4 * besselQuot x ^ 2 - 4 * besselQuot y ^ 2 = 4 * ((besselQuot x - besselQuot y) * (besselQuot x + besselQuot y)) by ring, abs_mul, abs_mul]
  have := mul_le_mul h s (abs_nonneg _) (by positivity)
  norm_num
  linarith

theorem quot_sq_far {x : ℝ} (hx : 60 ≤ x) : 4 * besselQuot x ^ 2 ≤ 1 / 900 := by
  have h := besselQuot_far (show 0 < x by linarith)
  have : 1 / x ≤ 1 / 60 := by gcongr
  have := pow_le_pow_left₀ (abs_nonneg _) (h.trans this) 2
  rw [sq_abs] at this
  norm_num at this ⊢
  linarith

set_option maxHeartbeats 800000 in
/-- C217. In single precision: the argument of `tf.acos` is in its domain; a selected quotient has a positive denominator; the result is between zero and
`1.0002`, within `1 / 100` of the pattern, zero behind the antenna and one on the axis. -/
theorem C217_aperture {A : Arith} (hr : Nearest single A.rnd) (hp : Nearest double A.py) {T : TrigLib} (hT : AccurateTrig T) (hB : BoundedTrig T)
    {J : ℝ → ℝ} (hJ : AccurateBessel J) {theta phi : ℝ} (ht : |theta| ≤ 10) (hf : |phi| ≤ 10) :
    |A.apertureCos T theta phi| ≤ 1 ∧
    (A.apertureQuotient T theta phi → 0 < A.apertureDen T theta phi) ∧
    (0 ≤ A.aperturePower T J theta phi ∧ A.aperturePower T J theta phi ≤ 1.0002) ∧
    |A.aperturePower T J theta phi - patternAperture theta phi| ≤ 1 / 100 ∧
    (Real.sin theta * Real.cos phi < -2e-6 → A.aperturePower T J theta phi = 0) ∧
    (A.apertureCos T theta phi = 1 → A.aperturePower T J theta phi = 1) := by
  have F := aperture_facts hr hp hT hB ht hf
  have D := aperture_den hr hp hT hB ht hf
  have dcomm : A.rnd (T.sin (A.apertureAngle T theta phi) * A.apertureKa) = A.apertureDen T theta phi := by rw [mul_comm]; rfl
  have one : A.apertureCos T theta phi = 1 → A.apertureAngle T theta phi = 0 := fun h => by rw [Arith.apertureAngle, h, hB.acos]
  have pb := pi_bounds
  norm_num at pb
  refine ⟨F.c1', fun h => lt_of_lt_of_le (by norm_num) (D h).2.1, ?_⟩
  rw [patternAperture_eq]
  simp only [Arith.aperturePower, dcomm]
  unfold Arith.apertureQuotient at D
  generalize A.rnd (A.py (0.5 * A.py Real.pi)) = t at F D ⊢
  generalize Real.sqrt (1 - A.apertureCos T theta phi ^ 2) = S at F D
  generalize Real.sqrt (1 - (Real.sin theta * Real.cos phi) ^ 2) = S0 at F ⊢
  generalize Real.sin theta * Real.cos phi = c at F ⊢
  generalize A.apertureDen T theta phi = u at D ⊢
  generalize A.apertureCos T theta phi = c' at F D one ⊢
  generalize A.apertureAngle T theta phi = r at F D one ⊢
  have tl := abs_le.1 F.thr
  have cl := abs_le.1 F.cc
  have cosl := abs_le.1 F.cosr
  have r0 := F.r0
  have c1 := abs_le.1 F.c1
  have c1' := abs_le.1 F.c1'
  have sd : |S ^ 2 - S0 ^ 2| ≤ 6.2e-7 := by
    rw [F.ss, F.ss0, show 1 - c' ^ 2 - (1 - c ^ 2) = -((c' - c) * (c' + c)) by ring, abs_neg, abs_mul]
    have : |c' + c| ≤ 2 := (abs_add_le _ _).trans ((add_le_add F.c1' F.c1).trans (by norm_num))
    exact (mul_le_mul F.cc this (abs_nonneg _) (by norm_num)).trans (by norm_num)
  have sdl := abs_le.1 sd
  norm_num at tl cl cosl r0 sdl
  have p2 : (20 * Real.pi) ^ 2 ≤ 3950 := by nlinarith
  have far : ∀ {y : ℝ}, 0 ≤ y → 0.99 ≤ y ^ 2 → 62 ≤ 20 * Real.pi * y := by
    intro y y0 y2
    norm_num at y2
    have : 0.99 ≤ y := by norm_num; nlinarith
    norm_num at this
    nlinarith
  by_cases hb : t < |r|
  · -- behind
    rw [if_pos hb]
    have rp : Real.pi / 2 - 5e-7 ≤ r := by
      rcases abs_cases r with ⟨h, _⟩ | ⟨h, _⟩ <;> norm_num <;> linarith
    have := cos_le_of_ge rp (by have := F.r4; norm_num at this; linarith) (by norm_num)
    norm_num at this
    refine ⟨⟨le_rfl, by norm_num⟩, ?_, fun _ => rfl, fun h => ?_⟩
    · split_ifs with h
      · norm_num
      · push Not at h
        have q := quot_sq_far (x := 20 * Real.pi * S0) (by
          have := far F.s00 (by rw [F.ss0]; norm_num; nlinarith)
          linarith)
        rw [zero_sub, abs_neg, abs_of_nonneg (by positivity)]
        linarith
    · rw [one h] at hb
      simp at hb
      linarith
  rw [if_neg hb]
  push Not at hb
  have rup : r ≤ Real.pi / 2 + 5e-7 := by norm_num; linarith [le_abs_self r]
  have cge := cos_ge_of_le rup (by linarith) (by norm_num)
  norm_num at cge
  have front : c < -2e-6 → False := by intro h; norm_num at h; linarith
  by_cases hz : (0 : ℝ) = r
  · rw [if_pos hz]
    subst hz
    rw [Real.cos_zero] at cosl
    have sr := F.sinr
    rw [Real.sin_zero, zero_sub, abs_neg, abs_of_nonneg F.s0] at sr
    norm_num at sr
    refine ⟨⟨by norm_num, by norm_num⟩, ?_, fun h => (front h).elim, fun _ => rfl⟩
    rw [if_neg (by push Not; linarith)]
    have q := quot_sq_near 0 (20 * Real.pi * S0)
    have z : besselQuot 0 = 1 / 2 := by simp [besselQuot]
    rw [z, show (4 : ℝ) * (1 / 2) ^ 2 = 1 by norm_num, zero_pow two_ne_zero, zero_sub, abs_neg] at q
    refine q.trans ?_
    have s2 : S0 ^ 2 ≤ 6.3e-7 := by norm_num; nlinarith [F.s0]
    rw [abs_of_nonneg (by positivity)]
    calc (20 * Real.pi * S0) ^ 2 = (20 * Real.pi) ^ 2 * S0 ^ 2 := by ring
      _ ≤ 3950 * 6.3e-7 := by gcongr
      _ ≤ _ := by norm_num
  · rw [if_neg hz]
    obtain ⟨d1, d2, d3⟩ := D ⟨hz, not_lt.2 hb⟩
    have dl := abs_le.1 d3
    have Su : S ≤ 1 := by
      have : S ^ 2 ≤ 1 ^ 2 := by rw [F.ss]; nlinarith [sq_nonneg c']
      exact le_of_sq_le_sq this (by norm_num)
    have ps : 20 * Real.pi * S ≤ 62.84 := by
      norm_num
      have := mul_le_mul (show 20 * Real.pi ≤ 62.84 by norm_num; linarith) Su F.s0 (by norm_num)
      norm_num at this
      linarith
    norm_num at dl d1 ps
    have u1 : u ≤ 62.85 := by norm_num; linarith
    norm_num at u1
    obtain ⟨v1, v2⟩ := aperture_value hr hJ d2 (show u ≤ 64 by linarith)
    have vl := abs_le.1 v1
    have ql := besselQuot_le u
    have q2 : 4 * besselQuot u ^ 2 ≤ 1 := by
      have := pow_le_pow_left₀ (abs_nonneg _) ql 2
      rw [sq_abs] at this
      norm_num at this
      linarith
    refine ⟨⟨v2, by norm_num at *; linarith⟩, ?_, fun h => (front h).elim, fun h => (hz (one h).symm).elim⟩
    generalize A.rnd (4 * A.rnd (|A.rnd (J u / u)| ^ 2)) = v at *
    split_ifs with h
    · have q := quot_sq_far (x := u) (by
        have := far F.s0 (by rw [F.ss]; norm_num; nlinarith)
        linarith)
      rw [sub_zero, abs_of_nonneg v2]
      norm_num at vl
      linarith
    · have q := quot_sq_near u (20 * Real.pi * S0)
      have a : |u ^ 2 - (20 * Real.pi * S) ^ 2| ≤ 5.45e-5 * 125.7 := by
        rw [show u ^ 2 - (20 * Real.pi * S) ^ 2 = (u - 20 * Real.pi * S) * (u + 20 * Real.pi * S) by ring, abs_mul]
        have : |u + 20 * Real.pi * S| ≤ 125.7 := by
          have u0 : 0 ≤ u := le_trans (by norm_num) d2
          have := mul_nonneg (show 0 ≤ 20 * Real.pi by linarith) F.s0
          rw [abs_of_nonneg (by linarith)]
          norm_num
          linarith
        exact mul_le_mul d3 this (abs_nonneg _) (by norm_num)
      have b : |(20 * Real.pi * S) ^ 2 - (20 * Real.pi * S0) ^ 2| ≤ 3950 * 6.2e-7 := by
        rw [show (20 * Real.pi * S) ^ 2 - (20 * Real.pi * S0) ^ 2 = (20 * Real.pi) ^ 2 * (S ^ 2 - S0 ^ 2) by ring, abs_mul, abs_of_nonneg (by positivity)]
        exact mul_le_mul p2 sd (abs_nonneg _) (by norm_num)
      have ab := (abs_sub_le (u ^ 2) ((20 * Real.pi * S) ^ 2) ((20 * Real.pi * S0) ^ 2)).trans (add_le_add a b)
      refine (abs_sub_le v (4 * besselQuot u ^ 2) _).trans ((add_le_add v1 (q.trans ab)).trans ?_)
      norm_num

/-- The hypotheses can be met, also with a quotient. -/
example : ∃ (A : Arith) (T : TrigLib) (J : ℝ → ℝ), Nearest Spec.single A.rnd ∧ Nearest double A.py ∧ AccurateTrig T ∧ BoundedTrig T ∧ AccurateBessel J ∧
    |A.aperturePower T J 1.5 0.1 - patternAperture 1.5 0.1| ≤ 1 / 100 := by
  obtain ⟨A, hA, hp⟩ := exists_arith Spec.single (Or.inl rfl)
  have hT : AccurateTrig TrigLib.exact := ⟨fun x _ => by simp [TrigLib.exact], fun x _ => by simp [TrigLib.exact],
    fun z _ => by simp [TrigLib.exact], fun x y => by simp [TrigLib.exact]⟩
  have hB : BoundedTrig TrigLib.exact := ⟨Real.abs_sin_le_one, Real.abs_cos_le_one, Real.arccos_one⟩
  have hJ : AccurateBessel besselJ1 := fun x _ => by simp
  exact ⟨A, TrigLib.exact, besselJ1, hA, hp, hT, hB, hJ, (C217_aperture hA hp hT hB hJ (by norm_num [abs_le]) (by norm_num [abs_le])).2.2.2.1⟩

end OpenNTN
