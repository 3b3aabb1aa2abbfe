import Verif.Model.RoundingField
import Verif.Props.RoundingArray

/-
C216: field components in global coordinates, with rounding.
-/
namespace OpenNTN

open Spec Matrix

/-- C216: with exact arithmetic these are the components of the model. -/
theorem C216_model (f : Fin 2 → ℝ) (o : Fin 3 → ℝ) (theta phi : ℝ) :
    Arith.exact.l2gResponse TrigLib.exact f o theta phi = l2gResponse f o theta phi := by
  have hp : Arith.exact.computePsi TrigLib.exact o theta phi = computePsi o theta phi := rfl
  funext k
  simp only [Arith.l2gResponse, hp, l2gResponse, Matrix.mulVec, dotProduct, Fin.sum_univ_two]
  fin_cases k <;> rfl

/-- The phase of a number changes by at most twice the relative change. -/
theorem arg_near (z w : ℂ) : ‖Complex.exp (w.arg * Complex.I) - Complex.exp (z.arg * Complex.I)‖ * ‖z‖ ≤ 2 * ‖w - z‖ := by
  have hz := Complex.norm_mul_exp_arg_mul_I z
  have hw := Complex.norm_mul_exp_arg_mul_I w
  have e : (Complex.exp (w.arg * Complex.I) - Complex.exp (z.arg * Complex.I)) * (‖z‖ : ℂ) =
      ((‖z‖ - ‖w‖ : ℝ) : ℂ) * Complex.exp (w.arg * Complex.I) + (w - z) := by
    push_cast
    linear_combination hw - hz
  calc ‖Complex.exp (w.arg * Complex.I) - Complex.exp (z.arg * Complex.I)‖ * ‖z‖ =
      ‖(Complex.exp (w.arg * Complex.I) - Complex.exp (z.arg * Complex.I)) * (‖z‖ : ℂ)‖ := by rw [norm_mul, Complex.norm_real, norm_norm]
    _ ≤ ‖((‖z‖ - ‖w‖ : ℝ) : ℂ) * Complex.exp (w.arg * Complex.I)‖ + ‖w - z‖ := by rw [e]; exact norm_add_le _ _
    _ ≤ ‖w - z‖ + ‖w - z‖ := by
        rw [norm_mul, Complex.norm_exp_ofReal_mul_I, mul_one, Complex.norm_real, Real.norm_eq_abs, abs_sub_comm]
        exact add_le_add (abs_norm_sub_norm_le _ _) le_rfl
    _ = _ := by ring

/-- Real and imaginary part of the model. -/
noncomputable def psiVector (o : Fin 3 → ℝ) (theta phi : ℝ) : ℂ :=
  ⟨Real.sin (o 2) * Real.cos theta * Real.sin (phi - o 0) +
    Real.cos (o 2) * (Real.cos (o 1) * Real.sin theta - Real.sin (o 1) * Real.cos theta * Real.cos (phi - o 0)),
    Real.sin (o 2) * Real.cos (phi - o 0) + Real.sin (o 1) * Real.cos (o 2) * Real.sin (phi - o 0)⟩

theorem psiVector_norm (o : Fin 3 → ℝ) (theta phi : ℝ) : ‖psiVector o theta phi‖ = Real.sin (gcsToLcs o theta phi).1 := by
  obtain ⟨h1, h2⟩ := psi_spec o theta phi
  have hs : 0 ≤ Real.sin (gcsToLcs o theta phi).1 :=
    Real.sin_nonneg_of_mem_Icc ⟨(C43_angles o theta phi).2.2.1, (C43_angles o theta phi).2.2.2.1⟩
  have hre : (psiVector o theta phi).re = -(Spec.zenithVec theta phi ⬝ᵥ rotPos o ![0, 0, 1]) := by
    simp only [psiVector]
    rw [Real.sin_sub, Real.cos_sub]
    simp [Spec.zenithVec, rotPos, forwardRot, Matrix.mulVec, dotProduct, Fin.sum_univ_three]
    ring
  have him : (psiVector o theta phi).im = -(Spec.azimuthVec phi ⬝ᵥ rotPos o ![0, 0, 1]) := by
    simp only [psiVector]
    rw [Real.sin_sub, Real.cos_sub]
    simp [Spec.azimuthVec, rotPos, forwardRot, Matrix.mulVec, dotProduct, Fin.sum_univ_three]
    ring
  rw [Complex.norm_def, Complex.normSq_apply, hre, him, ← h1, ← h2, ← Real.sqrt_sq hs]
  congr 1
  rw [Real.sqrt_sq hs]
  have := Real.sin_sq_add_cos_sq (computePsi o theta phi)
  linear_combination Real.sin (gcsToLcs o theta phi).1 ^ 2 * this

section

variable {f : Format} (hf : IEEE f)

include hf in
/-- Accuracy of real and imaginary part. -/
theorem psi_near {A : Arith} (hr : Nearest f A.rnd) {T : TrigLib} (hT : AccurateTrig T) {o : Fin 3 → ℝ} (ho : ∀ k, |o k| ≤ 5) {theta phi : ℝ}
    (ht : |theta| ≤ 4) (hp : |phi| ≤ 4) :
    ‖(⟨A.psiReal T o theta phi, A.psiImag T o phi⟩ : ℂ) - psiVector o theta phi‖ ≤ 5e-6 := by
  have pd : |A.rnd (phi - o 0) - (phi - o 0)| ≤ 5.4e-7 := by
    have : |phi - o 0| ≤ 9 := by
      have h1 := abs_le.1 hp
      have h2 := abs_le.1 (ho 0)
      exact abs_le.2 ⟨by linarith, by linarith⟩
    exact (rnd_size hf hr this (by norm_num) (by norm_num)).trans (by norm_num)
  have pd' : |A.rnd (phi - o 0)| ≤ 10 := by
    have h0 := abs_le.1 pd
    have h1 := abs_le.1 hp
    have h2 := abs_le.1 (ho 0)
    exact abs_le.2 ⟨by norm_num at *; linarith, by norm_num at *; linarith⟩
  have sp : Near 6.6e-7 (T.sin (A.rnd (phi - o 0))) (Real.sin (phi - o 0)) := by
    refine ⟨?_, Real.abs_sin_le_one _⟩
    have := abs_sub_le (T.sin (A.rnd (phi - o 0))) (Real.sin (A.rnd (phi - o 0))) (Real.sin (phi - o 0))
    have h1 := (hT.nearSin pd').1
    have h2 := (Real.abs_sin_sub_sin_le (A.rnd (phi - o 0)) (phi - o 0)).trans pd
    norm_num at *
    linarith
  have cp : Near 6.6e-7 (T.cos (A.rnd (phi - o 0))) (Real.cos (phi - o 0)) := by
    refine ⟨?_, Real.abs_cos_le_one _⟩
    have := abs_sub_le (T.cos (A.rnd (phi - o 0))) (Real.cos (A.rnd (phi - o 0))) (Real.cos (phi - o 0))
    have h1 := (hT.nearCos pd').1
    have h2 := (Real.abs_cos_sub_cos_le (A.rnd (phi - o 0)) (phi - o 0)).trans pd
    norm_num at *
    linarith
  have o10 (k : Fin 3) : |o k| ≤ 10 := (ho k).trans (by norm_num)
  have t10 : |theta| ≤ 10 := ht.trans (by norm_num)
  have sb := hT.nearSin (o10 1)
  have cb := hT.nearCos (o10 1)
  have sc := hT.nearSin (o10 2)
  have cc := hT.nearCos (o10 2)
  have st := hT.nearSin t10
  have ct := hT.nearCos t10
  have two {x' x y' y : ℝ} (hx : Near 1.2e-7 x' x) (hy : Near 1.2e-7 y' y) : Near 3.1e-7 (A.rnd (x' * y')) (x * y) :=
    hx.mul hf hr hy (by norm_num) (by norm_num) (by norm_num)
  have three {x' x y' y : ℝ} (hx : Near 3.1e-7 x' x) (hy : Near 6.6e-7 y' y) : Near 1.04e-6 (A.rnd (x' * y')) (x * y) :=
    hx.mul hf hr hy (by norm_num) (by norm_num) (by norm_num)
  have len : ‖psiVector o theta phi‖ ≤ 1 := by rw [psiVector_norm]; exact Real.sin_le_one _
  have inner : |Real.cos (o 1) * Real.sin theta - Real.sin (o 1) * Real.cos theta * Real.cos (phi - o 0)| ≤ 1 := by
    have h1 := Real.sin_sq_add_cos_sq (o 1)
    have h2 := Real.sin_sq_add_cos_sq theta
    have h3 := Real.cos_sq_le_one (phi - o 0)
    rw [← sq_le_one_iff_abs_le_one]
    have e : (Real.cos (o 1) * Real.sin theta - Real.sin (o 1) * Real.cos theta * Real.cos (phi - o 0)) ^ 2 +
        (Real.cos (o 1) * (Real.cos theta * Real.cos (phi - o 0)) + Real.sin (o 1) * Real.sin theta) ^ 2 =
        Real.sin theta ^ 2 + Real.cos theta ^ 2 * Real.cos (phi - o 0) ^ 2 := by
      linear_combination (Real.sin theta ^ 2 + Real.cos theta ^ 2 * Real.cos (phi - o 0) ^ 2) * h1
    have := mul_le_mul_of_nonneg_left h3 (sq_nonneg (Real.cos theta))
    linarith [sq_nonneg (Real.cos (o 1) * (Real.cos theta * Real.cos (phi - o 0)) + Real.sin (o 1) * Real.sin theta)]
  have i1 : Near 1.48e-6 (A.rnd (A.rnd (T.cos (o 1) * T.sin theta) - A.rnd (A.rnd (T.sin (o 1) * T.cos theta) * T.cos (A.rnd (phi - o 0))))) _ :=
    (two cb st).sub hf hr (three (two sb ct) cp) (by norm_num) (by norm_num) (by norm_num) inner
  have i2 : Near 1.67e-6 (A.rnd (T.cos (o 2) * A.rnd (A.rnd (T.cos (o 1) * T.sin theta) - A.rnd (A.rnd (T.sin (o 1) * T.cos theta) *
      T.cos (A.rnd (phi - o 0)))))) _ := cc.mul hf hr i1 (by norm_num) (by norm_num) (by norm_num)
  have re : Near 2.85e-6 (A.psiReal T o theta phi) (psiVector o theta phi).re :=
    (three (two sc ct) sp).add hf hr i2 (by norm_num) (by norm_num) (by norm_num) ((Complex.abs_re_le_norm _).trans len)
  have m1 : Near 8.5e-7 (A.rnd (T.sin (o 2) * T.cos (A.rnd (phi - o 0)))) _ := sc.mul hf hr cp (by norm_num) (by norm_num) (by norm_num)
  have im : Near 2.05e-6 (A.psiImag T o phi) (psiVector o theta phi).im :=
    m1.add hf hr (three (two sb cc) sp) (by norm_num) (by norm_num) (by norm_num) ((Complex.abs_im_le_norm _).trans len)
  refine (Complex.norm_le_abs_re_add_abs_im _).trans ?_
  have h1 := re.1
  have h2 := im.1
  simp only [Complex.sub_re, Complex.sub_im]
  norm_num at *
  linarith

include hf in
/-- Accuracy of the rotation of the field, relative to the sine of the local zenith. -/
theorem l2g_near {A : Arith} (hr : Nearest f A.rnd) {T : TrigLib} (hT : AccurateTrig T) {o : Fin 3 → ℝ} (ho : ∀ k, |o k| ≤ 5) {theta phi : ℝ}
    (ht : |theta| ≤ 4) (hp : |phi| ≤ 4) {g : Fin 2 → ℝ} {M : ℝ} (hg : ∀ k, |g k| ≤ M) (M1 : 1 / 10 ^ 6 ≤ M) (M2 : M ≤ 10 ^ 6) (k : Fin 2) :
    |A.l2gResponse T g o theta phi k - l2gResponse g o theta phi k| * Real.sin (gcsToLcs o theta phi).1 ≤ 2.2e-5 * M := by
  have near := psi_near hf hr hT ho ht hp
  have an := hT.angle (A.psiReal T o theta phi) (A.psiImag T o phi)
  have turn := arg_near (psiVector o theta phi) ⟨A.psiReal T o theta phi, A.psiImag T o phi⟩
  have hpsi : computePsi o theta phi = (psiVector o theta phi).arg := rfl
  have hs0 := psiVector_norm o theta phi ▸ norm_nonneg (psiVector o theta phi)
  have hs1 := Real.sin_le_one (gcsToLcs o theta phi).1
  rw [psiVector_norm] at turn
  simp only [Arith.l2gResponse, Arith.computePsi, l2gResponse, hpsi, Matrix.mulVec, dotProduct, Fin.sum_univ_two]
  have a0 := Complex.abs_arg_le_pi (⟨A.psiReal T o theta phi, A.psiImag T o phi⟩ : ℂ)
  generalize Complex.arg ⟨A.psiReal T o theta phi, A.psiImag T o phi⟩ = w at *
  generalize (⟨A.psiReal T o theta phi, A.psiImag T o phi⟩ : ℂ) - psiVector o theta phi = d at *
  generalize T.angle (A.psiReal T o theta phi) (A.psiImag T o phi) = p at *
  generalize (psiVector o theta phi).arg = q at *
  generalize Real.sin (gcsToLcs o theta phi).1 = s at *
  have pw : |p| ≤ 10 := by
    have h1 := abs_le.1 an
    have h2 := abs_le.1 a0
    have := Real.pi_le_four
    exact abs_le.2 ⟨by norm_num at *; linarith, by norm_num at *; linarith⟩
  have hM : 0 ≤ M := le_trans (by norm_num) M1
  have turn' : ‖Complex.exp (w * Complex.I) - Complex.exp (q * Complex.I)‖ * s ≤ 1e-5 := turn.trans (by norm_num at *; linarith)
  have c1 : |T.cos p - Real.cos q| * s ≤ 1.06e-5 := by
    have h1 := (hT.nearCos pw).1
    have h2 := (Real.abs_cos_sub_cos_le p w).trans an
    have h3 : |Real.cos w - Real.cos q| ≤ ‖Complex.exp (w * Complex.I) - Complex.exp (q * Complex.I)‖ := by
      have := Complex.abs_re_le_norm (Complex.exp (w * Complex.I) - Complex.exp (q * Complex.I))
      rwa [Complex.sub_re, Complex.exp_ofReal_mul_I_re, Complex.exp_ofReal_mul_I_re] at this
    calc |T.cos p - Real.cos q| * s ≤ (1.2e-7 + 4.8e-7 + ‖Complex.exp (w * Complex.I) - Complex.exp (q * Complex.I)‖) * s := by
          gcongr
          have e1 := abs_sub_le (T.cos p) (Real.cos p) (Real.cos q)
          have e2 := abs_sub_le (Real.cos p) (Real.cos w) (Real.cos q)
          norm_num at *
          linarith
      _ = 6e-7 * s + ‖Complex.exp (w * Complex.I) - Complex.exp (q * Complex.I)‖ * s := by ring
      _ ≤ _ := by norm_num at *; linarith
  have s1 : |T.sin p - Real.sin q| * s ≤ 1.06e-5 := by
    have h1 := (hT.nearSin pw).1
    have h2 := (Real.abs_sin_sub_sin_le p w).trans an
    have h3 : |Real.sin w - Real.sin q| ≤ ‖Complex.exp (w * Complex.I) - Complex.exp (q * Complex.I)‖ := by
      have := Complex.abs_im_le_norm (Complex.exp (w * Complex.I) - Complex.exp (q * Complex.I))
      rwa [Complex.sub_im, Complex.exp_ofReal_mul_I_im, Complex.exp_ofReal_mul_I_im] at this
    calc |T.sin p - Real.sin q| * s ≤ (1.2e-7 + 4.8e-7 + ‖Complex.exp (w * Complex.I) - Complex.exp (q * Complex.I)‖) * s := by
          gcongr
          have e1 := abs_sub_le (T.sin p) (Real.sin p) (Real.sin q)
          have e2 := abs_sub_le (Real.sin p) (Real.sin w) (Real.sin q)
          norm_num at *
          linarith
      _ = 6e-7 * s + ‖Complex.exp (w * Complex.I) - Complex.exp (q * Complex.I)‖ * s := by ring
      _ ≤ _ := by norm_num at *; linarith
  have bound {x' : ℝ} (h : |x'| ≤ 1.0001) {y : ℝ} (hy : |y| ≤ M) : |A.rnd (x' * y) - x' * y| ≤ 6.1e-8 * M ∧ |x' * y| ≤ 1.0001 * M := by
    have h3 : |x' * y| ≤ 1.0001 * M := by rw [abs_mul]; gcongr
    exact ⟨(rnd_size hf hr h3 (by norm_num at *; linarith) (by norm_num at *; linarith)).trans (by norm_num; linarith), h3⟩
  have sum {x' x y' y u v : ℝ} (hx : |x' - x| * s ≤ 1.06e-5) (hx1 : |x'| ≤ 1.0001) (hy : |y' - y| * s ≤ 1.06e-5) (hy1 : |y'| ≤ 1.0001)
      (hu : |u| ≤ M) (hv : |v| ≤ M) : |A.rnd (A.rnd (x' * u) + A.rnd (y' * v)) - (x * u + y * v)| * s ≤ 2.2e-5 * M := by
    obtain ⟨b1, b2⟩ := bound hx1 hu
    obtain ⟨b3, b4⟩ := bound hy1 hv
    rw [abs_le] at b2 b4
    have r3 : |A.rnd (A.rnd (x' * u) + A.rnd (y' * v)) - (A.rnd (x' * u) + A.rnd (y' * v))| ≤ 1.3e-7 * M := by
      have : |A.rnd (x' * u) + A.rnd (y' * v)| ≤ 2.01 * M := by
        have h1 := abs_le.1 b1
        have h2 := abs_le.1 b3
        exact abs_le.2 ⟨by norm_num at *; linarith, by norm_num at *; linarith⟩
      exact (rnd_size hf hr this (by norm_num at *; linarith) (by norm_num at *; linarith)).trans (by norm_num; linarith)
    have tot : |A.rnd (A.rnd (x' * u) + A.rnd (y' * v)) - (x * u + y * v)| ≤ 2.6e-7 * M + |x' - x| * M + |y' - y| * M := by
      have h1 : |(x' - x) * u| ≤ |x' - x| * M := by rw [abs_mul]; gcongr
      have h2 : |(y' - y) * v| ≤ |y' - y| * M := by rw [abs_mul]; gcongr
      rw [abs_le] at h1 h2 b1 b3 r3
      exact abs_le.2 ⟨by norm_num at *; linarith, by norm_num at *; linarith⟩
    calc _ ≤ (2.6e-7 * M + |x' - x| * M + |y' - y| * M) * s := by gcongr
      _ = 2.6e-7 * M * s + (|x' - x| * s) * M + (|y' - y| * s) * M := by ring
      _ ≤ 2.6e-7 * M * 1 + 1.06e-5 * M + 1.06e-5 * M := by gcongr
      _ ≤ _ := by norm_num; linarith
  have cl : |T.cos p| ≤ 1.0001 := (hT.nearCos pw).abs.trans (by norm_num)
  have sl : |T.sin p| ≤ 1.0001 := (hT.nearSin pw).abs.trans (by norm_num)
  fin_cases k
  · exact sum c1 cl (y' := -T.sin p) (y := -Real.sin q) (by rw [← abs_neg]; convert s1 using 3; ring) (by rwa [abs_neg]) (hg 0) (hg 1)
  · exact sum s1 sl c1 cl (hg 0) (hg 1)

end

/-- C216. Away from the vertical axis of the array, the computed components describe the field turned with the array: `g` are the components in
the coordinates of the array, in direction `t`, `p`, and `F` the exact components. -/
theorem C216_field {f : Format} (hf : IEEE f) {A : Arith} (hr : Nearest f A.rnd) {T : TrigLib} (hT : AccurateTrig T) {o : Fin 3 → ℝ} (ho : ∀ k, |o k| ≤ 5)
    {theta phi : ℝ} (ht : |theta| ≤ 4) (hp : |phi| ≤ 4) {g : Fin 2 → ℝ} {M : ℝ} (hg : ∀ k, |g k| ≤ M) (M1 : 1 / 10 ^ 6 ≤ M) (M2 : M ≤ 10 ^ 6)
    {t p : ℝ} (t0 : 0 ≤ t) (t1 : t ≤ Real.pi) (hd : Spec.attitude o *ᵥ Spec.sphereDirection t p = Spec.sphereDirection theta phi)
    {F : Fin 2 → ℝ} (hF : Spec.fieldAt theta phi F = Spec.attitude o *ᵥ Spec.fieldAt t p g) (k : Fin 2) :
    |A.l2gResponse T g o theta phi k - F k| * Real.sin t ≤ 2.2e-5 * M := by
  obtain ⟨-, hr', h0, hpi, -⟩ := C43_angles o theta phi
  have hdir : Spec.sphereDirection t p = Spec.sphereDirection (gcsToLcs o theta phi).1 (gcsToLcs o theta phi).2 := by
    have h5 := hd.trans hr'.symm
    rw [← (C115_orientation o _).1] at h5
    have := congrArg (reverseRot o *ᵥ ·) h5
    simpa only [(C42_rotation o).2.2.2.1] using this
  have et : t = (gcsToLcs o theta phi).1 := by
    have := congrFun hdir 2
    simp only [Spec.sphereDirection, Matrix.cons_val] at this
    exact Real.injOn_cos ⟨t0, t1⟩ ⟨h0, hpi⟩ this
  rcases eq_or_ne (Real.sin t) 0 with hs | hs
  · rw [hs, mul_zero]
    exact mul_nonneg (by norm_num) (le_trans (by norm_num) M1)
  have e0 := congrFun hdir 0
  have e1 := congrFun hdir 1
  simp only [Spec.sphereDirection, Matrix.cons_val, ← et] at e0 e1
  have c0 := mul_left_cancel₀ hs e0
  have c1 := mul_left_cancel₀ hs e1
  have eF : F = l2gResponse g o theta phi := by
    apply fieldAt_inj (theta := theta) (phi := phi)
    rw [hF, (C44_field o theta phi g (et ▸ hs)).1, (C115_orientation o _).1, ← et]
    congr 1
    simp only [Spec.fieldAt, Spec.zenithVec, Spec.azimuthVec, c0, c1]
  rw [eF, et]
  exact l2g_near hf hr hT ho ht hp hg M1 M2 k

/-- The hypotheses can be met: an array turned by one radian about the vertical axis. -/
example : ∃ (A : Arith) (T : TrigLib), Nearest Spec.single A.rnd ∧ AccurateTrig T ∧
    ∀ k, |A.l2gResponse T ![2, -1] ![1, 0, 0] 1.5 2 k - ![2, -1] k| * Real.sin 1.5 ≤ 2.2e-5 * 2 := by
  obtain ⟨A, hA, -⟩ := exists_arith Spec.single (Or.inl rfl)
  have hT : AccurateTrig TrigLib.exact := ⟨fun x _ => by simp [TrigLib.exact], fun x _ => by simp [TrigLib.exact],
    fun z _ => by simp [TrigLib.exact], fun x y => by simp [TrigLib.exact]⟩
  refine ⟨A, TrigLib.exact, hA, hT, fun k => C216_field (Or.inl rfl) hA hT (fun j => ?_) (by norm_num [abs_le]) (by norm_num [abs_le]) (fun j => ?_) (by norm_num)
    (by norm_num) (p := 1) (by norm_num) (by linarith [Real.pi_gt_three]) ?_ ?_ k⟩
  · fin_cases j <;> norm_num [abs_le]
  · fin_cases j <;> norm_num [abs_le]
  · have e1 : Real.cos 2 = Real.cos (1 + 1) := by norm_num
    have e2 : Real.sin 2 = Real.sin (1 + 1) := by norm_num
    rw [← (C115_orientation _ _).1]
    rw [Real.cos_add] at e1
    rw [Real.sin_add] at e2
    funext j
    fin_cases j <;> simp [rotPos, forwardRot, Spec.sphereDirection, Matrix.mulVec, dotProduct, Fin.sum_univ_three, e1, e2] <;> ring
  · have e1 : Real.cos 2 = Real.cos (1 + 1) := by norm_num
    have e2 : Real.sin 2 = Real.sin (1 + 1) := by norm_num
    rw [← (C115_orientation _ _).1]
    rw [Real.cos_add] at e1
    rw [Real.sin_add] at e2
    funext j
    fin_cases j <;> simp [rotPos, forwardRot, Spec.fieldAt, Spec.zenithVec, Spec.azimuthVec, Matrix.mulVec, dotProduct, Fin.sum_univ_three, e1, e2] <;> ring

end OpenNTN
