import Verif.Model.RoundingLocal
import Verif.Props.RoundingAngles
import Verif.Props.Steering

/-
C214: directions in the coordinates of an array, with rounding.
-/
namespace OpenNTN

open Spec Matrix

/-- C214: with exact arithmetic these are the local angles of the model. -/
theorem C214_model (o : Fin 3 → ℝ) (theta phi : ℝ) : Arith.exact.gcsToLcs TrigLib.exact o theta phi = gcsToLcs o theta phi := by
  have hv : Arith.exact.matVec (Arith.exact.forwardRot TrigLib.exact o)ᵀ (Arith.exact.unitSphere TrigLib.exact theta phi) =
      reverseRot o *ᵥ unitSphere theta phi := by
    funext k
    simp only [Arith.matVec, Matrix.mulVec, dotProduct, Fin.sum_univ_three]
    rfl
  simp only [Arith.gcsToLcs, gcsToLcs, hv]
  have hz : ![(0 : ℝ), 0, 1] ⬝ᵥ (reverseRot o *ᵥ unitSphere theta phi) = (reverseRot o *ᵥ unitSphere theta phi) 2 := by
    simp [dotProduct, Fin.sum_univ_three]
  have hw : (![1, Complex.I, 0] ⬝ᵥ fun k => (((reverseRot o *ᵥ unitSphere theta phi) k : ℝ) : ℂ)) =
      ⟨(reverseRot o *ᵥ unitSphere theta phi) 0, (reverseRot o *ᵥ unitSphere theta phi) 1⟩ := by
    simp only [dotProduct, Fin.sum_univ_three, Matrix.cons_val]
    apply Complex.ext <;> simp
  rw [hz, hw]
  rfl

/-- Accuracy of the functions of the library. -/
structure Spec.AccurateTrig (T : TrigLib) : Prop where
  sin : ∀ x, |x| ≤ 10 → |T.sin x - Real.sin x| ≤ (2 : ℝ) ^ (-23 : ℤ)
  cos : ∀ x, |x| ≤ 10 → |T.cos x - Real.cos x| ≤ (2 : ℝ) ^ (-23 : ℤ)
  acos : ∀ z, |z| ≤ 1 → |T.acos z - Real.arccos z| ≤ (2 : ℝ) ^ (-21 : ℤ)
  angle : ∀ x y, |T.angle x y - Complex.arg ⟨x, y⟩| ≤ (2 : ℝ) ^ (-21 : ℤ)

/-- C214. For angles in single precision, in the coordinates of the array the direction with the computed angles is the direction given, up to `2^-16`. -/
def C214_statement : Prop :=
  ∀ (A : Arith) (T : TrigLib), Nearest single A.rnd → AccurateTrig T → ∀ (o : Fin 3 → ℝ) (theta phi : ℝ), (∀ k, Spec.single.Num (o k)) → Spec.single.Num theta → Spec.single.Num phi →
    (∀ k, |o k| ≤ 10) → |theta| ≤ 10 → |phi| ≤ 10 →
    ∀ k, |Spec.sphereDirection (A.gcsToLcs T o theta phi).1 (A.gcsToLcs T o theta phi).2 k -
      ((Spec.attitude o)ᵀ *ᵥ Spec.sphereDirection theta phi) k| ≤ (2 : ℝ) ^ (-16 : ℤ)

section

variable {f : Format} (hf : IEEE f) {r : ℝ → ℝ} (hr : Nearest f r)

include hf hr in
theorem rnd_six {x B : ℝ} (hx : |x| ≤ B) (B1 : 1 / 100 ≤ B) (B2 : B ≤ 100) : |r x - x| ≤ 6e-8 * B := by
  refine (rnd_within hf hr hx (B2.trans (by norm_num)) B1).trans ?_
  have up := unit_pos f
  calc f.unit * (B * (1 + 1 / 1000)) ≤ 1 / 16777216 * (B * (1 + 1 / 1000)) := by have := unit_le hf; gcongr
    _ ≤ _ := by norm_num; linarith

/-- `x'` is `x`, which is at most one, up to `e`. -/
def Near (e x' x : ℝ) : Prop := |x' - x| ≤ e ∧ |x| ≤ 1

theorem Near.abs {e x' x : ℝ} (h : Near e x' x) : |x'| ≤ 1 + e := by
  calc |x'| = |x + (x' - x)| := by congr 1; ring
    _ ≤ |x| + |x' - x| := abs_add_le _ _
    _ ≤ _ := add_le_add h.2 h.1

include hf hr in
theorem Near.mul {a b e x' x y' y : ℝ} (hx : Near a x' x) (hy : Near b y' y) (a1 : a ≤ 1e-4) (b1 : b ≤ 1e-4) (he : 1.001 * (a + b) + 6.2e-8 ≤ e) :
    Near e (r (x' * y')) (x * y) := by
  have a0 : 0 ≤ a := (abs_nonneg _).trans hx.1
  have b0 : 0 ≤ b := (abs_nonneg _).trans hy.1
  refine ⟨?_, by rw [abs_mul]; exact mul_le_one₀ hx.2 (abs_nonneg _) hy.2⟩
  have h1 := hx.abs
  have h2 := hy.abs
  have h3 : |x' * y'| ≤ 1.01 := by
    rw [abs_mul]
    calc |x'| * |y'| ≤ (1 + 1e-4) * (1 + 1e-4) := by gcongr <;> linarith
      _ ≤ _ := by norm_num
  have h4 := rnd_six hf hr h3 (by norm_num) (by norm_num)
  have h5 : |x' * y' - x * y| ≤ a * (1 + b) + b := by
    calc |x' * y' - x * y| = |(x' - x) * y' + x * (y' - y)| := by congr 1; ring
      _ ≤ |x' - x| * |y'| + |x| * |y' - y| := by refine (abs_add_le _ _).trans ?_; rw [abs_mul, abs_mul]
      _ ≤ a * (1 + b) + 1 * b := by gcongr; exacts [hx.1, hx.2, hy.1]
      _ = _ := by ring
  calc |r (x' * y') - x * y| = |(r (x' * y') - x' * y') + (x' * y' - x * y)| := by congr 1; ring
    _ ≤ _ := (abs_add_le _ _).trans (add_le_add h4 h5)
    _ ≤ e := by refine le_trans ?_ he; norm_num at *; nlinarith

include hf hr in
theorem Near.add {a b e x' x y' y : ℝ} (hx : Near a x' x) (hy : Near b y' y) (a1 : a ≤ 1e-4) (b1 : b ≤ 1e-4) (he : a + b + 1.3e-7 ≤ e)
    (h : |x + y| ≤ 1) : Near e (r (x' + y')) (x + y) := by
  refine ⟨?_, h⟩
  have h3 : |x' + y'| ≤ 2.01 := by
    have h1 := hx.abs
    have h2 := hy.abs
    refine (abs_add_le _ _).trans ?_
    norm_num at *
    linarith
  have h4 := rnd_six hf hr h3 (by norm_num) (by norm_num)
  have h5 : |(x' + y') - (x + y)| ≤ a + b := by
    calc |(x' + y') - (x + y)| = |(x' - x) + (y' - y)| := by congr 1; ring
      _ ≤ _ := (abs_add_le _ _).trans (add_le_add hx.1 hy.1)
  calc |r (x' + y') - (x + y)| = |(r (x' + y') - (x' + y')) + ((x' + y') - (x + y))| := by congr 1; ring
    _ ≤ _ := (abs_add_le _ _).trans (add_le_add h4 h5)
    _ ≤ e := by refine le_trans ?_ he; norm_num; linarith

theorem Near.neg {e x' x : ℝ} (h : Near e x' x) : Near e (-x') (-x) := by
  refine ⟨?_, by rw [abs_neg]; exact h.2⟩
  rw [← abs_neg]
  convert h.1 using 2
  ring

theorem Near.mono {e e' x' x : ℝ} (h : Near e x' x) (he : e ≤ e') : Near e' x' x := ⟨h.1.trans he, h.2⟩

include hf hr in
theorem Near.sub {a b e x' x y' y : ℝ} (hx : Near a x' x) (hy : Near b y' y) (a1 : a ≤ 1e-4) (b1 : b ≤ 1e-4) (he : a + b + 1.3e-7 ≤ e)
    (h : |x - y| ≤ 1) : Near e (r (x' - y')) (x - y) := by
  rw [sub_eq_add_neg, sub_eq_add_neg]
  exact Near.add hf hr hx hy.neg a1 b1 he (by rw [← sub_eq_add_neg]; exact h)

theorem Spec.AccurateTrig.nearSin {T : TrigLib} (h : AccurateTrig T) {x : ℝ} (hx : |x| ≤ 10) : Near 1.2e-7 (T.sin x) (Real.sin x) :=
  ⟨(h.sin x hx).trans (by norm_num), Real.abs_sin_le_one x⟩

theorem Spec.AccurateTrig.nearCos {T : TrigLib} (h : AccurateTrig T) {x : ℝ} (hx : |x| ≤ 10) : Near 1.2e-7 (T.cos x) (Real.cos x) :=
  ⟨(h.cos x hx).trans (by norm_num), Real.abs_cos_le_one x⟩

theorem forwardRot_le (o : Fin 3 → ℝ) (i j : Fin 3) : |forwardRot o i j| ≤ 1 := by
  have h := congrFun (congrFun (forwardRot_mul o) j) j
  simp only [Matrix.mul_apply, Matrix.transpose_apply, Matrix.one_apply_eq, Fin.sum_univ_three] at h
  rw [← sq_le_one_iff_abs_le_one]
  fin_cases i <;> simp only [Fin.zero_eta, Fin.mk_one, Fin.reduceFinMk] <;>
    nlinarith [mul_self_nonneg (forwardRot o 0 j), mul_self_nonneg (forwardRot o 1 j), mul_self_nonneg (forwardRot o 2 j)]

include hf in
/-- Entries of the rotation. -/
theorem forwardRot_near {A : Arith} (hr : Nearest f A.rnd) {T : TrigLib} (hT : AccurateTrig T) {o : Fin 3 → ℝ} (ho : ∀ k, |o k| ≤ 10) (i j : Fin 3) :
    Near 9.34e-7 (A.forwardRot T o i j) (forwardRot o i j) := by
  have sa := hT.nearSin (ho 0)
  have ca := hT.nearCos (ho 0)
  have sb := hT.nearSin (ho 1)
  have cb := hT.nearCos (ho 1)
  have sc := hT.nearSin (ho 2)
  have cc := hT.nearCos (ho 2)
  have two {x' x y' y : ℝ} (hx : Near 1.2e-7 x' x) (hy : Near 1.2e-7 y' y) : Near 3.1e-7 (A.rnd (x' * y')) (x * y) :=
    hx.mul hf hr hy (by norm_num) (by norm_num) (by norm_num)
  have three {x' x y' y : ℝ} (hx : Near 3.1e-7 x' x) (hy : Near 1.2e-7 y' y) : Near 4.93e-7 (A.rnd (x' * y')) (x * y) :=
    hx.mul hf hr hy (by norm_num) (by norm_num) (by norm_num)
  have plus {x' x y' y : ℝ} (hx : Near 4.93e-7 x' x) (hy : Near 3.1e-7 y' y) (h : |x + y| ≤ 1) : Near 9.34e-7 (A.rnd (x' + y')) (x + y) :=
    hx.add hf hr hy (by norm_num) (by norm_num) (by norm_num) h
  have minus {x' x y' y : ℝ} (hx : Near 4.93e-7 x' x) (hy : Near 3.1e-7 y' y) (h : |x - y| ≤ 1) : Near 9.34e-7 (A.rnd (x' - y')) (x - y) :=
    hx.sub hf hr hy (by norm_num) (by norm_num) (by norm_num) h
  have l := forwardRot_le o
  fin_cases i <;> fin_cases j
  · exact (two ca cb).mono (by norm_num)
  · exact minus (three (two ca sb) sc) (two sa cc) (l 0 1)
  · exact plus (three (two ca sb) cc) (two sa sc) (l 0 2)
  · exact (two sa cb).mono (by norm_num)
  · exact plus (three (two sa sb) sc) (two ca cc) (l 1 1)
  · exact minus (three (two sa sb) cc) (two ca sc) (l 1 2)
  · exact sb.neg.mono (by norm_num)
  · exact (two cb sc).mono (by norm_num)
  · exact (two cb cc).mono (by norm_num)

include hf in
theorem unitSphere_near {A : Arith} (hr : Nearest f A.rnd) {T : TrigLib} (hT : AccurateTrig T) {theta phi : ℝ} (ht : |theta| ≤ 10) (hp : |phi| ≤ 10)
    (k : Fin 3) : Near 3.1e-7 (A.unitSphere T theta phi k) (unitSphere theta phi k) := by
  have two {x' x y' y : ℝ} (hx : Near 1.2e-7 x' x) (hy : Near 1.2e-7 y' y) : Near 3.1e-7 (A.rnd (x' * y')) (x * y) :=
    hx.mul hf hr hy (by norm_num) (by norm_num) (by norm_num)
  fin_cases k
  · exact two (hT.nearSin ht) (hT.nearCos hp)
  · exact two (hT.nearSin ht) (hT.nearSin hp)
  · exact (hT.nearCos ht).mono (by norm_num)

include hf in
/-- The components of the direction in the coordinates of the array. -/
theorem local_near {A : Arith} (hr : Nearest f A.rnd) {T : TrigLib} (hT : AccurateTrig T) {o : Fin 3 → ℝ} (ho : ∀ k, |o k| ≤ 10) {theta phi : ℝ}
    (ht : |theta| ≤ 10) (hp : |phi| ≤ 10) (k : Fin 3) :
    |A.matVec (A.forwardRot T o)ᵀ (A.unitSphere T theta phi) k - (reverseRot o *ᵥ unitSphere theta phi) k| ≤ 4.3e-6 := by
  have prod (j : Fin 3) : Near 1.31e-6 (A.rnd ((A.forwardRot T o)ᵀ k j * A.unitSphere T theta phi j)) (reverseRot o k j * unitSphere theta phi j) :=
    (forwardRot_near hf hr hT ho j k).mul hf hr (unitSphere_near hf hr hT ht hp j) (by norm_num) (by norm_num) (by norm_num)
  simp only [Arith.matVec, Matrix.mulVec, dotProduct, Fin.sum_univ_three]
  have p0 := prod 0
  have p1 := prod 1
  have p2 := prod 2
  generalize A.rnd ((A.forwardRot T o)ᵀ k 0 * A.unitSphere T theta phi 0) = x0 at *
  generalize A.rnd ((A.forwardRot T o)ᵀ k 1 * A.unitSphere T theta phi 1) = x1 at *
  generalize A.rnd ((A.forwardRot T o)ᵀ k 2 * A.unitSphere T theta phi 2) = x2 at *
  generalize reverseRot o k 0 * unitSphere theta phi 0 = y0 at *
  generalize reverseRot o k 1 * unitSphere theta phi 1 = y1 at *
  generalize reverseRot o k 2 * unitSphere theta phi 2 = y2 at *
  have a0 := abs_le.1 p0.abs
  have a1 := abs_le.1 p1.abs
  have a2 := abs_le.1 p2.abs
  have b0 := abs_le.1 p0.1
  have b1 := abs_le.1 p1.1
  have b2 := abs_le.1 p2.1
  have h1 : |x0 + x1| ≤ 2.001 := abs_le.2 ⟨by norm_num at *; linarith, by norm_num at *; linarith⟩
  have e1 := abs_le.1 (rnd_six hf hr h1 (by norm_num) (by norm_num))
  have h2 : |A.rnd (x0 + x1) + x2| ≤ 3.01 := abs_le.2 ⟨by norm_num at *; linarith, by norm_num at *; linarith⟩
  have e2 := abs_le.1 (rnd_six hf hr h2 (by norm_num) (by norm_num))
  refine abs_le.2 ⟨?_, ?_⟩ <;> norm_num at * <;> linarith

end

/-- The angles of a vector which is nearly of length one. -/
theorem direction_near {v w : Fin 3 → ℝ} (hv : v 0 ^ 2 + v 1 ^ 2 + v 2 ^ 2 = 1) (hw : ∀ k, |w k - v k| ≤ 4.3e-6) {t p : ℝ}
    (ht : |t - Real.arccos (min (max (w 2) (-1)) 1)| ≤ (2 : ℝ) ^ (-21 : ℤ)) (hp : |p - Complex.arg ⟨w 0, w 1⟩| ≤ (2 : ℝ) ^ (-21 : ℤ)) (k : Fin 3) :
    |Spec.sphereDirection t p k - v k| ≤ 1 / 300 ∧
    |Spec.sphereDirection t p k - v k| * Real.sqrt (v 0 ^ 2 + v 1 ^ 2) ≤ (2 : ℝ) ^ (-15 : ℤ) := by
  have hlo : -1 ≤ v 2 := by nlinarith [sq_nonneg (v 0), sq_nonneg (v 1)]
  have hhi : v 2 ≤ 1 := by nlinarith [sq_nonneg (v 0), sq_nonneg (v 1)]
  set z := min (max (w 2) (-1)) 1 with hz
  have z1 : -1 ≤ z := le_min (le_max_right _ _) (by norm_num)
  have z2 : z ≤ 1 := min_le_right _ _
  have zv : |z - v 2| ≤ 4.3e-6 := by
    have := abs_le.1 (hw 2)
    refine abs_le.2 ⟨?_, ?_⟩
    · have : v 2 - 4.3e-6 ≤ z := le_min (le_max_of_le_left (by linarith)) (by norm_num; linarith)
      linarith
    · have : z ≤ v 2 + 4.3e-6 := min_le_of_left_le (max_le (by linarith) (by norm_num; linarith))
      linarith
  set s := Real.sqrt (1 - z ^ 2) with hs
  set q := Real.sqrt (v 0 ^ 2 + v 1 ^ 2) with hq
  set n := ‖(⟨w 0, w 1⟩ : ℂ)‖ with hn
  have s0 : 0 ≤ s := Real.sqrt_nonneg _
  have q0 : 0 ≤ q := Real.sqrt_nonneg _
  have s2 : s ^ 2 = 1 - z ^ 2 := Real.sq_sqrt (by nlinarith)
  have q2 : q ^ 2 = 1 - v 2 ^ 2 := by rw [hq, Real.sq_sqrt (by positivity)]; linarith
  have q1 : q ≤ 1 := by nlinarith [sq_nonneg (v 2)]
  have qn : |n - q| ≤ 8.6e-6 := by
    have e : q = ‖(⟨v 0, v 1⟩ : ℂ)‖ := by
      rw [hq, Complex.norm_def, Complex.normSq_mk]
      congr 1
      ring
    rw [hn, e]
    refine (abs_norm_sub_norm_le _ _).trans ((Complex.norm_le_abs_re_add_abs_im _).trans ?_)
    have h0 := hw 0
    have h1 := hw 1
    simp only [Complex.sub_re, Complex.sub_im]
    norm_num at *
    linarith
  have zz : |z ^ 2 - v 2 ^ 2| ≤ 8.6e-6 := by
    have h : |z + v 2| ≤ 2 := abs_le.2 ⟨by linarith, by linarith⟩
    calc |z ^ 2 - v 2 ^ 2| = |z - v 2| * |z + v 2| := by rw [← abs_mul]; congr 1; ring
      _ ≤ 4.3e-6 * 2 := by gcongr
      _ = _ := by norm_num
  have prod : |s - q| * (s + q) ≤ 8.6e-6 := by
    rw [← abs_of_nonneg (add_nonneg s0 q0), ← abs_mul, show (s - q) * (s + q) = s ^ 2 - q ^ 2 by ring, s2, q2, ← abs_neg,
      show -(1 - z ^ 2 - (1 - v 2 ^ 2)) = z ^ 2 - v 2 ^ 2 by ring]
    exact zz
  have sq1 : |s - q| ≤ 2.94e-3 := by
    have h : |s - q| ≤ s + q := abs_le.2 ⟨by linarith, by linarith⟩
    have := abs_nonneg (s - q)
    norm_num at *
    nlinarith
  have sq2 : |s - q| * q ≤ 8.6e-6 := (mul_le_mul_of_nonneg_left (by linarith) (abs_nonneg _)).trans prod
  have sa : Real.sin (Real.arccos z) = s := Real.sin_arccos z
  have ca : Real.cos (Real.arccos z) = z := Real.cos_arccos z1 z2
  have w0 : n * Real.cos (Complex.arg ⟨w 0, w 1⟩) = w 0 := Complex.norm_mul_cos_arg _
  have w1 : n * Real.sin (Complex.arg ⟨w 0, w 1⟩) = w 1 := Complex.norm_mul_sin_arg _
  generalize Complex.arg ⟨w 0, w 1⟩ = b at *
  generalize Real.arccos z = a at *
  have t1 : |Real.sin t - s| ≤ 4.8e-7 := by
    rw [← sa]; exact (Real.abs_sin_sub_sin_le _ _).trans (ht.trans (by norm_num))
  have t2 : |Real.cos t - z| ≤ 4.8e-7 := by
    rw [← ca]; exact (Real.abs_cos_sub_cos_le _ _).trans (ht.trans (by norm_num))
  have p1 : |Real.cos p - Real.cos b| ≤ 4.8e-7 := (Real.abs_cos_sub_cos_le _ _).trans (hp.trans (by norm_num))
  have p2 : |Real.sin p - Real.sin b| ≤ 4.8e-7 := (Real.abs_sin_sub_sin_le _ _).trans (hp.trans (by norm_num))
  have side {c c' wk vk : ℝ} (h1 : |c' - c| ≤ 4.8e-7) (hc : |c| ≤ 1) (h2 : n * c = wk) (h3 : |wk - vk| ≤ 4.3e-6) :
      |Real.sin t * c' - vk| ≤ |s - q| + 1.4e-5 := by
    calc |Real.sin t * c' - vk| = |Real.sin t * (c' - c) + (Real.sin t - s) * c + ((s - q) + (q - n)) * c + (wk - vk)| := by
          rw [← h2]; congr 1; ring
      _ ≤ |Real.sin t| * |c' - c| + |Real.sin t - s| * |c| + (|s - q| + |q - n|) * |c| + |wk - vk| := by
          refine (abs_add_le _ _).trans (add_le_add_left ?_ _)
          refine (abs_add_le _ _).trans (add_le_add ((abs_add_le _ _).trans ?_) ?_)
          · rw [abs_mul, abs_mul]
          · rw [abs_mul]; exact mul_le_mul_of_nonneg_right (abs_add_le _ _) (abs_nonneg _)
      _ ≤ 1 * 4.8e-7 + 4.8e-7 * 1 + (|s - q| + 8.6e-6) * 1 + 4.3e-6 := by
          have := Real.abs_sin_le_one t
          rw [abs_sub_comm q n]
          gcongr
      _ ≤ _ := by norm_num; linarith
  have fin {x : ℝ} (h : x ≤ |s - q| + 1.4e-5) : x ≤ 1 / 300 ∧ x * q ≤ (2 : ℝ) ^ (-15 : ℤ) := by
    constructor
    · norm_num at *; linarith
    · calc x * q ≤ (|s - q| + 1.4e-5) * q := by gcongr
        _ = |s - q| * q + 1.4e-5 * q := by ring
        _ ≤ 8.6e-6 + 1.4e-5 * 1 := by gcongr
        _ ≤ _ := by norm_num
  apply fin
  fin_cases k
  · exact side p1 (Real.abs_cos_le_one b) w0 (hw 0)
  · exact side p2 (Real.abs_sin_le_one b) w1 (hw 1)
  · change |Real.cos t - v 2| ≤ _
    calc |Real.cos t - v 2| ≤ |Real.cos t - z| + |z - v 2| := abs_sub_le _ _ _
      _ ≤ 4.8e-7 + 4.3e-6 := add_le_add t2 zv
      _ ≤ |s - q| + 1.4e-5 := by have := abs_nonneg (s - q); norm_num; linarith

/-- C214. In any format of IEEE 754, the direction with the computed angles is the direction given up to a three hundredth, which is 0.2 degrees; at a
distance from the poles of the array the error is smaller by the sine of the local zenith. -/
theorem C214_partial {f : Format} (hf : IEEE f) {A : Arith} (hr : Nearest f A.rnd) {T : TrigLib} (hT : AccurateTrig T) {o : Fin 3 → ℝ} {theta phi : ℝ}
    (ho : ∀ k, |o k| ≤ 10) (ht : |theta| ≤ 10) (hp : |phi| ≤ 10) (k : Fin 3) :
    |Spec.sphereDirection (A.gcsToLcs T o theta phi).1 (A.gcsToLcs T o theta phi).2 k - ((Spec.attitude o)ᵀ *ᵥ Spec.sphereDirection theta phi) k| ≤ 1 / 300 ∧
    |Spec.sphereDirection (A.gcsToLcs T o theta phi).1 (A.gcsToLcs T o theta phi).2 k - ((Spec.attitude o)ᵀ *ᵥ Spec.sphereDirection theta phi) k| *
      Real.sqrt (((Spec.attitude o)ᵀ *ᵥ Spec.sphereDirection theta phi) 0 ^ 2 + ((Spec.attitude o)ᵀ *ᵥ Spec.sphereDirection theta phi) 1 ^ 2) ≤
        (2 : ℝ) ^ (-15 : ℤ) := by
  rw [← (C115_orientation o (Spec.sphereDirection theta phi)).2.1]
  have z1 (x : ℝ) : -1 ≤ min (max x (-1)) 1 := le_min (le_max_right _ _) (by norm_num)
  exact direction_near (local_norm o theta phi) (fun k => local_near hf hr hT ho ht hp k) (hT.acos _ (abs_le.2 ⟨z1 _, min_le_right _ _⟩)) (hT.angle _ _) k

/-- In single precision, numbers a little less than one are rounded to one. -/
theorem rnd_one {r : ℝ → ℝ} (hr : Nearest single r) {x : ℝ} (h1 : 1 - 1 / 2 ^ 25 < x) (h2 : x ≤ 1) : r x = 1 := by
  have hx : |x| < single.range := lt_of_le_of_lt (abs_le.2 ⟨by norm_num at h1; linarith, h2⟩) (by norm_num [Format.range, Spec.single])
  have n1 : single.Num 1 := by simpa using num_small (Or.inl rfl) (n := 1) (by norm_num)
  have up : r x ≤ 1 := by
    have := hr.mono hx (y := 1) (by norm_num [Format.range, Spec.single]) h2
    rwa [hr.num n1 (by norm_num [Format.range, Spec.single])] at this
  have near := (hr x hx).2 1 n1
  rcases up.eq_or_lt with h | h
  · exact h
  exfalso
  have lo : 1 - 1 / 2 ^ 24 < r x := by
    have h3 := abs_le.1 (near.trans_eq (abs_of_nonneg (by linarith)))
    norm_num at *
    linarith
  obtain ⟨m, e, hm, -, -, he⟩ := (hr x hx).1
  have m1 : (m : ℝ) ≤ 2 ^ 24 - 1 := by
    have : m ≤ 2 ^ 24 - 1 := by
      have := (abs_lt.1 hm).2
      norm_num [Spec.single] at *
      omega
    exact_mod_cast this
  rw [he] at lo h
  rcases le_or_gt e (-24) with c | c
  · have p : (2 : ℝ) ^ e ≤ 2 ^ (-24 : ℤ) := zpow_le_zpow_right₀ (by norm_num) c
    have := calc (m : ℝ) * 2 ^ e ≤ (2 ^ 24 - 1) * 2 ^ e := by gcongr
      _ ≤ (2 ^ 24 - 1) * 2 ^ (-24 : ℤ) := by gcongr
    norm_num at *
    linarith
  · obtain ⟨n, rfl⟩ : ∃ n : ℕ, e = n - 23 := ⟨(e + 23).toNat, by omega⟩
    have e1 : (m : ℝ) * 2 ^ ((n : ℤ) - 23) = ((m * 2 ^ n : ℤ) : ℝ) / 2 ^ 23 := by
      rw [zpow_sub₀ (by norm_num)]
      push_cast
      norm_num
      ring
    rw [e1] at lo h
    have h3 : m * 2 ^ n < 2 ^ 23 := by
      rw [div_lt_one (by norm_num)] at h
      exact_mod_cast h
    have h4 : ((m * 2 ^ n : ℤ) : ℝ) ≤ 2 ^ 23 - 1 := by
      have : m * 2 ^ n ≤ 2 ^ 23 - 1 := by omega
      exact_mod_cast this
    rw [lt_div_iff₀ (by norm_num)] at lo
    norm_num at *
    linarith

/-- C214 does not hold: without orientation, a direction `3 / 2^14` from the vertical axis is taken for the axis. -/
theorem C214_violated : ¬ C214_statement := by
  intro h
  obtain ⟨A, hA, -⟩ := exists_arith single (Or.inl rfl)
  let T : TrigLib := ⟨fun x => A.rnd (Real.sin x), fun x => A.rnd (Real.cos x), Real.arccos, fun x y => Complex.arg ⟨x, y⟩⟩
  have unit (x : ℝ) (hx : |x| ≤ 1) : |A.rnd x - x| ≤ (2 : ℝ) ^ (-23 : ℤ) := (rnd_six (Or.inl rfl) hA hx (by norm_num) (by norm_num)).trans (by norm_num)
  have hT : AccurateTrig T := ⟨fun x _ => unit _ (Real.abs_sin_le_one x), fun x _ => unit _ (Real.abs_cos_le_one x),
    fun z _ => by simp [T], fun x y => by simp [T]⟩
  have n0 : Spec.single.Num 0 := by simpa using num_small (Or.inl rfl) (n := 0) (by norm_num)
  have r0 : A.rnd 0 = 0 := hA.zero (by norm_num [Spec.single])
  have r1 : A.rnd 1 = 1 := rnd_one hA (by norm_num) le_rfl
  have rc : A.rnd (Real.cos (3 / 16384)) = 1 := by
    refine rnd_one hA ?_ (Real.cos_le_one _)
    have := Real.one_sub_sq_div_two_le_cos (x := 3 / 16384)
    norm_num at *
    linarith
  have ez : (A.gcsToLcs T 0 (3 / 16384) 0).1 = 0 := by
    simp [Arith.gcsToLcs, Arith.matVec, Arith.forwardRot, Arith.unitSphere, T, r0, r1, rc]
  have := h A T hA hT 0 (3 / 16384) 0 (fun _ => n0) ⟨3, -14, by norm_num [Spec.single], by norm_num [Spec.single], by norm_num [Spec.single], by norm_num⟩ n0 (by simp) (by norm_num [abs_le]) (by simp) 0
  rw [← (C115_orientation 0 (Spec.sphereDirection (3 / 16384) 0)).2.1] at this
  rw [show Spec.sphereDirection (A.gcsToLcs T 0 (3 / 16384) 0).1 (A.gcsToLcs T 0 (3 / 16384) 0).2 0 = 0 by rw [ez]; simp [Spec.sphereDirection],
    show (reverseRot 0 *ᵥ Spec.sphereDirection (3 / 16384) 0) 0 = Real.sin (3 / 16384) by
      simp [Spec.sphereDirection, reverseRot, forwardRot, Matrix.mulVec, dotProduct, Fin.sum_univ_three]] at this
  have h1 := Real.sin_gt_sub_cube (x := 3 / 16384) (by norm_num)
  have h2 := (abs_le.1 this).1
  norm_num at *
  linarith

/-- The hypotheses of the bound can be met. -/
example : ∃ (A : Arith) (T : TrigLib), Nearest Spec.single A.rnd ∧ AccurateTrig T ∧
    ∀ k, |Spec.sphereDirection (A.gcsToLcs T ![1, 0.3, -0.2] 2 (-1)).1 (A.gcsToLcs T ![1, 0.3, -0.2] 2 (-1)).2 k -
      ((Spec.attitude ![1, 0.3, -0.2])ᵀ *ᵥ Spec.sphereDirection 2 (-1)) k| ≤ 1 / 300 := by
  obtain ⟨A, hA, -⟩ := exists_arith Spec.single (Or.inl rfl)
  have hT : AccurateTrig TrigLib.exact := ⟨fun x _ => by simp [TrigLib.exact], fun x _ => by simp [TrigLib.exact],
    fun z _ => by simp [TrigLib.exact], fun x y => by simp [TrigLib.exact]⟩
  refine ⟨A, TrigLib.exact, hA, hT, fun k => (C214_partial (Or.inl rfl) hA hT (fun j => ?_) (by norm_num [abs_le]) (by norm_num [abs_le]) k).1⟩
  fin_cases j <;> norm_num [abs_le]

end OpenNTN
