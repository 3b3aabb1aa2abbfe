import Verif.Model.RoundingRays
import Verif.Props.RoundingGain
import Verif.Props.Power
import Verif.Props.Steering

/-
Assembly of coefficients with rounding: C223.
-/
namespace OpenNTN

open Spec

theorem exact_cmul (z w : ℂ) : Arith.exact.cmul z w = z * w := Complex.ext (by simp [Arith.cmul, Arith.exact]) (by simp [Arith.cmul, Arith.exact])

theorem exact_cadd (z w : ℂ) : Arith.exact.cadd z w = z + w := Complex.ext (by simp [Arith.cadd, Arith.exact]) (by simp [Arith.cadd, Arith.exact])

/-- With exact operations the assembly is the one of the model. -/
theorem C223_model {M : ℕ} (g : CoeffGen) (l : LinkTopo) (r : LinkRays M) (phi : Fin M → Fin raysPerCluster → Fin 4 → ℝ) (n : Fin M) (m : Fin raysPerCluster) (u s : ℕ) (t : ℝ) :
    let E : ℝ → ℂ := fun x => Complex.exp (Complex.I * (x : ℂ))
    let sat := decide (600000 ≤ l.bsHeight)
    nlosRay g l r phi n m u s t = Arith.exact.nlosRay TrigLib.exact E sat g.fc (phi n m) (r.xpr n m) (r.powers n)
      (fieldVector g.tx l.txOri (r.zod n m) (r.aod n m) s) (fieldVector g.rx l.rxOri (r.zoa n m) (r.aoa n m) u)
      (arrayOffset g l (r.aoa n m) (r.aod n m) (r.zoa n m) (r.zod n m) u s) (dopplerTerm g l (r.aoa n m) (r.zoa n m) (r.aod n m) (r.zod n m) t) ∧
    losCoeff g l u s t = Arith.exact.losCoeff TrigLib.exact sat g.fc (fieldVector g.tx l.txOri l.losZod l.losAod s) (fieldVector g.rx l.rxOri l.losZoa l.losAoa u)
      (arrayOffset g l l.losAoa l.losAod l.losZoa l.losZod u s) (dopplerTerm g l l.losAoa l.losZoa l.losAod l.losZod t)
      (Complex.exp (Complex.I * (2 * Real.pi * l.distance3d / g.lambda0 : ℝ))) := by
  intro E sat
  have hp (p : Fin 4 → ℝ) (x : ℝ) : Arith.exact.phaseMatrix E p x = phaseMatrix p x := by
    simp only [Arith.phaseMatrix, exact_cmul]; rfl
  have hR : Arith.exact.faradayRotation TrigLib.exact g.fc = faradayRotation g.fc := rfl
  have hw (P : Matrix (Fin 2) (Fin 2) ℂ) : Arith.exact.withFaraday TrigLib.exact sat g.fc P = withFaraday g l P := by
    unfold Arith.withFaraday withFaraday
    by_cases h : 600000 ≤ l.bsHeight
    · simp only [sat, h, decide_true, if_true, exact_cmul, exact_cadd, hR]
      funext i j
      rw [Matrix.mul_apply, Fin.sum_univ_two]
      simp
    · simp [sat, h]
  have hF (P : Matrix (Fin 2) (Fin 2) ℂ) (aoa aod zoa zod : ℝ) :
      Arith.exact.fieldMatrix P (fieldVector g.tx l.txOri zod aod s) (fieldVector g.rx l.rxOri zoa aoa u) = fieldMatrix g l aoa aod zoa zod P u s := by
    simp only [Arith.fieldMatrix, fieldMatrix, exact_cmul, exact_cadd, Fin.sum_univ_two, Matrix.mulVec, dotProduct]
  constructor
  · simp only [Arith.nlosRay, hp, hw, hF, exact_cmul]; rfl
  · simp only [Arith.losCoeff, hw, hF, exact_cmul]; rfl

/-- `z` is bounded by `B`, and `z'` is `z` up to the fraction `e` of the bound. -/
def Spec.Close (e B : ℝ) (z' z : ℂ) : Prop := ‖z‖ ≤ B ∧ ‖z' - z‖ ≤ e * B

theorem Spec.Close.norm {e B : ℝ} {z' z : ℂ} (h : Close e B z' z) : ‖z'‖ ≤ (1 + e) * B := by
  have := norm_add_le (z' - z) z
  rw [sub_add_cancel] at this
  linarith [h.1, h.2]

theorem Spec.Close.mono {e B e' B' : ℝ} {z' z : ℂ} (h : Close e B z' z) (he : e ≤ e') (hB : B ≤ B') (e0 : 0 ≤ e') : Close e' B' z' z := by
  have B0 : 0 ≤ B := (norm_nonneg _).trans h.1
  exact ⟨h.1.trans hB, h.2.trans (mul_le_mul he hB B0 e0)⟩

theorem close_real {e B x' x : ℝ} (h1 : |x| ≤ B) (h2 : |x' - x| ≤ e * B) : Close e B (x' : ℂ) (x : ℂ) :=
  ⟨by rwa [Complex.norm_real, Real.norm_eq_abs], by rwa [← Complex.ofReal_sub, Complex.norm_real, Real.norm_eq_abs]⟩

section

variable {f : Format} (hf : IEEE f) {A : Arith} (hr : Nearest f A.rnd)

include hf hr

theorem cmul_err {z w : ℂ} {a b : ℝ} (hz : ‖z‖ ≤ a) (hw : ‖w‖ ≤ b) (hab : a * b ≤ 10 ^ 28) : ‖A.cmul z w - z * w‖ ≤ 4e-7 * (a * b) + 3e-37 := by
  have a0 : 0 ≤ a := (norm_nonneg _).trans hz
  have b0 : 0 ≤ b := (norm_nonneg _).trans hw
  have z1 := (Complex.abs_re_le_norm z).trans hz
  have z2 := (Complex.abs_im_le_norm z).trans hz
  have w1 := (Complex.abs_re_le_norm w).trans hw
  have w2 := (Complex.abs_im_le_norm w).trans hw
  have m0 : 0 ≤ a * b := by positivity
  have prod : ∀ {x y : ℝ}, |x| ≤ a → |y| ≤ b → |A.rnd (x * y) - x * y| ≤ 6e-8 * (a * b) + 2e-38 ∧ |x * y| ≤ a * b := fun {x y} hx hy => by
    have h : |x * y| ≤ a * b := by rw [abs_mul]; exact mul_le_mul hx hy (abs_nonneg _) a0
    refine ⟨(rnd_small hf hr (h.trans (hab.trans (by norm_num)))).trans ?_, h⟩
    generalize |x * y| = v at h ⊢
    norm_num; linarith
  have part : ∀ {p p' q q' : ℝ}, |p' - p| ≤ 6e-8 * (a * b) + 2e-38 → |p| ≤ a * b → |q' - q| ≤ 6e-8 * (a * b) + 2e-38 → |q| ≤ a * b →
      |A.rnd (p' + q') - (p + q)| ≤ 2.5e-7 * (a * b) + 1e-37 := fun {p p' q q'} h1 h2 h3 h4 => by
    have s : |p' + q' - (p + q)| ≤ 1.2e-7 * (a * b) + 4e-38 := by
      rw [show p' + q' - (p + q) = (p' - p) + (q' - q) by ring]
      refine (abs_add_le _ _).trans ?_
      norm_num at *; linarith
    have t : |p + q| ≤ 2 * (a * b) := (abs_add_le _ _).trans (by linarith)
    have n := near_of s t
    have r := rnd_small hf hr (x := p' + q') (n.trans (by norm_num at *; linarith))
    refine (tri_of r s).trans ?_
    norm_num at *; linarith
  have e1 := prod z1 w1
  have e2 := prod z2 w2
  have e3 := prod z1 w2
  have e4 := prod z2 w1
  refine (norm_le_parts (e := 2.5e-7 * (a * b) + 1e-37) ?_ ?_).trans (by norm_num; linarith)
  · have := part e1.1 e1.2 (p' := A.rnd (z.re * w.re)) (q' := -A.rnd (z.im * w.im)) (q := -(z.im * w.im)) (by rw [← neg_sub', abs_neg]; exact e2.1) (by rw [abs_neg]; exact e2.2)
    simpa [Arith.cmul, sub_eq_add_neg] using this
  · have := part e3.1 e3.2 e4.1 e4.2
    simpa [Arith.cmul] using this

theorem close_mul {e d a b : ℝ} {z' z w' w : ℂ} (hz : Close e a z' z) (hw : Close d b w' w) (e0 : 0 ≤ e) (e1 : e ≤ 0.1) (d0 : 0 ≤ d) (d1 : d ≤ 0.1)
    (lo : 1 / 10 ^ 25 ≤ a * b) (hi : a * b ≤ 10 ^ 25) : Close (e + d + e * d + 6e-7) (a * b) (A.cmul z' w') (z * w) := by
  have a0 : 0 ≤ a := (norm_nonneg _).trans hz.1
  have b0 : 0 ≤ b := (norm_nonneg _).trans hw.1
  refine ⟨by rw [norm_mul]; exact mul_le_mul hz.1 hw.1 (norm_nonneg _) a0, ?_⟩
  have nz : ‖z'‖ ≤ 1.1 * a := hz.norm.trans (mul_le_mul_of_nonneg_right (by norm_num at *; linarith) a0)
  have nw : ‖w'‖ ≤ 1.1 * b := hw.norm.trans (mul_le_mul_of_nonneg_right (by norm_num at *; linarith) b0)
  have c := cmul_err hf hr nz nw (by norm_num at *; nlinarith)
  have s : ‖z' * w' - z * w‖ ≤ e * a * ((1 + d) * b) + a * (d * b) := by
    rw [show z' * w' - z * w = (z' - z) * w' + z * (w' - w) by ring]
    refine (norm_add_le _ _).trans ?_
    rw [norm_mul, norm_mul]
    exact add_le_add (mul_le_mul hz.2 hw.norm (norm_nonneg _) (by positivity)) (mul_le_mul hz.1 hw.2 (norm_nonneg _) a0)
  refine (norm_sub_le_norm_sub_add_norm_sub _ _ _).trans ((add_le_add c s).trans ?_)
  have x1 : 1.1 * a * (1.1 * b) = 1.21 * (a * b) := by norm_num; ring
  have x2 : e * a * ((1 + d) * b) + a * (d * b) = (e + d + e * d) * (a * b) := by ring
  rw [x1, x2, add_mul _ 6e-7]
  norm_num at *; linarith

theorem close_add {e a b : ℝ} {z' z w' w : ℂ} (hz : Close e a z' z) (hw : Close e b w' w) (e1 : e ≤ 0.1)
    (lo : 1 / 10 ^ 25 ≤ a + b) (hi : a + b ≤ 10 ^ 25) : Close (e + 1e-7) (a + b) (A.cadd z' w') (z + w) := by
  refine ⟨(norm_add_le _ _).trans (add_le_add hz.1 hw.1), ?_⟩
  have n : ‖z' + w'‖ ≤ 1.1 * (a + b) := by
    refine (norm_add_le _ _).trans ((add_le_add hz.norm hw.norm).trans ?_)
    rw [← mul_add]
    refine mul_le_mul_of_nonneg_right (by norm_num at *; linarith) (le_trans (by norm_num) lo)
  have part : ∀ x : ℝ, |x| ≤ ‖z' + w'‖ → |A.rnd x - x| ≤ 6.7e-8 * (a + b) := fun x hx => by
    have := rnd_small hf hr (x := x) (hx.trans (n.trans (by norm_num at *; linarith)))
    norm_num at *; linarith
  have c : ‖A.cadd z' w' - (z' + w')‖ ≤ 1.415 * (6.7e-8 * (a + b)) :=
    norm_le_parts (part _ (Complex.abs_re_le_norm (z' + w'))) (part _ (Complex.abs_im_le_norm (z' + w')))
  have s : ‖z' + w' - (z + w)‖ ≤ e * a + e * b := by
    rw [show z' + w' - (z + w) = (z' - z) + (w' - w) by ring]
    exact (norm_add_le _ _).trans (add_le_add hz.2 hw.2)
  refine (norm_sub_le_norm_sub_add_norm_sub _ _ _).trans ((add_le_add c s).trans ?_)
  rw [add_mul, mul_add e]
  norm_num at *; linarith

/-- A sum of products of pairs. -/
theorem close_pair {e d a b : ℝ} {z' z w' w x' x y' y : ℂ} (hz : Close e a z' z) (hw : Close d b w' w) (hx : Close e a x' x) (hy : Close d b y' y) (e0 : 0 ≤ e) (e1 : e ≤ 0.04)
    (d0 : 0 ≤ d) (d1 : d ≤ 0.04) (lo : 1 / 10 ^ 25 ≤ a * b) (hi : a * b ≤ 10 ^ 24) :
    Close (e + d + e * d + 7e-7) (2 * (a * b)) (A.cadd (A.cmul z' w') (A.cmul x' y')) (z * w + x * y) := by
  have ed : e * d ≤ 0.04 * 0.04 := mul_le_mul e1 d1 d0 (by norm_num)
  have p := close_mul hf hr hz hw e0 (e1.trans (by norm_num)) d0 (d1.trans (by norm_num)) lo (hi.trans (by norm_num))
  have q := close_mul hf hr hx hy e0 (e1.trans (by norm_num)) d0 (d1.trans (by norm_num)) lo (hi.trans (by norm_num))
  have s := close_add hf hr p q (by norm_num at *; linarith) (by norm_num at *; linarith) (by norm_num at *; linarith)
  rw [← two_mul] at s
  exact s.mono (by norm_num at *; linarith) le_rfl (by have := mul_nonneg e0 d0; norm_num at *; linarith)

/-- The root of a rounded number. -/
theorem rounded_root_err {x B : ℝ} (hx : x = 0 ∨ 1 / 10 ^ 24 ≤ x) (hi : x ≤ 10 ^ 24) (hB : Real.sqrt x ≤ B) : |A.rnd (Real.sqrt (A.rnd x)) - Real.sqrt x| ≤ 1.4e-7 * B := by
  have z0 : A.rnd 0 = 0 := by
    have := rnd_abs_le hf hr (x := 0) (n := 0) (by simp) (by norm_num)
    simpa using this
  rcases hx with rfl | lo
  · have B0 : 0 ≤ B := by simpa using hB
    simp only [z0, Real.sqrt_zero, sub_zero, abs_zero]; positivity
  have x0 : 0 < x := lt_of_lt_of_le (by norm_num) lo
  have a : |A.rnd x - x| ≤ 6.1e-8 * x := by
    have := rnd_small hf hr (x := x) (by rw [abs_of_pos x0]; exact hi.trans (by norm_num))
    rw [abs_of_pos x0] at this
    norm_num at *; linarith
  have r0 : 0 ≤ A.rnd x := by have := abs_le.1 a; norm_num at *; linarith
  have b := sqrt_within x0.le r0 a
  have l : 1 / 10 ^ 12 ≤ Real.sqrt x := Real.le_sqrt_of_sq_le (by norm_num at *; linarith)
  have h : Real.sqrt x ≤ 10 ^ 12 := by
    rw [Real.sqrt_le_left (by norm_num)]; norm_num at *; linarith
  generalize Real.sqrt x = v at *
  generalize Real.sqrt (A.rnd x) = w at *
  have v0 : 0 < v := lt_of_lt_of_le (by norm_num) l
  have n := near_of b (abs_of_pos v0).le
  have c := rnd_small hf hr (x := w) (n.trans (by norm_num at *; linarith))
  refine (tri_of c b).trans ?_
  clear a r0
  norm_num at *; linarith

theorem phase_close {E : ℝ → ℂ} (hE : AccurateCis E) {phi : Fin 4 → ℝ} {xpr K : ℝ} (hphi : ∀ k, |phi k| ≤ 10) (h1 : 1 / 10 ^ 12 ≤ xpr) (h2 : xpr ≤ 10 ^ 12)
    (hK : Real.sqrt (1 / xpr) ≤ K) (K1 : 1 ≤ K) (K2 : K ≤ 1000) (i j : Fin 2) : Close 1.3e-6 K (A.phaseMatrix E phi xpr i j) (phaseMatrix phi xpr i j) := by
  have x0 : 0 < xpr := lt_of_lt_of_le (by norm_num) h1
  have hcis (k : Fin 4) : Close 4.8e-7 1 (E (phi k)) (Complex.exp (Complex.I * (phi k : ℂ))) := by
    have := hE (phi k) ((hphi k).trans (by norm_num))
    rw [mul_comm Complex.I]
    exact ⟨(Complex.norm_exp_ofReal_mul_I _).le, this.trans (by norm_num)⟩
  have y1 : 1 / 10 ^ 24 ≤ 1 / xpr := by
    rw [div_le_div_iff₀ (by norm_num) x0]; norm_num at *; linarith
  have y2 : 1 / xpr ≤ 10 ^ 24 := by
    rw [div_le_iff₀ x0]; norm_num at *; linarith
  have s : Close 1.4e-7 K ((A.rnd (Real.sqrt (A.rnd (1 / xpr))) : ℝ) : ℂ) ((Real.sqrt (1 / xpr) : ℝ) : ℂ) :=
    close_real (by rw [abs_of_nonneg (Real.sqrt_nonneg _)]; exact hK) (rounded_root_err hf hr (Or.inr y1) y2 hK)
  have m (k : Fin 4) : Close 1.3e-6 K (A.cmul ((A.rnd (Real.sqrt (A.rnd (1 / xpr))) : ℝ) : ℂ) (E (phi k))) ((Real.sqrt (1 / xpr) : ℝ) * Complex.exp (Complex.I * (phi k : ℂ))) := by
    have := close_mul hf hr s (hcis k) (by norm_num) (by norm_num) (by norm_num) (by norm_num) (by rw [mul_one]; exact le_trans (by norm_num) K1) (by rw [mul_one]; exact K2.trans (by norm_num))
    exact this.mono (by norm_num) (by rw [mul_one]) (by norm_num)
  have c (k : Fin 4) := (hcis k).mono (e' := 1.3e-6) (B' := K) (by norm_num) K1 (by norm_num)
  fin_cases i <;> fin_cases j
  · exact c 0
  · exact m 1
  · exact m 2
  · exact c 3

theorem faraday_angle_err (hp : Nearest double A.py) {fc : ℝ} (h1 : 10 ^ 9 ≤ fc) (h2 : fc ≤ 10 ^ 11) :
    |A.faradayAngle fc - 108 / (fc / 1e9 * (fc / 1e9)) * (Real.pi / 180)| ≤ 1.8e-6 ∧ |108 / (fc / 1e9 * (fc / 1e9)) * (Real.pi / 180)| ≤ 2 := by
  have u1 := unit_lt_one hf
  have up := unit_pos f
  have f0 : 0 < fc := lt_of_lt_of_le (by norm_num) h1
  have pb := Real.pi_gt_three
  have pb' := Real.pi_lt_d2
  have g1 : 1 ≤ fc / 1e9 := by rw [le_div_iff₀ (by norm_num)]; norm_num at *; linarith
  have g2 : fc / 1e9 ≤ 100 := by rw [div_le_iff₀ (by norm_num)]; norm_num at *; linarith
  have a1 : Rel f.unit 1 fc (A.rnd fc) := rnd_rel hf hr (by rw [abs_of_pos f0]; exact le_trans (by norm_num) h1) (by rw [abs_of_pos f0]; exact h2.trans (by norm_num))
  have a2 : Rel f.unit 1 (fc / 1e9) (A.rnd fc / 1e9) := a1.div u1 (Rel.refl _ _)
  have a3 := a2.rnd hf hr (by norm_num) (le_trans (by norm_num) g1) (g2.trans (by norm_num))
  have s1 : 1 ≤ fc / 1e9 * (fc / 1e9) := by nlinarith
  have s2 : fc / 1e9 * (fc / 1e9) ≤ 10000 := by nlinarith
  have a4 := (a3.mul u1 a3).rnd hf hr (by norm_num) (le_trans (by norm_num) s1) (s2.trans (by norm_num))
  have d1 : 0.01 ≤ 108 / (fc / 1e9 * (fc / 1e9)) := by rw [le_div_iff₀ (by linarith)]; norm_num at *; linarith
  have d2 : 108 / (fc / 1e9 * (fc / 1e9)) ≤ 108 := by rw [div_le_iff₀ (by linarith)]; linarith
  have a5 := ((Rel.refl f.unit 108).div u1 a4).rnd hf hr (by norm_num) (le_trans (by norm_num) d1) (d2.trans (by norm_num))
  have pyr : Rel f.unit 1 Real.pi (A.py Real.pi) := by
    refine Rel.of_err up.le u1 ((hp.rel (by norm_num [double]) ?_ ?_).trans ?_)
    · rw [abs_of_pos Real.pi_pos]; exact (tiny_le (Or.inr rfl)).trans (le_trans (by norm_num) pb.le)
    · rw [abs_of_pos Real.pi_pos]; exact lt_trans (by linarith : Real.pi < 10 ^ 20) (lt_trans (by norm_num) (range_ge (Or.inr rfl)))
    · exact mul_le_mul_of_nonneg_right (unit_double_le hf) (abs_nonneg _)
  have q1b := pyr.bounds hf (by norm_num) Real.pi_pos
  have q2 := Rel.div u1 pyr (Rel.refl f.unit (180 : ℝ))
  have q3 := conv_rel hf hr hp (x := A.py Real.pi / 180) (by linarith) (by linarith)
  have q4 := Rel.trans u1 q2 q3
  have b1 : 0 < 108 / (fc / 1e9 * (fc / 1e9)) * (Real.pi / 180) := by positivity
  have b2 : 108 / (fc / 1e9 * (fc / 1e9)) * (Real.pi / 180) ≤ 108 * (3.15 / 180) := by
    refine mul_le_mul d2 ?_ (by positivity) (by norm_num)
    norm_num at *; linarith
  have b3 : 0.01 * (3 / 180) ≤ 108 / (fc / 1e9 * (fc / 1e9)) * (Real.pi / 180) := mul_le_mul d1 (by linarith) (by norm_num) (by linarith)
  have q6 := (Rel.mul u1 a5 q4).rnd hf hr (by norm_num) (le_trans (by norm_num) b3) (b2.trans (by norm_num))
  have ae := q6.abs up.le (by have := unit_le hf; norm_num at *; linarith)
  have e : A.faradayAngle fc = A.rnd (A.rnd (108 / A.rnd (A.rnd (A.rnd fc / 1e9) * A.rnd (A.rnd fc / 1e9))) * A.rnd (A.py (A.py Real.pi / 180))) := rfl
  rw [← e] at ae
  refine ⟨ae.trans ?_, by rw [abs_of_pos b1]; norm_num at *; linarith⟩
  rw [abs_of_pos b1]
  have := mul_le_mul (unit_le hf) b2 b1.le (by norm_num)
  norm_num at *; nlinarith

theorem faraday_close {T : TrigLib} (hT : AccurateTrig T) (hp : Nearest double A.py) {fc : ℝ} (h1 : 10 ^ 9 ≤ fc) (h2 : fc ≤ 10 ^ 11) (i j : Fin 2) :
    Close 2e-6 1 (A.faradayRotation T fc i j) (faradayRotation fc i j) := by
  obtain ⟨e, b⟩ := faraday_angle_err hf hr hp h1 h2
  have n := near_of e b
  have n' : |A.faradayAngle fc| ≤ 10 := n.trans (by norm_num)
  have s : Close 2e-6 1 ((T.sin (A.faradayAngle fc) : ℝ) : ℂ) ((Real.sin (108 / (fc / 1e9 * (fc / 1e9)) * (Real.pi / 180)) : ℝ) : ℂ) :=
    close_real (Real.abs_sin_le_one _) ((tri_of (hT.sin _ n') ((Real.abs_sin_sub_sin_le _ _).trans e)).trans (by norm_num))
  have c : Close 2e-6 1 ((T.cos (A.faradayAngle fc) : ℝ) : ℂ) ((Real.cos (108 / (fc / 1e9 * (fc / 1e9)) * (Real.pi / 180)) : ℝ) : ℂ) :=
    close_real (Real.abs_cos_le_one _) ((tri_of (hT.cos _ n') ((Real.abs_cos_sub_cos_le _ _).trans e)).trans (by norm_num))
  have m : Close 2e-6 1 (-(T.sin (A.faradayAngle fc) : ℝ) : ℂ) (-(Real.sin (108 / (fc / 1e9 * (fc / 1e9)) * (Real.pi / 180)) : ℝ) : ℂ) := by
    refine ⟨by rw [norm_neg]; exact s.1, ?_⟩
    rw [← neg_sub', norm_neg]; exact s.2
  fin_cases i <;> fin_cases j
  · exact c
  · exact m
  · exact s
  · exact c

theorem with_faraday_close {T : TrigLib} (hT : AccurateTrig T) (hp : Nearest double A.py) {fc : ℝ} (h1 : 10 ^ 9 ≤ fc) (h2 : fc ≤ 10 ^ 11) (sat : Bool) {P' P : Matrix (Fin 2) (Fin 2) ℂ}
    {K : ℝ} (K1 : 1 ≤ K) (K2 : K ≤ 1000) (hP : ∀ i j, Close 1.3e-6 K (P' i j) (P i j)) (i j : Fin 2) :
    Close 4.1e-6 (2 * K) (A.withFaraday T sat fc P' i j) (Arith.exact.withFaraday TrigLib.exact sat fc P i j) := by
  cases sat
  · exact (hP i j).mono (by norm_num) (by linarith) (by norm_num)
  · have := close_pair hf hr (hP i 0) (faraday_close hf hr hT hp h1 h2 0 j) (hP i 1) (faraday_close hf hr hT hp h1 h2 1 j) (by norm_num) (by norm_num) (by norm_num) (by norm_num)
      (by rw [mul_one]; exact le_trans (by norm_num) K1) (by rw [mul_one]; exact K2.trans (by norm_num))
    rw [mul_one] at this
    have e : Arith.exact.withFaraday TrigLib.exact true fc P i j = P i 0 * faradayRotation fc 0 j + P i 1 * faradayRotation fc 1 j := by
      simp only [Arith.withFaraday, if_true, exact_cmul, exact_cadd]; rfl
    rw [e]
    exact this.mono (by norm_num) le_rfl (by norm_num)

theorem field_close {P' P : Matrix (Fin 2) (Fin 2) ℂ} {K Ft Fr ef : ℝ} {tx' tx rx' rx : Fin 2 → ℝ} (K1 : 1 ≤ K) (K2 : K ≤ 1000) (hP : ∀ i j, Close 4.1e-6 (2 * K) (P' i j) (P i j))
    (Ft1 : 1 / 10 ^ 3 ≤ Ft) (Ft2 : Ft ≤ 10 ^ 3) (Fr1 : 1 / 10 ^ 3 ≤ Fr) (Fr2 : Fr ≤ 10 ^ 3) (e0 : 0 ≤ ef) (e1 : ef ≤ 1 / 100)
    (hb : ∀ k, |tx k| ≤ Ft ∧ |tx' k - tx k| ≤ ef * Ft) (hu : ∀ k, |rx k| ≤ Fr ∧ |rx' k - rx k| ≤ ef * Fr) :
    Close (5.7e-6 + 2.02 * ef) (8 * (K * Ft * Fr)) (A.fieldMatrix P' tx' rx') (Arith.exact.fieldMatrix P tx rx) := by
  have tc (k : Fin 2) := close_real (hb k).1 (hb k).2
  have rc (k : Fin 2) := close_real (hu k).1 (hu k).2
  have kt1 : 1 * (1 / 10 ^ 3) ≤ K * Ft := mul_le_mul K1 Ft1 (by norm_num) (by linarith)
  have kt2 : K * Ft ≤ 1000 * 10 ^ 3 := mul_le_mul K2 Ft2 (le_trans (by norm_num) Ft1) (by norm_num)
  have kr1 : 1 * (1 / 10 ^ 3) * (1 / 10 ^ 3) ≤ K * Ft * Fr := mul_le_mul kt1 Fr1 (by norm_num) (le_trans (by norm_num) kt1)
  have kr2 : K * Ft * Fr ≤ 1000 * 10 ^ 3 * 10 ^ 3 := mul_le_mul kt2 Fr2 (le_trans (by norm_num) Fr1) (by norm_num)
  have g (k : Fin 2) : Close (4.9e-6 + 1.001 * ef) (4 * (K * Ft)) (A.cadd (A.cmul (P' k 0) (tx' 0 : ℂ)) (A.cmul (P' k 1) (tx' 1 : ℂ))) (P k 0 * (tx 0 : ℂ) + P k 1 * (tx 1 : ℂ)) := by
    have := close_pair hf hr (hP k 0) (tc 0) (hP k 1) (tc 1) (by norm_num) (by norm_num) e0 (e1.trans (by norm_num))
      (by rw [mul_assoc]; norm_num at *; linarith) (by rw [mul_assoc]; norm_num at *; linarith)
    exact this.mono (by norm_num at *; linarith) (by linarith) (by positivity)
  have e2 : ef * (4.9e-6 + 1.001 * ef) ≤ 0.0101 * ef := by norm_num at *; nlinarith
  have b : Fr * (4 * (K * Ft)) = 4 * (K * Ft * Fr) := by ring
  have := close_pair hf hr (rc 0) (g 0) (rc 1) (g 1) e0 (e1.trans (by norm_num)) (by positivity) (by norm_num at *; linarith)
    (by rw [b]; norm_num at *; linarith) (by rw [b]; norm_num at *; linarith)
  have e : Arith.exact.fieldMatrix P tx rx = (rx 0 : ℂ) * (P 0 0 * (tx 0 : ℂ) + P 0 1 * (tx 1 : ℂ)) + (rx 1 : ℂ) * (P 1 0 * (tx 0 : ℂ) + P 1 1 * (tx 1 : ℂ)) := by
    simp only [Arith.fieldMatrix, exact_cmul, exact_cadd]
  rw [e]
  exact this.mono (by norm_num at *; linarith) (by rw [b]; linarith) (by positivity)

/-- Products with three more factors. -/
theorem factors_close {e ea ed ec B C : ℝ} {z' z a' a d' d c' c : ℂ} (hz : Close e B z' z) (ha : Close ea 1 a' a) (hd : Close ed 1 d' d) (hc : Close ec C c' c)
    (e0 : 0 ≤ e) (e1 : e ≤ 0.021) (ea0 : 0 ≤ ea) (ea1 : ea ≤ 1 / 100) (ed0 : 0 ≤ ed) (ed1 : ed ≤ 1 / 100) (ec0 : 0 ≤ ec) (ec1 : ec ≤ 1 / 100)
    (b1 : 1 / 10 ^ 10 ≤ B) (b2 : B ≤ 10 ^ 12) (c1 : 1 / 10 ^ 12 ≤ C) (c2 : C ≤ 10 ^ 12) :
    Close (1.04 * e + 1.9e-6 + 1.04 * ea + 1.05 * ed + 1.06 * ec) (B * C) (A.cmul (A.cmul (A.cmul z' a') d') c') (z * a * d * c) := by
  have p1 := close_mul hf hr hz ha e0 (e1.trans (by norm_num)) ea0 (ea1.trans (by norm_num)) (by rw [mul_one]; exact le_trans (by norm_num) b1) (by rw [mul_one]; exact b2.trans (by norm_num))
  rw [mul_one] at p1
  have m1 : e * ea ≤ 0.021 * ea := mul_le_mul_of_nonneg_right e1 ea0
  have m1' : e * ea ≤ e * (1 / 100) := mul_le_mul_of_nonneg_left ea1 e0
  have m10 : 0 ≤ e * ea := mul_nonneg e0 ea0
  generalize hq : e + ea + e * ea + 6e-7 = q at p1
  have q0 : 0 ≤ q := by rw [← hq]; positivity
  have q1 : q ≤ 0.0315 := by norm_num at *; linarith
  have p2 := close_mul hf hr p1 hd q0 (q1.trans (by norm_num)) ed0 (ed1.trans (by norm_num)) (by rw [mul_one]; exact le_trans (by norm_num) b1) (by rw [mul_one]; exact b2.trans (by norm_num))
  rw [mul_one] at p2
  have m2 : q * ed ≤ 0.0315 * ed := mul_le_mul_of_nonneg_right q1 ed0
  have m2' : q * ed ≤ q * (1 / 100) := mul_le_mul_of_nonneg_left ed1 q0
  have m20 : 0 ≤ q * ed := mul_nonneg q0 ed0
  generalize hv : q + ed + q * ed + 6e-7 = v at p2
  have v0 : 0 ≤ v := by rw [← hv]; positivity
  have v1 : v ≤ 0.042 := by norm_num at *; linarith
  have B0 : 0 ≤ B := le_trans (by norm_num) b1
  have l : 1 / 10 ^ 10 * (1 / 10 ^ 12) ≤ B * C := mul_le_mul b1 c1 (by norm_num) B0
  have h : B * C ≤ 10 ^ 12 * 10 ^ 12 := mul_le_mul b2 c2 (le_trans (by norm_num) c1) (by norm_num)
  have p3 := close_mul hf hr p2 hc v0 (v1.trans (by norm_num)) ec0 (ec1.trans (by norm_num)) (le_trans (by norm_num) l) (h.trans (by norm_num))
  have m3 : v * ec ≤ 0.042 * ec := mul_le_mul_of_nonneg_right v1 ec0
  refine p3.mono ?_ le_rfl (by positivity)
  norm_num at *; linarith

theorem rounded_sum_err {l : List ℝ} {s : ℝ} (h : RoundedSum A.rnd l s) (n : l.length ≤ 20) (b : (l.map abs).sum ≤ 10 ^ 28) :
    1 ≤ l.length ∧ |l.sum| ≤ (l.map abs).sum ∧ |s - l.sum| ≤ ((l.length : ℝ) - 1) * (7e-8 * (l.map abs).sum + 3e-38) := by
  induction h with
  | single x => simp
  | @add l r u v _ _ il ir =>
    rw [List.length_append] at n
    rw [List.map_append, List.sum_append] at b
    have l0 : 0 ≤ (l.map abs).sum := List.sum_nonneg (by simp)
    have r0 : 0 ≤ (r.map abs).sum := List.sum_nonneg (by simp)
    obtain ⟨l1, l2, l3⟩ := il (by omega) (by linarith)
    obtain ⟨r1, r2, r3⟩ := ir (by omega) (by linarith)
    rw [List.length_append, List.map_append, List.sum_append, List.sum_append]
    have nl : (1 : ℝ) ≤ l.length := by exact_mod_cast l1
    have nr : (1 : ℝ) ≤ r.length := by exact_mod_cast r1
    have nn : (l.length : ℝ) + r.length ≤ 20 := by exact_mod_cast n
    push_cast
    generalize (l.length : ℝ) = x at *
    generalize (r.length : ℝ) = y at *
    generalize (l.map abs).sum = P at *
    generalize (r.map abs).sum = Q at *
    have m1 : (x - 1) * (7e-8 * P + 3e-38) ≤ (x - 1) * (7e-8 * (P + Q) + 3e-38) := mul_le_mul_of_nonneg_left (by norm_num at *; linarith) (by linarith)
    have m2 : (y - 1) * (7e-8 * Q + 3e-38) ≤ (y - 1) * (7e-8 * (P + Q) + 3e-38) := mul_le_mul_of_nonneg_left (by norm_num at *; linarith) (by linarith)
    have m3 : (x + y - 2) * (7e-8 * (P + Q) + 3e-38) ≤ 18 * (7e-8 * (P + Q) + 3e-38) := mul_le_mul_of_nonneg_right (by linarith) (by positivity)
    have e : |u + v - (l.sum + r.sum)| ≤ (x + y - 2) * (7e-8 * (P + Q) + 3e-38) := by
      rw [show u + v - (l.sum + r.sum) = (u - l.sum) + (v - r.sum) by ring]
      refine (abs_add_le _ _).trans ((add_le_add (l3.trans m1) (r3.trans m2)).trans (le_of_eq (by ring)))
    have w : |l.sum + r.sum| ≤ P + Q := (abs_add_le _ _).trans (add_le_add l2 r2)
    have g := near_of (e.trans m3) w
    have c := rnd_small hf hr (x := u + v) (g.trans (by norm_num at *; linarith))
    refine ⟨by omega, w, (tri_of c e).trans ?_⟩
    rw [show x + y - 1 = (x + y - 2) + 1 by ring, add_mul, one_mul]
    norm_num at *; linarith
  | perm hp _ ih =>
    rw [← hp.length_eq] at n ⊢
    have := (hp.map abs).sum_eq
    rw [← this] at b ⊢
    rw [← hp.sum_eq]
    exact ih n b

/-- A sum of contributions that each have an error. -/
theorem ray_sum_close {ι : Type} {e B : ℝ} (z' z : ι → ℂ) (ms : List ι) {s : ℂ} (h : ∀ m ∈ ms, Close e B (z' m) (z m)) (hs : A.IsRaySum (ms.map z') s) (n : ms.length ≤ 20)
    (e0 : 0 ≤ e) (e1 : e ≤ 1 / 10) (b1 : 1 / 10 ^ 25 ≤ B) (b2 : B ≤ 10 ^ 25) : Close (e + 2.2e-6) (ms.length * B) s (ms.map z).sum := by
  have B0 : 0 ≤ B := le_trans (by norm_num) b1
  have l0 : (ms.length : ℝ) ≤ 20 := by exact_mod_cast n
  have tot : ∀ (l : List ι), (∀ m ∈ l, Close e B (z' m) (z m)) → ‖(l.map z).sum‖ ≤ l.length * B ∧ ‖(l.map z').sum - (l.map z).sum‖ ≤ l.length * (e * B) := by
    intro l
    induction l with
    | nil => simp
    | cons m l ih =>
      intro hl
      obtain ⟨a, b⟩ := ih fun k hk => hl k (List.mem_cons_of_mem _ hk)
      have c := hl m List.mem_cons_self
      simp only [List.map_cons, List.sum_cons, List.length_cons]
      push_cast
      constructor
      · refine (norm_add_le _ _).trans ?_; linarith [c.1]
      · rw [show z' m + (l.map z').sum - (z m + (l.map z).sum) = (z' m - z m) + ((l.map z').sum - (l.map z).sum) by ring]
        refine (norm_add_le _ _).trans ?_; linarith [c.2]
  obtain ⟨t1, t2⟩ := tot ms h
  have part : ∀ (q : ℂ → ℝ), (∀ w, |q w| ≤ ‖w‖) → ∀ v, RoundedSum A.rnd ((ms.map z').map q) v → |v - ((ms.map z').map q).sum| ≤ 1.5e-6 * (ms.length * B) := by
    intro q hq v hv
    have bound : ∀ (l : List ι), (∀ m ∈ l, Close e B (z' m) (z m)) → (((l.map z').map q).map abs).sum ≤ l.length * (1.1 * B) := by
      intro l
      induction l with
      | nil => simp
      | cons m l ih =>
        intro hl
        have a := ih fun k hk => hl k (List.mem_cons_of_mem _ hk)
        have c := (hq (z' m)).trans ((hl m List.mem_cons_self).norm.trans (mul_le_mul_of_nonneg_right (show 1 + e ≤ 1.1 by norm_num at *; linarith) B0))
        simp only [List.map_cons, List.sum_cons, List.length_cons]
        push_cast
        linarith
    have bd := bound ms h
    have big : (ms.length : ℝ) * (1.1 * B) ≤ 20 * (1.1 * B) := mul_le_mul_of_nonneg_right l0 (by positivity)
    obtain ⟨r1, _, r3⟩ := rounded_sum_err hf hr hv (by simpa using n) (by norm_num at *; linarith)
    refine r3.trans ?_
    simp only [List.length_map] at r1 ⊢
    have nl : (1 : ℝ) ≤ ms.length := by exact_mod_cast r1
    have lB : B ≤ ms.length * B := le_mul_of_one_le_left B0 nl
    have p0 : 0 ≤ (((ms.map z').map q).map abs).sum := List.sum_nonneg (by simp)
    generalize (((ms.map z').map q).map abs).sum = P at *
    have m : ((ms.length : ℝ) - 1) * (7e-8 * P + 3e-38) ≤ 19 * (7e-8 * P + 3e-38) := mul_le_mul_of_nonneg_right (by linarith) (by positivity)
    refine m.trans ?_
    norm_num at *; linarith
  have sre : (ms.map z').sum.re = ((ms.map z').map Complex.re).sum := map_list_sum Complex.reAddGroupHom _
  have sim : (ms.map z').sum.im = ((ms.map z').map Complex.im).sum := map_list_sum Complex.imAddGroupHom _
  have c : ‖s - (ms.map z').sum‖ ≤ 1.415 * (1.5e-6 * (ms.length * B)) := by
    refine norm_le_parts ?_ ?_
    · rw [Complex.sub_re, sre]; exact part _ Complex.abs_re_le_norm _ hs.1
    · rw [Complex.sub_im, sim]; exact part _ Complex.abs_im_le_norm _ hs.2
  refine ⟨t1, (norm_sub_le_norm_sub_add_norm_sub _ _ _).trans ((add_le_add c t2).trans ?_)⟩
  have m0 : 0 ≤ (ms.length : ℝ) * B := by positivity
  rw [add_mul, show (ms.length : ℝ) * (e * B) = e * (ms.length * B) by ring]
  norm_num at *; linarith

/-- Contribution of a ray: the errors of field components (`ef`), array (`ea`) and movement (`ed`) add up, and the assembly adds 8e-6. -/
theorem C223_ray {T : TrigLib} (hT : AccurateTrig T) {E : ℝ → ℂ} (hE : AccurateCis E) (hp : Nearest double A.py) {M : ℕ} (g : CoeffGen) (l : LinkTopo) (r : LinkRays M)
    (phi : Fin M → Fin raysPerCluster → Fin 4 → ℝ) (n : Fin M) (m : Fin raysPerCluster) (u s : ℕ) (t : ℝ) {K Ft Fr S ef ea ed : ℝ} {tx rx : Fin 2 → ℝ} {a d : ℂ}
    (f1 : 10 ^ 9 ≤ g.fc) (f2 : g.fc ≤ 10 ^ 11) (hphi : ∀ k, |phi n m k| ≤ 10) (x1 : 1 / 10 ^ 12 ≤ r.xpr n m) (x2 : r.xpr n m ≤ 10 ^ 12)
    (hK : Real.sqrt (1 / r.xpr n m) ≤ K) (K1 : 1 ≤ K) (K2 : K ≤ 1000) (p1 : r.powers n = 0 ∨ 1 / 10 ^ 20 ≤ r.powers n) (hS : Real.sqrt (r.powers n / 20) ≤ S)
    (S1 : 1 / 10 ^ 10 ≤ S) (S2 : S ≤ 10 ^ 3) (Ft1 : 1 / 10 ^ 3 ≤ Ft) (Ft2 : Ft ≤ 10 ^ 3) (Fr1 : 1 / 10 ^ 3 ≤ Fr) (Fr2 : Fr ≤ 10 ^ 3)
    (ef0 : 0 ≤ ef) (ef1 : ef ≤ 1 / 100) (ea0 : 0 ≤ ea) (ea1 : ea ≤ 1 / 100) (ed0 : 0 ≤ ed) (ed1 : ed ≤ 1 / 100)
    (htx : ∀ k, |fieldVector g.tx l.txOri (r.zod n m) (r.aod n m) s k| ≤ Ft ∧ |tx k - fieldVector g.tx l.txOri (r.zod n m) (r.aod n m) s k| ≤ ef * Ft)
    (hrx : ∀ k, |fieldVector g.rx l.rxOri (r.zoa n m) (r.aoa n m) u k| ≤ Fr ∧ |rx k - fieldVector g.rx l.rxOri (r.zoa n m) (r.aoa n m) u k| ≤ ef * Fr)
    (ha : Close ea 1 a (arrayOffset g l (r.aoa n m) (r.aod n m) (r.zoa n m) (r.zod n m) u s)) (hd : Close ed 1 d (dopplerTerm g l (r.aoa n m) (r.zoa n m) (r.aod n m) (r.zod n m) t)) :
    Close (8e-6 + 2.2 * ef + 1.1 * ea + 1.1 * ed) (8 * (K * Ft * Fr) * S)
      (A.nlosRay T E (decide (600000 ≤ l.bsHeight)) g.fc (phi n m) (r.xpr n m) (r.powers n) tx rx a d) (nlosRay g l r phi n m u s t) := by
  rw [(C223_model g l r phi n m u s t).1]
  have ph (i j : Fin 2) : Close 1.3e-6 K (A.phaseMatrix E (phi n m) (r.xpr n m) i j) (phaseMatrix (phi n m) (r.xpr n m) i j) := phase_close hf hr hE hphi x1 x2 hK K1 K2 i j
  have fa := with_faraday_close hf hr hT hp f1 f2 (decide (600000 ≤ l.bsHeight)) K1 K2 ph
  have fi := field_close hf hr K1 K2 fa Ft1 Ft2 Fr1 Fr2 ef0 ef1 htx hrx
  have kt1 : 1 * (1 / 10 ^ 3) ≤ K * Ft := mul_le_mul K1 Ft1 (by norm_num) (by linarith)
  have kt2 : K * Ft ≤ 1000 * 10 ^ 3 := mul_le_mul K2 Ft2 (le_trans (by norm_num) Ft1) (by norm_num)
  have kr1 : 1 * (1 / 10 ^ 3) * (1 / 10 ^ 3) ≤ K * Ft * Fr := mul_le_mul kt1 Fr1 (by norm_num) (le_trans (by norm_num) kt1)
  have kr2 : K * Ft * Fr ≤ 1000 * 10 ^ 3 * 10 ^ 3 := mul_le_mul kt2 Fr2 (le_trans (by norm_num) Fr1) (by norm_num)
  have s20 : r.powers n ≤ 20 * 10 ^ 6 := by
    have h := (Real.sqrt_le_left (by linarith [show (0 : ℝ) ≤ 1 / 10 ^ 10 by norm_num])).1 hS
    have : S ^ 2 ≤ (10 ^ 3) ^ 2 := pow_le_pow_left₀ (le_trans (by norm_num) S1) S2 2
    norm_num at *; linarith
  have q1 : r.powers n / 20 = 0 ∨ 1 / 10 ^ 24 ≤ r.powers n / 20 := p1.imp (fun h => by rw [h, zero_div]) (fun h => by norm_num at *; linarith)
  have po : Close 1.4e-7 S ((A.rnd (Real.sqrt (A.rnd (r.powers n / 20))) : ℝ) : ℂ) ((Real.sqrt (r.powers n / 20) : ℝ) : ℂ) :=
    close_real (by rw [abs_of_nonneg (Real.sqrt_nonneg _)]; exact hS) (rounded_root_err hf hr q1 (by norm_num at *; linarith) hS)
  have fin := factors_close hf hr fi ha hd po (by positivity) (by norm_num at *; linarith) ea0 ea1 ed0 ed1 (by norm_num) (by norm_num) (by norm_num at *; linarith) (by norm_num at *; linarith)
    (le_trans (by norm_num) S1) (S2.trans (by norm_num))
  have hp' : Arith.exact.phaseMatrix (fun x => Complex.exp (Complex.I * (x : ℂ))) (phi n m) (r.xpr n m) = phaseMatrix (phi n m) (r.xpr n m) := by
    simp only [Arith.phaseMatrix, exact_cmul]; rfl
  have e20 : ((raysPerCluster : ℕ) : ℝ) = 20 := by norm_num [raysPerCluster]
  simp only [Arith.nlosRay, hp', e20, exact_cmul]
  refine fin.mono (by norm_num at *; linarith) le_rfl (by positivity)

/-- Coefficient of a cluster or of a part of it: any order of adding up to twenty rays. -/
theorem C223_cluster {T : TrigLib} (hT : AccurateTrig T) {E : ℝ → ℂ} (hE : AccurateCis E) (hp : Nearest double A.py) {M : ℕ} (g : CoeffGen) (l : LinkTopo) (r : LinkRays M)
    (phi : Fin M → Fin raysPerCluster → Fin 4 → ℝ) (n : Fin M) (ms : List (Fin raysPerCluster)) (u s : ℕ) (t : ℝ) {K Ft Fr S ef ea ed : ℝ} {tx rx : Fin raysPerCluster → Fin 2 → ℝ}
    {a d : Fin raysPerCluster → ℂ} (ms1 : ms.length ≤ 20)
    (f1 : 10 ^ 9 ≤ g.fc) (f2 : g.fc ≤ 10 ^ 11) (hphi : ∀ m k, |phi n m k| ≤ 10) (x1 : ∀ m, 1 / 10 ^ 12 ≤ r.xpr n m) (x2 : ∀ m, r.xpr n m ≤ 10 ^ 12)
    (hK : ∀ m, Real.sqrt (1 / r.xpr n m) ≤ K) (K1 : 1 ≤ K) (K2 : K ≤ 1000) (p1 : r.powers n = 0 ∨ 1 / 10 ^ 20 ≤ r.powers n) (hS : Real.sqrt (r.powers n / 20) ≤ S)
    (S1 : 1 / 10 ^ 10 ≤ S) (S2 : S ≤ 10 ^ 3) (Ft1 : 1 / 10 ^ 3 ≤ Ft) (Ft2 : Ft ≤ 10 ^ 3) (Fr1 : 1 / 10 ^ 3 ≤ Fr) (Fr2 : Fr ≤ 10 ^ 3)
    (ef0 : 0 ≤ ef) (ef1 : ef ≤ 1 / 100) (ea0 : 0 ≤ ea) (ea1 : ea ≤ 1 / 100) (ed0 : 0 ≤ ed) (ed1 : ed ≤ 1 / 100)
    (htx : ∀ m k, |fieldVector g.tx l.txOri (r.zod n m) (r.aod n m) s k| ≤ Ft ∧ |tx m k - fieldVector g.tx l.txOri (r.zod n m) (r.aod n m) s k| ≤ ef * Ft)
    (hrx : ∀ m k, |fieldVector g.rx l.rxOri (r.zoa n m) (r.aoa n m) u k| ≤ Fr ∧ |rx m k - fieldVector g.rx l.rxOri (r.zoa n m) (r.aoa n m) u k| ≤ ef * Fr)
    (ha : ∀ m, Close ea 1 (a m) (arrayOffset g l (r.aoa n m) (r.aod n m) (r.zoa n m) (r.zod n m) u s))
    (hd : ∀ m, Close ed 1 (d m) (dopplerTerm g l (r.aoa n m) (r.zoa n m) (r.aod n m) (r.zod n m) t)) {h : ℂ}
    (hh : A.IsRaySum (ms.map fun m => A.nlosRay T E (decide (600000 ≤ l.bsHeight)) g.fc (phi n m) (r.xpr n m) (r.powers n) (tx m) (rx m) (a m) (d m)) h) :
    Close (1.1e-5 + 2.2 * ef + 1.1 * ea + 1.1 * ed) (ms.length * (8 * (K * Ft * Fr) * S)) h (ms.map fun m => nlosRay g l r phi n m u s t).sum := by
  have kt1 : 1 * (1 / 10 ^ 3) ≤ K * Ft := mul_le_mul K1 Ft1 (by norm_num) (by linarith)
  have kt2 : K * Ft ≤ 1000 * 10 ^ 3 := mul_le_mul K2 Ft2 (le_trans (by norm_num) Ft1) (by norm_num)
  have kr1 : 1 * (1 / 10 ^ 3) * (1 / 10 ^ 3) ≤ K * Ft * Fr := mul_le_mul kt1 Fr1 (by norm_num) (le_trans (by norm_num) kt1)
  have kr2 : K * Ft * Fr ≤ 1000 * 10 ^ 3 * 10 ^ 3 := mul_le_mul kt2 Fr2 (le_trans (by norm_num) Fr1) (by norm_num)
  have ks1 : 1 * (1 / 10 ^ 3) * (1 / 10 ^ 3) * (1 / 10 ^ 10) ≤ K * Ft * Fr * S := mul_le_mul kr1 S1 (by norm_num) (le_trans (by norm_num) kr1)
  have ks2 : K * Ft * Fr * S ≤ 1000 * 10 ^ 3 * 10 ^ 3 * 10 ^ 3 := mul_le_mul kr2 S2 (le_trans (by norm_num) S1) (by norm_num)
  have c := ray_sum_close hf hr _ (fun m => nlosRay g l r phi n m u s t) ms (fun m _ => C223_ray hf hr hT hE hp g l r phi n m u s t f1 f2 (hphi m) (x1 m) (x2 m) (hK m) K1 K2 p1 hS S1 S2 Ft1 Ft2 Fr1 Fr2
    ef0 ef1 ea0 ea1 ed0 ed1 (htx m) (hrx m) (ha m) (hd m)) hh ms1 (by positivity) (by norm_num at *; linarith) (by rw [mul_assoc]; norm_num at *; linarith) (by rw [mul_assoc]; norm_num at *; linarith)
  refine c.mono ?_ le_rfl (by positivity)
  norm_num; linarith

/-- Coefficient of the LoS path: the factor of the path length has the error `ec`. -/
theorem C223_los {T : TrigLib} (hT : AccurateTrig T) (hp : Nearest double A.py) (g : CoeffGen) (l : LinkTopo)
    (u s : ℕ) (t : ℝ) {Ft Fr ef ea ed ec : ℝ} {tx rx : Fin 2 → ℝ} {a d c : ℂ}
    (f1 : 10 ^ 9 ≤ g.fc) (f2 : g.fc ≤ 10 ^ 11) (Ft1 : 1 / 10 ^ 3 ≤ Ft) (Ft2 : Ft ≤ 10 ^ 3) (Fr1 : 1 / 10 ^ 3 ≤ Fr) (Fr2 : Fr ≤ 10 ^ 3)
    (ef0 : 0 ≤ ef) (ef1 : ef ≤ 1 / 100) (ea0 : 0 ≤ ea) (ea1 : ea ≤ 1 / 100) (ed0 : 0 ≤ ed) (ed1 : ed ≤ 1 / 100) (ec0 : 0 ≤ ec) (ec1 : ec ≤ 1 / 100)
    (htx : ∀ k, |fieldVector g.tx l.txOri l.losZod l.losAod s k| ≤ Ft ∧ |tx k - fieldVector g.tx l.txOri l.losZod l.losAod s k| ≤ ef * Ft)
    (hrx : ∀ k, |fieldVector g.rx l.rxOri l.losZoa l.losAoa u k| ≤ Fr ∧ |rx k - fieldVector g.rx l.rxOri l.losZoa l.losAoa u k| ≤ ef * Fr)
    (ha : Close ea 1 a (arrayOffset g l l.losAoa l.losAod l.losZoa l.losZod u s)) (hd : Close ed 1 d (dopplerTerm g l l.losAoa l.losZoa l.losAod l.losZod t))
    (hc : Close ec 1 c (Complex.exp (Complex.I * (2 * Real.pi * l.distance3d / g.lambda0 : ℝ)))) :
    Close (8e-6 + 2.2 * ef + 1.1 * ea + 1.1 * ed + 1.1 * ec) (8 * (Ft * Fr)) (A.losCoeff T (decide (600000 ≤ l.bsHeight)) g.fc tx rx a d c) (losCoeff g l u s t) := by
  rw [(C223_model g l ⟨fun _ => 0, fun _ => 0, fun _ _ => 0, fun _ _ => 0, fun _ _ => 0, fun _ _ => 0, fun _ _ => 0⟩ (fun _ _ _ => 0) (0 : Fin 1) ⟨0, by norm_num [raysPerCluster]⟩ u s t).2]
  have ph (i j : Fin 2) : Close 1.3e-6 1 (losPhaseMatrix i j) (losPhaseMatrix i j) := by
    refine ⟨?_, by simp; norm_num⟩
    fin_cases i <;> fin_cases j <;> simp [losPhaseMatrix]
  have fa := with_faraday_close hf hr hT hp f1 f2 (decide (600000 ≤ l.bsHeight)) le_rfl (by norm_num) ph
  have fi := field_close hf hr le_rfl (by norm_num) fa Ft1 Ft2 Fr1 Fr2 ef0 ef1 htx hrx
  rw [one_mul] at fi
  have kr1 : (1 / 10 ^ 3) * (1 / 10 ^ 3) ≤ Ft * Fr := mul_le_mul Ft1 Fr1 (by norm_num) (le_trans (by norm_num) Ft1)
  have kr2 : Ft * Fr ≤ 10 ^ 3 * 10 ^ 3 := mul_le_mul Ft2 Fr2 (le_trans (by norm_num) Fr1) (by norm_num)
  have fin := factors_close hf hr fi ha hd hc (by positivity) (by norm_num at *; linarith) ea0 ea1 ed0 ed1 ec0 ec1 (by norm_num at *; linarith) (by norm_num at *; linarith) (by norm_num) (by norm_num)
  simp only [Arith.losCoeff, exact_cmul]
  rw [mul_one] at fin
  refine fin.mono ?_ le_rfl (by positivity)
  norm_num at *; linarith

end

theorem norm_cis (x : ℝ) : ‖Complex.exp (Complex.I * (x : ℂ))‖ = 1 := by rw [mul_comm]; exact Complex.norm_exp_ofReal_mul_I x

/-- Factors of array and movement have modulus one: the bound in `Close` holds always. -/
theorem factors_unit (g : CoeffGen) (l : LinkTopo) (aoa aod zoa zod : ℝ) (u s : ℕ) (t : ℝ) :
    ‖arrayOffset g l aoa aod zoa zod u s‖ = 1 ∧ ‖dopplerTerm g l aoa zoa aod zod t‖ = 1 := by
  constructor
  · simp only [arrayOffset]
    rw [norm_mul, norm_cis, norm_cis, mul_one]
  · exact norm_cis _

/-- The components of a field are bounded by the root of the maximum gain. -/
theorem field_component_le {a : ArrayArgs} {arr : PanelArray} (h : mkArray a = .ok arr) {F : ℝ} (F0 : 0 ≤ F) (hF : Spec.maxGain a.pattern ≤ F ^ 2) (o : Fin 3 → ℝ) (θ φ : ℝ) (u : ℕ) (k : Fin 2) :
    |fieldVector arr o θ φ u k| ≤ F := by
  have := field_le h o θ φ u
  refine abs_le_of_sq_le_sq ?_ F0
  fin_cases k
  · simp only [Fin.zero_eta]; nlinarith [sq_nonneg (fieldVector arr o θ φ u 1)]
  · simp only [Fin.mk_one]; nlinarith [sq_nonneg (fieldVector arr o θ φ u 0)]

/-- The factor of the array as it is computed (C215) meets the condition on it: for antennas within `W` wavelengths of the centre the error is at most `3e-4 W`. -/
theorem C223_array {f : Format} (hf : IEEE f) {A : Arith} (hr : Nearest f A.rnd) (hp : Nearest double A.py) {T : TrigLib} (hT : AccurateTrig T) {E : ℝ → ℂ} (hE : AccurateCis E) (tensor : Bool)
    (g : CoeffGen) (l : LinkTopo) {aoa aod zoa zod W : ℝ} (u s : ℕ) (f1 : 10 ^ 8 ≤ g.fc) (f2 : g.fc ≤ 10 ^ 11) (o1 : ∀ k, |l.rxOri k| ≤ 10) (o2 : ∀ k, |l.txOri k| ≤ 10)
    (d1 : ∀ k, |g.rx.antPos u k| ≤ W * (299792458 / g.fc)) (d2 : ∀ k, |g.tx.antPos s k| ≤ W * (299792458 / g.fc)) (W1 : 1 / 20 ≤ W) (W2 : W ≤ 100)
    (a1 : |aoa| ≤ 10) (a2 : |aod| ≤ 10) (z1 : |zoa| ≤ 10) (z2 : |zod| ≤ 10) :
    Close (3e-4 * W) 1 (A.arrayOffset T E tensor g.fc l.rxOri (g.rx.antPos u) l.txOri (g.tx.antPos s) aoa aod zoa zod) (arrayOffset g l aoa aod zoa zod u s) := by
  refine ⟨(factors_unit g l aoa aod zoa zod u s 0).1.le, ?_⟩
  have h := C215_offset hf hr hp hT hE tensor f1 f2 o1 o2 d1 d2 W1 W2 a1 a2 z1 z2
  rw [mul_one, arrayOffset_cycles]
  convert h using 4
  simp only [Spec.cycles]
  rw [← Complex.exp_add]
  push_cast
  congr 1
  ring

theorem exact_accurate : AccurateTrig TrigLib.exact ∧ AccurateCis (fun x => Complex.exp (x * Complex.I)) :=
  ⟨⟨fun x _ => by simp [TrigLib.exact], fun x _ => by simp [TrigLib.exact], fun x _ => by simp [TrigLib.exact], fun x y => by simp [TrigLib.exact]⟩, fun x _ => by simp⟩

/-- A cluster with half of the power and a cross polarisation ratio of 10, seen from a satellite over all twenty rays; field components have errors of up to `1e-4`. -/
example : ∃ (A : Arith) (arr : PanelArray), Nearest Spec.single A.rnd ∧ mkAntenna "single" "V" "omni" 2e9 = .ok arr ∧
    let r : LinkRays 1 := ⟨fun _ => 0, fun _ => 1 / 2, fun _ _ => 0, fun _ _ => 0, fun _ _ => 1, fun _ _ => 2, fun _ _ => 10⟩
    let g : CoeffGen := ⟨2e9, arr, arr⟩
    let l := exSatLink 30 0
    ∃ h : ℂ, A.IsRaySum ((List.finRange raysPerCluster).map fun m => A.nlosRay TrigLib.exact (fun x => Complex.exp (x * Complex.I)) (decide (600000 ≤ l.bsHeight)) g.fc (fun _ => 1) (r.xpr 0 m) (r.powers 0)
      (fun k => fieldVector arr l.txOri 2 0 0 k + 1e-4) (fun k => fieldVector arr l.rxOri 1 0 0 k + 1e-4) (arrayOffset g l 0 0 1 2 0 0) (dopplerTerm g l 0 1 0 2 0)) h ∧
    ‖h - ((List.finRange raysPerCluster).map fun m => nlosRay g l r (fun _ _ _ => 1) 0 m 0 0 0).sum‖ ≤ (1.1e-5 + 2.2 * 1e-4 + 1.1 * 0 + 1.1 * 0) * (20 * (8 * (1 * 1 * 1) * 1)) := by
  obtain ⟨A, hr, hp⟩ := exists_arith Spec.single (Or.inl rfl)
  obtain ⟨arr, h, _⟩ := exAntenna_ok
  refine ⟨A, arr, hr, h, ?_⟩
  intro r g l
  have sum (z : Fin raysPerCluster → ℂ) : ∃ s, A.IsRaySum ((List.finRange raysPerCluster).map z) s := by
    have e : List.finRange raysPerCluster = (List.finRange (19 + 1)) := rfl
    rw [e, List.finRange_succ]
    obtain ⟨x, hx⟩ := exists_sum A.rnd (z 0).re (((List.finRange 19).map Fin.succ).map z |>.map Complex.re)
    obtain ⟨y, hy⟩ := exists_sum A.rnd (z 0).im (((List.finRange 19).map Fin.succ).map z |>.map Complex.im)
    exact ⟨⟨x, y⟩, hx, hy⟩
  obtain ⟨s, hs⟩ := sum fun m => A.nlosRay TrigLib.exact (fun x => Complex.exp (x * Complex.I)) (decide (600000 ≤ l.bsHeight)) g.fc (fun _ => 1) (r.xpr 0 m) (r.powers 0)
      (fun k => fieldVector arr l.txOri 2 0 0 k + 1e-4) (fun k => fieldVector arr l.rxOri 1 0 0 k + 1e-4) (arrayOffset g l 0 0 1 2 0 0) (dopplerTerm g l 0 1 0 2 0)
  refine ⟨s, hs, ?_⟩
  have root {x : ℝ} (hx : x ≤ 1) : Real.sqrt x ≤ 1 := Real.sqrt_le_one.2 hx
  have fc (o : Fin 3 → ℝ) (θ : ℝ) (k : Fin 2) : |fieldVector arr o θ 0 0 k| ≤ 1 ∧ |fieldVector arr o θ 0 0 k + 1e-4 - fieldVector arr o θ 0 0 k| ≤ 1e-4 * 1 :=
    ⟨field_component_le h (by norm_num) (by simp [Spec.maxGain]) o θ 0 0 k, by rw [add_sub_cancel_left]; norm_num⟩
  have fu := factors_unit g l 0 0 1 2 0 0 0
  have c := C223_cluster (Or.inl rfl) hr exact_accurate.1 exact_accurate.2 hp g l r (fun _ _ _ => 1) 0 (List.finRange raysPerCluster) 0 0 0 (K := 1) (Ft := 1) (Fr := 1) (S := 1) (ef := 1e-4) (ea := 0) (ed := 0)
    (tx := fun _ k => fieldVector arr l.txOri 2 0 0 k + 1e-4) (rx := fun _ k => fieldVector arr l.rxOri 1 0 0 k + 1e-4)
    (by simp [raysPerCluster]) (by norm_num [g]) (by norm_num [g]) (by norm_num) (by norm_num [r]) (by norm_num [r]) (fun _ => root (by norm_num [r])) le_rfl (by norm_num)
    (Or.inr (by norm_num [r])) (root (by norm_num [r])) (by norm_num) (by norm_num) (by norm_num) (by norm_num) (by norm_num) (by norm_num) (by norm_num) (by norm_num) le_rfl (by norm_num) le_rfl (by norm_num)
    (fun _ k => fc _ _ k) (fun _ k => fc _ _ k) (fun _ => ⟨fu.1.le, by simp [r]⟩) (fun _ => ⟨fu.2.le, by simp [r]⟩) hs
  simpa [raysPerCluster] using c.2

/-- The antenna of that link is at the centre of its array. -/
example : ∃ (A : Arith) (arr : PanelArray), Nearest Spec.single A.rnd ∧ mkAntenna "single" "V" "omni" 2e9 = .ok arr ∧
    Close (3e-4 * (1 / 20)) 1 (A.arrayOffset TrigLib.exact (fun x => Complex.exp (x * Complex.I)) true 2e9 0 (arr.antPos 0) 0 (arr.antPos 0) 0 0 1 2) (arrayOffset ⟨2e9, arr, arr⟩ (exSatLink 30 0) 0 0 1 2 0 0) := by
  obtain ⟨A, hr, hp⟩ := exists_arith Spec.single (Or.inl rfl)
  obtain ⟨arr, h, _, ha, _⟩ := exAntenna_ok
  have p0 : arr.antPos 0 = 0 := ha.1.symm
  have b (k : Fin 3) : |arr.antPos 0 k| ≤ 1 / 20 * (299792458 / 2e9) := by rw [p0]; simp; norm_num
  exact ⟨A, arr, hr, h, C223_array (Or.inl rfl) hr hp exact_accurate.1 exact_accurate.2 true ⟨2e9, arr, arr⟩ (exSatLink 30 0) 0 0 (by norm_num) (by norm_num) (by simp [exSatLink]) (by simp [exSatLink])
    b b le_rfl (by norm_num) (by norm_num) (by norm_num) (by norm_num) (by norm_num)⟩

/-- The LoS path of the same link, with an error of `1e-3` in the factor of the path length. -/
example : ∃ (A : Arith) (arr : PanelArray), Nearest Spec.single A.rnd ∧ mkAntenna "single" "V" "omni" 2e9 = .ok arr ∧
    let g : CoeffGen := ⟨2e9, arr, arr⟩
    let l := exSatLink 30 0
    ‖A.losCoeff TrigLib.exact (decide (600000 ≤ l.bsHeight)) g.fc (fieldVector arr l.txOri l.losZod l.losAod 0) (fieldVector arr l.rxOri l.losZoa l.losAoa 0)
      (arrayOffset g l l.losAoa l.losAod l.losZoa l.losZod 0 0) (dopplerTerm g l l.losAoa l.losZoa l.losAod l.losZod 0) (Complex.exp (Complex.I * (2 * Real.pi * l.distance3d / g.lambda0 : ℝ)) + 1e-3) -
      losCoeff g l 0 0 0‖ ≤ (8e-6 + 2.2 * 0 + 1.1 * 0 + 1.1 * 0 + 1.1 * 1e-3) * (8 * (1 * 1)) := by
  obtain ⟨A, hr, hp⟩ := exists_arith Spec.single (Or.inl rfl)
  obtain ⟨arr, h, _⟩ := exAntenna_ok
  refine ⟨A, arr, hr, h, ?_⟩
  intro g l
  have fu := factors_unit g l l.losAoa l.losAod l.losZoa l.losZod 0 0 0
  have fc (o : Fin 3 → ℝ) (θ φ : ℝ) (k : Fin 2) : |fieldVector arr o θ φ 0 k| ≤ 1 ∧ |fieldVector arr o θ φ 0 k - fieldVector arr o θ φ 0 k| ≤ 0 * 1 :=
    ⟨field_component_le h (by norm_num) (by simp [Spec.maxGain]) o θ φ 0 k, by simp⟩
  refine (C223_los (Or.inl rfl) hr exact_accurate.1 hp g l 0 0 0 (Ft := 1) (Fr := 1) (ef := 0) (ea := 0) (ed := 0) (ec := 1e-3) (by norm_num [g]) (by norm_num [g]) (by norm_num) (by norm_num) (by norm_num) (by norm_num)
    le_rfl (by norm_num) le_rfl (by norm_num) le_rfl (by norm_num) (by norm_num) (by norm_num) (fc _ _ _) (fc _ _ _) ⟨fu.1.le, by simp⟩ ⟨fu.2.le, by simp⟩
    ⟨(norm_cis _).le, by rw [add_sub_cancel_left]; norm_num⟩).2

end OpenNTN
