import Verif.Model.RoundingArray
import Verif.Props.RoundingLocal

/-
C215: phases between antennas, with rounding.
-/
namespace OpenNTN

open Spec Matrix

/-- C215: with exact arithmetic these are the array offsets of the model. -/
theorem C215_model (tensor : Bool) (g : CoeffGen) (l : LinkTopo) (aoa aod zoa zod : ℝ) (u s : ℕ) :
    Arith.exact.arrayOffset TrigLib.exact (fun x => Complex.exp (Complex.I * (x : ℂ))) tensor g.fc l.rxOri (g.rx.antPos u) l.txOri (g.tx.antPos s) aoa aod zoa zod =
      arrayOffset g l aoa aod zoa zod u s := by
  have hp (o d : Fin 3 → ℝ) (theta phi : ℝ) : Arith.exact.arrayPhase TrigLib.exact tensor g.fc o d theta phi =
      2 * Real.pi / g.lambda0 * ∑ k, unitSphere theta phi k * rotPos o d k := by
    have hv : Arith.exact.matVec (Arith.exact.forwardRot TrigLib.exact o) d = rotPos o d := by
      funext k
      simp only [Arith.matVec, rotPos, Matrix.mulVec, dotProduct, Fin.sum_univ_three]
      rfl
    simp only [Arith.arrayPhase, hv, Fin.sum_univ_three]
    cases tensor <;> rfl
  have hc (z w : ℂ) : Arith.exact.cmul z w = z * w := Complex.ext (by simp [Arith.cmul, Arith.exact]) (by simp [Arith.cmul, Arith.exact])
  simp only [Arith.arrayOffset, arrayOffset, hp, hc]

section

variable {f : Format} (hf : IEEE f)

include hf in
/-- One rounding of a number of size at most `B`. -/
theorem rnd_size {r : ℝ → ℝ} (hr : Nearest f r) {x B : ℝ} (hx : |x| ≤ B) (B1 : 1 / 10 ^ 7 ≤ B) (B2 : B ≤ 10 ^ 12) : |r x - x| ≤ 6e-8 * B := by
  have e := rnd_err hf hr (hx.trans (B2.trans (by norm_num)))
  have up := unit_pos f
  have h1 : f.unit * |x| ≤ 1 / 16777216 * B := by have := unit_le hf; gcongr
  have h2 : (2 : ℝ) ^ (-126 : ℤ) ≤ 1e-10 * (1 / 10 ^ 7) := by norm_num
  have h3 : (1e-10 : ℝ) * (1 / 10 ^ 7) ≤ 1e-10 * B := by gcongr
  refine e.trans ((add_le_add h1 (h2.trans h3)).trans ?_)
  norm_num at *
  linarith

include hf in
/-- Sum of three products with factors that are accurate to `a` and `b` units of `B`. -/
theorem dot_near {r : ℝ → ℝ} (hr : Nearest f r) {a b c m B : ℝ} {x' x y' y : Fin 3 → ℝ} (hx : ∀ j, Near a (x' j) (x j))
    (hy : ∀ j, |y' j - y j| ≤ b * B) (hm : ∀ j, |y j| ≤ m * B) (a1 : a ≤ 1e-5) (b0 : 0 ≤ b) (b1 : b ≤ 1e-5) (m1 : 1 ≤ m) (m2 : m ≤ 10)
    (B1 : 1 / 10 ^ 6 ≤ B) (B2 : B ≤ 10 ^ 6) (hc : 3 * ((m + b) * a + b) + m * 5.5e-7 ≤ c) :
    |r (r (r (x' 0 * y' 0) + r (x' 1 * y' 1)) + r (x' 2 * y' 2)) - (x 0 * y 0 + x 1 * y 1 + x 2 * y 2)| ≤ c * B := by
  have B0 : 0 < B := lt_of_lt_of_le (by norm_num) B1
  have a0 : 0 ≤ a := (abs_nonneg _).trans (hx 0).1
  have mB : 1 / 10 ^ 6 ≤ m * B := by nlinarith
  have mB2 : m * B ≤ 10 ^ 7 := by nlinarith
  have prod (j : Fin 3) : |r (x' j * y' j) - x j * y j| ≤ ((m + b) * a + b) * B + 6.01e-8 * (m * B) ∧ |r (x' j * y' j)| ≤ 1.001 * (m * B) := by
    have h1 := (hx j).abs
    have h2 : |y' j| ≤ (m + b) * B := by
      calc |y' j| = |y j + (y' j - y j)| := by congr 1; ring
        _ ≤ m * B + b * B := (abs_add_le _ _).trans (add_le_add (hm j) (hy j))
        _ = _ := by ring
    have h3 : |x' j * y' j| ≤ 1.0001 * (m * B) := by
      rw [abs_mul]
      calc |x' j| * |y' j| ≤ (1 + 1e-5) * ((m + 1e-5 * m) * B) := by gcongr <;> nlinarith
        _ ≤ _ := by norm_num; nlinarith
    have h4 := rnd_size hf hr h3 (by norm_num at *; linarith) (by norm_num at *; linarith)
    have h5 : |x' j * y' j - x j * y j| ≤ ((m + b) * a + b) * B := by
      calc |x' j * y' j - x j * y j| = |(x' j - x j) * y' j + x j * (y' j - y j)| := by congr 1; ring
        _ ≤ |x' j - x j| * |y' j| + |x j| * |y' j - y j| := by refine (abs_add_le _ _).trans ?_; rw [abs_mul, abs_mul]
        _ ≤ a * ((m + b) * B) + 1 * (b * B) := by gcongr; exacts [(hx j).1, (hx j).2, hy j]
        _ = _ := by ring
    constructor
    · calc |r (x' j * y' j) - x j * y j| = |(r (x' j * y' j) - x' j * y' j) + (x' j * y' j - x j * y j)| := by congr 1; ring
        _ ≤ _ := (abs_add_le _ _).trans (add_le_add h4 h5)
        _ ≤ _ := by norm_num at *; linarith
    · calc |r (x' j * y' j)| = |(r (x' j * y' j) - x' j * y' j) + x' j * y' j| := by congr 1; ring
        _ ≤ _ := (abs_add_le _ _).trans (add_le_add h4 h3)
        _ ≤ _ := by norm_num at *; linarith
  obtain ⟨p0, q0⟩ := prod 0
  obtain ⟨p1, q1⟩ := prod 1
  obtain ⟨p2, q2⟩ := prod 2
  have hcB : (3 * ((m + b) * a + b) + m * 5.5e-7) * B ≤ c * B := by gcongr
  have hcB' : (3 * ((m + b) * a + b) + m * 5.5e-7) * B = 3 * (((m + b) * a + b) * B) + 5.5e-7 * (m * B) := by ring
  rw [hcB'] at hcB
  generalize ((m + b) * a + b) * B = e at *
  generalize r (x' 0 * y' 0) = x0 at *
  generalize r (x' 1 * y' 1) = x1 at *
  generalize r (x' 2 * y' 2) = x2 at *
  generalize x 0 * y 0 = y0 at *
  generalize x 1 * y 1 = y1 at *
  generalize x 2 * y 2 = y2 at *
  generalize m * B = M at *
  generalize c * B = C at *
  rw [abs_le] at p0 p1 p2 q0 q1 q2
  have h1 : |x0 + x1| ≤ 2.002 * M := abs_le.2 ⟨by norm_num at *; linarith, by norm_num at *; linarith⟩
  have e1 := abs_le.1 (rnd_size hf hr h1 (by norm_num at *; linarith) (by norm_num at *; linarith))
  have h2 : |r (x0 + x1) + x2| ≤ 3.01 * M := abs_le.2 ⟨by norm_num at *; linarith, by norm_num at *; linarith⟩
  have e2 := abs_le.1 (rnd_size hf hr h2 (by norm_num at *; linarith) (by norm_num at *; linarith))
  refine abs_le.2 ⟨?_, ?_⟩ <;> norm_num at * <;> linarith

include hf in
theorem phase_near {A : Arith} (hr : Nearest f A.rnd) (hp : Nearest double A.py) {T : TrigLib} (hT : AccurateTrig T) (tensor : Bool) {fc : ℝ} (f1 : 10 ^ 8 ≤ fc)
    (f2 : fc ≤ 10 ^ 11) {o d : Fin 3 → ℝ} {theta phi B : ℝ} (ho : ∀ k, |o k| ≤ 10) (hd : ∀ k, |d k| ≤ B) (B1 : 1 / 10 ^ 6 ≤ B) (B2 : B ≤ 1000)
    (t1 : |theta| ≤ 10) (p1 : |phi| ≤ 10) :
    |A.arrayPhase T tensor fc o d theta phi - 2 * Real.pi * fc / 299792458 * (Spec.sphereDirection theta phi ⬝ᵥ (Spec.attitude o *ᵥ d))| ≤
      2.1e-5 * (2 * Real.pi * fc / 299792458 * B) ∧ |A.arrayPhase T tensor fc o d theta phi| ≤ 10 * (2 * Real.pi * fc / 299792458 * B) := by
  have B0 : 0 < B := lt_of_lt_of_le (by norm_num) B1
  rw [← (C115_orientation o d).1]
  have bar (k : Fin 3) : |A.matVec (A.forwardRot T o) d k - rotPos o d k| ≤ 3.5e-6 * B := by
    have := dot_near hf hr (a := 9.34e-7) (b := 0) (c := 3.5e-6) (m := 1) (x' := A.forwardRot T o k) (x := forwardRot o k) (y' := d) (y := d) (B := B)
      (fun j => forwardRot_near hf hr hT ho k j) (by simp) (by simpa using hd) (by norm_num) le_rfl (by norm_num) le_rfl (by norm_num) B1
      (B2.trans (by norm_num)) (by norm_num)
    simpa [Arith.matVec, rotPos, Matrix.mulVec, dotProduct, Fin.sum_univ_three] using this
  have size (k : Fin 3) : |rotPos o d k| ≤ 3 * B := by
    have h (j : Fin 3) : |forwardRot o k j * d j| ≤ B := by
      rw [abs_mul]
      calc _ ≤ 1 * B := mul_le_mul (forwardRot_le o k j) (hd j) (abs_nonneg _) (by norm_num)
        _ = B := one_mul B
    simp only [rotPos, Matrix.mulVec, dotProduct, Fin.sum_univ_three]
    refine (abs_add_le _ _).trans ?_
    have := abs_add_le (forwardRot o k 0 * d 0) (forwardRot o k 1 * d 1)
    linarith [h 0, h 1, h 2]
  have sum := dot_near hf hr (a := 3.1e-7) (b := 3.5e-6) (c := 1.6e-5) (m := 3) (x' := A.unitSphere T theta phi) (x := unitSphere theta phi) (B := B)
      (fun j => unitSphere_near hf hr hT t1 p1 j) bar size (by norm_num) (by norm_num) (by norm_num) (by norm_num) (by norm_num) B1
      (B2.trans (by norm_num)) (by norm_num)
  have total : |unitSphere theta phi 0 * rotPos o d 0 + unitSphere theta phi 1 * rotPos o d 1 + unitSphere theta phi 2 * rotPos o d 2| ≤ 9 * B := by
    have h (j : Fin 3) : |unitSphere theta phi j * rotPos o d j| ≤ 3 * B := by
      rw [abs_mul]
      calc _ ≤ 1 * (3 * B) := mul_le_mul (unitSphere_near hf hr hT t1 p1 j).2 (size j) (abs_nonneg _) (by norm_num)
        _ = _ := one_mul _
    refine (abs_add_le _ _).trans ?_
    have := abs_add_le (unitSphere theta phi 0 * rotPos o d 0) (unitSphere theta phi 1 * rotPos o d 1)
    linarith [h 0, h 1, h 2]
  have e1 : Spec.sphereDirection theta phi ⬝ᵥ rotPos o d =
      unitSphere theta phi 0 * rotPos o d 0 + unitSphere theta phi 1 * rotPos o d 1 + unitSphere theta phi 2 * rotPos o d 2 := by
    simp only [dotProduct, Fin.sum_univ_three]
    rfl
  have rel := perMetre_rel hf hr hp tensor f1 f2
  rw [e1]
  simp only [Arith.arrayPhase]
  have Q0 : 1 ≤ 2 * Real.pi * fc / 299792458 := by
    rw [le_div_iff₀ (by norm_num)]; nlinarith [Real.pi_gt_three]
  have Q1 : 2 * Real.pi * fc / 299792458 ≤ 3000 := by
    rw [div_le_iff₀ (by norm_num)]; nlinarith [Real.pi_le_four]
  have qe : |A.rnd (A.twoPi / A.genLambda tensor fc) - 2 * Real.pi * fc / 299792458| ≤ 4.2e-7 * (2 * Real.pi * fc / 299792458) := by
    have u := unit_le hf
    have := rel.abs (unit_pos f).le (by push_cast; linarith)
    rw [abs_of_nonneg (by linarith : 0 ≤ 2 * Real.pi * fc / 299792458)] at this
    refine this.trans ?_
    gcongr
    push_cast
    norm_num at *
    linarith
  generalize 2 * Real.pi * fc / 299792458 = Q at *
  generalize A.rnd (A.twoPi / A.genLambda tensor fc) = q at *
  generalize unitSphere theta phi 0 * rotPos o d 0 + unitSphere theta phi 1 * rotPos o d 1 + unitSphere theta phi 2 * rotPos o d 2 = S at *
  generalize A.rnd (A.rnd (A.rnd (A.unitSphere T theta phi 0 * A.matVec (A.forwardRot T o) d 0) +
    A.rnd (A.unitSphere T theta phi 1 * A.matVec (A.forwardRot T o) d 1)) + A.rnd (A.unitSphere T theta phi 2 * A.matVec (A.forwardRot T o) d 2)) = S' at *
  have hq : |q| ≤ 1.001 * Q := by
    have := abs_le.1 qe
    exact abs_le.2 ⟨by norm_num at *; linarith, by norm_num at *; linarith⟩
  have hS : |S'| ≤ 9.1 * B := by
    have h1 := abs_le.1 sum
    have h2 := abs_le.1 total
    exact abs_le.2 ⟨by norm_num at *; linarith, by norm_num at *; linarith⟩
  have QB1 : 1 / 10 ^ 6 ≤ Q * B := by nlinarith
  have QB2 : Q * B ≤ 3 * 10 ^ 6 := by nlinarith
  have h1 : |q * S'| ≤ 9.2 * (Q * B) := by
    rw [abs_mul]
    calc |q| * |S'| ≤ (1.001 * Q) * (9.1 * B) := by gcongr
      _ ≤ _ := by norm_num; nlinarith
  have h2 := rnd_size hf hr h1 (by norm_num at *; linarith) (by norm_num at *; linarith)
  have h3 : |q * S' - Q * S| ≤ 1.983e-5 * (Q * B) := by
    calc |q * S' - Q * S| = |(q - Q) * S' + Q * (S' - S)| := by congr 1; ring
      _ ≤ |q - Q| * |S'| + Q * |S' - S| := by
          refine (abs_add_le _ _).trans ?_
          rw [abs_mul, abs_mul, abs_of_nonneg (by linarith : 0 ≤ Q)]
      _ ≤ (4.2e-7 * Q) * (9.1 * B) + Q * (1.6e-5 * B) := by gcongr
      _ ≤ _ := by norm_num; nlinarith
  constructor
  · calc |A.rnd (q * S') - Q * S| = |(A.rnd (q * S') - q * S') + (q * S' - Q * S)| := by congr 1; ring
      _ ≤ _ := (abs_add_le _ _).trans (add_le_add h2 h3)
      _ ≤ _ := by norm_num at *; linarith
  · calc |A.rnd (q * S')| = |(A.rnd (q * S') - q * S') + q * S'| := by congr 1; ring
      _ ≤ _ := (abs_add_le _ _).trans (add_le_add h2 h1)
      _ ≤ _ := by norm_num at *; linarith

include hf in
/-- C215. The phase of an antenna is accurate to `2.1e-5` times the phase of a wave along the largest coordinate. -/
theorem C215_phase {A : Arith} (hr : Nearest f A.rnd) (hp : Nearest double A.py) {T : TrigLib} (hT : AccurateTrig T) (tensor : Bool) {fc : ℝ} (f1 : 10 ^ 8 ≤ fc)
    (f2 : fc ≤ 10 ^ 11) {o d : Fin 3 → ℝ} {theta phi B : ℝ} (ho : ∀ k, |o k| ≤ 10) (hd : ∀ k, |d k| ≤ B) (B1 : 1 / 10 ^ 6 ≤ B) (B2 : B ≤ 1000)
    (t1 : |theta| ≤ 10) (p1 : |phi| ≤ 10) :
    |A.arrayPhase T tensor fc o d theta phi - 2 * Real.pi * fc / 299792458 * (Spec.sphereDirection theta phi ⬝ᵥ (Spec.attitude o *ᵥ d))| ≤
      2.1e-5 * (2 * Real.pi * fc / 299792458 * B) := (phase_near hf hr hp hT tensor f1 f2 ho hd B1 B2 t1 p1).1

include hf in
/-- Product of complex numbers of size about one. -/
theorem cmul_near {A : Arith} (hr : Nearest f A.rnd) {z w : ℂ} (hz : ‖z‖ ≤ 1.001) (hw : ‖w‖ ≤ 1.001) : ‖A.cmul z w - z * w‖ ≤ 6e-7 := by
  have z1 := (Complex.abs_re_le_norm z).trans hz
  have z2 := (Complex.abs_im_le_norm z).trans hz
  have w1 := (Complex.abs_re_le_norm w).trans hw
  have w2 := (Complex.abs_im_le_norm w).trans hw
  have prod {a b : ℝ} (ha : |a| ≤ 1.001) (hb : |b| ≤ 1.001) : |A.rnd (a * b) - a * b| ≤ 6.1e-8 ∧ |a * b| ≤ 1.01 := by
    have h : |a * b| ≤ 1.01 := by
      rw [abs_mul]
      calc |a| * |b| ≤ 1.001 * 1.001 := by gcongr
        _ ≤ _ := by norm_num
    exact ⟨(rnd_size hf hr h (by norm_num) (by norm_num)).trans (by norm_num), h⟩
  have add {a b a' b' : ℝ} (ha : |a' - a| ≤ 6.1e-8 ∧ |a| ≤ 1.01) (hb : |b' - b| ≤ 6.1e-8 ∧ |b| ≤ 1.01) : |A.rnd (a' + b') - (a + b)| ≤ 2.5e-7 := by
    obtain ⟨a1, a2⟩ := ha
    obtain ⟨b1, b2⟩ := hb
    rw [abs_le] at a1 a2 b1 b2
    have h : |a' + b'| ≤ 2.03 := abs_le.2 ⟨by norm_num at *; linarith, by norm_num at *; linarith⟩
    have e := abs_le.1 (rnd_size hf hr h (by norm_num) (by norm_num))
    exact abs_le.2 ⟨by norm_num at *; linarith, by norm_num at *; linarith⟩
  have re := add (prod z1 w1) (a' := A.rnd (z.re * w.re)) (b := -(z.im * w.im)) (b' := -A.rnd (z.im * w.im))
    (by obtain ⟨h1, h2⟩ := prod z2 w2; exact ⟨by rw [← abs_neg]; convert h1 using 2; ring, by rw [abs_neg]; exact h2⟩)
  have im := add (prod z1 w2) (prod z2 w1)
  refine (Complex.norm_le_abs_re_add_abs_im _).trans ?_
  have e1 : (A.cmul z w - z * w).re = A.rnd (A.rnd (z.re * w.re) + -A.rnd (z.im * w.im)) - (z.re * w.re + -(z.im * w.im)) := by
    simp [Arith.cmul, sub_eq_add_neg]
  have e2 : (A.cmul z w - z * w).im = A.rnd (A.rnd (z.re * w.im) + A.rnd (z.im * w.re)) - (z.re * w.im + z.im * w.re) := by
    simp [Arith.cmul]
  rw [e1, e2]
  norm_num at *
  linarith

end

/-- Accuracy of the exponential of an imaginary number. -/
def Spec.AccurateCis (E : ℝ → ℂ) : Prop := ∀ x, |x| ≤ 10 ^ 4 → ‖E x - Complex.exp (x * Complex.I)‖ ≤ (2 : ℝ) ^ (-21 : ℤ)

theorem cis_sub (x y : ℝ) : ‖Complex.exp (x * Complex.I) - Complex.exp (y * Complex.I)‖ ≤ |x - y| := by
  have e : Complex.exp (x * Complex.I) - Complex.exp (y * Complex.I) = Complex.exp (y * Complex.I) * (Complex.exp (Complex.I * ((x - y : ℝ) : ℂ)) - 1) := by
    rw [mul_sub, ← Complex.exp_add, mul_one]
    congr 2
    push_cast
    ring
  rw [e, norm_mul, Complex.norm_exp_ofReal_mul_I, one_mul]
  exact (Real.norm_exp_I_mul_ofReal_sub_one_le).trans_eq (Real.norm_eq_abs _)

/-- C215. The factor for a pair of antennas is the one of a plane wave, up to `3e-4` per wavelength of the largest coordinate. -/
theorem C215_offset {f : Format} (hf : IEEE f) {A : Arith} (hr : Nearest f A.rnd) (hp : Nearest double A.py) {T : TrigLib} (hT : AccurateTrig T)
    {E : ℝ → ℂ} (hE : AccurateCis E) (tensor : Bool) {fc : ℝ} (f1 : 10 ^ 8 ≤ fc) (f2 : fc ≤ 10 ^ 11) {oRx dRx oTx dTx : Fin 3 → ℝ} {aoa aod zoa zod W : ℝ}
    (o1 : ∀ k, |oRx k| ≤ 10) (o2 : ∀ k, |oTx k| ≤ 10) (d1 : ∀ k, |dRx k| ≤ W * (299792458 / fc)) (d2 : ∀ k, |dTx k| ≤ W * (299792458 / fc))
    (W1 : 1 / 20 ≤ W) (W2 : W ≤ 100) (a1 : |aoa| ≤ 10) (a2 : |aod| ≤ 10) (z1 : |zoa| ≤ 10) (z2 : |zod| ≤ 10) :
    ‖A.arrayOffset T E tensor fc oRx dRx oTx dTx aoa aod zoa zod - Spec.cycles ((Spec.sphereDirection zoa aoa ⬝ᵥ (Spec.attitude oRx *ᵥ dRx) +
      Spec.sphereDirection zod aod ⬝ᵥ (Spec.attitude oTx *ᵥ dTx)) / (299792458 / fc))‖ ≤ 3e-4 * W := by
  have fc0 : 0 < fc := lt_of_lt_of_le (by norm_num) f1
  have B1 : 1 / 10 ^ 6 ≤ W * (299792458 / fc) := by
    have : 1 / 10 ^ 3 ≤ 299792458 / fc := by rw [le_div_iff₀ fc0]; norm_num at *; linarith
    nlinarith
  have B2 : W * (299792458 / fc) ≤ 1000 := by
    have : 299792458 / fc ≤ 3 := by rw [div_le_iff₀ fc0]; norm_num at *; linarith
    have : 0 < 299792458 / fc := by positivity
    nlinarith
  have h1 := phase_near hf hr hp hT tensor f1 f2 o1 d1 B1 B2 z1 a1
  have h2 := phase_near hf hr hp hT tensor f1 f2 o2 d2 B1 B2 z2 a2
  have eB : 2 * Real.pi * fc / 299792458 * (W * (299792458 / fc)) = 2 * Real.pi * W := by field_simp
  rw [eB] at h1 h2
  have ec : Spec.cycles ((Spec.sphereDirection zoa aoa ⬝ᵥ (Spec.attitude oRx *ᵥ dRx) + Spec.sphereDirection zod aod ⬝ᵥ (Spec.attitude oTx *ᵥ dTx)) /
      (299792458 / fc)) =
      Complex.exp ((2 * Real.pi * fc / 299792458 * (Spec.sphereDirection zoa aoa ⬝ᵥ (Spec.attitude oRx *ᵥ dRx)) : ℝ) * Complex.I) *
      Complex.exp ((2 * Real.pi * fc / 299792458 * (Spec.sphereDirection zod aod ⬝ᵥ (Spec.attitude oTx *ᵥ dTx)) : ℝ) * Complex.I) := by
    rw [Spec.cycles, ← Complex.exp_add, ← add_mul, ← Complex.ofReal_add]
    congr 3
    field_simp
  rw [ec]
  simp only [Arith.arrayOffset]
  generalize A.arrayPhase T tensor fc oRx dRx zoa aoa = x' at *
  generalize A.arrayPhase T tensor fc oTx dTx zod aod = y' at *
  generalize 2 * Real.pi * fc / 299792458 * (Spec.sphereDirection zoa aoa ⬝ᵥ (Spec.attitude oRx *ᵥ dRx)) = x at *
  generalize 2 * Real.pi * fc / 299792458 * (Spec.sphereDirection zod aod ⬝ᵥ (Spec.attitude oTx *ᵥ dTx)) = y at *
  have pw : 2.1e-5 * (2 * Real.pi * W) ≤ 1.33e-4 * W := by
    have : 2 * Real.pi * W ≤ 6.3 * W := by have := Real.pi_lt_d2; gcongr; linarith
    norm_num at *
    linarith
  have pw' : 10 * (2 * Real.pi * W) ≤ 10 ^ 4 := by nlinarith [Real.pi_le_four, Real.pi_pos]
  have one {v v' : ℝ} (h : |v' - v| ≤ 2.1e-5 * (2 * Real.pi * W) ∧ |v'| ≤ 10 * (2 * Real.pi * W)) :
      ‖E v' - Complex.exp (v * Complex.I)‖ ≤ 1.33e-4 * W + 4.8e-7 ∧ ‖E v'‖ ≤ 1.001 := by
    have e1 := (hE v' (h.2.trans pw')).trans (by norm_num : (2 : ℝ) ^ (-21 : ℤ) ≤ 4.8e-7)
    constructor
    · calc ‖E v' - Complex.exp (v * Complex.I)‖ ≤ ‖E v' - Complex.exp (v' * Complex.I)‖ + ‖Complex.exp (v' * Complex.I) - Complex.exp (v * Complex.I)‖ :=
          norm_sub_le_norm_sub_add_norm_sub _ _ _
        _ ≤ 4.8e-7 + 1.33e-4 * W := add_le_add e1 ((cis_sub v' v).trans (h.1.trans pw))
        _ = _ := add_comm _ _
    · calc ‖E v'‖ = ‖Complex.exp (v' * Complex.I) + (E v' - Complex.exp (v' * Complex.I))‖ := by congr 1; ring
        _ ≤ 1 + 4.8e-7 := (norm_add_le _ _).trans (add_le_add (Complex.norm_exp_ofReal_mul_I v').le e1)
        _ ≤ _ := by norm_num
  obtain ⟨p1, p2⟩ := one h1
  obtain ⟨q1, q2⟩ := one h2
  have c := cmul_near hf hr p2 q2
  have ny := Complex.norm_exp_ofReal_mul_I y
  generalize E x' = z at *
  generalize E y' = w at *
  generalize Complex.exp (x * Complex.I) = z0 at *
  generalize Complex.exp (y * Complex.I) = w0 at *
  have nz0 : ‖z - z0‖ * ‖w0‖ = ‖z - z0‖ := by rw [ny, mul_one]
  calc ‖A.cmul z w - z0 * w0‖ = ‖(A.cmul z w - z * w) + (z * (w - w0) + (z - z0) * w0)‖ := by congr 1; ring
    _ ≤ ‖A.cmul z w - z * w‖ + (‖z‖ * ‖w - w0‖ + ‖z - z0‖ * ‖w0‖) := by
        refine (norm_add_le _ _).trans (add_le_add le_rfl ((norm_add_le _ _).trans ?_))
        rw [norm_mul, norm_mul]
    _ ≤ 6e-7 + (1.001 * (1.33e-4 * W + 4.8e-7) + (1.33e-4 * W + 4.8e-7) * 1) := by rw [ny]; gcongr
    _ ≤ 3e-4 * W := by norm_num at *; linarith

/-- A pair of antennas half a wavelength and ten wavelengths from the centres of their arrays, at 2 GHz. -/
example : ∃ (A : Arith) (T : TrigLib) (E : ℝ → ℂ), Nearest Spec.single A.rnd ∧ Nearest double A.py ∧ AccurateTrig T ∧ AccurateCis E ∧
    ‖A.arrayOffset T E true (2 * 10 ^ 9) ![1, 0.2, 0] ![0, 0.07, 0] ![-2, 0, 0.1] ![0, 1.4, -1.4] 1 (-1) 0.5 2 - Spec.cycles ((Spec.sphereDirection 0.5 1 ⬝ᵥ
      (Spec.attitude ![1, 0.2, 0] *ᵥ ![0, 0.07, 0]) + Spec.sphereDirection 2 (-1) ⬝ᵥ (Spec.attitude ![-2, 0, 0.1] *ᵥ ![0, 1.4, -1.4])) /
        (299792458 / (2 * 10 ^ 9)))‖ ≤ 3e-4 * 10 := by
  obtain ⟨A, hA, hp⟩ := exists_arith Spec.single (Or.inl rfl)
  have hT : AccurateTrig TrigLib.exact := ⟨fun x _ => by simp [TrigLib.exact], fun x _ => by simp [TrigLib.exact],
    fun z _ => by simp [TrigLib.exact], fun x y => by simp [TrigLib.exact]⟩
  have hE : AccurateCis fun x => Complex.exp (x * Complex.I) := fun x _ => by simp
  refine ⟨A, TrigLib.exact, _, hA, hp, hT, hE, C215_offset (Or.inl rfl) hA hp hT hE true (by norm_num) (by norm_num) (fun k => ?_) (fun k => ?_) (fun k => ?_)
    (fun k => ?_) (by norm_num) (by norm_num) (by norm_num [abs_le]) (by norm_num [abs_le]) (by norm_num [abs_le]) (by norm_num [abs_le])⟩ <;>
    fin_cases k <;> norm_num [abs_le]

end OpenNTN
