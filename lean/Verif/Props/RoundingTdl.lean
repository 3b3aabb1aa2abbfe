import Verif.Model.RoundingTdl
import Verif.Props.RoundingAperture

/-
Taps of TDL models with rounding: C218.
-/
namespace OpenNTN

open Spec

/-- With exact operations the coefficient is that of the model. -/
theorem C218_model {B R X C N : ℕ} (t : Tdl) (powers : Fin C → ℝ) (w : TdlDraws B R X C N) (fs : ℝ) (b : Fin B) (r : Fin R) (x : Fin X) (c : Fin C) (s : ℕ)
    (h : ℂ) (hh : Arith.exact.IsTdlCoeff TrigLib.exact t powers w fs b r x c s h) : h = tdlCoeff t powers w fs b r x c s := by
  obtain ⟨sRe, sIm, h1, h2, rfl⟩ := hh
  have e1 := roundedSum_exact (show RoundedSum id _ sRe from h1)
  have e2 := roundedSum_exact (show RoundedSum id _ sIm from h2)
  rw [List.sum_ofFn] at e1 e2
  subst e1 e2
  simp only [tdlCoeff, Arith.tdlTap, Arith.tdlArg, Arith.tdlAlpha, Arith.sampleTime, Arith.tdlScale, Arith.tdlLos, Arith.exact, TrigLib.exact, id]
  by_cases hc : c.val = 0 <;> cases t.params.losPower <;> simp only [hc, if_true, if_false, Option.map_none, Option.map_some] <;>
    apply Complex.ext <;>
    simp only [Complex.add_re, Complex.mul_re, Complex.add_im, Complex.mul_im, Complex.ofReal_re, Complex.ofReal_im, Complex.re_sum, Complex.im_sum] <;>
    ring_nf

/-- Sine and cosine of the library are accurate to `2⁻²²` for large arguments, too. -/
def Spec.AccurateWide (T : TrigLib) : Prop := ∀ x, |x| ≤ 10 ^ 10 → |T.sin x - Real.sin x| ≤ (2 : ℝ) ^ (-22 : ℤ) ∧ |T.cos x - Real.cos x| ≤ (2 : ℝ) ^ (-22 : ℤ)

section

variable {f : Format} (hf : IEEE f) {A : Arith} (hr : Nearest f A.rnd) (hp : Nearest double A.py)

include hf hr

theorem sum_err {l : List ℝ} {s : ℝ} (h : RoundedSum A.rnd l s) :
    (∀ x ∈ l, |x| ≤ 1.0001) → l.length ≤ 1000 → 1 ≤ l.length ∧ |s - l.sum| ≤ 7e-8 * (l.length : ℝ) ^ 2 ∧ |l.sum| ≤ 1.0001 * l.length := by
  induction h with
  | single x =>
    intro hx _
    have := hx x (by simp)
    exact ⟨by simp, by simp; norm_num, by simpa using this⟩
  | @add l r a b _ _ ha hb =>
    intro hx hl
    rw [List.length_append] at hl
    obtain ⟨a0, a1, a2⟩ := ha (fun x h => hx x (by simp [h])) (by omega)
    obtain ⟨b0, b1, b2⟩ := hb (fun x h => hx x (by simp [h])) (by omega)
    refine ⟨by rw [List.length_append]; omega, ?_⟩
    rw [List.length_append, List.sum_append]
    push_cast
    have m1 : (1 : ℝ) ≤ l.length := by exact_mod_cast a0
    have n1 : (1 : ℝ) ≤ r.length := by exact_mod_cast b0
    have mn : (l.length : ℝ) + r.length ≤ 1000 := by exact_mod_cast hl
    generalize (l.length : ℝ) = m at *
    generalize (r.length : ℝ) = n at *
    generalize l.sum = p at *
    generalize r.sum = q at *
    have ab : |a + b| ≤ 1.01 * (m + n) := by
      have : a + b = (a - p) + (b - q) + p + q := by ring
      rw [this]
      refine ((abs_add_le _ _).trans (add_le_add ((abs_add_le _ _).trans (add_le_add (abs_add_le _ _) le_rfl)) le_rfl)).trans ?_
      have e1 : m ^ 2 ≤ 1000 * m := by nlinarith
      have e2 : n ^ 2 ≤ 1000 * n := by nlinarith
      norm_num at *
      linarith
    have rd := rnd_size hf hr ab (by norm_num at *; linarith) (by norm_num at *; linarith)
    have mul : m + n ≤ 2 * (m * n) := by nlinarith
    constructor
    · have : A.rnd (a + b) - (p + q) = (A.rnd (a + b) - (a + b)) + ((a - p) + (b - q)) := by ring
      rw [this]
      refine ((abs_add_le _ _).trans (add_le_add rd ((abs_add_le _ _).trans (add_le_add a1 b1)))).trans ?_
      norm_num
      nlinarith
    · exact (abs_add_le _ _).trans ((add_le_add a2 b2).trans_eq (by ring))
  | perm p _ ha =>
    intro hx hl
    rw [← p.length_eq] at hl ⊢
    rw [← p.sum_eq]
    exact ha (fun x h => hx x (p.subset h)) hl

include hp in
theorem alpha_near {N k : ℕ} (hN : N ≤ 1000) (hk : k < N) {theta : ℝ} (ht : |theta| ≤ Real.pi) :
    |A.tdlAlpha N k theta - (2 * Real.pi / N * ((k : ℝ) + 1) + theta)| ≤ 2.2e-6 ∧ |A.tdlAlpha N k theta| ≤ 10 := by
  have pb := pi_bounds
  have h1 := py_pi hp
  have N1 : (1 : ℝ) ≤ N := by exact_mod_cast (show 1 ≤ N by omega)
  have N2 : (N : ℝ) ≤ 1000 := by exact_mod_cast hN
  have k1 : (k : ℝ) + 1 ≤ N := by exact_mod_cast hk
  have k0 : (0 : ℝ) ≤ k := by positivity
  have i0 : 0 < 1 / (N : ℝ) := by positivity
  have i1 : 1 / 1000 ≤ 1 / (N : ℝ) := by gcongr
  have i2 : 1 / (N : ℝ) ≤ 1 := by rw [div_le_one (by linarith)]; exact N1
  have iN : 1 / (N : ℝ) * N = 1 := by field_simp
  have kN : 1 / (N : ℝ) * ((k : ℝ) + 1) ≤ 1 := by
    calc _ ≤ 1 / (N : ℝ) * N := by gcongr
      _ = 1 := iN
  unfold Arith.tdlAlpha
  rw [show 2 * A.py Real.pi / N = 2 * A.py Real.pi * (1 / N) by ring, show 2 * Real.pi / N = 2 * Real.pi * (1 / (N : ℝ)) by ring]
  generalize 1 / (N : ℝ) = i at *
  generalize A.py Real.pi = p at *
  have pl := abs_le.1 h1
  norm_num at pl pb i1
  have r1 := rnd_size (Or.inr rfl) hp (x := 2 * p * i) (B := 6.3 * i) (by rw [abs_of_nonneg (by nlinarith)]; norm_num; nlinarith) (by norm_num; linarith) (by norm_num; linarith)
  generalize A.py (2 * p * i) = q at *
  have r1l := abs_le.1 r1
  norm_num at r1l
  have q0 : |q - 2 * Real.pi * i| ≤ 7.6e-7 * i := by
    rw [abs_le]; norm_num; constructor <;> nlinarith
  have q0l := abs_le.1 q0
  norm_num at q0l
  have r2 := rnd_size hf hr (x := q) (B := 6.3 * i) (by rw [abs_le]; norm_num; constructor <;> nlinarith) (by norm_num; linarith) (by norm_num; linarith)
  generalize A.rnd q = q2 at *
  have r2l := abs_le.1 r2
  norm_num at r2l
  have q2b : |q2 - 2 * Real.pi * i| ≤ 1.14e-6 * i := by
    rw [abs_le]; norm_num; constructor <;> nlinarith
  have q3 : |q2 * ((k : ℝ) + 1) - 2 * Real.pi * i * ((k : ℝ) + 1)| ≤ 1.14e-6 := by
    rw [← sub_mul, abs_mul, abs_of_nonneg (show (0 : ℝ) ≤ (k : ℝ) + 1 by linarith)]
    calc _ ≤ 1.14e-6 * i * ((k : ℝ) + 1) := by gcongr
      _ = 1.14e-6 * (i * ((k : ℝ) + 1)) := by ring
      _ ≤ 1.14e-6 * 1 := by gcongr
      _ = _ := by norm_num
  have ik0 : 0 ≤ i * ((k : ℝ) + 1) := by positivity
  have e : 2 * Real.pi * i * ((k : ℝ) + 1) = 2 * Real.pi * (i * ((k : ℝ) + 1)) := by ring
  rw [e] at q3 ⊢
  generalize i * ((k : ℝ) + 1) = y at *
  generalize q2 * ((k : ℝ) + 1) = z at *
  have q3l := abs_le.1 q3
  norm_num at q3l
  have y1 : 0 ≤ 2 * Real.pi * y := by nlinarith
  have y2 : 2 * Real.pi * y ≤ 6.2833 := by norm_num; nlinarith
  norm_num at y2
  have r3 := abs_le.1 (rnd_size hf hr (x := z) (B := 6.3) (by rw [abs_le]; norm_num; constructor <;> linarith) (by norm_num) (by norm_num))
  norm_num at r3
  have tl := abs_le.1 ht
  have r4 := abs_le.1 (rnd_size hf hr (x := A.rnd z + theta) (B := 9.5) (by rw [abs_le]; norm_num; constructor <;> linarith) (by norm_num) (by norm_num))
  norm_num at r4
  constructor <;> rw [abs_le] <;> norm_num <;> constructor <;> linarith

theorem arg_err {T : TrigLib} {D fs : ℝ} {n : ℕ} {a a' phi : ℝ} (hD : |D| ≤ 10 ^ 8) (s1 : 1 ≤ fs) (s2 : fs ≤ 10 ^ 11) (hn : n ≤ 2 ^ 24) (ht : n / fs ≤ 10)
    (hT : AccurateTrig T) (ha : |a' - a| ≤ 2.2e-6) (ha' : |a'| ≤ 10) (hphi : |phi| ≤ 4) :
    |A.tdlArg T D (A.sampleTime fs n) a' phi - (D * (n / fs) * Real.cos a + phi)| ≤ 3e-6 * (|D| * (n / fs)) + 1e-6 ∧
      |A.tdlArg T D (A.sampleTime fs n) a' phi| ≤ 10 ^ 10 := by
  unfold Arith.tdlArg
  have t0 : 0 ≤ n / fs := by positivity
  have tr := (sampleTime_rel hf hr s1 s2 hn).abs (unit_pos f).le (by have := unit_le hf; have := unit_pos f; norm_num; linarith)
  generalize A.sampleTime fs n = t' at *
  generalize (n : ℝ) / fs = t at *
  rw [abs_of_nonneg t0] at tr
  have tr2 : |t' - t| ≤ 1.8e-7 * t := by
    refine tr.trans ?_
    have := unit_le hf
    have : ((2 : ℕ) + 1 : ℝ) * f.unit ≤ 1.8e-7 := by norm_num at *; linarith
    exact mul_le_mul_of_nonneg_right this t0
  set M := |D| * t with hM
  have M0 : 0 ≤ M := by positivity
  have M1 : M ≤ 10 ^ 9 := by
    calc M ≤ 10 ^ 8 * 10 := by rw [hM]; gcongr
      _ = _ := by norm_num
  have p1 : |D * t' - D * t| ≤ 1.8e-7 * M := by
    rw [← mul_sub, abs_mul]
    calc |D| * |t' - t| ≤ |D| * (1.8e-7 * t) := by gcongr
      _ = _ := by rw [hM]; ring
  have p0 : |D * t| = M := by rw [abs_mul, abs_of_nonneg t0]
  have near : ∀ {x y e B : ℝ}, |x - y| ≤ e → |y| ≤ B → |x| ≤ B + e := fun h1 h2 => by
    have := abs_le.1 h1; have := abs_le.1 h2; rw [abs_le]; constructor <;> linarith
  have tri : ∀ {x y z e g : ℝ}, |x - y| ≤ e → |y - z| ≤ g → |x - z| ≤ e + g := fun h1 h2 => (abs_sub_le _ _ _).trans (add_le_add h1 h2)
  have p2 := rnd_size hf hr (x := D * t') (B := 1.0000002 * M + 1e-3) ((near p1 p0.le).trans (by norm_num; linarith)) (by norm_num; linarith) (by norm_num at *; linarith)
  have p3 : |A.rnd (D * t') - D * t| ≤ 2.41e-7 * M + 1e-10 := (tri p2 p1).trans (by norm_num; linarith)
  generalize A.rnd (D * t') = d at *
  have c1 : |T.cos a' - Real.cos a| ≤ 2.32e-6 := by
    refine (tri (hT.nearCos ha').1 ((cos_lip a' a).trans ha)).trans (by norm_num)
  have c0 := Real.abs_cos_le_one a
  have cb : |T.cos a'| ≤ 1.00001 := (near c1 c0).trans (by norm_num)
  generalize T.cos a' = c' at *
  generalize Real.cos a = c at *
  generalize D * t = y at *
  have p4 : |d * c' - y * c| ≤ 2.57e-6 * M + 1.1e-10 := by
    rw [show d * c' - y * c = (d - y) * c' + y * (c' - c) by ring]
    refine (abs_add_le _ _).trans ?_
    rw [abs_mul, abs_mul, p0]
    have h1 : |d - y| * |c'| ≤ (2.41e-7 * M + 1e-10) * 1.00001 := by gcongr
    have h2 : M * |c' - c| ≤ M * 2.32e-6 := by gcongr
    norm_num at *
    linarith
  have yc : |y * c| ≤ M := by
    rw [abs_mul, p0]; nlinarith
  have p5 := rnd_size hf hr (x := d * c') (B := 1.00001 * M + 1e-3) ((near p4 yc).trans (by norm_num; linarith)) (by norm_num; linarith) (by norm_num at *; linarith)
  have p6 : |A.rnd (d * c') - y * c| ≤ 2.64e-6 * M + 1e-9 := (tri p5 p4).trans (by norm_num; linarith)
  generalize A.rnd (d * c') = g at *
  have p7 : |g + phi - (y * c + phi)| ≤ 2.64e-6 * M + 1e-9 := by rwa [add_sub_add_right_eq_sub]
  have p8 : |y * c + phi| ≤ M + 4 := (abs_add_le _ _).trans (add_le_add yc hphi)
  have p9 := rnd_size hf hr (x := g + phi) (B := 1.00001 * M + 5) ((near p7 p8).trans (by norm_num; linarith)) (by norm_num; linarith) (by norm_num at *; linarith)
  have p10 := tri p9 p7
  refine ⟨p10.trans (by norm_num; linarith), (near p10 p8).trans (by norm_num at *; linarith)⟩

/-- Normalisation and power of a tap. -/
theorem scale_near {N : ℕ} (hN : 1 ≤ N) (hN2 : N ≤ 1000) {P s s' e : ℝ} (P0 : 0 ≤ P) (P1 : P ≤ 1) (hs : |s| ≤ N) (e0 : 0 ≤ e) (e1 : e ≤ 10 ^ 8)
    (h : |s' - s| ≤ e * Real.sqrt N) : |A.tdlScale N P s' - Real.sqrt P * (1 / Real.sqrt N * s)| ≤ 4e-7 * Real.sqrt N + 1.001 * e := by
  have N1 : (1 : ℝ) ≤ N := by exact_mod_cast hN
  have N2 : (N : ℝ) ≤ 1000 := by exact_mod_cast hN2
  have near : ∀ {x y e B : ℝ}, |x - y| ≤ e → |y| ≤ B → |x| ≤ B + e := fun h1 h2 => by
    have := abs_le.1 h1; have := abs_le.1 h2; rw [abs_le]; constructor <;> linarith
  have tri : ∀ {x y z e g : ℝ}, |x - y| ≤ e → |y - z| ≤ g → |x - z| ≤ e + g := fun h1 h2 => (abs_sub_le _ _ _).trans (add_le_add h1 h2)
  unfold Arith.tdlScale
  have R2 : Real.sqrt N ^ 2 = N := Real.sq_sqrt (by linarith)
  have R1 : 1 ≤ Real.sqrt N := by rw [Real.one_le_sqrt]; exact N1
  have Q0 := Real.sqrt_nonneg P
  have Q1 : Real.sqrt P ≤ 1 := by rw [Real.sqrt_le_iff]; norm_num; exact P1
  generalize Real.sqrt P = Q at *
  rw [← R2] at hs N2
  generalize Real.sqrt N = R at *
  have Ru : R ≤ 32 := by nlinarith
  have Rp : 0 < R := by linarith
  have r1 := rnd_size hf hr (x := R) (B := R) (abs_of_nonneg (by linarith)).le (by linarith) (by linarith)
  generalize A.rnd R = R' at *
  have r1l := abs_le.1 r1
  norm_num at r1l
  have Rp' : 0 < R' := by linarith
  have g1 : |1 / R' - 1 / R| ≤ 6.1e-8 * (1 / R) := by
    rw [div_sub_div _ _ Rp'.ne' Rp.ne', one_mul, mul_one, abs_div, abs_of_pos (mul_pos Rp' Rp), div_le_iff₀ (mul_pos Rp' Rp), abs_sub_comm]
    refine r1.trans ?_
    rw [show 6.1e-8 * (1 / R) * (R' * R) = 6.1e-8 * R' * (1 / R * R) by ring, one_div_mul_cancel Rp.ne']
    norm_num
    linarith
  have i0 : 0 < 1 / R := by positivity
  have iR : 1 / R * R = 1 := one_div_mul_cancel Rp.ne'
  have i1 : 1 / R ≤ 1 := by rw [div_le_one Rp]; exact R1
  have i2 : 1 / 32 ≤ 1 / R := by gcongr
  have g2 := rnd_size hf hr (x := 1 / R') (B := 1.0001 * (1 / R)) ((near g1 (abs_of_nonneg i0.le).le).trans (by norm_num at *; linarith)) (by norm_num at *; linarith) (by norm_num at *; linarith)
  have g3 : |A.rnd (1 / R') - 1 / R| ≤ 1.3e-7 * (1 / R) := (tri g2 g1).trans (by norm_num at *; linarith)
  generalize A.rnd (1 / R') = g at *
  have sR : |1 / R * s| ≤ R := by
    rw [abs_mul, abs_of_pos i0]
    calc 1 / R * |s| ≤ 1 / R * R ^ 2 := by gcongr
      _ = 1 / R * R * R := by ring
      _ = R := by rw [iR, one_mul]
  have s'b : 1 / R * |s'| ≤ R + e := by
    have := near h hs
    calc 1 / R * |s'| ≤ 1 / R * (R ^ 2 + e * R) := by gcongr
      _ = 1 / R * R * (R + e) := by ring
      _ = R + e := by rw [iR, one_mul]
  have p1 : |g * s' - 1 / R * s| ≤ 1.3e-7 * R + 1.0001 * e := by
    rw [show g * s' - 1 / R * s = (g - 1 / R) * s' + 1 / R * (s' - s) by ring]
    refine (abs_add_le _ _).trans ?_
    rw [abs_mul, abs_mul, abs_of_pos i0]
    have h1 : |g - 1 / R| * |s'| ≤ 1.3e-7 * (1 / R) * |s'| := by gcongr
    have h2 : 1 / R * |s' - s| ≤ 1 / R * (e * R) := by gcongr
    rw [show 1 / R * (e * R) = 1 / R * R * e by ring, iR, one_mul] at h2
    have h3 : 1.3e-7 * (1 / R) * |s'| ≤ 1.3e-7 * (R + e) := by
      rw [mul_assoc]; gcongr
    norm_num at *
    linarith
  have p2 := rnd_size hf hr (x := g * s') (B := 1.001 * (R + e)) ((near p1 sR).trans (by norm_num; linarith)) (by norm_num; linarith) (by norm_num at *; linarith)
  have p3 : |A.rnd (g * s') - 1 / R * s| ≤ 1.92e-7 * R + 1.0002 * e := (tri p2 p1).trans (by norm_num; linarith)
  generalize A.rnd (g * s') = p at *
  generalize 1 / R * s = y at *
  have q1 := rnd_size hf hr (x := Q) (B := 1) (by rw [abs_of_nonneg Q0]; exact Q1) (by norm_num) (by norm_num)
  generalize A.rnd Q = q at *
  have qb : |q| ≤ 1.0000001 := (near q1 (show |Q| ≤ 1 by rw [abs_of_nonneg Q0]; exact Q1)).trans (by norm_num)
  have t1 : |q * p - Q * y| ≤ 2.53e-7 * R + 1.0003 * e := by
    rw [show q * p - Q * y = q * (p - y) + (q - Q) * y by ring]
    refine (abs_add_le _ _).trans ?_
    rw [abs_mul, abs_mul]
    have h1 : |q| * |p - y| ≤ 1.0000001 * (1.92e-7 * R + 1.0002 * e) := by gcongr
    have h2 : |q - Q| * |y| ≤ 6e-8 * 1 * R := by gcongr
    norm_num at *
    linarith
  have Qy : |Q * y| ≤ R := by
    rw [abs_mul, abs_of_nonneg Q0]
    calc Q * |y| ≤ 1 * R := by gcongr
      _ = R := one_mul R
  have t2 := rnd_size hf hr (x := q * p) (B := 1.001 * (R + e)) ((near t1 Qy).trans (by norm_num; linarith)) (by norm_num; linarith) (by norm_num at *; linarith)
  exact (tri t2 t1).trans (by norm_num; linarith)

/-- The specular path. -/
theorem los_near {l e e' h h' d g R : ℝ} (l1 : l ≤ 1) (he : |e| ≤ 1) (hd : |e' - e| ≤ d) (hh : |h| ≤ R) (hg : |h' - h| ≤ g)
    (d1 : d ≤ 10 ^ 8) (g1 : g ≤ 10 ^ 10) (R1 : 1 ≤ R) (R2 : R ≤ 32) :
    |A.tdlLos l e' h' - (e * Real.sqrt l + h)| ≤ 1.001 * d + 1.001 * g + 3e-7 * R := by
  have near : ∀ {x y e B : ℝ}, |x - y| ≤ e → |y| ≤ B → |x| ≤ B + e := fun h1 h2 => by
    have := abs_le.1 h1; have := abs_le.1 h2; rw [abs_le]; constructor <;> linarith
  have tri : ∀ {x y z e g : ℝ}, |x - y| ≤ e → |y - z| ≤ g → |x - z| ≤ e + g := fun h1 h2 => (abs_sub_le _ _ _).trans (add_le_add h1 h2)
  have d0 : 0 ≤ d := (abs_nonneg _).trans hd
  have g0 : 0 ≤ g := (abs_nonneg _).trans hg
  unfold Arith.tdlLos
  have Q0 := Real.sqrt_nonneg l
  have Q1 : Real.sqrt l ≤ 1 := by rw [Real.sqrt_le_iff]; norm_num; exact l1
  generalize Real.sqrt l = Q at *
  have q1 := rnd_size hf hr (x := Q) (B := 1) (by rw [abs_of_nonneg Q0]; exact Q1) (by norm_num) (by norm_num)
  generalize A.rnd Q = q at *
  have qb : |q| ≤ 1.0000001 := (near q1 (show |Q| ≤ 1 by rw [abs_of_nonneg Q0]; exact Q1)).trans (by norm_num)
  have t1 : |e' * q - e * Q| ≤ 1.0001 * d + 6e-8 := by
    rw [show e' * q - e * Q = (e' - e) * q + e * (q - Q) by ring]
    refine (abs_add_le _ _).trans ?_
    rw [abs_mul, abs_mul]
    have h1 : |e' - e| * |q| ≤ d * 1.0000001 := by gcongr
    have h2 : |e| * |q - Q| ≤ 1 * (6e-8 * 1) := by gcongr
    norm_num at *
    linarith
  have b1 : |e * Q| ≤ 1 := by
    rw [abs_mul, abs_of_nonneg Q0]
    exact mul_le_one₀ he Q0 Q1
  have t2 := rnd_size hf hr (x := e' * q) (B := 1.001 * (1 + d)) ((near t1 b1).trans (by norm_num; linarith)) (by norm_num; linarith) (by norm_num at *; linarith)
  have t3 : |A.rnd (e' * q) - e * Q| ≤ 1.0002 * d + 1.21e-7 := (tri t2 t1).trans (by norm_num; linarith)
  generalize A.rnd (e' * q) = a at *
  have t4 : |a + h' - (e * Q + h)| ≤ 1.0002 * d + 1.21e-7 + g := by
    rw [show a + h' - (e * Q + h) = (a - e * Q) + (h' - h) by ring]
    exact (abs_add_le _ _).trans (add_le_add t3 hg)
  have b2 : |e * Q + h| ≤ 1 + R := (abs_add_le _ _).trans (add_le_add b1 hh)
  have t5 := rnd_size hf hr (x := a + h') (B := 1.001 * (1 + R + d + g)) ((near t4 b2).trans (by norm_num; linarith)) (by norm_num; linarith) (by norm_num at *; linarith)
  exact (tri t5 t4).trans (by norm_num; linarith)

end

/-- The quantities of a call: amounts that a simulation can have. -/
structure Spec.TdlRange {B R X C N : ℕ} (t : Tdl) (powers : Fin C → ℝ) (w : TdlDraws B R X C N) (fs : ℝ) (s : ℕ) : Prop where
  sinusoids : 1 ≤ N ∧ N ≤ 1000
  power : ∀ c, 0 ≤ powers c ∧ powers c ≤ 1
  losPower : ∀ l ∈ t.params.losPower, 0 ≤ l ∧ l ≤ 1
  losAngle : |t.losAngle| ≤ 4
  doppler : ∀ b, |w.doppler b| ≤ 10 ^ 8
  theta : ∀ b c k, |w.theta b c k| ≤ Real.pi / N
  phi : ∀ b r x c k, |w.phi b r x c k| ≤ 4
  phi0 : ∀ b, |w.phi0 b| ≤ 4
  rate : 1 ≤ fs ∧ fs ≤ 10 ^ 11
  time : s ≤ 2 ^ 24 ∧ s / fs ≤ 10

/-- C218: in single precision every coefficient of a tap with up to twenty sinusoids is accurate to a tenth. -/
def C218_statement : Prop :=
  ∀ (A : Arith) (T : TrigLib), Nearest single A.rnd → Nearest double A.py → AccurateTrig T → AccurateWide T →
    ∀ {B R X C N : ℕ} (t : Tdl) (powers : Fin C → ℝ) (w : TdlDraws B R X C N) (fs : ℝ) (b : Fin B) (r : Fin R) (x : Fin X) (c : Fin C) (s : ℕ) (h : ℂ),
      TdlRange t powers w fs s → N ≤ 20 → A.IsTdlCoeff T t powers w fs b r x c s h → ‖h - tdlCoeff t powers w fs b r x c s‖ ≤ 1 / 10

theorem norm_le_parts {z : ℂ} {e : ℝ} (h1 : |z.re| ≤ e) (h2 : |z.im| ≤ e) : ‖z‖ ≤ 1.415 * e := by
  have e0 : 0 ≤ e := (abs_nonneg _).trans h1
  have a := pow_le_pow_left₀ (abs_nonneg _) h1 2
  have b := pow_le_pow_left₀ (abs_nonneg _) h2 2
  rw [sq_abs] at a b
  have : ‖z‖ ^ 2 ≤ (1.415 * e) ^ 2 := by
    rw [← Complex.normSq_eq_norm_sq, Complex.normSq_apply]
    norm_num
    nlinarith
  exact le_of_sq_le_sq this (by norm_num; linarith)

set_option maxHeartbeats 1600000 in
/-- C218 (partial): with the rotation `M` of the phase since the first sample in radians, a coefficient of `N` sinusoids is accurate to
`sqrt N (1e-5 M + 1e-7 N + 5e-6)`; in single precision the claim holds for twenty sinusoids up to 2000 rad. -/
theorem C218_partial {f : Format} (hf : IEEE f) {A : Arith} (hr : Nearest f A.rnd) (hp : Nearest double A.py) {T : TrigLib} (hT : AccurateTrig T) (hW : AccurateWide T)
    {B R X C N : ℕ} {t : Tdl} {powers : Fin C → ℝ} {w : TdlDraws B R X C N} {fs : ℝ} {b : Fin B} {r : Fin R} {x : Fin X} {c : Fin C} {s : ℕ} {h : ℂ}
    (H : TdlRange t powers w fs s) (hh : A.IsTdlCoeff T t powers w fs b r x c s h) :
    ‖h - tdlCoeff t powers w fs b r x c s‖ ≤ Real.sqrt N * (1e-5 * (|w.doppler b| * (s / fs)) + 1e-7 * N + 5e-6) ∧
    (N ≤ 20 → |w.doppler b| * (s / fs) ≤ 2000 → ‖h - tdlCoeff t powers w fs b r x c s‖ ≤ 1 / 10) := by
  obtain ⟨⟨hN, hN2⟩, hP, hL, hA, hD, hth, hphi, hphi0, ⟨f1, f2⟩, hs, ht⟩ := H
  have N1 : (1 : ℝ) ≤ N := by exact_mod_cast hN
  have N2 : (N : ℝ) ≤ 1000 := by exact_mod_cast hN2
  have R2 : Real.sqrt N ^ 2 = N := Real.sq_sqrt (by linarith)
  have R1 : 1 ≤ Real.sqrt N := by rw [Real.one_le_sqrt]; exact N1
  have Ru : Real.sqrt N ≤ 32 := by nlinarith
  have pp := Real.pi_pos
  have main : ‖h - tdlCoeff t powers w fs b r x c s‖ ≤ Real.sqrt N * (1e-5 * (|w.doppler b| * (s / fs)) + 1e-7 * N + 5e-6) := by
    obtain ⟨sRe, sIm, h1, h2, rfl⟩ := hh
    have ar := fun k : Fin N => arg_err hf hr (T := T) (hD b) f1 f2 hs ht hT
      (alpha_near hf hr hp hN2 k.isLt ((hth b c k).trans (div_le_self pp.le N1))).1
      (alpha_near hf hr hp hN2 k.isLt ((hth b c k).trans (div_le_self pp.le N1))).2 (hphi b r x c k)
    have al := abs_le.1 (rnd_size hf hr hA (by norm_num) (by norm_num))
    have al2 := abs_le.1 hA
    norm_num at al
    have as := arg_err hf hr (T := T) (a := t.losAngle) (a' := A.rnd t.losAngle) (hD b) f1 f2 hs ht hT
      (by rw [abs_le]; norm_num; constructor <;> linarith) (by rw [abs_le]; constructor <;> linarith) (hphi0 b)
    unfold tdlCoeff
    have M0 : 0 ≤ |w.doppler b| * (s / fs) := by positivity
    have M1 : |w.doppler b| * (s / fs) ≤ 10 ^ 9 := by
      calc _ ≤ (10 : ℝ) ^ 8 * 10 := by gcongr; exact hD b
        _ = _ := by norm_num
    generalize |w.doppler b| * (s / fs) = M at *
    -- sine and cosine of an argument
    have tr : ∀ {u v : ℝ}, |u - v| ≤ 3e-6 * M + 1e-6 ∧ |u| ≤ 10 ^ 10 →
        (|T.cos u - Real.cos v| ≤ 3e-6 * M + 1.3e-6 ∧ |T.cos u| ≤ 1.0001) ∧ |T.sin u - Real.sin v| ≤ 3e-6 * M + 1.3e-6 ∧ |T.sin u| ≤ 1.0001 := by
      intro u v ⟨e, bd⟩
      obtain ⟨w1, w2⟩ := hW u bd
      have b1 := abs_le.1 (Real.abs_cos_le_one u)
      have b2 := abs_le.1 (Real.abs_sin_le_one u)
      have c1 := (abs_sub_le _ _ _).trans (add_le_add w2 ((cos_lip u v).trans e))
      have c2 := (abs_sub_le _ _ _).trans (add_le_add w1 ((sin_lip u v).trans e))
      have w1 := abs_le.1 w1
      have w2 := abs_le.1 w2
      norm_num at w1 w2 c1 c2
      refine ⟨⟨c1.trans (by norm_num; linarith), ?_⟩, c2.trans (by norm_num; linarith), ?_⟩ <;> rw [abs_le] <;> norm_num <;> constructor <;> linarith
    set d := 3e-6 * M + 1.3e-6 with hd
    have d0 : 0 ≤ d := by rw [hd]; norm_num; linarith
    have dM : d ≤ 3e-6 * M + 1.3e-6 := le_rfl
    clear_value d
    clear hd
    have d1 : d ≤ 3001 := by norm_num at dM M1; linarith
    -- a part of the sum
    have part : ∀ {g : Fin N → ℝ} {g' : Fin N → ℝ} {sum : ℝ}, RoundedSum A.rnd (List.ofFn g') sum → (∀ k, |g' k - g k| ≤ d ∧ |g' k| ≤ 1.0001) → (∀ k, |g k| ≤ 1) →
        |A.tdlScale N (powers c) sum - Real.sqrt (powers c) * (1 / Real.sqrt N * ∑ k, g k)| ≤ 4e-7 * Real.sqrt N + 1.001 * (Real.sqrt N * (d + 7e-8 * N)) ∧
        |Real.sqrt (powers c) * (1 / Real.sqrt N * ∑ k, g k)| ≤ Real.sqrt N := by
      intro g g' sum hsum hg hg1
      have se := sum_err hf hr hsum (fun z hz => by obtain ⟨k, rfl⟩ := (List.mem_ofFn' _ _).1 hz; exact (hg k).2) (by simpa using hN2)
      rw [List.length_ofFn, List.sum_ofFn] at se
      have gs : |∑ k, g k| ≤ N := by
        refine (Finset.abs_sum_le_sum_abs _ _).trans ((Finset.sum_le_sum fun k _ => hg1 k).trans ?_)
        simp
      have gd : |∑ k, g' k - ∑ k, g k| ≤ N * d := by
        rw [← Finset.sum_sub_distrib]
        refine (Finset.abs_sum_le_sum_abs _ _).trans ((Finset.sum_le_sum fun k _ => (hg k).1).trans ?_)
        simp
      refine ⟨scale_near hf hr hN hN2 (hP c).1 (hP c).2 gs (by positivity) ?_ ?_, ?_⟩
      · calc Real.sqrt N * (d + 7e-8 * N) ≤ 32 * (3001 + 7e-8 * 1000) := by gcongr
          _ ≤ _ := by norm_num
      · refine ((abs_sub_le _ _ _).trans (add_le_add se.2.1 gd)).trans_eq ?_
        rw [show Real.sqrt N * (d + 7e-8 * N) * Real.sqrt N = Real.sqrt N ^ 2 * (d + 7e-8 * N) by ring, R2]
        ring
      · have Q0 := Real.sqrt_nonneg (powers c)
        have Q1 : Real.sqrt (powers c) ≤ 1 := by rw [Real.sqrt_le_iff]; norm_num; exact (hP c).2
        have Rp : 0 < Real.sqrt N := by linarith
        rw [abs_mul, abs_mul, abs_of_nonneg Q0, abs_of_pos (show 0 < 1 / Real.sqrt N by positivity)]
        calc _ ≤ 1 * (1 / Real.sqrt N * N) := by gcongr
          _ = 1 / Real.sqrt N * (Real.sqrt N ^ 2) := by rw [R2, one_mul]
          _ = Real.sqrt N := by field_simp
    obtain ⟨p1, q1⟩ := part h1 (fun k => (tr (ar k)).1) (fun k => Real.abs_cos_le_one _)
    obtain ⟨p2, q2⟩ := part h2 (fun k => (tr (ar k)).2) (fun k => Real.abs_sin_le_one _)
    have ds := tr as
    have err : 4e-7 * Real.sqrt N + 1.001 * (Real.sqrt N * (d + 7e-8 * N)) ≤ Real.sqrt N * (3.1e-6 * M + 1.8e-6 + 7.01e-8 * N) := by
      rw [show 4e-7 * Real.sqrt N + 1.001 * (Real.sqrt N * (d + 7e-8 * N)) = Real.sqrt N * (4e-7 + 1.001 * (d + 7e-8 * N)) by ring]
      refine mul_le_mul_of_nonneg_left ?_ (by linarith)
      norm_num at dM ⊢
      linarith
    have fin1 : 1.415 * (4e-7 * Real.sqrt N + 1.001 * (Real.sqrt N * (d + 7e-8 * N))) ≤ Real.sqrt N * (1e-5 * M + 1e-7 * N + 5e-6) := by
      refine (mul_le_mul_of_nonneg_left err (by norm_num)).trans ?_
      rw [mul_left_comm]
      refine mul_le_mul_of_nonneg_left ?_ (by linarith)
      norm_num
      linarith
    have g1 : 4e-7 * Real.sqrt N + 1.001 * (Real.sqrt N * (d + 7e-8 * N)) ≤ 10 ^ 10 := by
      calc 4e-7 * Real.sqrt N + 1.001 * (Real.sqrt N * (d + 7e-8 * N)) ≤ 4e-7 * 32 + 1.001 * (32 * (3001 + 7e-8 * 1000)) := by gcongr
        _ ≤ _ := by norm_num
    have fin2 : 1.415 * (1.001 * d + 1.001 * (4e-7 * Real.sqrt N + 1.001 * (Real.sqrt N * (d + 7e-8 * N))) + 3e-7 * Real.sqrt N) ≤
        Real.sqrt N * (1e-5 * M + 1e-7 * N + 5e-6) := by
      have e1 : d ≤ Real.sqrt N * d := by nlinarith
      have e2 : 1.415 * (1.001 * d + 1.001 * (4e-7 * Real.sqrt N + 1.001 * (Real.sqrt N * (d + 7e-8 * N))) + 3e-7 * Real.sqrt N) ≤
        Real.sqrt N * (1.415 * (1.001 * d + 1.001 * (4e-7 + 1.001 * (d + 7e-8 * N)) + 3e-7)) := by norm_num at dM ⊢; linarith
      refine e2.trans (mul_le_mul_of_nonneg_left ?_ (by linarith))
      norm_num at dM ⊢
      linarith
    have plain : ‖(⟨A.tdlScale N (powers c) sRe, A.tdlScale N (powers c) sIm⟩ : ℂ) - ((Real.sqrt (powers c) : ℝ) : ℂ) * (((1 / Real.sqrt N : ℝ) : ℂ) *
        ∑ k : Fin N, (⟨Real.cos (w.doppler b * (s / fs) * Real.cos (2 * Real.pi / N * ((k.val : ℝ) + 1) + w.theta b c k) + w.phi b r x c k),
          Real.sin (w.doppler b * (s / fs) * Real.cos (2 * Real.pi / N * ((k.val : ℝ) + 1) + w.theta b c k) + w.phi b r x c k)⟩ : ℂ))‖ ≤
        Real.sqrt N * (1e-5 * M + 1e-7 * N + 5e-6) := by
      refine (norm_le_parts ?_ ?_).trans fin1
      · simpa only [Complex.sub_re, Complex.re_ofReal_mul, Complex.re_sum] using p1
      · simpa only [Complex.sub_im, Complex.im_ofReal_mul, Complex.im_sum] using p2
    by_cases hc : c.val = 0
    · cases hl : t.params.losPower with
      | none => simpa only [hc, if_true, Option.map_none, Arith.tdlTap] using plain
      | some l =>
        obtain ⟨-, l1⟩ := hL l (by rw [hl]; rfl)
        have s1 := los_near hf hr l1 (Real.abs_cos_le_one _) ds.1.1 q1 p1 (by linarith) g1 R1 Ru
        have s2 := los_near hf hr l1 (Real.abs_sin_le_one _) ds.2.1 q2 p2 (by linarith) g1 R1 Ru
        simp only [hc, if_true, Option.map_some, Arith.tdlTap]
        refine (norm_le_parts ?_ ?_).trans fin2
        · simpa only [Complex.sub_re, Complex.add_re, Complex.re_mul_ofReal, Complex.re_ofReal_mul, Complex.re_sum] using s1
        · simpa only [Complex.sub_im, Complex.add_im, Complex.im_mul_ofReal, Complex.im_ofReal_mul, Complex.im_sum] using s2
    · cases hl : t.params.losPower with
      | none => simpa only [hc, if_false, Arith.tdlTap] using plain
      | some l => simpa only [hc, if_false, Arith.tdlTap] using plain
  refine ⟨main, fun h20 hM => main.trans ?_⟩
  have h20 : (N : ℝ) ≤ 20 := by exact_mod_cast h20
  have : Real.sqrt N ≤ 4.48 := by
    rw [Real.sqrt_le_iff]; norm_num; linarith
  have M0 : 0 ≤ |w.doppler b| * (s / fs) := by positivity
  calc Real.sqrt N * (1e-5 * (|w.doppler b| * (s / fs)) + 1e-7 * N + 5e-6) ≤ 4.48 * (1e-5 * 2000 + 1e-7 * 20 + 5e-6) := by gcongr
    _ ≤ _ := by norm_num

/-- A library whose cosine is 1 near `2 pi`. -/
noncomputable def flatTrig : TrigLib := { TrigLib.exact with cos := fun x => if |x - 2 * Real.pi| ≤ 1e-5 then 1 else Real.cos x }

theorem flatTrig_cos (x : ℝ) : |flatTrig.cos x - Real.cos x| ≤ (2 : ℝ) ^ (-23 : ℤ) := by
  simp only [flatTrig]
  split_ifs with h
  · have c := Real.one_sub_sq_div_two_le_cos (x := x - 2 * Real.pi)
    rw [Real.cos_sub_two_pi] at c
    have h2 := pow_le_pow_left₀ (abs_nonneg _) h 2
    rw [sq_abs] at h2
    have := Real.cos_le_one x
    rw [abs_of_nonneg (by linarith)]
    norm_num at *
    linarith
  · simp

theorem flatTrig_accurate : AccurateTrig flatTrig :=
  ⟨fun x _ => by simp [flatTrig, TrigLib.exact], fun x _ => flatTrig_cos x, fun x _ => by simp [flatTrig, TrigLib.exact], fun x y => by simp [flatTrig, TrigLib.exact]⟩

theorem flatTrig_wide : AccurateWide flatTrig :=
  fun x _ => ⟨by simp [flatTrig, TrigLib.exact], (flatTrig_cos x).trans (by norm_num)⟩

/-- A model with one tap of power 1 without specular path. -/
noncomputable def oneTap : Tdl := ⟨⟨false, true, 1, [0], [1], none⟩, 0, 1, 0, 0, 0⟩

/-- The draws of a fast terminal. -/
noncomputable def fastDraws : TdlDraws 1 1 1 1 1 := ⟨fun _ => 8388609 / 2, fun _ _ _ => 0, fun _ _ _ _ _ => 1 / 2, fun _ => 0⟩

theorem fast_range : TdlRange oneTap (fun _ : Fin 1 => 1) fastDraws (2 ^ 14) (2 ^ 16) := by
  constructor <;> norm_num [oneTap, fastDraws]
  · intro l h; simp at h
  · exact Real.pi_pos.le

theorem one_sum (rnd : ℝ → ℝ) (g : Fin 1 → ℝ) : RoundedSum rnd (List.ofFn g) (g 0) := by
  rw [List.ofFn_succ, List.ofFn_zero]
  exact .single _

/-- C218 fails: with a Doppler shift of 670 kHz the phase is wrong by half a radian after four seconds. -/
theorem C218_violated : ¬ C218_statement := by
  intro H
  obtain ⟨A, hr, hp⟩ := exists_arith single (Or.inl rfl)
  have hf : IEEE single := Or.inl rfl
  have sr : (10 : ℝ) ^ 10 < single.range := by norm_num [Format.range, Spec.single]
  have time : A.sampleTime (2 ^ 14) (2 ^ 16) = 4 := by
    unfold Arith.sampleTime
    rw [show A.rnd (2 ^ 14) = 2 ^ 14 by
      have := rnd_int hr (n := 2 ^ 14) (by norm_num)
      norm_num at this ⊢
      exact this]
    have := rnd_int hr (n := 4) (by norm_num)
    norm_num at this ⊢
    exact this
  have arg : A.tdlArg flatTrig (8388609 / 2) (A.sampleTime (2 ^ 14) (2 ^ 16)) (A.tdlAlpha 1 0 0) (1 / 2) = 16777218 := by
    unfold Arith.tdlArg
    have al := (alpha_near hf hr hp (N := 1) (k := 0) (by norm_num) (by norm_num) (theta := 0) (by simpa using Real.pi_pos.le)).1
    rw [time, show flatTrig.cos (A.tdlAlpha 1 0 0) = 1 by
      simp only [flatTrig]
      rw [if_pos]
      norm_num at al ⊢
      linarith]
    have e1 : A.rnd (8388609 / 2 * 4) = 16777218 := by
      rw [hr.eval (by norm_num [Spec.single]) 8388609 1 (by norm_num [Spec.single]) (by norm_num [Spec.single]) (by norm_num [Spec.single])
        (by norm_num [Spec.single]) (lt_trans (by rw [abs_of_pos] <;> norm_num) sr) (by norm_num)]
      norm_num
    have e2 : A.rnd 16777218 = 16777218 := by
      rw [hr.eval (by norm_num [Spec.single]) 8388609 1 (by norm_num [Spec.single]) (by norm_num [Spec.single]) (by norm_num [Spec.single])
        (by norm_num [Spec.single]) (lt_trans (by rw [abs_of_pos] <;> norm_num) sr) (by norm_num)]
      norm_num
    rw [e1, mul_one, e2, hr.eval (by norm_num [Spec.single]) 8388609 1 (by norm_num [Spec.single]) (by norm_num [Spec.single]) (by norm_num [Spec.single])
        (by norm_num [Spec.single]) (lt_trans (by rw [abs_of_pos] <;> norm_num) sr) (by norm_num)]
    norm_num
  have fc : flatTrig.cos 16777218 = Real.cos 16777218 := by
    simp only [flatTrig]
    rw [if_neg]
    have := Real.pi_le_four
    rw [not_le, abs_of_pos (by linarith)]
    norm_num
    linarith
  have bound := H A flatTrig hr hp flatTrig_accurate flatTrig_wide oneTap (fun _ : Fin 1 => 1) fastDraws (2 ^ 14) 0 0 0 0 (2 ^ 16)
    (A.tdlTap flatTrig 1 1 none (Real.cos 16777218) (Real.sin 16777218)) fast_range (by norm_num) ⟨Real.cos 16777218, Real.sin 16777218, by
      simp only [List.ofFn_succ, List.ofFn_zero, fastDraws, Fin.val_zero, arg, fc]
      exact .single _, by
      simp only [List.ofFn_succ, List.ofFn_zero, fastDraws, Fin.val_zero, arg]
      exact .single _, by simp [oneTap]⟩
  have p1 := scale_near hf hr (N := 1) (by norm_num) (by norm_num) (P := 1) (by norm_num) (by norm_num) (s := Real.cos 16777218) (s' := Real.cos 16777218)
    (by simpa using Real.abs_cos_le_one _) le_rfl (by norm_num) (by simp)
  have p2 := scale_near hf hr (N := 1) (by norm_num) (by norm_num) (P := 1) (by norm_num) (by norm_num) (s := Real.sin 16777218) (s' := Real.sin 16777218)
    (by simpa using Real.abs_sin_le_one _) le_rfl (by norm_num) (by simp)
  have val : tdlCoeff oneTap (fun _ : Fin 1 => 1) fastDraws (2 ^ 14) 0 0 0 0 (2 ^ 16) = Complex.exp (Complex.I * ((16777218.5 : ℝ) : ℂ)) := by
    have : ((8388609 / 2 : ℝ) * (((2 ^ 16 : ℕ) : ℝ) / 2 ^ 14) * Real.cos (2 * Real.pi / ((1 : ℕ) : ℝ) * (((0 : ℕ) : ℝ) + 1) + 0) + 1 / 2) = 16777218.5 := by
      rw [show 2 * Real.pi / ((1 : ℕ) : ℝ) * (((0 : ℕ) : ℝ) + 1) + 0 = 2 * Real.pi by norm_num, Real.cos_two_pi]
      norm_num
    simp only [tdlCoeff, oneTap, fastDraws, Fin.sum_univ_one, Fin.val_zero, this]
    rw [Nat.cast_one, Real.sqrt_one, one_div_one, Complex.ofReal_one, one_mul, one_mul]
    apply Complex.ext <;> simp [Complex.exp_re, Complex.exp_im]
  rw [val] at bound
  have far := circle_dist 16777218 16777218.5
  have up := (abs_le.1 (Real.cos_bound (x := 16777218 - 16777218.5) (by norm_num))).2
  have near : ‖A.tdlTap flatTrig 1 1 none (Real.cos 16777218) (Real.sin 16777218) - Complex.exp (Complex.I * ((16777218 : ℝ) : ℂ))‖ ≤ 1.415 * 4e-7 := by
    have e : Complex.exp (Complex.I * ((16777218 : ℝ) : ℂ)) = ⟨Real.cos 16777218, Real.sin 16777218⟩ := by
      apply Complex.ext <;> simp [Complex.exp_re, Complex.exp_im]
    rw [e]
    refine norm_le_parts ?_ ?_
    · simpa [Arith.tdlTap] using p1
    · simpa [Arith.tdlTap] using p2
  have tri : ‖Complex.exp (Complex.I * ((16777218 : ℝ) : ℂ)) - Complex.exp (Complex.I * ((16777218.5 : ℝ) : ℂ))‖ ≤ 0.11 := by
    rw [norm_sub_rev] at near
    refine (norm_sub_le_norm_sub_add_norm_sub _ _ _).trans ((add_le_add near bound).trans (by norm_num))
  have tri2 := pow_le_pow_left₀ (norm_nonneg _) tri 2
  rw [far] at tri2
  rw [show |(16777218 : ℝ) - 16777218.5| = 1 / 2 by norm_num] at up
  norm_num at up tri2
  linarith

/-- The quantities of a call with a Doppler shift of 670 kHz are in the range of the claim, there is a value of the coefficient, and in the first 0.4 ms the
phase rotates by less than 2000 rad. -/
example : ∃ (A : Arith) (h : ℂ), Nearest single A.rnd ∧ Nearest double A.py ∧ TdlRange oneTap (fun _ : Fin 1 => 1) fastDraws (2 ^ 14) 7 ∧
    A.IsTdlCoeff flatTrig oneTap (fun _ : Fin 1 => 1) fastDraws (2 ^ 14) 0 0 0 0 7 h ∧ |fastDraws.doppler 0| * ((7 : ℕ) / 2 ^ 14) ≤ 2000 := by
  obtain ⟨A, hr, hp⟩ := exists_arith single (Or.inl rfl)
  exact ⟨A, _, hr, hp, { fast_range with time := by norm_num }, ⟨_, _, one_sum _ _, one_sum _ _, rfl⟩, by norm_num [fastDraws]⟩

end OpenNTN
