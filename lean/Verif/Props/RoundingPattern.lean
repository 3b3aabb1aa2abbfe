import Verif.Model.RoundingPattern
import Verif.Props.RoundingAperture
import Verif.Lemmas.Rays

/-
Patterns with parabolic lobes and field of an element with rounding: C219.
-/
namespace OpenNTN

open Spec

/-- With exact operations the operations give the patterns and the field of the model. -/
theorem C219_model (theta phi : ℝ) : Arith.exact.pattern38901 pow10 theta phi = pattern38901 theta phi ∧
    Arith.exact.patternDlp pow10 theta phi = patternDlp theta phi ∧
    ∀ e : Element, e.pattern ≠ .aperture → Arith.exact.field TrigLib.exact pow10 e theta phi = e.field theta phi := by
  have h1 : Arith.exact.pattern38901 pow10 theta phi = pattern38901 theta phi := by
    simp only [Arith.pattern38901, Arith.lobe, Arith.theta38901, Arith.phi38901, Arith.width38901, pattern38901, Arith.exact, id]
  have h2 : Arith.exact.patternDlp pow10 theta phi = patternDlp theta phi := by
    simp only [Arith.patternDlp, Arith.lobe, Arith.thetaDlp, Arith.phiDlp, Arith.degree, patternDlp, Arith.exact, id]
  refine ⟨h1, h2, fun e he => ?_⟩
  have h3 : Arith.exact.elementPower pow10 e.pattern theta phi = e.pattern.power theta phi := by
    cases hp : e.pattern <;> simp only [Arith.elementPower, Pattern.power, patternOmni, h1, h2]
    exact absurd hp he
  simp only [Arith.field, h3, Element.field]
  rfl

/-- The power function of the library has a relative error of at most `2⁻²⁰`. -/
def Spec.AccuratePow (P : ℝ → ℝ) : Prop := ∀ x, |x| ≤ 5 → |P x - (10 : ℝ) ^ x| ≤ (2 : ℝ) ^ (-20 : ℤ) * (10 : ℝ) ^ x

theorem near_of {x y e B : ℝ} (h1 : |x - y| ≤ e) (h2 : |y| ≤ B) : |x| ≤ B + e := by
  have := abs_le.1 h1; have := abs_le.1 h2; rw [abs_le]; constructor <;> linarith

theorem tri_of {x y z e g : ℝ} (h1 : |x - y| ≤ e) (h2 : |y - z| ≤ g) : |x - z| ≤ e + g := (abs_sub_le _ _ _).trans (add_le_add h1 h2)

theorem abs_min_sub (a b c : ℝ) : |min a c - min b c| ≤ |a - b| := by
  have := abs_min_sub_min_le_max a c b c
  simpa using this

/-- The power function after an error of the exponent. -/
theorem pow_near {P : ℝ → ℝ} (hP : AccuratePow P) {y y' : ℝ} (h : |y' - y| ≤ 8.5e-5) (hy : |y| ≤ 4) : |P y' - pow10 y| ≤ 4e-4 * pow10 y := by
  have b := hP y' ((near_of h hy).trans (by norm_num))
  unfold pow10
  have e : (10 : ℝ) ^ y' = (10 : ℝ) ^ y * (10 : ℝ) ^ (y' - y) := by
    rw [← Real.rpow_add (by norm_num)]; ring_nf
  have p0 : 0 < (10 : ℝ) ^ y := by positivity
  have l := log_ten_lt
  have l0 : 0 < Real.log 10 := Real.log_pos (by norm_num)
  have s : |Real.log 10 * (y' - y)| ≤ 1.9576e-4 := by
    rw [abs_mul, abs_of_pos l0]
    calc Real.log 10 * |y' - y| ≤ 2.303 * 8.5e-5 := by gcongr
      _ ≤ _ := by norm_num
  have x := (Real.abs_exp_sub_one_le (s.trans (by norm_num)))
  rw [show Real.exp (Real.log 10 * (y' - y)) = (10 : ℝ) ^ (y' - y) from (Real.rpow_def_of_pos (by norm_num) _).symm] at x
  have x2 : |(10 : ℝ) ^ (y' - y) - 1| ≤ 3.9152e-4 := x.trans (by norm_num at *; linarith)
  have q : |(10 : ℝ) ^ y' - (10 : ℝ) ^ y| ≤ 3.9152e-4 * (10 : ℝ) ^ y := by
    rw [e, show (10 : ℝ) ^ y * (10 : ℝ) ^ (y' - y) - (10 : ℝ) ^ y = (10 : ℝ) ^ y * ((10 : ℝ) ^ (y' - y) - 1) by ring, abs_mul, abs_of_pos p0, mul_comm]
    gcongr
  have q' := near_of q (abs_of_pos p0).le
  rw [abs_of_pos (show 0 < (10 : ℝ) ^ y' by positivity)] at q'
  refine (tri_of b q).trans ?_
  have : (2 : ℝ) ^ (-20 : ℤ) * (10 : ℝ) ^ y' ≤ (2 : ℝ) ^ (-20 : ℤ) * ((10 : ℝ) ^ y + 3.9152e-4 * (10 : ℝ) ^ y) := by gcongr
  norm_num at *
  linarith

section

variable {f : Format} (hf : IEEE f) {A : Arith} (hr : Nearest f A.rnd) (hp : Nearest double A.py)

include hf hr

theorem lobe_near {x x' limit : ℝ} (h : |x' - x| ≤ 3e-6) (hx : |x| ≤ 5) : |A.lobe limit x' - min (12 * x ^ 2) limit| ≤ 4.1e-4 := by
  unfold Arith.lobe
  refine (abs_min_sub _ _ _).trans ?_
  have hx' := near_of h hx
  have s : |x' ^ 2 - x ^ 2| ≤ 3.001e-5 := by
    rw [show x' ^ 2 - x ^ 2 = (x' - x) * ((x' - x) + 2 * x) by ring, abs_mul]
    have : |x' - x + 2 * x| ≤ 3e-6 + 2 * 5 := (abs_add_le _ _).trans (by rw [abs_mul, abs_two]; gcongr)
    calc |x' - x| * |x' - x + 2 * x| ≤ 3e-6 * (3e-6 + 2 * 5) := by gcongr
      _ ≤ _ := by norm_num
  have x2 : |x ^ 2| ≤ 25 := by rw [abs_pow]; nlinarith [abs_nonneg x]
  have r1 := rnd_size hf hr (x := x' ^ 2) (B := 25.1) ((near_of s x2).trans (by norm_num)) (by norm_num) (by norm_num)
  have r2 := tri_of r1 s
  have r3 : |12 * A.rnd (x' ^ 2) - 12 * x ^ 2| ≤ 3.79e-4 := by
    rw [← mul_sub, abs_mul]
    norm_num at *
    linarith
  have r4 := rnd_size hf hr (x := 12 * A.rnd (x' ^ 2)) (B := 301) ((near_of r3 (B := 300) (by rw [abs_mul]; norm_num at *; linarith)).trans (by norm_num)) (by norm_num) (by norm_num)
  exact (tri_of r4 r3).trans (by norm_num)

include hp in
theorem width_near : |A.width38901 - 65 / 180 * Real.pi| ≤ 3e-7 := by
  have pb := pi_bounds
  have h1 := abs_le.1 (py_pi hp)
  unfold Arith.width38901
  have h2 := abs_le.1 (rnd_size (Or.inr rfl) hp (x := 65 / 180) (B := 0.3612) (by rw [abs_of_pos] <;> norm_num) (by norm_num) (by norm_num))
  generalize A.py Real.pi = p at *
  generalize A.py (65 / 180) = q at *
  norm_num at h1 h2 pb
  have l1 : |q * p - 65 / 180 * Real.pi| ≤ 1.37e-7 := by
    rw [show q * p - 65 / 180 * Real.pi = (q - 65 / 180) * p + 65 / 180 * (p - Real.pi) by ring, abs_le]
    norm_num
    constructor <;> nlinarith
  have l2 := rnd_size (Or.inr rfl) hp (x := q * p) (B := 1.1347) (by have := abs_le.1 l1; norm_num at this; rw [abs_le]; norm_num; constructor <;> linarith)
    (by norm_num) (by norm_num)
  have l3 := tri_of l2 l1
  have l4 := rnd_size hf hr (x := A.py (q * p)) (B := 1.1347) (by have := abs_le.1 l3; norm_num at this; rw [abs_le]; norm_num; constructor <;> linarith)
    (by norm_num) (by norm_num)
  exact (tri_of l4 l3).trans (by norm_num)

include hp in
theorem quot_near {d d' : ℝ} (h : |d' - d| ≤ 6e-7) (hd : |d| ≤ 5.6) :
    |A.rnd (d' / A.width38901) - d / (65 / 180 * Real.pi)| ≤ 3e-6 ∧ |d / (65 / 180 * Real.pi)| ≤ 5 := by
  have pb := pi_bounds
  have w := width_near hf hr hp
  have w1 : (1.134 : ℝ) ≤ 65 / 180 * Real.pi := by norm_num at *; linarith
  generalize (65 / 180 : ℝ) * Real.pi = v at *
  generalize A.width38901 = u at *
  have wl := abs_le.1 w
  norm_num at wl
  have v0 : 0 < v := by norm_num at w1; linarith
  have u1 : (1.133 : ℝ) ≤ u := by norm_num at *; linarith
  have u0 : 0 < u := by norm_num at u1; linarith
  have b : |d / v| ≤ 4.94 := by
    rw [abs_div, abs_of_pos v0, div_le_iff₀ v0]
    norm_num at *
    linarith
  have q : |d' / u - d / v| ≤ 1.9e-6 := by
    rw [show d' / u - d / v = ((d' - d) + d / v * (v - u)) / u by field_simp; ring, abs_div, abs_of_pos u0, div_le_iff₀ u0]
    refine (abs_add_le _ _).trans ?_
    rw [abs_mul, abs_sub_comm v u]
    have : |d / v| * |u - v| ≤ 4.94 * 3e-7 := by gcongr
    norm_num at *
    linarith
  have r := rnd_size hf hr (x := d' / u) (B := 4.95) ((near_of q b).trans (by norm_num)) (by norm_num) (by norm_num)
  exact ⟨(tri_of r q).trans (by norm_num), b.trans (by norm_num)⟩

include hp in
theorem theta38901_near {theta : ℝ} (h : |theta| ≤ 4) :
    |A.theta38901 theta - (theta - Real.pi / 2) / (65 / 180 * Real.pi)| ≤ 3e-6 ∧ |(theta - Real.pi / 2) / (65 / 180 * Real.pi)| ≤ 5 := by
  have pb := pi_bounds
  have h1 := abs_le.1 (py_pi hp)
  have hl := abs_le.1 h
  norm_num at h1 pb
  have a1 := abs_le.1 (rnd_size hf hr (x := A.py Real.pi / 2) (B := 1.571) (by rw [abs_of_pos (by linarith)]; norm_num; linarith) (by norm_num) (by norm_num))
  norm_num at a1
  have a2 := abs_le.1 (rnd_size hf hr (x := theta - A.rnd (A.py Real.pi / 2)) (B := 5.6) (by rw [abs_le]; norm_num; constructor <;> linarith) (by norm_num) (by norm_num))
  norm_num at a2
  refine quot_near hf hr hp ?_ ?_ <;> rw [abs_le] <;> norm_num <;> constructor <;> linarith

include hp in
theorem phi38901_near {phi : ℝ} (h : |phi| ≤ 4) :
    |A.phi38901 phi - phi / (65 / 180 * Real.pi)| ≤ 3e-6 ∧ |phi / (65 / 180 * Real.pi)| ≤ 5 :=
  quot_near hf hr hp (by simp; norm_num) (h.trans (by norm_num))

include hp in
theorem degree_near {x : ℝ} (h : |x| ≤ 4) : |A.degree x - x * (180 / Real.pi)| ≤ 5.7e-5 ∧ |x * (180 / Real.pi)| ≤ 229.3 := by
  have pb := pi_bounds
  have h1 := py_pi hp
  have hl := abs_le.1 h1
  unfold Arith.degree
  generalize A.py Real.pi = p at *
  norm_num at hl pb
  have p0 : 0 < p := by linarith
  have q0 : 0 < Real.pi := by linarith
  have g0 : |180 / Real.pi| ≤ 57.3 := by
    rw [abs_of_pos (by positivity), div_le_iff₀ q0]; norm_num; linarith
  have g1 : |180 / p - 180 / Real.pi| ≤ 3.5e-6 := by
    rw [show 180 / p - 180 / Real.pi = 180 / Real.pi * (Real.pi - p) / p by field_simp, abs_div, abs_of_pos p0, div_le_iff₀ p0, abs_mul, abs_sub_comm]
    calc |180 / Real.pi| * |p - Real.pi| ≤ 57.3 * 1.9e-7 := by gcongr
      _ ≤ 3.5e-6 * p := by norm_num; linarith
  have g2 := rnd_size (Or.inr rfl) hp (x := 180 / p) (B := 57.4) ((near_of g1 g0).trans (by norm_num)) (by norm_num) (by norm_num)
  have g3 := tri_of g2 g1
  have g4 := rnd_size hf hr (x := A.py (180 / p)) (B := 57.4) ((near_of g3 g0).trans (by norm_num)) (by norm_num) (by norm_num)
  have g5 := tri_of g4 g3
  have b : |x * (180 / Real.pi)| ≤ 229.3 := by
    rw [abs_mul]
    calc |x| * |180 / Real.pi| ≤ 4 * 57.3 := by gcongr
      _ ≤ _ := by norm_num
  generalize A.rnd (A.py (180 / p)) = g at *
  have m : |x * g - x * (180 / Real.pi)| ≤ 4.2e-5 := by
    rw [← mul_sub, abs_mul]
    calc |x| * |g - 180 / Real.pi| ≤ 4 * (6e-8 * 57.4 + (6e-8 * 57.4 + 3.5e-6)) := by gcongr
      _ ≤ _ := by norm_num
  have r := rnd_size hf hr (x := x * g) (B := 230) ((near_of m b).trans (by norm_num)) (by norm_num) (by norm_num)
  exact ⟨(tri_of r m).trans (by norm_num), b⟩

include hp in
theorem thetaDlp_near {theta : ℝ} (h : |theta| ≤ 4) :
    |A.thetaDlp theta - (theta - Real.pi / 2) / (Real.pi / 2)| ≤ 3e-6 ∧ |(theta - Real.pi / 2) / (Real.pi / 2)| ≤ 5 := by
  obtain ⟨d, b⟩ := degree_near hf hr hp h
  have q0 := Real.pi_pos
  unfold Arith.thetaDlp
  rw [show (theta - Real.pi / 2) / (Real.pi / 2) = (theta * (180 / Real.pi) - 90) / 90 by field_simp; ring]
  generalize A.degree theta = x at *
  generalize theta * (180 / Real.pi) = y at *
  have dl := abs_le.1 d
  have bl := abs_le.1 b
  norm_num at dl bl
  have a1 := abs_le.1 (rnd_size hf hr (x := x - 90) (B := 320) (by rw [abs_le]; constructor <;> linarith) (by norm_num) (by norm_num))
  norm_num at a1
  have a2 := abs_le.1 (rnd_size hf hr (x := A.rnd (x - 90) / 90) (B := 4) (by rw [abs_le]; constructor <;> linarith) (by norm_num) (by norm_num))
  norm_num at a2
  constructor <;> rw [abs_le] <;> norm_num <;> constructor <;> linarith

include hp in
theorem phiDlp_near {phi : ℝ} (h : |phi| ≤ 4) : |A.phiDlp phi - phi / (Real.pi / 2)| ≤ 3e-6 ∧ |phi / (Real.pi / 2)| ≤ 5 := by
  obtain ⟨d, b⟩ := degree_near hf hr hp h
  have q0 := Real.pi_pos
  unfold Arith.phiDlp
  rw [show phi / (Real.pi / 2) = phi * (180 / Real.pi) / 90 by field_simp; ring]
  generalize A.degree phi = x at *
  generalize phi * (180 / Real.pi) = y at *
  have dl := abs_le.1 d
  have bl := abs_le.1 b
  norm_num at dl bl
  have a2 := abs_le.1 (rnd_size hf hr (x := x / 90) (B := 4) (by rw [abs_le]; constructor <;> linarith) (by norm_num) (by norm_num))
  norm_num at a2
  constructor <;> rw [abs_le] <;> norm_num <;> constructor <;> linarith

/-- The gain in dB below the maximum. -/
theorem drop_near {c lv lh v h : ℝ} (c0 : 25 ≤ c) (c1 : c ≤ 30) (hv : |lv - v| ≤ 4.1e-4) (hh : |lh - h| ≤ 4.1e-4) (v0 : 0 ≤ v) (v1 : v ≤ c) (h0 : 0 ≤ h) (h1 : h ≤ c) :
    |-min (-A.rnd (-lv + -lh)) c - (-min (v + h) c)| ≤ 8.25e-4 ∧ |-min (v + h) c| ≤ 30 := by
  have a := abs_le.1 hv
  have b := abs_le.1 hh
  norm_num at a b
  have r := abs_le.1 (rnd_size hf hr (x := -lv + -lh) (B := 60.1) (by rw [abs_le]; norm_num; constructor <;> linarith) (by norm_num) (by norm_num))
  norm_num at r
  constructor
  · rw [neg_sub_neg, abs_sub_comm]
    refine (abs_min_sub _ _ _).trans ?_
    rw [abs_le]; norm_num; constructor <;> linarith
  · rw [abs_neg, abs_of_nonneg (le_min (by linarith) (by linarith))]
    exact (min_le_right _ _).trans c1

theorem lobe_nonneg {c x : ℝ} (c0 : 0 ≤ c) (hx : |x| ≤ 6) : 0 ≤ A.lobe c x := by
  have x2 : x ^ 2 ≤ 36 := by rw [← sq_abs]; nlinarith [abs_nonneg x]
  have h1 := rnd_nonneg hf hr (x := x ^ 2) (by linarith [show (36 : ℝ) ≤ 10 ^ 30 by norm_num]) (by positivity)
  have h2 := abs_le.1 (rnd_size hf hr (x := x ^ 2) (B := 36) (by rw [abs_of_nonneg (by positivity)]; exact x2) (by norm_num) (by norm_num))
  norm_num at h2
  exact le_min (rnd_nonneg hf hr (by linarith [show (1000 : ℝ) ≤ 10 ^ 30 by norm_num]) (by linarith)) c0

/-- Beyond the lobe the limit is exact. -/
theorem lobe_limit {x x' c : ℝ} (h : |x' - x| ≤ 3e-6) (hx : |x| ≤ 5) (hc : c + 1 / 100 ≤ 12 * x ^ 2) : A.lobe c x' = c := by
  have n := abs_le.1 (lobe_near hf hr (limit := c + 1 / 100) h hx)
  rw [min_eq_right hc] at n
  unfold Arith.lobe at n ⊢
  refine min_eq_right ?_
  have := min_le_left (A.rnd (12 * A.rnd (x' ^ 2))) (c + 1 / 100)
  generalize min (A.rnd (12 * A.rnd (x' ^ 2))) (c + 1 / 100) = k at *
  norm_num at n
  linarith

/-- If one lobe is at the limit the sum is. -/
theorem drop_limit {n : ℕ} {v h : ℝ} (hn : n ≤ 30) (v0 : 0 ≤ v) (v1 : v ≤ n) (h0 : 0 ≤ h) (h1 : h ≤ n) (one : v = n ∨ h = n) : min (-A.rnd (-v + -h)) n = n := by
  refine min_eq_right ?_
  have n3 : (n : ℝ) ≤ 30 := by exact_mod_cast hn
  have := (rnd_le_int hf hr (x := -v + -h) (n := -(n : ℤ)) (by rw [abs_le]; constructor <;> linarith [show (60 : ℝ) ≤ 10 ^ 30 by norm_num])
    (by rw [abs_neg, Nat.abs_cast]; norm_num; omega)).1 (by push_cast; rcases one with e | e <;> linarith)
  push_cast at this
  linarith

end

theorem lobe_exact {x c : ℝ} (c0 : 0 ≤ c) : 0 ≤ min (12 * x ^ 2) c ∧ min (12 * x ^ 2) c ≤ c := ⟨le_min (by positivity) c0, min_le_right _ _⟩

/-- C219: the two patterns are accurate to 0.04 percent. -/
theorem C219_patterns {f : Format} (hf : IEEE f) {A : Arith} (hr : Nearest f A.rnd) (hp : Nearest double A.py) {P : ℝ → ℝ} (hP : AccuratePow P) {theta phi : ℝ}
    (ht : |theta| ≤ 4) (hph : |phi| ≤ 4) :
    |A.pattern38901 P theta phi - sector 8 30 (65 / 180 * Real.pi) theta phi| ≤ 4e-4 * sector 8 30 (65 / 180 * Real.pi) theta phi ∧
    |A.patternDlp P theta phi - sector 0 25 (Real.pi / 2) theta phi| ≤ 4e-4 * sector 0 25 (Real.pi / 2) theta phi := by
  constructor
  · obtain ⟨t1, t2⟩ := theta38901_near hf hr hp ht
    obtain ⟨p1, p2⟩ := phi38901_near hf hr hp hph
    have lv := lobe_exact (x := (theta - Real.pi / 2) / (65 / 180 * Real.pi)) (c := 30) (by norm_num)
    have lh := lobe_exact (x := phi / (65 / 180 * Real.pi)) (c := 30) (by norm_num)
    obtain ⟨d1, d2⟩ := drop_near hf hr (by norm_num) le_rfl (lobe_near hf hr (limit := 30) t1 t2) (lobe_near hf hr (limit := 30) p1 p2) lv.1 lv.2 lh.1 lh.2
    unfold Arith.pattern38901 sector
    refine pow_near hP ?_ ?_
    all_goals
      generalize min (12 * ((theta - Real.pi / 2) / (65 / 180 * Real.pi)) ^ 2) 30 + min (12 * (phi / (65 / 180 * Real.pi)) ^ 2) 30 = S at *
      generalize min S 30 = m at *
      have e2 := abs_le.1 d2
    · generalize -min (-A.rnd (-A.lobe 30 (A.theta38901 theta) + -A.lobe 30 (A.phi38901 phi))) 30 = k at *
      have e1 := abs_le.1 d1
      norm_num at e1
      have r1 := abs_le.1 (rnd_size hf hr (x := k + 8) (B := 39) (by rw [abs_le]; constructor <;> linarith) (by norm_num) (by norm_num))
      norm_num at r1
      have r2 := abs_le.1 (rnd_size hf hr (x := A.rnd (k + 8) / 10) (B := 4) (by rw [abs_le]; norm_num; constructor <;> linarith) (by norm_num) (by norm_num))
      norm_num at r2
      rw [abs_le]; norm_num; constructor <;> linarith
    · rw [abs_le]; constructor <;> linarith
  · obtain ⟨t1, t2⟩ := thetaDlp_near hf hr hp ht
    obtain ⟨p1, p2⟩ := phiDlp_near hf hr hp hph
    have lv := lobe_exact (x := (theta - Real.pi / 2) / (Real.pi / 2)) (c := 25) (by norm_num)
    have lh := lobe_exact (x := phi / (Real.pi / 2)) (c := 25) (by norm_num)
    obtain ⟨d1, d2⟩ := drop_near hf hr le_rfl (by norm_num) (lobe_near hf hr (limit := 25) t1 t2) (lobe_near hf hr (limit := 25) p1 p2) lv.1 lv.2 lh.1 lh.2
    unfold Arith.patternDlp sector
    refine pow_near hP ?_ ?_
    all_goals
      generalize min (12 * ((theta - Real.pi / 2) / (Real.pi / 2)) ^ 2) 25 + min (12 * (phi / (Real.pi / 2)) ^ 2) 25 = S at *
      generalize min S 25 = m at *
      have e2 := abs_le.1 d2
    · generalize -min (-A.rnd (-A.lobe 25 (A.thetaDlp theta) + -A.lobe 25 (A.phiDlp phi))) 25 = k at *
      have e1 := abs_le.1 d1
      norm_num at e1
      have r2 := abs_le.1 (rnd_size hf hr (x := k / 10) (B := 3.1) (by rw [abs_le]; norm_num; constructor <;> linarith) (by norm_num) (by norm_num))
      norm_num at r2
      rw [abs_le]; norm_num; constructor <;> linarith
    · rw [abs_le]; constructor <;> linarith

/-- C219: away from the lobe in azimuth or zenith both patterns have their floor, the same value for all directions. -/
theorem C219_floor {f : Format} (hf : IEEE f) {A : Arith} (hr : Nearest f A.rnd) (hp : Nearest double A.py) (P : ℝ → ℝ) {theta phi : ℝ} (ht : |theta| ≤ 4)
    (hph : |phi| ≤ 4) : (1.8 ≤ |phi| ∨ 1.8 ≤ |theta - Real.pi / 2| → A.pattern38901 P theta phi = P (A.rnd (-22 / 10))) ∧
    (2.28 ≤ |phi| ∨ 2.28 ≤ |theta - Real.pi / 2| → A.patternDlp P theta phi = P (A.rnd (-25 / 10))) := by
  have pb := pi_bounds
  norm_num at pb
  have sq : ∀ {x w c l : ℝ}, 0 < w → 0 ≤ l → l ≤ |x| → c * w ^ 2 ≤ 12 * l ^ 2 → c ≤ 12 * (x / w) ^ 2 := fun {x w c l} w0 l0 hx hc => by
    rw [div_pow, ← mul_div_assoc, le_div_iff₀ (by positivity)]
    refine hc.trans ?_
    rw [← sq_abs x]
    gcongr
  constructor
  · intro h
    obtain ⟨t1, t2⟩ := theta38901_near hf hr hp ht
    obtain ⟨p1, p2⟩ := phi38901_near hf hr hp hph
    have w0 : 0 < 65 / 180 * Real.pi := by linarith
    have w1 : (30 + 1 / 100) * (65 / 180 * Real.pi) ^ 2 ≤ 12 * (1.8 : ℝ) ^ 2 := by norm_num; nlinarith
    have lim := drop_limit hf hr (n := 30) (v := A.lobe 30 (A.theta38901 theta)) (h := A.lobe 30 (A.phi38901 phi)) (by norm_num)
      (lobe_nonneg hf hr (by norm_num) ((near_of t1 t2).trans (by norm_num))) (by unfold Arith.lobe; exact_mod_cast min_le_right _ _)
      (lobe_nonneg hf hr (by norm_num) ((near_of p1 p2).trans (by norm_num))) (by unfold Arith.lobe; exact_mod_cast min_le_right _ _)
      (by
        rcases h with h | h
        · exact Or.inr (by rw [lobe_limit hf hr p1 p2 (sq w0 (by norm_num) h w1)]; norm_num)
        · exact Or.inl (by rw [lobe_limit hf hr t1 t2 (sq w0 (by norm_num) h w1)]; norm_num))
    norm_num at lim
    have r := hr.num (num_small hf (n := -22) (by norm_num)) (lt_trans (by norm_num) (range_ge hf))
    norm_num at r
    simp only [Arith.pattern38901]
    rw [min_eq_right lim]
    norm_num [r]
  · intro h
    obtain ⟨t1, t2⟩ := thetaDlp_near hf hr hp ht
    obtain ⟨p1, p2⟩ := phiDlp_near hf hr hp hph
    have w0 : 0 < Real.pi / 2 := by linarith
    have w1 : (25 + 1 / 100) * (Real.pi / 2) ^ 2 ≤ 12 * (2.28 : ℝ) ^ 2 := by norm_num; nlinarith
    have lim := drop_limit hf hr (n := 25) (v := A.lobe 25 (A.thetaDlp theta)) (h := A.lobe 25 (A.phiDlp phi)) (by norm_num)
      (lobe_nonneg hf hr (by norm_num) ((near_of t1 t2).trans (by norm_num))) (by unfold Arith.lobe; exact_mod_cast min_le_right _ _)
      (lobe_nonneg hf hr (by norm_num) ((near_of p1 p2).trans (by norm_num))) (by unfold Arith.lobe; exact_mod_cast min_le_right _ _)
      (by
        rcases h with h | h
        · exact Or.inr (by rw [lobe_limit hf hr p1 p2 (sq w0 (by norm_num) h w1)]; norm_num)
        · exact Or.inl (by rw [lobe_limit hf hr t1 t2 (sq w0 (by norm_num) h w1)]; norm_num))
    norm_num at lim
    simp only [Arith.patternDlp]
    rw [min_eq_right lim]

theorem sqrt_rel {x y e : ℝ} (y0 : 0 < y) (x0 : 0 ≤ x) (h : |x - y| ≤ e * y) : |Real.sqrt x - Real.sqrt y| ≤ e * Real.sqrt y := by
  have sy := Real.sqrt_pos.2 y0
  have sx := Real.sqrt_nonneg x
  have e1 : x - y = (Real.sqrt x - Real.sqrt y) * (Real.sqrt x + Real.sqrt y) := by
    rw [mul_comm, ← sq_sub_sq, Real.sq_sqrt x0, Real.sq_sqrt y0.le]
  rw [e1, abs_mul, abs_of_pos (show 0 < Real.sqrt x + Real.sqrt y by linarith)] at h
  have e2 : y = Real.sqrt y * Real.sqrt y := (Real.mul_self_sqrt y0.le).symm
  have : |Real.sqrt x - Real.sqrt y| * Real.sqrt y ≤ e * Real.sqrt y * Real.sqrt y := by
    refine (mul_le_mul_of_nonneg_left (by linarith : Real.sqrt y ≤ Real.sqrt x + Real.sqrt y) (abs_nonneg _)).trans (h.trans_eq ?_)
    rw [mul_assoc, ← e2]
  exact le_of_mul_le_mul_right this sy

/-- C219: the field components of an element are accurate to 1/500. -/
theorem C219_field {f : Format} (hf : IEEE f) {A : Arith} (hr : Nearest f A.rnd) (hp : Nearest double A.py) {T : TrigLib} (hT : AccurateTrig T) {P : ℝ → ℝ}
    (hP : AccuratePow P) {e : Element} (he : e.pattern ≠ .aperture) (hs : |e.slant| ≤ 4) {theta phi : ℝ} (ht : |theta| ≤ 4) (hph : |phi| ≤ 4) (i : Fin 2) :
    |A.field T P e theta phi i - e.field theta phi i| ≤ 1 / 500 := by
  have G : |A.elementPower P e.pattern theta phi - e.pattern.power theta phi| ≤ 4e-4 * e.pattern.power theta phi ∧ 0 < e.pattern.power theta phi ∧
      e.pattern.power theta phi ≤ 10 := by
    have up : ∀ {x : ℝ}, x ≤ 1 → pow10 x ≤ 10 := fun h => by
      unfold pow10
      calc (10 : ℝ) ^ (_ : ℝ) ≤ (10 : ℝ) ^ (1 : ℝ) := Real.rpow_le_rpow_of_exponent_le (by norm_num) h
        _ = 10 := Real.rpow_one _
    have pos : ∀ x, 0 < pow10 x := fun x => by unfold pow10; positivity
    obtain ⟨g1, g2⟩ := C219_patterns hf hr hp hP ht hph
    cases hpat : e.pattern with
    | omni => simp only [Arith.elementPower, Pattern.power, patternOmni]; norm_num
    | aperture => exact absurd hpat he
    | p38901 =>
      rw [sector_38901]
      refine ⟨g1, pos _, up ?_⟩
      have : 0 ≤ min (min (12 * ((theta - Real.pi / 2) / (65 / 180 * Real.pi)) ^ 2) 30 + min (12 * (phi / (65 / 180 * Real.pi)) ^ 2) 30) 30 :=
        le_min (add_nonneg (lobe_exact (by norm_num)).1 (lobe_exact (by norm_num)).1) (by norm_num)
      linarith
    | dlp =>
      rw [sector_dlp]
      refine ⟨g2, pos _, up ?_⟩
      have : 0 ≤ min (min (12 * ((theta - Real.pi / 2) / (Real.pi / 2)) ^ 2) 25 + min (12 * (phi / (Real.pi / 2)) ^ 2) 25) 25 :=
        le_min (add_nonneg (lobe_exact (by norm_num)).1 (lobe_exact (by norm_num)).1) (by norm_num)
      linarith
  obtain ⟨g1, g2, g3⟩ := G
  generalize hx : A.elementPower P e.pattern theta phi = x at *
  generalize hy : e.pattern.power theta phi = y at *
  have x0 : 0 ≤ x := by have := abs_le.1 g1; norm_num at this; linarith
  have s1 := sqrt_rel g2 x0 g1
  have sy : Real.sqrt y ≤ 3.163 := by rw [Real.sqrt_le_iff]; norm_num; linarith
  have sy0 := Real.sqrt_nonneg y
  have s2 : |Real.sqrt x - Real.sqrt y| ≤ 1.2652e-3 := s1.trans (by norm_num; linarith)
  have s3 := rnd_size hf hr (x := Real.sqrt x) (B := 3.2) ((near_of s2 (abs_of_nonneg sy0).le).trans (by norm_num at *; linarith)) (by norm_num) (by norm_num)
  have s4 := tri_of s3 s2
  have a1 := rnd_size (Or.inr rfl) hp hs (by norm_num) (by norm_num)
  have a2 := rnd_size hf hr (x := A.py e.slant) (B := 4.1) ((near_of a1 hs).trans (by norm_num)) (by norm_num) (by norm_num)
  have a3 := tri_of a2 a1
  have a4 := (near_of a3 hs).trans (show (4 : ℝ) + (6e-8 * 4.1 + 6e-8 * 4) ≤ 10 by norm_num)
  have c1 := tri_of (hT.cos _ a4) ((cos_lip _ _).trans a3)
  have c2 := tri_of (hT.sin _ a4) ((sin_lip _ _).trans a3)
  have c3 := Real.abs_cos_le_one e.slant
  have c4 := Real.abs_sin_le_one e.slant
  have fin : ∀ {c c' : ℝ}, |c' - c| ≤ (2 : ℝ) ^ (-23 : ℤ) + (6e-8 * 4.1 + 6e-8 * 4) → |c| ≤ 1 → |A.rnd (A.rnd (Real.sqrt x) * c') - Real.sqrt y * c| ≤ 1 / 500 := by
    intro c c' h1 h2
    have h1' : |c' - c| ≤ 1e-6 := h1.trans (by norm_num)
    have m : |A.rnd (Real.sqrt x) * c' - Real.sqrt y * c| ≤ 1.28e-3 := by
      rw [show A.rnd (Real.sqrt x) * c' - Real.sqrt y * c = (A.rnd (Real.sqrt x) - Real.sqrt y) * c' + Real.sqrt y * (c' - c) by ring]
      refine (abs_add_le _ _).trans ?_
      rw [abs_mul, abs_mul, abs_of_nonneg sy0]
      have k1 : |A.rnd (Real.sqrt x) - Real.sqrt y| * |c'| ≤ (6e-8 * 3.2 + 1.2652e-3) * (1 + 1e-6) := by
        gcongr
        exact near_of h1' h2
      have k2 : Real.sqrt y * |c' - c| ≤ 3.163 * 1e-6 := by gcongr
      norm_num at *
      linarith
    have r := rnd_size hf hr (x := A.rnd (Real.sqrt x) * c') (B := 3.2) ((near_of m (B := 3.163) (by
      rw [abs_mul, abs_of_nonneg sy0]
      calc Real.sqrt y * |c| ≤ 3.163 * 1 := by gcongr
        _ = _ := by norm_num)).trans (by norm_num)) (by norm_num) (by norm_num)
    exact (tri_of r m).trans (by norm_num)
  fin_cases i
  · simpa [Arith.field, Element.field, hx, hy] using fin c1 c3
  · simpa [Arith.field, Element.field, hx, hy] using fin c2 c4

/-- Rounding, library functions, an element and a direction as in the theorems. -/
example : ∃ (A : Arith) (T : TrigLib) (P : ℝ → ℝ) (e : Element), Nearest single A.rnd ∧ Nearest double A.py ∧ AccurateTrig T ∧ AccuratePow P ∧ e.pattern ≠ .aperture ∧
    |e.slant| ≤ 4 ∧ |(3 : ℝ)| ≤ 4 ∧ (1.8 : ℝ) ≤ |(2 : ℝ)| ∧ (2.28 : ℝ) ≤ |(3 : ℝ)| := by
  obtain ⟨A, hr, hp⟩ := exists_arith single (Or.inl rfl)
  refine ⟨A, TrigLib.exact, fun x => (10 : ℝ) ^ x, ⟨.p38901, 1⟩, hr, hp, ?_, fun x _ => ?_, by simp, by norm_num, by norm_num, by norm_num, by norm_num⟩
  · constructor <;> intros <;> simp [TrigLib.exact]
  · rw [sub_self, abs_zero]; positivity

end OpenNTN
