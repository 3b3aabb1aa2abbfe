import Verif.Model.RoundingUts
import Verif.Props.RoundingDrop
import Verif.Model.Lsp

/-
C210: UTs that are dropped apart stay apart in single precision.
-/
namespace OpenNTN

open Spec

/-- Distance of two UTs that are displaced from a common centre by the draws `u` and `v` in a square of side `isd`. -/
noncomputable def Spec.dropDistance (isd : ℝ) (u v : ℝ × ℝ) : ℝ := isd * Real.sqrt ((u.1 - v.1) ^ 2 + (u.2 - v.2) ^ 2)

/-- **C210**: whatever satellite and elevation, the distance of two UTs is that of their displacements, up to a metre. -/
def C210_statement : Prop :=
  ∀ (A : Arith), Nearest single A.rnd → Nearest double A.py → AccurateSin A.sin → SinAtMostOne A.sin →
    ∀ (h el isd u : ℝ) (v w p : ℝ × ℝ), 8000 ≤ h → h ≤ 42 * 10 ^ 6 → 10 ≤ el → el ≤ 90 → 100 ≤ isd → isd ≤ 5000 → UnitDraw u →
      UnitDraw v.1 → UnitDraw v.2 → UnitDraw w.1 → UnitDraw w.2 → A.dropCentre h el u = .ok p →
        |A.utDistance (A.dropUt p isd v) (A.dropUt p isd w) - dropDistance isd v w| ≤ 1

/-- With exact arithmetic the expressions are those of the model of topologies. -/
theorem C210_model (isd u v x y : ℝ) (p q : ℝ × ℝ) :
    Arith.exact.dropUt (x, y) isd (u, v) = (x + uniformIn (-isd / 2) (isd / 2) u, y + uniformIn (-isd / 2) (isd / 2) v) ∧
    Arith.exact.utDistance p q = utDistance2d ![p.1, q.1] ![p.2, q.2] 0 1 := by
  constructor
  · simp [Arith.exact, Arith.dropUt, Arith.dropCoord, Arith.uniformIn, uniformIn]
  · simp [Arith.exact, Arith.utDistance, utDistance2d, pow_two]

theorem err_single {r : ℝ → ℝ} (hr : Nearest single r) {x B : ℝ} (hx : |x| ≤ B) (hB : B ≤ 10 ^ 30) : |r x - x| ≤ 1 / 16777216 * B + 1 / 10 ^ 30 := by
  have := rnd_err (Or.inl rfl) hr (hx.trans hB)
  rw [unit_single] at this
  have t : (2 : ℝ) ^ (-126 : ℤ) ≤ 1 / 10 ^ 30 := by norm_num
  linarith

/-- Error of a displacement. -/
theorem displacement_err {A : Arith} (hr : Nearest single A.rnd) {isd u : ℝ} (i1 : 1 ≤ isd) (i2 : isd ≤ 10 ^ 5) (u0 : 0 ≤ u) (u1 : u ≤ 1) :
    |A.uniformIn (A.rnd (-A.rnd isd / 2)) (A.rnd (A.rnd isd / 2)) u - isd * (u - 1 / 2)| ≤ 6 / 16777216 * isd := by
  unfold Arith.uniformIn
  have e1 := abs_le.1 (err_single hr (x := isd) (B := isd) (by rw [abs_of_nonneg]; linarith) (by norm_num at i2 ⊢; linarith))
  generalize A.rnd isd = i at *
  have e2 := abs_le.1 (err_single hr (x := -i / 2) (B := 0.501 * isd) (by rw [abs_le]; norm_num at e1 ⊢; constructor <;> linarith) (by norm_num at i2 ⊢; linarith))
  have e3 := abs_le.1 (err_single hr (x := i / 2) (B := 0.501 * isd) (by rw [abs_le]; norm_num at e1 ⊢; constructor <;> linarith) (by norm_num at i2 ⊢; linarith))
  generalize A.rnd (-i / 2) = lo at *
  generalize A.rnd (i / 2) = hi at *
  have e4 := abs_le.1 (err_single hr (x := hi - lo) (B := 1.01 * isd) (by rw [abs_le]; norm_num at e1 e2 e3 ⊢; constructor <;> linarith) (by norm_num at i2 ⊢; linarith))
  generalize A.rnd (hi - lo) = w at *
  have hw : |w - isd| ≤ 3.1 / 16777216 * isd := by rw [abs_le]; norm_num at e1 e2 e3 e4 ⊢; constructor <;> linarith
  have huw : |u * w - u * isd| ≤ 3.1 / 16777216 * isd := by
    rw [← mul_sub, abs_mul, abs_of_nonneg u0]
    exact (mul_le_of_le_one_left (abs_nonneg _) u1).trans hw
  have hui : u * isd ≤ isd := mul_le_of_le_one_left (by linarith) u1
  have hu0 : 0 ≤ u * isd := mul_nonneg u0 (by linarith)
  have e5 := abs_le.1 huw
  have e6 := abs_le.1 (err_single hr (x := u * w) (B := 1.01 * isd) (by rw [abs_le]; norm_num at e5 ⊢; constructor <;> linarith) (by norm_num at i2 ⊢; linarith))
  generalize A.rnd (u * w) = a at *
  have e7 := abs_le.1 (err_single hr (x := a + lo) (B := 0.51 * isd) (by rw [abs_le]; norm_num at e1 e2 e5 e6 ⊢; constructor <;> linarith) (by norm_num at i2 ⊢; linarith))
  generalize A.rnd (a + lo) = o at *
  rw [abs_le, mul_sub, mul_comm isd u]
  norm_num at e1 e2 e5 e6 e7 ⊢
  constructor <;> linarith

/-- Error of the difference of a coordinate. -/
theorem coord_err {A : Arith} (hr : Nearest single A.rnd) {base isd u v : ℝ} (b0 : 0 ≤ base) (b1 : base ≤ 10 ^ 10) (i1 : 1 ≤ isd) (i2 : isd ≤ 10 ^ 5) (u0 : 0 ≤ u)
    (u1 : u ≤ 1) (v0 : 0 ≤ v) (v1 : v ≤ 1) :
    |A.rnd (A.dropCoord base isd v - A.dropCoord base isd u) - isd * (v - u)| ≤ 1 / 16777216 * (2.01 * base + 15 * isd) := by
  unfold Arith.dropCoord
  have e1 := abs_le.1 (displacement_err hr i1 i2 u0 u1)
  have e2 := abs_le.1 (displacement_err hr i1 i2 v0 v1)
  generalize A.uniformIn (A.rnd (-A.rnd isd / 2)) (A.rnd (A.rnd isd / 2)) u = a at *
  generalize A.uniformIn (A.rnd (-A.rnd isd / 2)) (A.rnd (A.rnd isd / 2)) v = b at *
  have hu : 0 ≤ isd * u ∧ isd * u ≤ isd := ⟨mul_nonneg (by linarith) u0, mul_le_of_le_one_right (by linarith) u1⟩
  have hv : 0 ≤ isd * v ∧ isd * v ≤ isd := ⟨mul_nonneg (by linarith) v0, mul_le_of_le_one_right (by linarith) v1⟩
  rw [mul_sub] at e1 e2 ⊢
  generalize isd * u = s at *
  generalize isd * v = t at *
  have e3 := abs_le.1 (err_single hr (x := base + a) (B := base + 0.51 * isd) (by rw [abs_le]; norm_num at e1 hu ⊢; constructor <;> linarith)
    (by norm_num at i2 b1 ⊢; linarith))
  have e4 := abs_le.1 (err_single hr (x := base + b) (B := base + 0.51 * isd) (by rw [abs_le]; norm_num at e2 hv ⊢; constructor <;> linarith)
    (by norm_num at i2 b1 ⊢; linarith))
  generalize A.rnd (base + a) = x at *
  generalize A.rnd (base + b) = y at *
  have e5 := abs_le.1 (err_single hr (x := y - x) (B := 1.01 * isd + 0.001 * base)
    (by rw [abs_le]; norm_num at e1 e2 e3 e4 hu hv ⊢; constructor <;> linarith) (by norm_num at i2 b1 ⊢; linarith))
  generalize A.rnd (y - x) = d at *
  rw [abs_le]
  norm_num at e1 e2 e3 e4 e5 ⊢
  constructor <;> linarith

/-- Root of a number near a square. -/
theorem root_err {c D B : ℝ} (D0 : 0 ≤ D) (SB : D ≤ 1.5 * B) (B1 : 1 ≤ B) (c1 : c ≤ D ^ 2 + 2.01 / 16777216 * D ^ 2 + 5 / 10 ^ 30)
    (c2 : D ^ 2 - 2.01 / 16777216 * D ^ 2 - 5 / 10 ^ 30 ≤ c) : |Real.sqrt c - D| ≤ 4 / 16777216 * B := by
  have DB : D ^ 2 ≤ 1.5 * (B * D) := by rw [pow_two, ← mul_assoc]; exact mul_le_mul_of_nonneg_right SB D0
  have BD : 0 ≤ B * D := mul_nonneg (by linarith) D0
  rw [abs_le]
  constructor
  · rcases le_or_gt D (4 / 16777216 * B) with le | gt
    · linarith [Real.sqrt_nonneg c]
    · have : D - 4 / 16777216 * B ≤ Real.sqrt c := by
        refine Real.le_sqrt_of_sq_le (le_trans ?_ c2)
        have k1 : 4 / 16777216 * B * B ≤ D * B := mul_le_mul_of_nonneg_right gt.le (by linarith)
        have k2 : (1 : ℝ) ≤ B * B := one_le_mul_of_one_le_of_one_le B1 B1
        have e : (D - 4 / 16777216 * B) ^ 2 = D ^ 2 - 8 / 16777216 * (B * D) + 4 / 16777216 * (4 / 16777216 * B * B) := by ring
        rw [e]
        rw [mul_assoc] at k1 ⊢
        rw [mul_comm D B] at k1
        norm_num at DB k1 k2 ⊢
        linarith
      linarith
  · have : Real.sqrt c ≤ D + 4 / 16777216 * B := by
      rw [Real.sqrt_le_iff]
      refine ⟨by positivity, c1.trans ?_⟩
      have k2 : (1 : ℝ) ≤ B * B := one_le_mul_of_one_le_of_one_le B1 B1
      have e : (D + 4 / 16777216 * B) ^ 2 = D ^ 2 + 8 / 16777216 * (B * D) + (4 / 16777216) ^ 2 * (B * B) := by ring
      rw [e]
      norm_num at DB k2 ⊢
      linarith
    linarith

/-- Error of the Euclidean norm of two rounded numbers. -/
theorem norm_err {r : ℝ → ℝ} (hr : Nearest single r) {x y B : ℝ} (hx : |x| ≤ B) (hy : |y| ≤ B) (B1 : 1 ≤ B) (B2 : B ≤ 10 ^ 11) :
    |r (Real.sqrt (r (r (x * x) + r (y * y)))) - Real.sqrt (x ^ 2 + y ^ 2)| ≤ 8 / 16777216 * B := by
  have hxx : x * x ≤ B ^ 2 := by have := sq_le_sq' (abs_le.1 hx).1 (abs_le.1 hx).2; linarith [pow_two x]
  have hyy : y * y ≤ B ^ 2 := by have := sq_le_sq' (abs_le.1 hy).1 (abs_le.1 hy).2; linarith [pow_two y]
  have x0 := mul_self_nonneg x
  have y0 := mul_self_nonneg y
  have BB : B ^ 2 ≤ 10 ^ 22 := by have := pow_le_pow_left₀ (by linarith) B2 2; norm_num at this ⊢; exact this
  rw [pow_two, pow_two]
  have e1 := abs_le.1 (err_single hr (x := x * x) (B := x * x) (abs_of_nonneg x0).le (by norm_num at BB ⊢; linarith))
  have e2 := abs_le.1 (err_single hr (x := y * y) (B := y * y) (abs_of_nonneg y0).le (by norm_num at BB ⊢; linarith))
  have n1 : 0 ≤ r (x * x) := nonneg_single hr (by norm_num at BB ⊢; linarith) x0
  have n2 : 0 ≤ r (y * y) := nonneg_single hr (by norm_num at BB ⊢; linarith) y0
  generalize r (x * x) = a at *
  generalize r (y * y) = b at *
  have S0 : 0 ≤ x * x + y * y := add_nonneg x0 y0
  have SB : Real.sqrt (x * x + y * y) ≤ 1.5 * B := Real.sqrt_le_iff.2 ⟨by linarith, by nlinarith⟩
  obtain ⟨S, hS⟩ : ∃ S, x * x + y * y = S := ⟨_, rfl⟩
  rw [hS] at S0 SB ⊢
  have SS : S ≤ 2 * B ^ 2 := by linarith
  have e3 := abs_le.1 (err_single hr (x := a + b) (B := 1.01 * S + 1) (by rw [abs_le]; norm_num at e1 e2 ⊢; constructor <;> linarith)
    (by norm_num at BB ⊢; linarith))
  have e3' := abs_le.1 (err_single hr (x := a + b) (B := a + b) (abs_of_nonneg (by linarith)).le (by norm_num at e1 e2 BB ⊢; linarith))
  have n3 : 0 ≤ r (a + b) := nonneg_single hr (by norm_num at e1 e2 BB ⊢; linarith) (by linarith)
  generalize r (a + b) = c at *
  have c1 : c ≤ S + 2.01 / 16777216 * S + 5 / 10 ^ 30 := by norm_num at e1 e2 e3' ⊢; linarith
  have c2 : S - 2.01 / 16777216 * S - 5 / 10 ^ 30 ≤ c := by norm_num at e1 e2 e3' ⊢; linarith
  have D2 : Real.sqrt S ^ 2 = S := Real.sq_sqrt S0
  have D0 := Real.sqrt_nonneg S
  generalize Real.sqrt S = D at *
  subst D2
  have near := root_err D0 SB B1 c1 c2
  have n4 := abs_le.1 near
  have e5 := abs_le.1 (err_single hr (x := Real.sqrt c) (B := 1.6 * B) (by rw [abs_le]; norm_num at n4 SB ⊢; constructor <;> linarith) (by norm_num at B2 ⊢; linarith))
  rw [abs_le]
  norm_num at n4 e5 ⊢
  constructor <;> linarith

theorem euclid_err (a b c d : ℝ) : |Real.sqrt (a ^ 2 + b ^ 2) - Real.sqrt (c ^ 2 + d ^ 2)| ≤ |a - c| + |b - d| := by
  have e : ∀ x y : ℝ, Real.sqrt (x ^ 2 + y ^ 2) = ‖(⟨x, y⟩ : ℂ)‖ := fun x y => by rw [Complex.norm_eq_sqrt_sq_add_sq]
  rw [e, e]
  refine (abs_norm_sub_norm_le _ _).trans ((Complex.norm_le_abs_re_add_abs_im _).trans_eq ?_)
  simp

/-- **C210**, partial: the distance of two UTs is kept up to the slant range over 2²². Satellites at a slant range of more than 4000 km are missing: see
`C210_violated`. -/
theorem C210_distance_partial (A : Arith) (hr : Nearest single A.rnd) (hp : Nearest double A.py) (hs : AccurateSin A.sin) (ho : SinAtMostOne A.sin)
    (h el isd u : ℝ) (v w p : ℝ × ℝ) (h1 : 8000 ≤ h) (h2 : h ≤ 42 * 10 ^ 6) (e1 : 10 ≤ el) (e2 : el ≤ 90) (i1 : 100 ≤ isd) (i2 : isd ≤ 5000)
    (hu : UnitDraw u) (v1 : UnitDraw v.1) (v2 : UnitDraw v.2) (w1 : UnitDraw w.1) (w2 : UnitDraw w.2) (hc : A.dropCentre h el u = .ok p) :
    |A.utDistance (A.dropUt p isd v) (A.dropUt p isd w) - dropDistance isd v w| ≤ (h / Real.sin (el * Real.pi / 180) + 11 * isd) / 2 ^ 22 := by
  obtain ⟨p', hp', p1, p2, near⟩ := C200_centre A hr hp hs ho h el u h1 h2 e1 e2 hu
  obtain rfl : p' = p := by rw [hc] at hp'; exact (Except.ok.inj hp').symm
  have unit : ∀ t, UnitDraw t → 0 ≤ t ∧ t ≤ 1 := by
    rintro t ⟨k, hk, rfl⟩
    refine ⟨by positivity, ?_⟩
    rw [div_le_one (by positivity)]
    exact_mod_cast hk.le
  obtain ⟨v10, v11⟩ := unit _ v1
  obtain ⟨v20, v21⟩ := unit _ v2
  obtain ⟨w10, w11⟩ := unit _ w1
  obtain ⟨w20, w21⟩ := unit _ w2
  set s := Real.sin (el * Real.pi / 180) with hsin
  have hpi := Real.pi_pos
  have s1 : 0.17 ≤ s := by
    have := (drop_sine hr hp hs ho e1 e2).2.2
    rw [show deg2rad el = el * Real.pi / 180 by unfold deg2rad; ring] at this
    norm_num at this ⊢
    linarith
  have s0 : 0 < s := lt_of_lt_of_le (by norm_num) s1
  have c0 : 0 ≤ Real.cos (el * Real.pi / 180) := Real.cos_nonneg_of_neg_pi_div_two_le_of_le (by nlinarith) (by nlinarith)
  have c1 := Real.cos_le_one (el * Real.pi / 180)
  have T0 : 0 < h / s := div_pos (by linarith) s0
  have T1 : h / s ≤ 25 * 10 ^ 7 := by rw [div_le_iff₀ s0]; norm_num at h2 s1 ⊢; linarith
  have D1 : h * (Real.cos (el * Real.pi / 180) / s) ≤ h / s := by
    rw [mul_div_assoc']
    exact div_le_div_of_nonneg_right (mul_le_of_le_one_right (by linarith) c1) s0.le
  have dist : Real.sqrt (p'.1 ^ 2 + p'.2 ^ 2) ≤ 1.004 * (h / s) := by
    have := (abs_le.1 near).2
    norm_num at D1 this ⊢
    linarith
  generalize h / s = T at *
  have sum : p'.1 + p'.2 ≤ 1.5 * T := by
    have q0 : 0 ≤ p'.1 ^ 2 + p'.2 ^ 2 := by positivity
    have q := (Real.sqrt_le_left (by positivity)).1 dist
    have q2 : (p'.1 + p'.2) ^ 2 ≤ (1.5 * T) ^ 2 := by
      norm_num at q ⊢
      nlinarith [sq_nonneg (p'.1 - p'.2), sq_nonneg T]
    exact (abs_le_of_sq_le_sq' q2 (by positivity)).2
  have dx := coord_err hr (base := p'.1) (isd := isd) (u := v.1) (v := w.1) p1 (by norm_num at T1 ⊢; linarith) (by linarith) (by norm_num; linarith) v10 v11 w10 w11
  have dy := coord_err hr (base := p'.2) (isd := isd) (u := v.2) (v := w.2) p2 (by norm_num at T1 ⊢; linarith) (by linarith) (by norm_num; linarith) v20 v21 w20 w21
  unfold Arith.utDistance Arith.dropUt dropDistance
  simp only
  generalize A.rnd (A.dropCoord p'.1 isd w.1 - A.dropCoord p'.1 isd v.1) = x at *
  generalize A.rnd (A.dropCoord p'.2 isd w.2 - A.dropCoord p'.2 isd v.2) = y at *
  have ex : |isd * (w.1 - v.1)| ≤ isd := by
    rw [abs_mul, abs_of_pos (by linarith : 0 < isd)]
    exact mul_le_of_le_one_right (by linarith) (abs_le.2 ⟨by linarith, by linarith⟩)
  have ey : |isd * (w.2 - v.2)| ≤ isd := by
    rw [abs_mul, abs_of_pos (by linarith : 0 < isd)]
    exact mul_le_of_le_one_right (by linarith) (abs_le.2 ⟨by linarith, by linarith⟩)
  have hx : |x| ≤ 1.5 * isd := by
    have a1 := abs_le.1 dx
    have a2 := abs_le.1 ex
    rw [abs_le]
    norm_num at a1 T1 ⊢
    constructor <;> linarith
  have hy : |y| ≤ 1.5 * isd := by
    have a1 := abs_le.1 dy
    have a2 := abs_le.1 ey
    rw [abs_le]
    norm_num at a1 T1 ⊢
    constructor <;> linarith
  have n := norm_err hr hx hy (by linarith) (by norm_num; linarith)
  have t := euclid_err x y (isd * (w.1 - v.1)) (isd * (w.2 - v.2))
  have ea : isd * Real.sqrt ((v.1 - w.1) ^ 2 + (v.2 - w.2) ^ 2) = Real.sqrt ((isd * (w.1 - v.1)) ^ 2 + (isd * (w.2 - v.2)) ^ 2) := by
    rw [show (isd * (w.1 - v.1)) ^ 2 + (isd * (w.2 - v.2)) ^ 2 = isd ^ 2 * ((v.1 - w.1) ^ 2 + (v.2 - w.2) ^ 2) by ring,
      Real.sqrt_mul (sq_nonneg _), Real.sqrt_sq (by linarith)]
  rw [ea]
  have := abs_sub_le (A.rnd (Real.sqrt (A.rnd (A.rnd (x * x) + A.rnd (y * y))))) (Real.sqrt (x ^ 2 + y ^ 2)) (Real.sqrt ((isd * (w.1 - v.1)) ^ 2 + (isd * (w.2 - v.2)) ^ 2))
  refine this.trans ?_
  norm_num at n t dx dy sum ⊢
  linarith

/-- Up to a slant range of 2000 km half a metre is kept. -/
theorem C210_low_partial (A : Arith) (hr : Nearest single A.rnd) (hp : Nearest double A.py) (hs : AccurateSin A.sin) (ho : SinAtMostOne A.sin)
    (h el isd u : ℝ) (v w p : ℝ × ℝ) (h1 : 8000 ≤ h) (hT : h / Real.sin (el * Real.pi / 180) ≤ 2 * 10 ^ 6) (e1 : 10 ≤ el) (e2 : el ≤ 90) (i1 : 100 ≤ isd)
    (i2 : isd ≤ 5000) (hu : UnitDraw u) (v1 : UnitDraw v.1) (v2 : UnitDraw v.2) (w1 : UnitDraw w.1) (w2 : UnitDraw w.2) (hc : A.dropCentre h el u = .ok p) :
    |A.utDistance (A.dropUt p isd v) (A.dropUt p isd w) - dropDistance isd v w| ≤ 1 / 2 := by
  have s0 : 0 < Real.sin (el * Real.pi / 180) := Real.sin_pos_of_pos_of_lt_pi (by positivity) (by nlinarith [Real.pi_pos])
  have h2 : h ≤ 42 * 10 ^ 6 := by
    rw [div_le_iff₀ s0] at hT
    have := Real.sin_le_one (el * Real.pi / 180)
    norm_num at hT ⊢
    linarith
  refine (C210_distance_partial A hr hp hs ho h el isd u v w p h1 h2 e1 e2 i1 i2 hu v1 v2 w1 w2 hc).trans ?_
  rw [div_le_iff₀ (by positivity)]
  norm_num at hT ⊢
  linarith

/-- The hypotheses can be met: a satellite at 600 km, seen at 30 degrees, has a slant range of 1200 km. -/
example : ∃ (A : Arith) (p : ℝ × ℝ), Nearest single A.rnd ∧ Nearest double A.py ∧ AccurateSin A.sin ∧ SinAtMostOne A.sin ∧
    (600000 : ℝ) / Real.sin (30 * Real.pi / 180) ≤ 2 * 10 ^ 6 ∧ UnitDraw (1 / 2) ∧ UnitDraw (1 / 4) ∧ A.dropCentre 600000 30 (1 / 4) = .ok p := by
  obtain ⟨r, hr⟩ := exists_nearest single (by norm_num [single])
  obtain ⟨q, hq⟩ := exists_nearest double (by norm_num [double])
  have hs : AccurateSin Real.sin := fun x _ _ => by rw [sub_self, abs_zero]; positivity
  have u2 : UnitDraw (1 / 2) := ⟨4194304, by norm_num, by norm_num⟩
  have u4 : UnitDraw (1 / 4) := ⟨2097152, by norm_num, by norm_num⟩
  obtain ⟨p, hp, -⟩ := C200_centre ⟨r, q, Real.sin, Real.logb 10⟩ hr hq hs (fun x _ _ => Real.sin_le_one x) 600000 30 (1 / 4) (by norm_num) (by norm_num) (by norm_num)
    (by norm_num) u4
  refine ⟨_, p, hr, hq, hs, fun x _ _ => Real.sin_le_one x, ?_, u2, u4, hp⟩
  rw [show 30 * Real.pi / 180 = Real.pi / 6 by ring, Real.sin_pi_div_six]
  norm_num

/-- A geostationary satellite, seen at 30 degrees: two UTs that are dropped one and a half metres apart come to lie on the same point. -/
theorem C210_coincide {A : Arith} (hr : Nearest single A.rnd) (hp : Nearest double A.py) (hs : AccurateSin A.sin) (ho : SinAtMostOne A.sin) :
    ∃ p, A.dropCentre 35786000 30 0 = .ok p ∧ A.dropUt p 200 (1 / 2, 1 / 2) = A.dropUt p 200 (1 / 2, 65 / 128) ∧
      dropDistance 200 (1 / 2, 1 / 2) (1 / 2, 65 / 128) = 1.5625 := by
  obtain ⟨p, hc, p1, p2, near⟩ := C200_centre A hr hp hs ho 35786000 30 0 (by norm_num) (by norm_num) (by norm_num) (by norm_num) ⟨0, by norm_num, by norm_num⟩
  have e0 : single.emin ≤ single.emax := by norm_num [single]
  have z : A.rnd 0 = 0 := hr.zero e0
  have px : p.1 = 0 ∧ single.Num p.2 := by
    obtain ⟨se, so, s1⟩ := drop_sine hr hp hs ho (el := 30) (by norm_num) (by norm_num)
    have s2 : Real.sin (deg2rad 30) ≤ 1 := Real.sin_le_one _
    have ss := abs_le.1 se
    have sp : 0 < A.sin (A.deg2rad 30) := by norm_num at ss s1 ⊢; linarith
    obtain ⟨ge, eh, ea⟩ := drop_slant hr (h := 35786000) (by norm_num) (by norm_num) s1 s2 se so
    unfold Arith.dropCentre Arith.sqrt Arith.uniformIn at hc
    simp only [sp.ne', if_false] at hc
    have s0 : 0 < Real.sin (deg2rad 30) := lt_of_lt_of_le (by norm_num) s1
    have lim : 35786000 / Real.sin (deg2rad 30) ≤ 10 ^ 9 := by rw [div_le_iff₀ s0]; norm_num at s1 ⊢; linarith
    obtain ⟨eh1, eh2⟩ := abs_le.1 eh
    obtain ⟨ea1, ea2⟩ := abs_le.1 ea
    generalize A.sin (A.deg2rad 30) = s' at *
    generalize 35786000 / Real.sin (deg2rad 30) = T at *
    generalize A.rnd (A.rnd 35786000 / s') = a at *
    generalize A.rnd 35786000 = h' at *
    have a2 : a ≤ 10 ^ 10 := by norm_num at ea2 lim ⊢; linarith
    obtain ⟨S0, S1, Sr, Se⟩ := drop_radicand hr (a := a) (h := h') (by norm_num at eh1 ⊢; linarith) ge a2
    generalize A.rnd (A.rnd (a * a) - A.rnd (h' * h')) = S at *
    obtain ⟨Se1, Se2⟩ := abs_le.1 Se
    have ap : 0 ≤ a := by norm_num at eh1; linarith
    have aa : a ^ 2 ≤ 10 ^ 20 := by
      have := pow_le_pow_left₀ ap a2 2
      norm_num at this ⊢; exact this
    have S2 : S ≤ 10 ^ 22 := by
      have := sq_nonneg h'
      norm_num at Se2 aa ⊢; linarith
    simp only [not_lt.2 S0, if_false, bind, Except.bind, zero_mul, zero_add, z, mul_zero, sub_zero, Sr, Except.ok.injEq] at hc
    rw [← hc]
    refine ⟨rfl, (hr _ ?_).1⟩
    rw [abs_of_nonneg (Real.sqrt_nonneg _)]
    have : Real.sqrt S ≤ 10 ^ 11 := Real.sqrt_le_iff.2 ⟨by norm_num, by norm_num at S2 ⊢; exact S2⟩
    exact this.trans_lt (lt_trans (by norm_num) (range_ge (Or.inl rfl)))
  obtain ⟨px, py⟩ := px
  have size : 2 ^ 25 ≤ p.2 ∧ p.2 ≤ 2 ^ 27 := by
    unfold NearDistance at near
    rw [px, show 30 * Real.pi / 180 = Real.pi / 6 by ring, Real.sin_pi_div_six, Real.cos_pi_div_six, zero_pow two_ne_zero, zero_add, Real.sqrt_sq p2] at near
    obtain ⟨n1, n2⟩ := abs_le.1 near
    have q1 : (1.7 : ℝ) ≤ Real.sqrt 3 := Real.le_sqrt_of_sq_le (by norm_num)
    have q2 : Real.sqrt 3 ≤ 1.8 := Real.sqrt_le_iff.2 ⟨by norm_num, by norm_num⟩
    norm_num at n1 n2 q1 q2 ⊢
    constructor <;> linarith
  have int : ∀ m : ℤ, |m| < 2 ^ 24 → A.rnd m = m := fun m hm => by
    refine hr.num ⟨m, 0, by simpa [single] using hm, by norm_num [single], by norm_num [single], by simp⟩ ?_
    refine lt_trans ?_ (range_ge (Or.inl rfl))
    have : |(m : ℝ)| < 2 ^ 24 := by exact_mod_cast hm
    exact this.trans (by norm_num)
  have r200 : A.rnd 200 = 200 := by exact_mod_cast int 200 (by norm_num)
  have r100 : A.rnd 100 = 100 := by exact_mod_cast int 100 (by norm_num)
  have rm100 : A.rnd (-100) = -100 := by exact_mod_cast int (-100) (by norm_num)
  have frac : A.rnd 101.5625 = 101.5625 := by
    refine hr.num ⟨1625, -4, by norm_num [single], by norm_num [single], by norm_num [single], by norm_num⟩ ?_
    exact lt_trans (by norm_num [abs_lt]) (range_ge (Or.inl rfl))
  have frac' : A.rnd 1.5625 = 1.5625 := by
    refine hr.num ⟨25, -4, by norm_num [single], by norm_num [single], by norm_num [single], by norm_num⟩ ?_
    exact lt_trans (by norm_num [abs_lt]) (range_ge (Or.inl rfl))
  have o1 : A.uniformIn (A.rnd (-A.rnd 200 / 2)) (A.rnd (A.rnd 200 / 2)) (1 / 2) = 0 := by
    unfold Arith.uniformIn
    rw [r200, show (-200 : ℝ) / 2 = -100 by norm_num, show (200 : ℝ) / 2 = 100 by norm_num, rm100, r100, show (100 : ℝ) - -100 = 200 by norm_num, r200,
      show (1 : ℝ) / 2 * 200 = 100 by norm_num, r100, add_neg_cancel, z]
  have o2 : A.uniformIn (A.rnd (-A.rnd 200 / 2)) (A.rnd (A.rnd 200 / 2)) (65 / 128) = 1.5625 := by
    unfold Arith.uniformIn
    rw [r200, show (-200 : ℝ) / 2 = -100 by norm_num, show (200 : ℝ) / 2 = 100 by norm_num, rm100, r100, show (100 : ℝ) - -100 = 200 by norm_num, r200,
      show (65 : ℝ) / 128 * 200 = 101.5625 by norm_num, frac, show (101.5625 : ℝ) + -100 = 1.5625 by norm_num, frac']
  have lt : ∀ x : ℝ, |x| ≤ 2 ^ 28 → |x| < single.range := fun x hx => hx.trans_lt (lt_trans (by norm_num) (range_ge (Or.inl rfl)))
  have keep : A.rnd (p.2 + 0) = p.2 := by
    rw [add_zero]
    exact hr.num py (lt _ (by rw [abs_of_nonneg p2]; linarith [size.2]))
  have stay : A.rnd (p.2 + 1.5625) = p.2 := by
    obtain ⟨n1, n2⟩ := hr (p.2 + 1.5625) (lt _ (by rw [abs_of_nonneg (by norm_num; linarith)]; norm_num at size ⊢; linarith [size.2]))
    have n3 := n2 p.2 py
    obtain ⟨q, hq⟩ : ∃ q, A.rnd (p.2 + 1.5625) = q := ⟨_, rfl⟩
    rw [hq] at n1 n3 ⊢
    have n4 : |p.2 - (p.2 + 1.5625)| = 1.5625 := by
      rw [show p.2 - (p.2 + 1.5625) = -1.5625 by ring, abs_neg, abs_of_pos (by norm_num)]
    rw [n4] at n3
    obtain ⟨m1, m2⟩ := abs_le.1 n3
    have big : (2 : ℝ) ^ (25 : ℤ) ≤ |q| := by
      refine le_trans ?_ (le_abs_self q)
      norm_num at size m1 ⊢
      linarith [size.1]
    have big' : (2 : ℝ) ^ (25 : ℤ) ≤ |p.2| := by
      refine le_trans ?_ (le_abs_self _)
      norm_num at size ⊢
      linarith [size.1]
    obtain ⟨i, hi⟩ := n1.spacing 25 big
    obtain ⟨j, hj⟩ := py.spacing 25 big'
    have ex : (2 : ℝ) ^ ((25 : ℤ) - single.digits + 1) = 4 := by norm_num [single]
    rw [ex] at hi hj
    have d1 : -1 < ((i - j : ℤ) : ℝ) := by push_cast; norm_num at m1 m2; linarith
    have d2 : ((i - j : ℤ) : ℝ) < 1 := by push_cast; norm_num at m1 m2; linarith
    have : i - j = 0 := by
      have a1 : (-1 : ℤ) < i - j := by exact_mod_cast d1
      have a2 : i - j < (1 : ℤ) := by exact_mod_cast d2
      omega
    rw [hi, hj, show i = j by omega]
  refine ⟨p, hc, ?_, ?_⟩
  · unfold Arith.dropUt Arith.dropCoord
    simp only [o1, o2, keep, stay]
  · unfold dropDistance
    rw [show ((1 / 2 : ℝ) - 1 / 2) ^ 2 + (1 / 2 - 65 / 128) ^ 2 = (1 / 128) ^ 2 by norm_num, Real.sqrt_sq (by norm_num)]
    norm_num

/-- C210 fails: geostationary satellite. -/
theorem C210_violated : ¬ C210_statement := by
  intro H
  obtain ⟨r, hr⟩ := exists_nearest single (by norm_num [single])
  obtain ⟨q, hq⟩ := exists_nearest double (by norm_num [double])
  have hs : AccurateSin Real.sin := fun x _ _ => by rw [sub_self, abs_zero]; positivity
  have ho : SinAtMostOne Real.sin := fun x _ _ => Real.sin_le_one x
  obtain ⟨p, hc, same, hd⟩ := C210_coincide (A := ⟨r, q, Real.sin, Real.logb 10⟩) hr hq hs ho
  have u2 : UnitDraw (1 / 2) := ⟨4194304, by norm_num, by norm_num⟩
  have := H ⟨r, q, Real.sin, Real.logb 10⟩ hr hq hs ho 35786000 30 200 0 (1 / 2, 1 / 2) (1 / 2, 65 / 128) p (by norm_num) (by norm_num) (by norm_num) (by norm_num)
    (by norm_num) (by norm_num) ⟨0, by norm_num, by norm_num⟩ u2 u2 u2 ⟨4259840, by norm_num, by norm_num⟩ hc
  rw [← same, hd] at this
  have z : r 0 = 0 := hr.zero (by norm_num [single])
  unfold Arith.utDistance at this
  simp only [sub_self, z, mul_zero, add_zero, Real.sqrt_zero, zero_sub, abs_neg] at this
  norm_num [abs_of_pos] at this

/-- What follows: if two UTs in the same state have the same place, the spatial correlation of a large-scale parameter has no Cholesky factor, so no channel of
this topology can be generated. -/
theorem C210_singular {U : ℕ} (c : Config) (los indoor : Fin U → Bool) (x y : Fin U → ℝ) (nearBp : Fin U → Bool) (m n : Fin U) (hmn : m ≠ n) (hl : los m = los n)
    (hi : indoor m = indoor n) (hx : x m = x n) (hy : y m = y n) : IsEmpty (LspSetup c los indoor x y nearBp) := by
  refine ⟨fun S => ?_⟩
  obtain ⟨C, hC, hL⟩ := S.spatial_ok 0
  generalize S.spatialSqrt 0 = L at hL
  have key : ∀ k, C m k = C n k := by
    unfold spatialCorrelationOf at hC
    intro k
    cases h1 : c.getReal (corrDistParam 0) true with
    | error e => rw [h1] at hC; exact absurd hC (by simp)
    | ok dl =>
      cases h2 : c.getReal (corrDistParam 0) false with
      | error e => rw [h1, h2] at hC; exact absurd hC (by simp)
      | ok dn =>
        rw [h1, h2] at hC
        rw [← Except.ok.inj hC]
        unfold spatialCorrelation utDistance2d spatialFilter
        simp only [hl, hi, hx, hy]
        congr 1
        by_cases hm : m = k
        · subst hm
          simp only [hl, hi, Ne.symm hmn, if_true, if_false]
          cases los n <;> cases indoor n <;> simp
        · by_cases hn : n = k
          · subst hn
            rcases Bool.eq_false_or_eq_true (los n) with a | a <;> rcases Bool.eq_false_or_eq_true (indoor n) with b | b <;> simp [a, b]
          · simp only [hm, hn, if_false]
  wlog lt : m < n generalizing m n
  · exact this n m hmn.symm hl.symm hi.symm hx.symm hy.symm (fun k => (key k).symm) (lt_of_le_of_ne (not_lt.1 lt) hmn.symm)
  have zero : ∑ k, (L m k - L n k) ^ 2 = 0 := by
    have : ∀ k, (L m k - L n k) ^ 2 = L m k * L m k - L n k * L m k - (L m k * L n k - L n k * L n k) := fun k => by ring
    simp only [this, Finset.sum_sub_distrib, hL.prod, key, sub_self]
  have := (Finset.sum_eq_zero_iff_of_nonneg fun k _ => sq_nonneg _).1 zero n (Finset.mem_univ n)
  rw [hL.lower m n lt] at this
  have pos := hL.diag n
  nlinarith

/-- The hypotheses can be met: the two UTs of `C210_coincide`. -/
example {A : Arith} (hr : Nearest single A.rnd) (hp : Nearest double A.py) (hs : AccurateSin A.sin) (ho : SinAtMostOne A.sin) (c : Config) (los nearBp : Bool) :
    ∃ p, A.dropCentre 35786000 30 0 = .ok p ∧
      let q := ![A.dropUt p 200 (1 / 2, 1 / 2), A.dropUt p 200 (1 / 2, 65 / 128)]
      IsEmpty (LspSetup c (fun _ : Fin 2 => los) (fun _ => false) (fun u => (q u).1) (fun u => (q u).2) fun _ => nearBp) := by
  obtain ⟨p, hc, same, -⟩ := C210_coincide hr hp hs ho
  exact ⟨p, hc, C210_singular c _ _ _ _ _ 0 1 (by decide) rfl rfl (congrArg Prod.fst same) (congrArg Prod.snd same)⟩

end OpenNTN
