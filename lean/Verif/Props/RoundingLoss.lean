import Verif.Props.Rounding
import Mathlib.Analysis.Complex.ExponentialBounds

/-
Rounding of the slant range and of the free space path loss.
-/
namespace OpenNTN

open Spec

theorem Rel.add {u : ℝ} {k : ℕ} {x y x' y' : ℝ} (h : 0 ≤ x) (h' : 0 ≤ x') (s : 0 < x + x') (a : Rel u k x y) (b : Rel u k x' y') :
    Rel u k (x + x') (y + y') := by
  obtain ⟨r, r1, r2, rfl⟩ := a
  obtain ⟨q, q1, q2, rfl⟩ := b
  refine ⟨(x * r + x' * q) / (x + x'), ?_, ?_, by field_simp⟩
  · rw [le_div_iff₀ s]; nlinarith
  · rw [div_mul_eq_mul_div, div_le_one s]; nlinarith

theorem Rel.sqrt {u : ℝ} (u0 : 0 ≤ u) (u1 : u < 1) {k : ℕ} {x y : ℝ} (h : 0 ≤ x) (a : Rel u k x y) : Rel u k (Real.sqrt x) (Real.sqrt y) := by
  obtain ⟨r, r1, r2, rfl⟩ := a
  have p : 0 < (1 - u) ^ k := by have : 0 < 1 - u := by linarith
                                 positivity
  have p1 : (1 - u) ^ k ≤ 1 := pow_le_one₀ (by linarith) (by linarith)
  have rp : 0 < r := p.trans_le r1
  refine ⟨Real.sqrt r, ?_, ?_, Real.sqrt_mul h r⟩
  · apply Real.le_sqrt_of_sq_le; nlinarith
  · have : Real.sqrt r ≤ 1 / (1 - u) ^ k := by
      apply Real.sqrt_le_iff.2
      refine ⟨by positivity, ?_⟩
      have h1 : r ≤ 1 / (1 - u) ^ k := by rw [le_div_iff₀ p]; exact r2
      have h2 : 1 ≤ 1 / (1 - u) ^ k := by rw [le_div_iff₀ p]; linarith
      nlinarith
    rwa [le_div_iff₀ p] at this

/-- The root of `a² + c` changes at most as much as `a`. -/
theorem sqrt_lipschitz {a b c : ℝ} (ha : 0 ≤ a) (hb : 0 ≤ b) (hc : 0 ≤ c) : |Real.sqrt (a ^ 2 + c) - Real.sqrt (b ^ 2 + c)| ≤ |a - b| := by
  have sa : a ≤ Real.sqrt (a ^ 2 + c) := Real.le_sqrt_of_sq_le (by linarith)
  have sb : b ≤ Real.sqrt (b ^ 2 + c) := Real.le_sqrt_of_sq_le (by linarith)
  have qa := Real.sq_sqrt (show 0 ≤ a ^ 2 + c by positivity)
  have qb := Real.sq_sqrt (show 0 ≤ b ^ 2 + c by positivity)
  rcases eq_or_lt_of_le (show 0 ≤ Real.sqrt (a ^ 2 + c) + Real.sqrt (b ^ 2 + c) by positivity) with e | s
  · have h1 : Real.sqrt (a ^ 2 + c) = 0 := by linarith [Real.sqrt_nonneg (a ^ 2 + c), Real.sqrt_nonneg (b ^ 2 + c)]
    have h2 : Real.sqrt (b ^ 2 + c) = 0 := by linarith [Real.sqrt_nonneg (a ^ 2 + c), Real.sqrt_nonneg (b ^ 2 + c)]
    rw [h1, h2]; simp
  · refine le_of_mul_le_mul_right ?_ s
    rw [← abs_of_pos s, ← abs_mul, abs_of_pos s]
    have : (Real.sqrt (a ^ 2 + c) - Real.sqrt (b ^ 2 + c)) * (Real.sqrt (a ^ 2 + c) + Real.sqrt (b ^ 2 + c)) = (a - b) * (a + b) := by
      ring_nf; ring_nf at qa qb; linarith
    rw [this, abs_mul, abs_of_nonneg (by linarith : 0 ≤ a + b)]
    gcongr

/-- The sine of the elevation angle in single precision. -/
theorem sine_err {A : Arith} (hr : Nearest single A.rnd) (hp : Nearest double A.py) (hs : AccurateSin A.sin) {el : ℝ} (e1 : 10 ≤ el)
    (e2 : el ≤ 90) : |A.sin (A.rnd (A.py (deg2rad el))) - Real.sin (deg2rad el)| ≤ 4.3 / 10 ^ 7 ∧ 0.1 ≤ Real.sin (deg2rad el) := by
  have hf : IEEE single := Or.inl rfl
  have us := unit_single
  have up := unit_pos single
  have p3 := Real.pi_gt_d6
  have p4 := Real.pi_lt_d6
  have eld : deg2rad el = el * Real.pi / 180 := by unfold deg2rad; ring
  have a1 : 0.17 ≤ deg2rad el := by rw [eld]; nlinarith
  have a2 : deg2rad el ≤ 1.5708 := by rw [eld]; nlinarith
  have a3 : deg2rad el ≤ Real.pi / 2 := by rw [eld]; nlinarith
  have ar := conv_rel hf hr hp (x := deg2rad el) (le_trans (by norm_num) a1) (a2.trans (by norm_num))
  have ae := ar.abs up.le (by rw [us]; norm_num)
  rw [abs_of_pos (a := deg2rad el) (by linarith), us] at ae
  have ae' : |A.rnd (A.py (deg2rad el)) - deg2rad el| ≤ 3 / 10 ^ 7 := by
    refine ae.trans ?_
    norm_num at a2 ⊢; linarith
  obtain ⟨ael, aeu⟩ := abs_le.1 ae'
  have s1 := hs (A.rnd (A.py (deg2rad el))) (by norm_num at ael ⊢; linarith) (by norm_num at aeu ⊢; linarith)
  set s' := A.sin (A.rnd (A.py (deg2rad el))) with s'd
  set s := Real.sin (deg2rad el) with sd
  constructor
  · have lip : |Real.sin (A.rnd (A.py (deg2rad el))) - s| ≤ |A.rnd (A.py (deg2rad el)) - deg2rad el| :=
      Real.abs_sin_sub_sin_le (A.rnd (A.py (deg2rad el))) (deg2rad el)
    have := abs_sub_le s' (Real.sin (A.rnd (A.py (deg2rad el)))) s
    norm_num at s1 ae' ⊢
    linarith
  · have := Real.mul_le_sin (x := deg2rad el) (by linarith) a3
    refine le_trans ?_ this
    have : (0.6 : ℝ) ≤ 2 / Real.pi := by rw [le_div_iff₀ (by linarith)]; linarith
    nlinarith

/-- The radicand in single precision. -/
theorem radicand_rel {r : ℝ → ℝ} (hr : Nearest single r) {s h : ℝ} (s1 : 0.09 ≤ s) (s2 : s ≤ 1.000001) (h1 : 8000 ≤ h) (h2 : h ≤ 42 * 10 ^ 6) :
    Rel single.unit 5 (earthRadius ^ 2 * (s * s) + h * h + 2 * h * earthRadius)
      (r (r (r (r (earthRadius ^ 2) * r (s * s)) + r (h * h)) + r (r (2 * h) * earthRadius))) := by
  have hf : IEEE single := Or.inl rfl
  have up := unit_pos single
  have u1 := unit_lt_one hf
  have R0 : earthRadius = 6371000 := rfl
  have ss1 : 0.008 ≤ s * s := by nlinarith
  have ss2 : s * s ≤ 1.1 := by nlinarith
  have hh1 : 10 ^ 7 ≤ h * h := by nlinarith
  have hh2 : h * h ≤ 10 ^ 16 := by nlinarith
  have RR1 : 10 ^ 11 ≤ earthRadius ^ 2 * (s * s) := by rw [R0]; norm_num at ss1 ⊢; linarith
  have RR2 : earthRadius ^ 2 * (s * s) ≤ 10 ^ 14 := by rw [R0]; norm_num at ss2 ⊢; linarith
  have hR1 : 10 ^ 7 ≤ 2 * h * earthRadius := by rw [R0]; linarith
  have hR2 : 2 * h * earthRadius ≤ 10 ^ 16 := by rw [R0]; linarith
  have tR : Rel single.unit 1 (earthRadius ^ 2) (r (earthRadius ^ 2)) := rnd_rel hf hr (by norm_num [R0]) (by norm_num [R0])
  have ts := Rel.rnd hf hr (k := 0) (by norm_num) (Rel.refl single.unit (s * s)) (by linarith) (by linarith)
  have tA := Rel.rnd hf hr (by norm_num) (Rel.mul u1 tR ts) (by linarith) (by linarith)
  have th := Rel.rnd hf hr (k := 0) (by norm_num) (Rel.refl single.unit (h * h)) (by linarith) (by linarith)
  have t2 := Rel.rnd hf hr (k := 0) (by norm_num) (Rel.refl single.unit (2 * h)) (by linarith) (by linarith)
  have tB := Rel.rnd hf hr (by norm_num) (Rel.mul u1 t2 (Rel.refl single.unit earthRadius)) (by linarith) (by linarith)
  generalize earthRadius ^ 2 * (s * s) = X at *
  generalize h * h = H at *
  generalize 2 * h * earthRadius = Z at *
  have sum1 := Rel.rnd hf hr (by norm_num) (Rel.add (k := 3) (by linarith) (by linarith) (by linarith) tA
    (Rel.mono up.le u1 (by norm_num) th)) (by linarith) (by linarith)
  exact Rel.rnd hf hr (by norm_num) (Rel.add (k := 4) (by linarith) (by linarith) (by linarith) sum1
    (Rel.mono up.le u1 (by norm_num) tB)) (by linarith) (by linarith)

/-- C149: in single precision the slant range is within 10 m plus a millionth of the altitude, for elevation angles from 10 to 90 degrees and
altitudes from 8 km to 42 000 km. -/
theorem C149_distance (A : Arith) (hr : Nearest single A.rnd) (hp : Nearest double A.py) (hs : AccurateSin A.sin) (el h : ℝ) (e1 : 10 ≤ el)
    (e2 : el ≤ 90) (h1 : 8000 ≤ h) (h2 : h ≤ 42 * 10 ^ 6) :
    |A.distance3d el h - distance3d el h| ≤ 10 + h / 10 ^ 6 := by
  have hf : IEEE single := Or.inl rfl
  have us := unit_single
  have up := unit_pos single
  have u1 := unit_lt_one hf
  obtain ⟨se, s0⟩ := sine_err hr hp hs e1 e2
  have R0 : earthRadius = 6371000 := rfl
  have rR : A.rnd earthRadius = earthRadius := hr.num ⟨6371000, 0, by norm_num [single], by norm_num [single], by norm_num [single], by norm_num [R0]⟩
    (by refine lt_trans ?_ (range_ge hf); norm_num [R0])
  have sone : Real.sin (deg2rad el) ≤ 1 := Real.sin_le_one _
  unfold Arith.distance3d distance3d
  simp only [rR]
  generalize A.sin (A.rnd (A.py (deg2rad el))) = s' at *
  generalize Real.sin (deg2rad el) = s at *
  obtain ⟨sel, seu⟩ := abs_le.1 se
  have s'0 : 0.09 ≤ s' := by norm_num at sel s0 ⊢; linarith
  have s'1 : s' ≤ 1.000001 := by norm_num at seu ⊢; linarith
  have sum2 := radicand_rel hr s'0 s'1 h1 h2
  generalize A.rnd (A.rnd (A.rnd (A.rnd (earthRadius ^ 2) * A.rnd (s' * s')) + A.rnd (h * h)) + A.rnd (A.rnd (2 * h) * earthRadius)) = Q2 at *
  -- the root
  obtain ⟨Q', Q'd⟩ : ∃ q, q = earthRadius ^ 2 * (s' * s') + h * h + 2 * h * earthRadius := ⟨_, rfl⟩
  rw [← Q'd] at sum2
  have Q'1 : h ^ 2 ≤ Q' := by rw [Q'd, R0]; nlinarith
  have Q'2 : Q' ≤ (6371007 + h) ^ 2 := by
    have : s' * s' ≤ 1.000001 * 1.000001 := by nlinarith
    rw [Q'd, R0]; norm_num at this ⊢; nlinarith
  have D1 : h ≤ Real.sqrt Q' := Real.le_sqrt_of_sq_le Q'1
  have D2 : Real.sqrt Q' ≤ 6371007 + h := Real.sqrt_le_iff.2 ⟨by linarith, Q'2⟩
  have root := Rel.rnd hf hr (by norm_num) (Rel.sqrt up.le u1 (by nlinarith) sum2) (by linarith) (by linarith)
  have rootE := root.abs up.le (by rw [us]; norm_num)
  rw [abs_of_nonneg (a := Real.sqrt Q') (Real.sqrt_nonneg _), us] at rootE
  have e3 : |A.rnd (Real.sqrt Q2) - Real.sqrt Q'| ≤ 7 / 16777216 * (6371007 + h) := by
    refine rootE.trans ?_
    push_cast
    linarith
  -- the dependence on the sine
  have q : |earthRadius * s' - earthRadius * s| ≤ 6371000 * (4.3 / 10 ^ 7) := by
    rw [← mul_sub, abs_mul, R0, abs_of_pos (by norm_num)]
    gcongr
  have e4 : |Real.sqrt Q' - Real.sqrt (earthRadius ^ 2 * s ^ 2 + h ^ 2 + 2 * h * earthRadius)| ≤ 6371000 * (4.3 / 10 ^ 7) := by
    have := sqrt_lipschitz (a := earthRadius * s') (b := earthRadius * s) (c := h ^ 2 + 2 * h * earthRadius) (by rw [R0]; linarith) (by rw [R0]; linarith)
      (by rw [R0]; nlinarith)
    rw [show (earthRadius * s') ^ 2 + (h ^ 2 + 2 * h * earthRadius) = Q' by rw [Q'd]; ring,
      show (earthRadius * s) ^ 2 + (h ^ 2 + 2 * h * earthRadius) = earthRadius ^ 2 * s ^ 2 + h ^ 2 + 2 * h * earthRadius by ring] at this
    exact this.trans q
  have e5 : |A.rnd (earthRadius * s') - earthRadius * s| ≤ 6371000 * (4.3 / 10 ^ 7) + 1 := by
    have t := (Rel.rnd hf hr (k := 0) (by norm_num) (Rel.refl single.unit (earthRadius * s')) (by rw [R0]; linarith) (by rw [R0]; linarith)).abs up.le
      (by rw [us]; norm_num)
    rw [abs_of_pos (a := earthRadius * s') (by rw [R0]; linarith), us] at t
    have t' : |A.rnd (earthRadius * s') - earthRadius * s'| ≤ 1 := by
      refine t.trans ?_
      rw [R0]; push_cast; norm_num at s'1 ⊢; linarith
    have := abs_sub_le (A.rnd (earthRadius * s')) (earthRadius * s') (earthRadius * s)
    linarith
  have D3 : Real.sqrt (earthRadius ^ 2 * s ^ 2 + h ^ 2 + 2 * h * earthRadius) ≤ 6371007 + h :=
    Real.sqrt_le_iff.2 ⟨by linarith, by rw [R0]; nlinarith⟩
  have D0 : 0 ≤ Real.sqrt (earthRadius ^ 2 * s ^ 2 + h ^ 2 + 2 * h * earthRadius) := Real.sqrt_nonneg _
  generalize Real.sqrt (earthRadius ^ 2 * s ^ 2 + h ^ 2 + 2 * h * earthRadius) = D at *
  obtain ⟨x, xd⟩ : ∃ x, x = A.rnd (Real.sqrt Q2) - A.rnd (earthRadius * s') := ⟨_, rfl⟩
  rw [← xd]
  have ex : |x - (D - earthRadius * s)| ≤ 7 / 16777216 * (6371007 + h) + (6371000 * (4.3 / 10 ^ 7)) + (6371000 * (4.3 / 10 ^ 7) + 1) := by
    have h3 := abs_le.1 e3
    have h4 := abs_le.1 e4
    have h5 := abs_le.1 e5
    rw [abs_le, xd]
    constructor <;> linarith
  clear e3 e4 e5 q rootE root sum2 xd Q'd Q'1 Q'2 D1 D2 sel seu se s'0 s'1
  have xs : |x| ≤ 6371007 + h + 40 := by
    have h3 := abs_le.1 ex
    rw [R0] at h3
    norm_num at h3 s0 sone ⊢
    rw [abs_le]
    constructor <;> linarith
  have fin := rnd_err hf hr (x := x) (by linarith)
  rw [us] at fin
  have tiny : (2 : ℝ) ^ (-126 : ℤ) ≤ 1 / 10 ^ 3 := by norm_num
  generalize (2 : ℝ) ^ (-126 : ℤ) = η at *
  have := abs_sub_le (A.rnd x) x (D - earthRadius * s)
  norm_num at ex tiny ⊢
  linarith

theorem log_ten_ge : (2.07 : ℝ) ≤ Real.log 10 := by
  have h := Real.log_two_gt_d9
  have : Real.log 8 ≤ Real.log 10 := Real.log_le_log (by norm_num) (by norm_num)
  rw [show (8 : ℝ) = 2 ^ 3 by norm_num, Real.log_pow] at this
  push_cast at this
  linarith

/-- The decadic logarithm changes by at most half of a small relative error. -/
theorem logb_err {x y ε : ℝ} (x0 : 0 < x) (e1 : ε ≤ 1 / 100) (h : |y - x| ≤ ε * x) : |Real.logb 10 y - Real.logb 10 x| ≤ ε / 2 := by
  obtain ⟨a, b⟩ := abs_le.1 h
  have e0 : 0 ≤ ε := by
    have := (abs_nonneg _).trans h
    by_contra c
    nlinarith
  have y0 : 0 < y := by nlinarith
  have l := log_ten_ge
  rw [← Real.logb_div y0.ne' x0.ne', Real.logb, abs_div, abs_of_pos (a := Real.log 10) (by linarith), div_le_iff₀ (by linarith)]
  have z1 : y / x ≤ 1 + ε := by rw [div_le_iff₀ x0]; linarith
  have z2 : 1 - ε ≤ y / x := by rw [le_div_iff₀ x0]; linarith
  have z0 : 0 < y / x := by positivity
  have u := Real.log_le_sub_one_of_pos z0
  have v := Real.one_sub_inv_le_log_of_pos z0
  have w : (y / x)⁻¹ ≤ 1 + 1.02 * ε := by
    rw [inv_le_comm₀ z0 (by linarith)]
    refine le_trans ?_ z2
    rw [inv_le_iff_one_le_mul₀ (by linarith)]
    nlinarith
  rw [abs_le]
  constructor <;> nlinarith

theorem logb_bounds {x a b : ℝ} {m n : ℤ} (ha : (10 : ℝ) ^ m = a) (hb : (10 : ℝ) ^ n = b) (h1 : a ≤ x) (h2 : x ≤ b) : m ≤ Real.logb 10 x ∧ Real.logb 10 x ≤ n := by
  have a0 : 0 < a := by rw [← ha]; positivity
  have x0 : 0 < x := by linarith
  constructor
  · rw [Real.le_logb_iff_rpow_le (by norm_num) x0, Real.rpow_intCast, ha]; exact h1
  · rw [Real.logb_le_iff_le_rpow (by norm_num) x0, Real.rpow_intCast, hb]; exact h2

/-- Twenty times the logarithm in single precision. -/
theorem decibel_err {A : Arith} (hr : Nearest single A.rnd) (hl : AccurateLog A.log10) {x y ε : ℝ} (x0 : 0 < x) (e1 : ε ≤ 1 / 100)
    (h : |y - x| ≤ ε * x) (b : |Real.logb 10 x| ≤ 9) : |A.rnd (20 * A.log10 y) - 20 * Real.logb 10 x| ≤ 10 * ε + 1 / 5000 := by
  have d := logb_err x0 e1 h
  obtain ⟨a1, a2⟩ := abs_le.1 h
  have y0 : 0 < y := by nlinarith
  have e2 := hl y y0
  have lb : |Real.logb 10 y| ≤ 10 := by
    have := abs_le.1 d
    rw [abs_le] at b ⊢
    constructor <;> linarith [b.1, b.2]
  have e3 : |A.log10 y - Real.logb 10 y| ≤ 5 / 10 ^ 6 := by
    refine e2.trans ?_
    calc (2 : ℝ) ^ (-21 : ℤ) * |Real.logb 10 y| ≤ (2 : ℝ) ^ (-21 : ℤ) * 10 := by gcongr
      _ ≤ _ := by norm_num
  have c := abs_le.1 e3
  have l := abs_le.1 lb
  have s : |20 * A.log10 y| ≤ 201 := by
    rw [abs_le]
    norm_num at c
    constructor <;> linarith [c.1, c.2]
  have r := rnd_err (Or.inl rfl) hr (x := 20 * A.log10 y) (s.trans (by norm_num))
  rw [unit_single] at r
  have tiny : (2 : ℝ) ^ (-126 : ℤ) ≤ 1 / 10 ^ 6 := by norm_num
  generalize (2 : ℝ) ^ (-126 : ℤ) = η at *
  have r' := abs_le.1 r
  have d' := abs_le.1 d
  norm_num at c tiny
  rw [abs_le]
  constructor <;> norm_num <;> linarith [r'.1, r'.2, d'.1, d'.2, c.1, c.2]

/-- The slant range lies between the altitude and the altitude plus the radius of the Earth. -/
theorem distance3d_bounds {el h : ℝ} (e1 : 10 ≤ el) (e2 : el ≤ 90) (h1 : 0 ≤ h) : h ≤ distance3d el h ∧ distance3d el h ≤ earthRadius + h := by
  have R0 : earthRadius = 6371000 := rfl
  have eld : deg2rad el = el * Real.pi / 180 := by unfold deg2rad; ring
  have s0 : 0 ≤ Real.sin (deg2rad el) := Real.sin_nonneg_of_nonneg_of_le_pi (by rw [eld]; nlinarith [Real.pi_pos]) (by rw [eld]; nlinarith [Real.pi_pos])
  have s1 := Real.sin_le_one (deg2rad el)
  unfold distance3d
  simp only
  generalize Real.sin (deg2rad el) = s at *
  rw [R0]
  constructor
  · rw [le_sub_iff_add_le]
    apply Real.le_sqrt_of_sq_le
    nlinarith [mul_nonneg h1 (sub_nonneg.2 s1)]
  · have : Real.sqrt (6371000 ^ 2 * s ^ 2 + h ^ 2 + 2 * h * 6371000) ≤ 6371000 + h := Real.sqrt_le_iff.2 ⟨by linarith, by nlinarith⟩
    nlinarith

/-- C149: in single precision the free space path loss over the slant range is within 0.02 dB. -/
theorem C149_loss (A : Arith) (hr : Nearest single A.rnd) (hp : Nearest double A.py) (hs : AccurateSin A.sin) (hl : AccurateLog A.log10)
    (fc el h : ℝ) (f1 : 10 ^ 8 ≤ fc) (f2 : fc ≤ 10 ^ 11) (e1 : 10 ≤ el) (e2 : el ≤ 90) (h1 : 8000 ≤ h) (h2 : h ≤ 42 * 10 ^ 6) :
    |A.freeSpaceLoss fc (A.distance3d el h) - freeSpaceLoss fc (distance3d el h)| ≤ 0.02 := by
  have hf : IEEE single := Or.inl rfl
  have up := unit_pos single
  have u1 := unit_lt_one hf
  have us := unit_single
  have fp : 0 < fc := lt_of_lt_of_le (by norm_num) f1
  have de := C149_distance A hr hp hs el h e1 e2 h1 h2
  obtain ⟨d1, d2⟩ := distance3d_bounds e1 e2 (show 0 ≤ h by linarith)
  rw [show earthRadius = 6371000 from rfl] at d2
  have dl : |Real.logb 10 (distance3d el h)| ≤ 9 := by
    obtain ⟨a, b⟩ := logb_bounds (m := 0) (n := 9) (x := distance3d el h) (by norm_num) rfl (by linarith : (1 : ℝ) ≤ _) (by norm_num; linarith)
    push_cast at a b
    rw [abs_le]; constructor <;> linarith
  have de' : |A.distance3d el h - distance3d el h| ≤ 0.00126 * distance3d el h := by
    refine de.trans ?_
    norm_num; linarith
  have dB2 := decibel_err hr hl (by linarith) (by norm_num) de' dl
  -- the carrier frequency in GHz
  have g1 : 0.1 ≤ fc / 10 ^ 9 := by rw [le_div_iff₀ (by norm_num)]; norm_num at f1 ⊢; linarith
  have g2 : fc / 10 ^ 9 ≤ 100 := by rw [div_le_iff₀ (by norm_num)]; norm_num at f2 ⊢; linarith
  have gr := Rel.rnd hf hr (by norm_num) (Rel.div u1
    (rnd_rel hf hr (x := fc) (by rw [abs_of_pos fp]; linarith) (by rw [abs_of_pos fp]; linarith))
    (rnd_rel hf hr (x := 10 ^ 9) (by norm_num) (by norm_num))) (by linarith) (by linarith)
  have ge := gr.abs up.le (by rw [us]; norm_num)
  rw [abs_of_pos (a := fc / 10 ^ 9) (by linarith), us] at ge
  have ge' : |A.rnd (A.rnd fc / A.rnd (10 ^ 9)) - fc / 10 ^ 9| ≤ 1 / 10 ^ 5 * (fc / 10 ^ 9) := by
    refine ge.trans ?_
    gcongr
    norm_num
  have gl : |Real.logb 10 (fc / 10 ^ 9)| ≤ 2 := by
    obtain ⟨a, b⟩ := logb_bounds (m := -1) (n := 2) (x := fc / 10 ^ 9) (a := 0.1) (b := 100) (by norm_num) (by norm_num) g1 g2
    push_cast at a b
    rw [abs_le]; constructor <;> linarith
  have dB1 := decibel_err hr hl (by linarith) (by norm_num) ge' (gl.trans (by norm_num))
  -- the sums
  have fold : freeSpaceLoss fc (distance3d el h) = 32.45 + 20 * Real.logb 10 (fc / 10 ^ 9) + 20 * Real.logb 10 (distance3d el h) := rfl
  rw [fold]
  unfold Arith.freeSpaceLoss
  simp only
  generalize A.rnd (20 * A.log10 (A.rnd (A.rnd fc / A.rnd (10 ^ 9)))) = P1 at *
  generalize A.rnd (20 * A.log10 (A.distance3d el h)) = P2 at *
  generalize Real.logb 10 (fc / 10 ^ 9) = G at *
  generalize Real.logb 10 (distance3d el h) = D at *
  clear de de' ge ge' gr fold hs hl
  have c0 := rnd_err hf hr (x := 32.45) (by norm_num)
  rw [us, abs_of_pos (a := (32.45 : ℝ)) (by norm_num)] at c0
  have tiny : (2 : ℝ) ^ (-126 : ℤ) ≤ 1 / 10 ^ 6 := by norm_num
  have c0' : |A.rnd 32.45 - 32.45| ≤ 1 / 10 ^ 5 := by
    refine c0.trans ?_
    calc 1 / 16777216 * (32.45 : ℝ) + (2 : ℝ) ^ (-126 : ℤ) ≤ 1 / 16777216 * 32.45 + 1 / 10 ^ 6 := by gcongr
      _ ≤ _ := by norm_num
  generalize A.rnd 32.45 = C at *
  have b0 := abs_le.1 c0'
  have b1 := abs_le.1 dB1
  have b2 := abs_le.1 dB2
  have bg := abs_le.1 gl
  have bd := abs_le.1 dl
  norm_num at b0 b1 b2
  have s1 : |C + P1| ≤ 100 := by
    rw [abs_le]; constructor <;> linarith [b0.1, b0.2, b1.1, b1.2]
  have r1 := rnd_err hf hr (x := C + P1) (s1.trans (by norm_num))
  have r1' : |A.rnd (C + P1) - (C + P1)| ≤ 1 / 10 ^ 4 := by
    refine r1.trans ?_
    rw [us]
    calc 1 / 16777216 * |C + P1| + (2 : ℝ) ^ (-126 : ℤ) ≤ 1 / 16777216 * 100 + 1 / 10 ^ 6 := by gcongr
      _ ≤ _ := by norm_num
  have b3 := abs_le.1 r1'
  norm_num at b3
  have s2 : |A.rnd (C + P1) + P2| ≤ 400 := by
    rw [abs_le]; constructor <;> linarith [b0.1, b0.2, b1.1, b1.2, b2.1, b2.2, b3.1, b3.2]
  have r2 := rnd_err hf hr (x := A.rnd (C + P1) + P2) (s2.trans (by norm_num))
  have r2' : |A.rnd (A.rnd (C + P1) + P2) - (A.rnd (C + P1) + P2)| ≤ 1 / 10 ^ 4 := by
    refine r2.trans ?_
    rw [us]
    calc 1 / 16777216 * |A.rnd (C + P1) + P2| + (2 : ℝ) ^ (-126 : ℤ) ≤ 1 / 16777216 * 400 + 1 / 10 ^ 6 := by gcongr
      _ ≤ _ := by norm_num
  have b4 := abs_le.1 r2'
  norm_num at b4
  rw [abs_le]
  norm_num
  constructor <;> linarith [b0.1, b0.2, b1.1, b1.2, b2.1, b2.2, b3.1, b3.2, b4.1, b4.2]

/-- C149: with exact arithmetic the expressions are those of the model. -/
theorem C149_model (el h fc d : ℝ) : Arith.exact.distance3d el h = distance3d el h ∧ Arith.exact.freeSpaceLoss fc d = freeSpaceLoss fc d := by
  constructor
  · simp only [Arith.distance3d, Arith.exact, distance3d, id, pow_two]
  · simp only [Arith.freeSpaceLoss, Arith.exact, freeSpaceLoss, id]

/-- The hypotheses of C149 are satisfiable. -/
example : ∃ A : Arith, Nearest single A.rnd ∧ Nearest double A.py ∧ AccurateSin A.sin ∧ AccurateLog A.log10 := by
  obtain ⟨r, hr⟩ := exists_nearest single (by norm_num [single])
  obtain ⟨p, hp⟩ := exists_nearest double (by norm_num [double])
  refine ⟨⟨r, p, Real.sin, Real.logb 10⟩, hr, hp, fun x _ _ => ?_, fun x _ => ?_⟩
  · rw [sub_self, abs_zero]; positivity
  · rw [sub_self, abs_zero]; positivity

end OpenNTN
