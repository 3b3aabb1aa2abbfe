import Verif.Model.RoundingDrop
import Verif.Spec.RoundingDrop
import Verif.Props.RoundingLoss

/-
C200: single precision does not break the drop of the UTs.
-/
namespace OpenNTN

open Spec

/-- Rounding to nearest is monotone. -/
theorem Spec.Nearest.mono {f : Format} {rnd : ℝ → ℝ} (h : Nearest f rnd) {x y : ℝ} (hx : |x| < f.range) (hy : |y| < f.range) (le : x ≤ y) :
    rnd x ≤ rnd y := by
  rcases eq_or_lt_of_le le with rfl | lt
  · exact le_rfl
  by_contra c
  push Not at c
  have a := (h x hx).2 _ (h y hy).1
  have b := (h y hy).2 _ (h x hx).1
  rcases abs_le.1 a with ⟨a1, a2⟩
  rcases abs_cases (rnd y - x) with ⟨p, _⟩ | ⟨p, _⟩ <;> rcases abs_cases (rnd x - x) with ⟨q, _⟩ | ⟨q, _⟩ <;>
    rcases abs_cases (rnd y - y) with ⟨r, _⟩ | ⟨r, _⟩ <;> rcases abs_cases (rnd x - y) with ⟨s, _⟩ | ⟨s, _⟩ <;>
    rw [p, q] at a <;> rw [r, s] at b <;> linarith

/-- The rounding of single precision, for numbers of moderate size. -/
theorem mono_single {r : ℝ → ℝ} (hr : Nearest single r) {x y : ℝ} (hx : |x| ≤ 10 ^ 30) (hy : |y| ≤ 10 ^ 30) (le : x ≤ y) : r x ≤ r y :=
  hr.mono (hx.trans_lt (lt_trans (by norm_num) (range_ge (Or.inl rfl)))) (hy.trans_lt (lt_trans (by norm_num) (range_ge (Or.inl rfl)))) le

theorem nonneg_single {r : ℝ → ℝ} (hr : Nearest single r) {x : ℝ} (hx : x ≤ 10 ^ 30) (x0 : 0 ≤ x) : 0 ≤ r x := by
  have := mono_single hr (x := 0) (y := x) (by norm_num) (by rwa [abs_of_nonneg x0]) x0
  rwa [hr.zero (by norm_num [single])] at this

/-- A rounded number is kept by another rounding. -/
theorem idem_single {r : ℝ → ℝ} (hr : Nearest single r) {x : ℝ} (hx : |x| ≤ 10 ^ 29) : r (r x) = r x := by
  have hf : IEEE single := Or.inl rfl
  have lt : |x| < single.range := hx.trans_lt (lt_trans (by norm_num) (range_ge hf))
  refine hr.num (hr x lt).1 ?_
  have e := rnd_err hf hr (x := x) (hx.trans (by norm_num))
  have : |r x| ≤ |r x - x| + |x| := by have := abs_add_le (r x - x) x; rwa [sub_add_cancel] at this
  rw [unit_single] at e
  refine lt_of_le_of_lt (b := (10 : ℝ) ^ 30) ?_ (lt_trans (by norm_num) (range_ge hf))
  have t : (2 : ℝ) ^ (-126 : ℤ) ≤ 1 := by norm_num
  norm_num at hx ⊢
  linarith

/-- The difference of two single precision numbers of size at least `2²⁵` is zero or at least one. -/
theorem diff_single {x y : ℝ} (hx : single.Num x) (hy : single.Num y) (x1 : 2 ^ 25 ≤ x) (y1 : 2 ^ 25 ≤ y) (le : y ≤ x) : x - y = 0 ∨ 1 ≤ x - y := by
  have key : ∀ z, single.Num z → 2 ^ 25 ≤ z → ∃ n : ℤ, z = n := by
    rintro z ⟨m, e, hm, _, _, rfl⟩ hz
    have m1 : |(m : ℝ)| < 2 ^ 24 := by
      have : |m| < 2 ^ 24 := by simpa [single] using hm
      exact_mod_cast this
    have pe : (0 : ℝ) < 2 ^ e := by positivity
    have e0 : 0 ≤ e := by
      by_contra c
      have : (2 : ℝ) ^ e ≤ 1 := zpow_le_one_of_nonpos₀ (by norm_num) (by omega)
      have := abs_lt.1 m1
      nlinarith
    obtain ⟨n, rfl⟩ := Int.eq_ofNat_of_zero_le e0
    exact ⟨m * 2 ^ n, by push_cast; simp⟩
  obtain ⟨a, rfl⟩ := key x hx x1
  obtain ⟨b, rfl⟩ := key y hy y1
  have : b ≤ a := by exact_mod_cast le
  rcases eq_or_lt_of_le this with rfl | lt
  · left; simp
  · right
    have : b + 1 ≤ a := lt
    have : (b : ℝ) + 1 ≤ a := by exact_mod_cast this
    linarith

/-- With exact arithmetic the expressions are those of the model of topologies. -/
theorem C200_model (h el u : ℝ) : Arith.exact.dropCentre h el u = dropCentre h el u := by
  have e : Real.pi / 180 * el = deg2rad el := by unfold deg2rad; ring
  simp only [Arith.dropCentre, Arith.exact, Arith.sqrt, Arith.deg2rad, Arith.uniformIn, OpenNTN.dropCentre, sqrtX, OpenNTN.uniformIn, id, pow_two,
    mul_comm el, e]

/-- The sine of the elevation angle, with the conversion to radians in single precision. -/
theorem drop_sine {A : Arith} (hr : Nearest single A.rnd) (hp : Nearest double A.py) (hs : AccurateSin A.sin) (ho : SinAtMostOne A.sin) {el : ℝ}
    (e1 : 10 ≤ el) (e2 : el ≤ 90) :
    |A.sin (A.deg2rad el) - Real.sin (deg2rad el)| ≤ 7 / 10 ^ 7 ∧ A.sin (A.deg2rad el) ≤ 1 ∧ 0.173 ≤ Real.sin (deg2rad el) := by
  have hf : IEEE single := Or.inl rfl
  have us := unit_single
  have up := unit_pos single
  have u1 := unit_lt_one hf
  have p3 := Real.pi_gt_d6
  have p4 := Real.pi_lt_d6
  have eld : deg2rad el = el * (Real.pi / 180) := by unfold deg2rad; ring
  have a1 : 0.17 ≤ deg2rad el := by rw [eld]; nlinarith
  have a2 : deg2rad el ≤ 1.5708 := by rw [eld]; nlinarith
  have a3 : deg2rad el ≤ Real.pi / 2 := by rw [eld]; nlinarith
  have rel : Rel single.unit 5 (deg2rad el) (A.deg2rad el) := by
    have pyr : ∀ x : ℝ, 1 / 10 ^ 20 ≤ x → x ≤ 10 ^ 20 → Rel single.unit 1 x (A.py x) := by
      intro x lo hi
      have x0 : 0 < x := lt_of_lt_of_le (by norm_num) lo
      refine Rel.of_err up.le u1 ((hp.rel (by norm_num [double]) ?_ ?_).trans ?_)
      · rw [abs_of_pos x0]; exact (tiny_le (Or.inr rfl)).trans (le_trans (by norm_num) lo)
      · rw [abs_of_pos x0]; exact hi.trans_lt (lt_trans (by norm_num) (range_ge (Or.inr rfl)))
      · exact mul_le_mul_of_nonneg_right (unit_double_le hf) (abs_nonneg _)
    have q1 := pyr Real.pi (by linarith) (by linarith)
    have q1b := q1.bounds hf (by norm_num) Real.pi_pos
    have q2 := Rel.div u1 q1 (Rel.refl single.unit (180 : ℝ))
    have q3 := conv_rel hf hr hp (x := A.py Real.pi / 180) (by linarith) (by linarith)
    have q4 := Rel.trans u1 q2 q3
    have q5 := rnd_rel hf hr (x := el) (by rw [abs_of_pos (by linarith)]; linarith) (by rw [abs_of_pos (by linarith)]; linarith)
    have q6 := Rel.mul u1 q5 q4
    rw [← eld] at q6
    exact Rel.rnd hf hr (by norm_num) q6 (le_trans (by norm_num) a1) (a2.trans (by norm_num))
  have ae := rel.abs up.le (by rw [us]; norm_num)
  rw [abs_of_pos (a := deg2rad el) (by linarith), us] at ae
  have ae' : |A.deg2rad el - deg2rad el| ≤ 5.7 / 10 ^ 7 := by
    refine ae.trans ?_
    norm_num at a2 ⊢; linarith
  obtain ⟨ael, aeu⟩ := abs_le.1 ae'
  have b1 : 0 ≤ A.deg2rad el := by norm_num at ael ⊢; linarith
  have b2 : A.deg2rad el ≤ 1.6 := by norm_num at aeu ⊢; linarith
  have s1 := hs _ b1 b2
  refine ⟨?_, ho _ b1 b2, ?_⟩
  · have lip := Real.abs_sin_sub_sin_le (A.deg2rad el) (deg2rad el)
    have := abs_sub_le (A.sin (A.deg2rad el)) (Real.sin (A.deg2rad el)) (Real.sin (deg2rad el))
    norm_num at s1 ae' ⊢
    linarith
  · have m : Real.sin 0.1745 ≤ Real.sin (deg2rad el) := by
      refine Real.sin_le_sin_of_le_of_le_pi_div_two (by linarith) a3 ?_
      rw [eld]; nlinarith
    have := Real.sin_gt_sub_cube (x := 0.1745) (by norm_num)
    norm_num at this m ⊢
    linarith

/-- The slant range in single precision: not below the height, and accurate. -/
theorem drop_slant {r : ℝ → ℝ} (hr : Nearest single r) {h s s' : ℝ} (h1 : 8000 ≤ h) (h2 : h ≤ 42 * 10 ^ 6) (s1 : 0.173 ≤ s) (s2 : s ≤ 1)
    (se : |s' - s| ≤ 7 / 10 ^ 7) (so : s' ≤ 1) :
    r h ≤ r (r h / s') ∧ |r h - h| ≤ h / 10 ^ 7 ∧ |r (r h / s') - h / s| ≤ 4.5 / 10 ^ 6 * (h / s) := by
  have hf : IEEE single := Or.inl rfl
  have us := unit_single
  have t : (2 : ℝ) ^ (-126 : ℤ) ≤ 1 / 10 ^ 20 := by norm_num
  have sp : 0 < s := by linarith
  obtain ⟨se1, se2⟩ := abs_le.1 se
  have s'1 : 0.17 ≤ s' := by norm_num at se1 s1 ⊢; linarith
  have s'p : 0 < s' := by linarith
  have eh := rnd_err hf hr (x := h) (by rw [abs_of_pos (by linarith)]; linarith)
  rw [abs_of_pos (a := h) (by linarith), us] at eh
  have eh' : |r h - h| ≤ h / 10 ^ 7 := by
    refine eh.trans ?_
    norm_num at t ⊢; linarith
  obtain ⟨eh1, eh2⟩ := abs_le.1 eh'
  have hp : 0 < r h := by norm_num at eh1; linarith
  have hle : r h ≤ r h / s' := by rw [le_div_iff₀ s'p]; nlinarith
  have q2 : r h / s' ≤ 10 ^ 10 := by rw [div_le_iff₀ s'p]; norm_num at eh2 ⊢; nlinarith
  have q0 : 0 < r h / s' := by positivity
  refine ⟨?_, eh', ?_⟩
  · have := mono_single hr (x := r h) (y := r h / s') (by rw [abs_of_pos hp]; linarith) (by rw [abs_of_pos q0]; linarith) hle
    rwa [idem_single hr (by rw [abs_of_pos (by linarith)]; linarith)] at this
  · have ea := rnd_err hf hr (x := r h / s') (by rw [abs_of_pos q0]; linarith)
    rw [abs_of_pos q0, us] at ea
    -- the quotient
    have eq : |r h / s' - h / s| ≤ 4.3 / 10 ^ 6 * (h / s) := by
      have id : r h / s' - h / s = ((r h - h) * s - h * (s' - s)) / (s' * s) := by field_simp; ring
      have num : |(r h - h) * s - h * (s' - s)| ≤ 4.3 / 10 ^ 6 * (h * s') := by
        have a := abs_sub ((r h - h) * s) (h * (s' - s))
        rw [abs_mul, abs_mul, abs_of_pos sp, abs_of_pos (a := h) (by linarith)] at a
        have b : |r h - h| * s ≤ h / 10 ^ 7 * s := by gcongr
        have c : h * |s' - s| ≤ h * (7 / 10 ^ 7) := by gcongr
        have d : h * s ≤ h * (s' + 7 / 10 ^ 7) := mul_le_mul_of_nonneg_left (by linarith) (by linarith)
        have e : h * 0.1729 ≤ h * s' := mul_le_mul_of_nonneg_left (by norm_num at se1 s1 ⊢; linarith) (by linarith)
        norm_num at a b c d e ⊢
        linarith
      rw [id, abs_div, abs_of_pos (by positivity : 0 < s' * s), div_le_iff₀ (by positivity)]
      refine num.trans (le_of_eq ?_)
      field_simp
    obtain ⟨eq1, eq2⟩ := abs_le.1 eq
    have big : 8000 ≤ h / s := by rw [le_div_iff₀ sp]; nlinarith
    have := abs_sub_le (r (r h / s')) (r h / s') (h / s)
    norm_num at ea eq eq2 t big ⊢
    linarith

/-- The first radicand in single precision. -/
theorem drop_radicand {r : ℝ → ℝ} (hr : Nearest single r) {a h : ℝ} (h1 : 7999 ≤ h) (ha : h ≤ a) (a2 : a ≤ 10 ^ 10) :
    0 ≤ r (r (a * a) - r (h * h)) ∧ (r (r (a * a) - r (h * h)) = 0 ∨ 1 ≤ r (r (a * a) - r (h * h))) ∧
      r (r (r (a * a) - r (h * h))) = r (r (a * a) - r (h * h)) ∧ |r (r (a * a) - r (h * h)) - (a ^ 2 - h ^ 2)| ≤ 2 / 10 ^ 7 * a ^ 2 := by
  have hf : IEEE single := Or.inl rfl
  have us := unit_single
  have t : (2 : ℝ) ^ (-126 : ℤ) ≤ 1 / 10 ^ 20 := by norm_num
  have hh : 7999 * 7999 ≤ h * h := by nlinarith
  have aa : h * h ≤ a * a := by nlinarith
  have aa2 : a * a ≤ 10 ^ 20 := by nlinarith
  have lt : ∀ x : ℝ, 0 ≤ x → x ≤ 10 ^ 25 → |x| < single.range := fun x x0 hx => by
    rw [abs_of_nonneg x0]; exact hx.trans_lt (lt_trans (by norm_num) (range_ge hf))
  have m := mono_single hr (x := h * h) (y := a * a) (by rw [abs_of_nonneg (by linarith)]; linarith) (by rw [abs_of_nonneg (by linarith)]; linarith) aa
  have ea := rnd_err hf hr (x := a * a) (by rw [abs_of_nonneg (by linarith)]; linarith)
  have eh := rnd_err hf hr (x := h * h) (by rw [abs_of_nonneg (by linarith)]; linarith)
  rw [abs_of_nonneg (a := a * a) (by linarith), us] at ea
  rw [abs_of_nonneg (a := h * h) (by linarith), us] at eh
  obtain ⟨ea1, ea2⟩ := abs_le.1 ea
  obtain ⟨eh1, eh2⟩ := abs_le.1 eh
  have na := (hr (a * a) (lt _ (by linarith) (by linarith))).1
  have nh := (hr (h * h) (lt _ (by linarith) (by linarith))).1
  have hb : 2 ^ 25 ≤ r (h * h) := by norm_num at t ⊢; linarith
  have d := diff_single na nh (hb.trans m) hb m
  have d0 : 0 ≤ r (a * a) - r (h * h) := by linarith
  have d2 : r (a * a) - r (h * h) ≤ 10 ^ 25 := by norm_num at t aa2 ⊢; linarith
  have one : r 1 = 1 := hr.num ⟨1, 0, by norm_num [single], by norm_num [single], by norm_num [single], by norm_num⟩ (lt 1 (by norm_num) (by norm_num))
  refine ⟨nonneg_single hr (by linarith) d0, ?_, idem_single hr (by rw [abs_of_nonneg d0]; linarith), ?_⟩
  · rcases d with d | d
    · left; rw [d]; exact hr.zero (by norm_num [single])
    · right
      have := mono_single hr (x := 1) (y := r (a * a) - r (h * h)) (by norm_num) (by rw [abs_of_nonneg d0]; linarith) d
      rwa [one] at this
  · have ed := rnd_err hf hr (x := r (a * a) - r (h * h)) (by rw [abs_of_nonneg d0]; linarith)
    rw [abs_of_nonneg d0, us] at ed
    rw [pow_two, pow_two]
    obtain ⟨ed1, ed2⟩ := abs_le.1 ed
    rw [abs_le]
    norm_num at t ⊢
    constructor <;> linarith

/-- The point drawn on the circle, in single precision: the second root exists, and the point is at the distance of the radicand. -/
theorem drop_point {r : ℝ → ℝ} (hr : Nearest single r) {S u : ℝ} (S0 : S = 0 ∨ 1 ≤ S) (S2 : S ≤ 10 ^ 21) (Sr : r S = S) (hu : UnitDraw u) :
    let x := r (r (u * r (r (Real.sqrt S) - 0)) + 0)
    0 ≤ x ∧ 0 ≤ r (S - r (x * x)) ∧ 0 ≤ r (Real.sqrt (r (S - r (x * x)))) ∧
      |x ^ 2 + r (Real.sqrt (r (S - r (x * x)))) ^ 2 - S| ≤ 6 / 10 ^ 7 * S := by
  have hf : IEEE single := Or.inl rfl
  have us := unit_single
  have z : r 0 = 0 := hr.zero (by norm_num [single])
  obtain ⟨k, hk, rfl⟩ := hu
  intro x
  rcases S0 with rfl | S1
  · have x0 : x = 0 := by simp [x, z]
    rw [x0]; simp [z]
  have Sp : 0 < S := by linarith
  have q1 : 1 ≤ Real.sqrt S := by rw [Real.one_le_sqrt]; exact S1
  have q2 : Real.sqrt S ≤ 10 ^ 11 := by
    rw [Real.sqrt_le_left (by norm_num)]
    linarith
  have qq := Real.mul_self_sqrt Sp.le
  set q := Real.sqrt S with qd
  have rel : ∀ w : ℝ, 1 / 10 ^ 30 ≤ w → w ≤ 10 ^ 30 → |r w - w| ≤ 1 / 16777216 * w := fun w lo hi => by
    have w0 : 0 < w := lt_of_lt_of_le (by norm_num) lo
    have := hr.rel (f := single) (by norm_num [single]) (x := w) (by
      rw [abs_of_pos w0]; exact (tiny_le hf).trans (le_trans (by norm_num) lo)) (by
      rw [abs_of_pos w0]; exact hi.trans_lt (lt_trans (by norm_num) (range_ge hf)))
    have us' : (2 : ℝ) ^ (-(single.digits : ℤ)) = 1 / 16777216 := us
    rwa [us', abs_of_pos w0] at this
  have dE := abs_le.1 (rel q (by linarith) (by linarith))
  have d1 : 1 / 2 ≤ r q := by linarith
  have dr : r (r q - 0) = r q := by rw [sub_zero]; exact idem_single hr (by rw [abs_of_pos (by linarith)]; linarith)
  have k2 : (k : ℝ) / 2 ^ 23 ≤ 1 - 2 / 16777216 := by
    rw [div_le_iff₀ (by norm_num)]
    have : k + 1 ≤ 2 ^ 23 := hk
    have : (k : ℝ) + 1 ≤ 2 ^ 23 := by exact_mod_cast this
    norm_num at this ⊢
    linarith
  have k1 : 0 ≤ (k : ℝ) / 2 ^ 23 := by positivity
  have xr : x = r (k / 2 ^ 23 * r q) := by
    show r (r (k / 2 ^ 23 * r (r q - 0)) + 0) = _
    rw [dr, add_zero]
    refine idem_single hr ?_
    rw [abs_of_nonneg (by positivity)]
    refine le_trans (mul_le_mul_of_nonneg_right (k2.trans (by norm_num : _ ≤ (1 : ℝ))) (by linarith)) ?_
    linarith
  clear_value x
  have x0 : 0 ≤ x := by
    rw [xr]; refine nonneg_single hr ?_ (by positivity)
    refine le_trans (mul_le_mul_of_nonneg_right (k2.trans (by norm_num : _ ≤ (1 : ℝ))) (by linarith)) ?_
    linarith
  have xq : x ≤ q := by
    rcases Nat.eq_zero_or_pos k with rfl | kp
    · rw [xr]; simp only [Nat.cast_zero, zero_div, zero_mul, z]; linarith
    · have k3 : 1 / 2 ^ 23 ≤ (k : ℝ) / 2 ^ 23 := by
        gcongr; exact_mod_cast kp
      have lo : 1 / 2 ^ 24 ≤ (k : ℝ) / 2 ^ 23 * r q := by
        have := mul_le_mul k3 d1 (by norm_num) k1
        refine le_trans (by norm_num) this
      have hi : (k : ℝ) / 2 ^ 23 * r q ≤ (1 - 2 / 16777216) * ((1 + 1 / 16777216) * q) :=
        mul_le_mul k2 (by linarith) (by linarith) (by norm_num)
      have e := abs_le.1 (rel _ (le_trans (by norm_num) lo) (hi.trans (by linarith)))
      rw [← xr] at e
      have : x ≤ (1 + 1 / 16777216) * ((1 - 2 / 16777216) * ((1 + 1 / 16777216) * q)) := by
        have := mul_le_mul_of_nonneg_left hi (by norm_num : (0 : ℝ) ≤ 1 + 1 / 16777216)
        linarith
      refine this.trans ?_
      norm_num
      linarith
  have xx : x * x ≤ S := by rw [← qq]; exact mul_le_mul xq xq x0 (by linarith)
  have xx0 : 0 ≤ x * x := by positivity
  have m := mono_single hr (x := x * x) (y := S) (by rw [abs_of_nonneg xx0]; linarith) (by rw [abs_of_pos Sp]; linarith) xx
  rw [Sr] at m
  have p0 := nonneg_single hr (x := x * x) (by linarith) xx0
  have d0 : 0 ≤ S - r (x * x) := by linarith
  have w0 := nonneg_single hr (x := S - r (x * x)) (by linarith) d0
  have ex := rnd_err hf hr (x := x * x) (by rw [abs_of_nonneg xx0]; linarith)
  rw [abs_of_nonneg xx0, us] at ex
  have ed := rnd_err hf hr (x := S - r (x * x)) (by rw [abs_of_nonneg d0]; linarith)
  rw [abs_of_nonneg d0, us] at ed
  have t : (2 : ℝ) ^ (-126 : ℤ) ≤ 1 / 10 ^ 30 := by norm_num
  have t0 : (0 : ℝ) ≤ (2 : ℝ) ^ (-126 : ℤ) := by positivity
  generalize (2 : ℝ) ^ (-126 : ℤ) = τ at *
  obtain ⟨ex1, ex2⟩ := abs_le.1 ex
  obtain ⟨ed1, ed2⟩ := abs_le.1 ed
  generalize r (x * x) = p at *
  generalize r (S - p) = w at *
  have w2 : w ≤ 10 ^ 22 := by norm_num at t S2 ⊢; linarith
  have v0 := Real.sqrt_nonneg w
  have vv := Real.mul_self_sqrt w0
  have v2 : Real.sqrt w ≤ 10 ^ 11 := by
    rw [Real.sqrt_le_left (by norm_num)]; linarith
  have ev := rnd_err hf hr (x := Real.sqrt w) (by rw [abs_of_nonneg v0]; linarith)
  rw [abs_of_nonneg v0, us] at ev
  have y0 := nonneg_single hr (x := Real.sqrt w) (by linarith) v0
  refine ⟨x0, w0, y0, ?_⟩
  have t' : (2 : ℝ) ^ (-126 : ℤ) ≤ 1 / 10 ^ 30 := by norm_num
  have ev' : |r (Real.sqrt w) - Real.sqrt w| ≤ 1 / 16777216 * Real.sqrt w + 1 / 10 ^ 30 := ev.trans (by linarith)
  clear ev t'
  generalize Real.sqrt w = v at *
  generalize r v = y at *
  obtain ⟨ev1, ev2⟩ := abs_le.1 ev'
  have sq : |y ^ 2 - w| ≤ 2.1 / 16777216 * w + 1 / 10 ^ 10 := by
    have id : y ^ 2 - w = (y - v) * (y + v) := by rw [← vv]; ring
    rw [id, abs_mul, abs_of_nonneg (by linarith : 0 ≤ y + v)]
    have h : y + v ≤ 2.01 * v + 1 / 10 ^ 30 := by norm_num at ev2 ⊢; linarith
    refine (mul_le_mul ev' h (by linarith) (by positivity)).trans ?_
    have : (1 / 16777216 * v + 1 / 10 ^ 30) * (2.01 * v + 1 / 10 ^ 30) =
        2.01 / 16777216 * (v * v) + (1 / 16777216 + 2.01) / 10 ^ 30 * v + 1 / 10 ^ 60 := by ring
    rw [this, vv]
    norm_num at v2 ⊢
    linarith
  obtain ⟨sq1, sq2⟩ := abs_le.1 sq
  rw [abs_le, pow_two x]
  norm_num at t sq1 sq2 ⊢
  constructor <;> linarith

/-- The planar distance from a bound on its square. -/
theorem sqrt_near {P D e : ℝ} (hP : 0 ≤ P) (hD : 0 ≤ D) (he : 0 ≤ e) (h : |P - D ^ 2| ≤ e ^ 2) : |Real.sqrt P - D| ≤ e := by
  have q := Real.mul_self_sqrt hP
  have q0 := Real.sqrt_nonneg P
  obtain ⟨h1, h2⟩ := abs_le.1 h
  refine abs_le_of_sq_le_sq ?_ he
  generalize Real.sqrt P = p at *
  have : (p - D) ^ 2 ≤ |p - D| * (p + D) := by
    rw [← sq_abs, pow_two]
    refine mul_le_mul_of_nonneg_left ?_ (abs_nonneg _)
    rw [abs_le]; constructor <;> linarith
  refine this.trans ?_
  have : |p - D| * (p + D) = |P - D ^ 2| := by
    rw [← abs_of_nonneg (by linarith : 0 ≤ p + D), ← abs_mul, ← q]; ring_nf
  rw [this]; exact h

/-- The errors of the squares together. -/
theorem drop_squares {T a h h' x y S : ℝ} (T0 : 0 < T) (a0 : 0 ≤ a) (h0 : 0 ≤ h) (big : h ≤ T) (h'0 : 0 ≤ h') (ea : |a - T| ≤ 4.5 / 10 ^ 6 * T)
    (eh : |h' - h| ≤ h / 10 ^ 7) (Se : |S - (a ^ 2 - h' ^ 2)| ≤ 2 / 10 ^ 7 * a ^ 2) (pe : |x ^ 2 + y ^ 2 - S| ≤ 6 / 10 ^ 7 * S) :
    |x ^ 2 + y ^ 2 - (T ^ 2 - h ^ 2)| ≤ (T / 300) ^ 2 := by
  obtain ⟨ea1, ea2⟩ := abs_le.1 ea
  obtain ⟨eh1, eh2⟩ := abs_le.1 eh
  have A1 : |a ^ 2 - T ^ 2| ≤ 9.1 / 10 ^ 6 * T ^ 2 := by
    have id : a ^ 2 - T ^ 2 = (a - T) * (a + T) := by ring
    rw [id, abs_mul, abs_of_nonneg (add_nonneg a0 T0.le)]
    have : a + T ≤ 2.0001 * T := by norm_num at ea2 ⊢; linarith
    refine (mul_le_mul ea this (by linarith) (by positivity)).trans ?_
    have : 0 ≤ T ^ 2 := by positivity
    norm_num; linarith
  have H1 : |h' ^ 2 - h ^ 2| ≤ 3 / 10 ^ 7 * T ^ 2 := by
    have id : h' ^ 2 - h ^ 2 = (h' - h) * (h' + h) := by ring
    have p0 : 0 ≤ h' + h := by linarith
    rw [id, abs_mul, abs_of_nonneg p0]
    have : h' + h ≤ 2.0001 * T := by norm_num at eh2 ⊢; linarith
    refine (mul_le_mul (eh.trans (by gcongr : _ ≤ T / 10 ^ 7)) this p0 (by positivity)).trans ?_
    have : 0 ≤ T ^ 2 := by positivity
    norm_num; linarith
  obtain ⟨Se1, Se2⟩ := abs_le.1 Se
  obtain ⟨A2, A3⟩ := abs_le.1 A1
  obtain ⟨H2, H3⟩ := abs_le.1 H1
  obtain ⟨p1, p2⟩ := abs_le.1 pe
  have : 0 ≤ T ^ 2 := by positivity
  have : 0 ≤ h ^ 2 := by positivity
  have hT : h ^ 2 ≤ T ^ 2 := by gcongr
  rw [abs_le, div_pow]
  clear ea eh Se pe A1 H1
  norm_num at A2 A3 H2 H3 p1 p2 Se1 Se2 ⊢
  constructor <;> linarith

/-- **C200**: in single precision, whatever the height of the satellite, the elevation angle and the draw, both roots of the drop exist, and the
centre point is at the planar distance of the requested elevation angle, up to a three hundredth of the slant range. -/
theorem C200_centre (A : Arith) (hr : Nearest single A.rnd) (hp : Nearest double A.py) (hs : AccurateSin A.sin) (ho : SinAtMostOne A.sin)
    (h el u : ℝ) (h1 : 8000 ≤ h) (h2 : h ≤ 42 * 10 ^ 6) (e1 : 10 ≤ el) (e2 : el ≤ 90) (hu : UnitDraw u) :
    ∃ p, A.dropCentre h el u = .ok p ∧ 0 ≤ p.1 ∧ 0 ≤ p.2 ∧
      NearDistance p (h * (Real.cos (el * Real.pi / 180) / Real.sin (el * Real.pi / 180))) (h / Real.sin (el * Real.pi / 180) / 300) := by
  obtain ⟨se, so, s1⟩ := drop_sine hr hp hs ho e1 e2
  have eld : deg2rad el = el * Real.pi / 180 := by unfold deg2rad; ring
  have s2 : Real.sin (deg2rad el) ≤ 1 := Real.sin_le_one _
  have c0 : 0 ≤ Real.cos (deg2rad el) := by
    rw [eld]
    refine Real.cos_nonneg_of_neg_pi_div_two_le_of_le ?_ ?_ <;> nlinarith [Real.pi_pos]
  have cs := Real.sin_sq_add_cos_sq (deg2rad el)
  have ss := abs_le.1 se
  have sp : 0 < A.sin (A.deg2rad el) := by norm_num at ss s1 ⊢; linarith
  obtain ⟨ge, eh, ea⟩ := drop_slant hr h1 h2 s1 s2 se so
  rw [← eld]
  unfold Arith.dropCentre Arith.sqrt Arith.uniformIn NearDistance
  simp only [sp.ne', if_false]
  generalize A.sin (A.deg2rad el) = s' at *
  generalize Real.sin (deg2rad el) = s at *
  generalize Real.cos (deg2rad el) = c at *
  have s0 : 0 < s := by linarith
  have big : h ≤ h / s := by rw [le_div_iff₀ s0]; nlinarith
  have lim : h / s ≤ 10 ^ 9 := by rw [div_le_iff₀ s0]; norm_num at h2 s1 ⊢; linarith
  obtain ⟨eh1, eh2⟩ := abs_le.1 eh
  obtain ⟨ea1, ea2⟩ := abs_le.1 ea
  generalize A.rnd (A.rnd h / s') = a at *
  generalize A.rnd h = h' at *
  have a2 : a ≤ 10 ^ 10 := by norm_num at ea2 lim ⊢; linarith
  obtain ⟨S0, S1, Sr, Se⟩ := drop_radicand hr (a := a) (h := h') (by norm_num at eh1 ⊢; linarith) ge a2
  generalize A.rnd (A.rnd (a * a) - A.rnd (h' * h')) = S at *
  obtain ⟨Se1, Se2⟩ := abs_le.1 Se
  have ap : 0 ≤ a := by norm_num at eh1; linarith
  have aa : a ^ 2 ≤ 10 ^ 20 := by
    have := pow_le_pow_left₀ ap a2 2
    norm_num at this ⊢; exact this
  have S2 : S ≤ 10 ^ 21 := by
    have := sq_nonneg h'
    norm_num at Se2 aa ⊢; linarith
  have pt := drop_point hr S1 S2 Sr hu
  simp only at pt
  obtain ⟨x, hx⟩ : ∃ x, A.rnd (A.rnd (u * A.rnd (A.rnd (Real.sqrt S) - 0)) + 0) = x := ⟨_, rfl⟩
  rw [hx] at pt
  obtain ⟨x0, w0, y0, pe⟩ := pt
  refine ⟨(x, A.rnd (Real.sqrt (A.rnd (S - A.rnd (x * x))))), ?_, x0, y0, ?_⟩
  · simp only [not_lt.2 S0, if_false, bind, Except.bind]
    rw [hx]
    simp only [not_lt.2 w0, if_false]
  · generalize A.rnd (Real.sqrt (A.rnd (S - A.rnd (x * x)))) = y at *
    have T0 : 0 < h / s := by linarith
    have D2 : (h * (c / s)) ^ 2 = (h / s) ^ 2 - h ^ 2 := by
      have : c ^ 2 = 1 - s ^ 2 := by linarith
      rw [mul_pow, div_pow, this]; field_simp
    refine sqrt_near (by positivity) (by positivity) (by positivity) ?_
    rw [D2]
    generalize h / s = T at *
    exact drop_squares T0 ap (by linarith) big (by norm_num at eh1 ⊢; linarith) ea eh Se pe

/-- The hypotheses of C200 are satisfiable: the satellite at 600 km, seen at 80 degrees, and the largest draw. -/
example : ∃ A : Arith, Nearest single A.rnd ∧ Nearest double A.py ∧ AccurateSin A.sin ∧ SinAtMostOne A.sin ∧ UnitDraw (8388607 / 8388608) := by
  obtain ⟨r, hr⟩ := exists_nearest single (by norm_num [single])
  obtain ⟨p, hp⟩ := exists_nearest double (by norm_num [double])
  refine ⟨⟨r, p, Real.sin, Real.logb 10⟩, hr, hp, fun x _ _ => ?_, fun x _ _ => Real.sin_le_one x, 8388607, by norm_num, by norm_num⟩
  rw [sub_self, abs_zero]; positivity

end OpenNTN
