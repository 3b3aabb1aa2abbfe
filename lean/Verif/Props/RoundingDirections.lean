import Verif.Model.RoundingDirections
import Verif.Props.RoundingPattern
import Verif.Props.RoundingClusters

/-
Directions of clusters with rounding: C221.
-/
namespace OpenNTN

open Spec

/-- The logarithm of the library has a relative error of at most `2⁻²⁰` between 0 and 1; in particular the logarithm of 1 is 0. -/
def Spec.AccurateLogUnit (lg : ℝ → ℝ) : Prop := ∀ x, 0 < x → x ≤ 1 → |lg x - Real.log x| ≤ (2 : ℝ) ^ (-20 : ℤ) * |Real.log x|

section

variable {M : ℕ} [NeZero M]

/-- With exact operations the operations give the directions of the model. -/
theorem C221_model (c : Config) (los indoor : Bool) (spread k losAngle zodOff cc : ℝ) (p : Fin M → ℝ) (sign : Fin M → Bool) (z f : Fin M → ℝ) :
    (cPhi c los k = .ok cc → azimuthClusters c los spread k losAngle p sign z = .ok f → f = Arith.exact.azimuthClusters Real.log los spread cc losAngle p sign z) ∧
    (cTheta c los (los && !indoor) k = .ok cc → zenithDeviation c los indoor spread k p sign z = .ok f → f = Arith.exact.zenithDeviation Real.log spread cc p sign z) ∧
    zoaClusters los indoor losAngle f = Arith.exact.zoaClusters los indoor losAngle f ∧
    zodClusters los indoor losAngle zodOff f = Arith.exact.zodClusters los indoor losAngle zodOff f := by
  have rel : ∀ r, relativePower p = .ok r → r = Arith.exact.relativePower p := fun r h => by
    unfold relativePower at h
    split at h
    · cases h
    · cases h
      funext i
      simp only [Arith.relativePower, Arith.exact, id]
      rcases le_total (p i / reduceMax p) 1 with h1 | h1
      · rw [min_eq_left h1, max_comm, min_eq_right]
        exact max_le h1 (by norm_num)
      · rw [min_eq_right h1, min_eq_left (h1.trans (le_max_right _ _)), max_eq_left (by norm_num)]
  refine ⟨fun h1 h2 => ?_, fun h1 h2 => ?_, rfl, rfl⟩
  · unfold azimuthClusters at h2
    rw [h1] at h2
    cases hr : relativePower p with
    | error e => rw [hr] at h2; cases h2
    | ok r =>
      rw [hr] at h2
      have h2 : (if cc = 0 then Except.error Err.notANumber else _) = _ := h2
      split at h2
      · cases h2
      · cases h2
        rw [rel r hr]
        funext i
        simp only [Arith.azimuthClusters, Arith.deviation, Arith.azimuthPrime, Arith.exact, id, mul_comm]
  · unfold zenithDeviation at h2
    rw [h1] at h2
    cases hr : relativePower p with
    | error e => rw [hr] at h2; cases h2
    | ok r =>
      rw [hr] at h2
      have h2 : (if cc = 0 then Except.error Err.notANumber else _) = _ := h2
      split at h2
      · cases h2
      · cases h2
        rw [rel r hr]
        funext i
        simp only [Arith.zenithDeviation, Arith.deviation, Arith.zenithPrime, Arith.exact, id, mul_comm]

end

section

variable {f : Format} (hf : IEEE f) {A : Arith} (hr : Nearest f A.rnd)

include hf hr

/-- Clipping and rounding commute. -/
theorem clip_rnd {q : ℝ} (q0 : 0 ≤ q) (q1 : q ≤ 1) : max (min (A.rnd q) 1) (A.rnd 1e-6) = A.rnd (max q 1e-6) := by
  have a : |q| ≤ 10 ^ 30 := by rw [abs_of_nonneg q0]; linarith
  have b : |(1e-6 : ℝ)| ≤ 10 ^ 30 := by norm_num
  have r1 : A.rnd q ≤ 1 := by
    have := (rnd_le_int hf hr (n := 1) a (by norm_num)).1 (by exact_mod_cast q1)
    exact_mod_cast this
  rw [min_eq_left r1]
  rcases le_total q 1e-6 with h | h
  · rw [max_eq_right h, max_eq_right (rnd_mono hf hr a b h)]
  · rw [max_eq_left h, max_eq_left (rnd_mono hf hr b a h)]

/-- The relative power is defined, positive and at most one, and so is its logarithm defined and not positive. -/
theorem rel_near {q : ℝ} (q0 : 1e-6 ≤ q) (q1 : q ≤ 1) : 5e-7 ≤ A.rnd q ∧ A.rnd q ≤ 1 ∧ |Real.log (A.rnd q) - Real.log q| ≤ 6.1e-8 := by
  have p0 : 0 < q := lt_of_lt_of_le (by norm_num) q0
  have a : |q| ≤ 10 ^ 30 := by rw [abs_of_pos p0]; linarith
  have r1 : A.rnd q ≤ 1 := by
    have := (rnd_le_int hf hr (n := 1) a (by norm_num)).1 (by exact_mod_cast q1)
    exact_mod_cast this
  have e := rnd_size hf hr (x := q) (B := q) (abs_of_pos p0).le (by norm_num at *; linarith) (by linarith)
  have e' := abs_le.1 e
  have lo : 5e-7 ≤ A.rnd q := by norm_num at *; linarith
  have rp : 0 < A.rnd q := lt_of_lt_of_le (by norm_num) lo
  refine ⟨lo, r1, ?_⟩
  rw [← Real.log_div rp.ne' p0.ne']
  have d : |A.rnd q / q - 1| ≤ 6e-8 := by
    rw [show A.rnd q / q - 1 = (A.rnd q - q) / q by field_simp, abs_div, abs_of_pos p0, div_le_iff₀ p0]
    exact e
  have d' := abs_le.1 d
  have dp : 0 < A.rnd q / q := div_pos rp p0
  rw [abs_le]
  constructor
  · have := Real.one_sub_inv_le_log_of_pos dp
    have inv : (A.rnd q / q)⁻¹ ≤ 1 + 6.1e-8 := by
      rw [inv_le_comm₀ dp (by norm_num)]
      refine le_trans ?_ (show 1 - 6e-8 ≤ A.rnd q / q by linarith)
      norm_num
    linarith
  · have := Real.log_le_sub_one_of_pos dp
    norm_num at *; linarith

end

theorem log_bound {q : ℝ} (q0 : 5e-7 ≤ q) (q1 : q ≤ 1) : |Real.log q| ≤ 15 := by
  have p : 0 < q := lt_of_lt_of_le (by norm_num) q0
  rw [abs_of_nonpos (Real.log_nonpos p.le q1)]
  have : Real.log (5e-7) ≤ Real.log q := Real.log_le_log (by norm_num) q0
  have h : -15 ≤ Real.log (5e-7 : ℝ) := by
    rw [Real.le_log_iff_exp_le (by norm_num), Real.exp_neg, inv_le_comm₀ (Real.exp_pos _) (by norm_num)]
    have : (2.7 : ℝ) ^ 15 ≤ Real.exp 15 := by
      have e : Real.exp 15 = Real.exp 1 ^ 15 := by rw [← Real.exp_nat_mul]; norm_num
      rw [e]
      have := Real.exp_one_gt_d9
      gcongr
      norm_num at *; linarith
    refine le_trans ?_ this
    norm_num
  linarith

theorem sqrt_sub_le {a b : ℝ} (ha : 0 ≤ a) (hb : 0 ≤ b) : |Real.sqrt a - Real.sqrt b| ≤ Real.sqrt |a - b| := by
  have key : ∀ {a b : ℝ}, 0 ≤ a → 0 ≤ b → b ≤ a → |Real.sqrt a - Real.sqrt b| ≤ Real.sqrt |a - b| := fun {a b} ha hb h => by
    have s := Real.sqrt_le_sqrt h
    rw [abs_of_nonneg (by linarith), abs_of_nonneg (by linarith)]
    apply Real.le_sqrt_of_sq_le
    have := Real.sq_sqrt ha
    have := Real.sq_sqrt hb
    have := Real.sqrt_nonneg b
    nlinarith
  rcases le_total b a with h | h
  · exact key ha hb h
  · rw [abs_sub_comm, abs_sub_comm a]; exact key hb ha h

theorem prod_near {a a' b b' e d A B : ℝ} (ha : |a' - a| ≤ e) (hb : |b' - b| ≤ d) (hA : |a| ≤ A) (hB : |b| ≤ B) : |a' * b' - a * b| ≤ e * (B + d) + A * d := by
  have b1 := near_of hb hB
  rw [show a' * b' - a * b = (a' - a) * b' + a * (b' - b) by ring]
  refine (abs_add_le _ _).trans ?_
  rw [abs_mul, abs_mul]
  exact add_le_add (mul_le_mul ha b1 (abs_nonneg _) ((abs_nonneg _).trans ha)) (mul_le_mul hA hb (abs_nonneg _) ((abs_nonneg _).trans hA))

theorem over_near {x y c e : ℝ} (c0 : 1 / 4 ≤ c) (h : |x - y| ≤ e) : |x / c - y / c| ≤ 4 * e := by
  have cp : 0 < c := lt_of_lt_of_le (by norm_num) c0
  rw [← sub_div, abs_div, abs_of_pos cp, div_le_iff₀ cp]
  have := (abs_nonneg _).trans h
  nlinarith

theorem over_le {y c B : ℝ} (c0 : 1 / 4 ≤ c) (h : |y| ≤ B) : |y / c| ≤ 4 * B := by
  have := over_near (x := y) (y := 0) c0 (by simpa using h)
  simpa using this

section

variable {f : Format} (hf : IEEE f) {A : Arith} (hr : Nearest f A.rnd) {lg : ℝ → ℝ} (hl : AccurateLogUnit lg)

include hf hr hl

theorem log_near {q : ℝ} (q0 : 1e-6 ≤ q) (q1 : q ≤ 1) : lg (A.rnd q) ≤ 0 ∧ |lg (A.rnd q) - Real.log q| ≤ 1.44e-5 := by
  obtain ⟨lo, hi, e⟩ := rel_near hf hr q0 q1
  have b := log_bound lo hi
  have rp : 0 < A.rnd q := lt_of_lt_of_le (by norm_num) lo
  have l := hl _ rp hi
  have l0 := Real.log_nonpos rp.le hi
  constructor
  · rw [abs_of_nonpos l0] at l
    have := (abs_le.1 l).2
    norm_num at this; linarith
  · refine (tri_of l e).trans ?_
    norm_num at *; linarith

theorem sqrt_log_near {q : ℝ} (q0 : 1e-6 ≤ q) (q1 : q ≤ 1) :
    |Real.sqrt (-lg (A.rnd q)) - Real.sqrt (-Real.log q)| ≤ 2.51e-4 ∧ |Real.sqrt (-Real.log q)| ≤ 3.88 := by
  obtain ⟨lo, hi, e⟩ := rel_near hf hr q0 q1
  have b := log_bound lo hi
  have rp : 0 < A.rnd q := lt_of_lt_of_le (by norm_num) lo
  have qp : 0 < q := lt_of_lt_of_le (by norm_num) q0
  have l := hl _ rp hi
  have l0 := Real.log_nonpos rp.le hi
  have m0 := Real.log_nonpos qp.le q1
  have n0 := (log_near hf hr hl q0 q1).1
  have s15 : Real.sqrt 15 ≤ 3.88 := by rw [Real.sqrt_le_iff]; norm_num
  have d1 : |Real.sqrt (-lg (A.rnd q)) - Real.sqrt (-Real.log (A.rnd q))| ≤ (2 : ℝ) ^ (-20 : ℤ) * Real.sqrt (-Real.log (A.rnd q)) := by
    rcases l0.eq_or_lt with h0 | h0
    · rw [h0] at l ⊢
      have : lg (A.rnd q) = 0 := by simpa using l
      simp [this]
    · refine sqrt_rel (by linarith) (by linarith) ?_
      rw [abs_of_neg h0] at l
      rwa [show -lg (A.rnd q) - -Real.log (A.rnd q) = -(lg (A.rnd q) - Real.log (A.rnd q)) by ring, abs_neg]
  have d2 : |Real.sqrt (-Real.log (A.rnd q)) - Real.sqrt (-Real.log q)| ≤ 2.47e-4 := by
    refine (sqrt_sub_le (by linarith) (by linarith)).trans ?_
    rw [show -Real.log (A.rnd q) - -Real.log q = -(Real.log (A.rnd q) - Real.log q) by ring, abs_neg, Real.sqrt_le_iff]
    refine ⟨by norm_num, e.trans (by norm_num)⟩
  have b1 : Real.sqrt (-Real.log (A.rnd q)) ≤ 3.88 := by
    refine (Real.sqrt_le_sqrt ?_).trans s15
    rwa [abs_of_nonpos l0] at b
  have b2 : Real.sqrt (-Real.log q) ≤ 3.88 := by
    refine (Real.sqrt_le_sqrt ?_).trans s15
    have := log_bound (q := q) (le_trans (by norm_num) q0) q1
    rwa [abs_of_nonpos m0] at this
  constructor
  · refine (tri_of d1 d2).trans ?_
    norm_num at *; linarith
  · rwa [abs_of_nonneg (Real.sqrt_nonneg _)]

theorem azimuthPrime_near {s c q : ℝ} (s0 : 0 ≤ s) (s1 : s ≤ 104) (c0 : 1 / 4 ≤ c) (q0 : 1e-6 ≤ q) (q1 : q ≤ 1) :
    |A.azimuthPrime lg s c (A.rnd q) - Arith.exact.azimuthPrime Real.log s c q| ≤ 0.1503 ∧ |Arith.exact.azimuthPrime Real.log s c q| ≤ 2319 := by
  obtain ⟨r, rb⟩ := sqrt_log_near hf hr hl q0 q1
  have sb : |2 * s| ≤ 208 := by rw [abs_of_nonneg (by linarith)]; linarith
  have a1 := rnd_size hf hr sb (by norm_num) (by norm_num)
  have k := rnd_size hf hr (x := 1.4) (B := 1.4) (by norm_num) (by norm_num) (by norm_num)
  have kb := abs_le.1 k
  have kp : 1.39 ≤ A.rnd 1.4 := by norm_num at *; linarith
  have kp0 : 0 < A.rnd 1.4 := lt_of_lt_of_le (by norm_num) kp
  have a2 : |A.rnd (2 * s) / A.rnd 1.4 - 2 * s / 1.4| ≤ 1.9e-5 := by
    have e : A.rnd (2 * s) / A.rnd 1.4 - 2 * s / 1.4 = (1.4 * (A.rnd (2 * s) - 2 * s) - 2 * s * (A.rnd 1.4 - 1.4)) / (1.4 * A.rnd 1.4) := by
      field_simp; ring
    have dp : 0 < 1.4 * A.rnd 1.4 := by positivity
    rw [e, abs_div, abs_of_pos dp, div_le_iff₀ dp]
    refine (abs_sub _ _).trans ?_
    rw [abs_mul, abs_mul]
    have m : |2 * s| * |A.rnd 1.4 - 1.4| ≤ 208 * (6e-8 * 1.4) := mul_le_mul sb k (abs_nonneg _) (by norm_num)
    norm_num at *; linarith
  have ab : |2 * s / 1.4| ≤ 148.6 := by
    rw [abs_of_nonneg (by positivity), div_le_iff₀ (by norm_num)]; norm_num; linarith
  have a3 := tri_of (rnd_size hf hr (x := A.rnd (2 * s) / A.rnd 1.4) (B := 149) ((near_of a2 ab).trans (by norm_num)) (by norm_num) (by norm_num)) a2
  have b1 := tri_of (rnd_size hf hr (x := Real.sqrt (-lg (A.rnd q))) (B := 3.9) ((near_of r rb).trans (by norm_num)) (by norm_num) (by norm_num)) r
  have b2 := over_near c0 b1
  have bb := over_le c0 rb
  have b3 := tri_of (rnd_size hf hr (x := A.rnd (Real.sqrt (-lg (A.rnd q))) / c) (B := 15.6) ((near_of b2 bb).trans (by norm_num)) (by norm_num) (by norm_num)) b2
  have p1 := prod_near a3 b3 ab bb
  have pb : |2 * s / 1.4 * (Real.sqrt (-Real.log q) / c)| ≤ 2319 := by
    rw [abs_mul]; exact (mul_le_mul ab bb (abs_nonneg _) (by norm_num)).trans (by norm_num)
  have p2 := tri_of (rnd_size hf hr (B := 2320) ((near_of p1 pb).trans (by norm_num)) (by norm_num) (by norm_num)) p1
  exact ⟨p2.trans (by norm_num), pb⟩

theorem zenithPrime_near {s c q : ℝ} (s0 : 0 ≤ s) (s1 : s ≤ 52) (c0 : 1 / 4 ≤ c) (q0 : 1e-6 ≤ q) (q1 : q ≤ 1) :
    |A.zenithPrime lg s c (A.rnd q) - Arith.exact.zenithPrime Real.log s c q| ≤ 3.4e-3 ∧ |Arith.exact.zenithPrime Real.log s c q| ≤ 3120 := by
  have r := (log_near hf hr hl q0 q1).2
  have rb := log_bound (q := q) (le_trans (by norm_num) q0) q1
  have sb : |-s| ≤ 52 := by rwa [abs_neg, abs_of_nonneg s0]
  have t1 := prod_near (a := -s) (a' := -s) (e := 0) (by simp) r sb rb
  have tb : |-s * Real.log q| ≤ 780 := by
    rw [abs_mul]; exact (mul_le_mul sb rb (abs_nonneg _) (by norm_num)).trans (by norm_num)
  have t2 := tri_of (rnd_size hf hr (B := 781) ((near_of t1 tb).trans (by norm_num)) (by norm_num) (by norm_num)) t1
  have t3 := over_near c0 t2
  have t3b := over_le c0 tb
  have t4 := tri_of (rnd_size hf hr (B := 3121) ((near_of t3 t3b).trans (by norm_num)) (by norm_num) (by norm_num)) t3
  exact ⟨t4.trans (by norm_num), t3b.trans (by norm_num)⟩

omit hl in
theorem deviation_near {s x x' z e : ℝ} {b : Bool} (s0 : 0 ≤ s) (s1 : s ≤ 104) (hz : |z| ≤ 6) (hx : |x| ≤ 3120) (h : |x' - x| ≤ e) (e1 : e ≤ 0.2) :
    |A.deviation s x' b z - Arith.exact.deviation s x b z| ≤ e + 4.1e-4 ∧ |Arith.exact.deviation s x b z| ≤ 3210 := by
  have sg : |signOf b * x' - signOf b * x| ≤ e := by
    rw [← mul_sub, abs_mul]
    cases b <;> simpa [signOf] using h
  have sgb : |signOf b * x| ≤ 3120 := by
    rw [abs_mul]
    cases b <;> simpa [signOf] using hx
  have g1 := tri_of (rnd_size hf hr (B := 3121) ((near_of sg sgb).trans (by norm_num at *; linarith)) (by norm_num) (by norm_num)) sg
  have sb : |s / 7| ≤ 14.9 := by rw [abs_of_nonneg (by positivity)]; norm_num; linarith
  have c1 := rnd_size hf hr sb (by norm_num) (by norm_num)
  have c2 := prod_near (a := z) (a' := z) (e := 0) (by simp) c1 hz sb
  have cb : |z * (s / 7)| ≤ 89.4 := by
    rw [abs_mul]; exact (mul_le_mul hz sb (abs_nonneg _) (by norm_num)).trans (by norm_num)
  have c3 := tri_of (rnd_size hf hr (B := 89.5) ((near_of c2 cb).trans (by norm_num)) (by norm_num) (by norm_num)) c2
  have d1 : |A.rnd (signOf b * x') + A.rnd (z * A.rnd (s / 7)) - (signOf b * x + z * (s / 7))| ≤ e + 2.1e-4 := by
    rw [add_sub_add_comm]
    refine (abs_add_le _ _).trans ((add_le_add g1 c3).trans ?_)
    norm_num at *; linarith
  have db : |signOf b * x + z * (s / 7)| ≤ 3210 := (abs_add_le _ _).trans ((add_le_add sgb cb).trans (by norm_num))
  have d2 := tri_of (rnd_size hf hr (B := 3211) ((near_of d1 db).trans (by norm_num at *; linarith)) (by norm_num) (by norm_num)) d1
  exact ⟨d2.trans (by norm_num at *; linarith), db⟩

omit hl in
/-- Centring of a deviation on a direction, with the deviation of the first cluster subtracted last. -/
theorem centre_near {x x' y y' l e : ℝ} (hx : |x' - x| ≤ e) (hy : |y' - y| ≤ e) (bx : |x| ≤ 3210) (by' : |y| ≤ 3210) (hl : |l| ≤ 364) (e1 : e ≤ 0.21) :
    |A.rnd (A.rnd (x' + l) - y') - (x + l - y)| ≤ 2 * e + 6.5e-4 := by
  have a1 : |x' + l - (x + l)| ≤ e := by rwa [add_sub_add_right_eq_sub]
  have ab : |x + l| ≤ 3574 := (abs_add_le _ _).trans ((add_le_add bx hl).trans (by norm_num))
  have a2 := tri_of (rnd_size hf hr (B := 3575) ((near_of a1 ab).trans (by norm_num at *; linarith)) (by norm_num) (by norm_num)) a1
  have a3 : |A.rnd (x' + l) - y' - (x + l - y)| ≤ 6e-8 * 3575 + e + e := by
    rw [show A.rnd (x' + l) - y' - (x + l - y) = (A.rnd (x' + l) - (x + l)) - (y' - y) by ring]
    exact (abs_sub _ _).trans (add_le_add a2 hy)
  have a4b : |x + l - y| ≤ 6784 := (abs_sub _ _).trans ((add_le_add ab by').trans (by norm_num))
  have a4 := tri_of (rnd_size hf hr (B := 6785) ((near_of a3 a4b).trans (by norm_num at *; linarith)) (by norm_num) (by norm_num)) a3
  exact a4.trans (by norm_num; linarith)

omit hl in
/-- The same with the difference first. -/
theorem centre_near' {x x' y y' l e : ℝ} (hx : |x' - x| ≤ e) (hy : |y' - y| ≤ e) (bx : |x| ≤ 3210) (by' : |y| ≤ 3210) (hl : |l| ≤ 364) (e1 : e ≤ 0.21) :
    |A.rnd (x' + -A.rnd (y' - l)) - (x + -(y - l))| ≤ 2 * e + 6.5e-4 := by
  have a1 : |y' - l - (y - l)| ≤ e := by rwa [sub_sub_sub_cancel_right]
  have ab : |y - l| ≤ 3574 := (abs_sub _ _).trans ((add_le_add by' hl).trans (by norm_num))
  have a2 := tri_of (rnd_size hf hr (B := 3575) ((near_of a1 ab).trans (by norm_num at *; linarith)) (by norm_num) (by norm_num)) a1
  have a3 : |x' + -A.rnd (y' - l) - (x + -(y - l))| ≤ e + (6e-8 * 3575 + e) := by
    rw [show x' + -A.rnd (y' - l) - (x + -(y - l)) = (x' - x) - (A.rnd (y' - l) - (y - l)) by ring]
    exact (abs_sub _ _).trans (add_le_add hx a2)
  have a4b : |x + -(y - l)| ≤ 6784 := by
    refine (abs_add_le _ _).trans ?_
    rw [abs_neg]
    exact (add_le_add bx ab).trans (by norm_num)
  have a4 := tri_of (rnd_size hf hr (B := 6785) ((near_of a3 a4b).trans (by norm_num at *; linarith)) (by norm_num) (by norm_num)) a3
  exact a4.trans (by norm_num; linarith)

end

section

variable {M : ℕ} [NeZero M]

/-- Ranges for the accuracy of directions: powers of clusters are not negative and not all zero, spreads have the limits of lsp.py, the scaling constant is at
least 1/4, draws are at most 6 and the direction of the LoS is an angle. -/
structure Spec.DirectionRange (limit spread c losAngle : ℝ) (p z : Fin M → ℝ) : Prop where
  power : ∀ i, 0 ≤ p i
  some_power : ∃ i, 0 < p i
  spread_nonneg : 0 ≤ spread
  spread_le : spread ≤ limit
  constant : 1 / 4 ≤ c
  draws : ∀ i, |z i| ≤ 6
  angle : |losAngle| ≤ 360

theorem ratio_unit {limit spread c losAngle : ℝ} {p z : Fin M → ℝ} (h : DirectionRange limit spread c losAngle p z) (i : Fin M) :
    0 < reduceMax p ∧ 0 ≤ p i / reduceMax p ∧ p i / reduceMax p ≤ 1 := by
  obtain ⟨j, hj⟩ := h.some_power
  have m : ∀ k, p k ≤ reduceMax p := fun k => Finset.le_sup' p (Finset.mem_univ k)
  have mp : 0 < reduceMax p := hj.trans_le (m j)
  exact ⟨mp, div_nonneg (h.power i) mp.le, (div_le_one mp).2 (m i)⟩

variable {f : Format} (hf : IEEE f) {A : Arith} (hr : Nearest f A.rnd) {lg : ℝ → ℝ} (hl : AccurateLogUnit lg)

include hf hr

theorem relative_near {limit spread c losAngle : ℝ} {p z : Fin M → ℝ} (h : DirectionRange limit spread c losAngle p z) (i : Fin M) :
    ∃ q, 1e-6 ≤ q ∧ q ≤ 1 ∧ Arith.exact.relativePower p i = q ∧ A.relativePower p i = A.rnd q := by
  obtain ⟨-, q0, q1⟩ := ratio_unit h i
  refine ⟨max (p i / reduceMax p) 1e-6, le_max_right _ _, max_le q1 (by norm_num), ?_, clip_rnd hf hr q0 q1⟩
  simp only [Arith.relativePower, Arith.exact, id, min_eq_left q1]

include hl

/-- The argument of the root is never negative, so that no direction is undefined. -/
theorem C221_defined {limit spread c losAngle : ℝ} {p z : Fin M → ℝ} (h : DirectionRange limit spread c losAngle p z) (i : Fin M) :
    0 < A.relativePower p i ∧ A.relativePower p i ≤ 1 ∧ 0 ≤ -lg (A.relativePower p i) := by
  obtain ⟨q, q0, q1, -, e⟩ := relative_near hf hr h i
  rw [e]
  have := rel_near hf hr q0 q1
  exact ⟨lt_of_lt_of_le (by norm_num) this.1, this.2.1, by linarith [(log_near hf hr hl q0 q1).1]⟩

/-- In single or double precision azimuths of clusters are accurate to a third of a degree. -/
theorem C221_azimuth {los : Bool} {spread c losAngle : ℝ} {p z : Fin M → ℝ} (h : DirectionRange 104 spread c losAngle p z) (sign : Fin M → Bool) (i : Fin M) :
    |A.azimuthClusters lg los spread c losAngle p sign z i - Arith.exact.azimuthClusters Real.log los spread c losAngle p sign z i| ≤ 1 / 3 := by
  have d : ∀ i, |A.deviation spread (A.azimuthPrime lg spread c (A.relativePower p i)) (sign i) (z i) -
      Arith.exact.deviation spread (Arith.exact.azimuthPrime Real.log spread c (Arith.exact.relativePower p i)) (sign i) (z i)| ≤ 0.1503 + 4.1e-4 ∧
      |Arith.exact.deviation spread (Arith.exact.azimuthPrime Real.log spread c (Arith.exact.relativePower p i)) (sign i) (z i)| ≤ 3210 := fun i => by
    obtain ⟨q, q0, q1, e1, e2⟩ := relative_near hf hr h i
    rw [e1, e2]
    have := azimuthPrime_near hf hr hl h.spread_nonneg h.spread_le h.constant q0 q1
    exact deviation_near hf hr h.spread_nonneg h.spread_le (h.draws i) (this.2.trans (by norm_num)) this.1 (by norm_num)
  have la := h.angle.trans (show (360 : ℝ) ≤ 364 by norm_num)
  unfold Arith.azimuthClusters
  cases los with
  | true => exact (centre_near hf hr (d i).1 (d 0).1 (d i).2 (d 0).2 la (by norm_num)).trans (by norm_num)
  | false => exact (centre_near hf hr (y := 0) (y' := 0) (d i).1 (by norm_num) (d i).2 (by norm_num) la (by norm_num)).trans (by norm_num)

/-- In single or double precision zeniths of clusters are accurate to a hundredth of a degree. -/
theorem C221_zenith {spread c losAngle : ℝ} {p z : Fin M → ℝ} (h : DirectionRange 52 spread c losAngle p z) (los indoor : Bool) {zodOff : ℝ} (ho : |zodOff| ≤ 4)
    (sign : Fin M → Bool) (i : Fin M) :
    |A.zoaClusters los indoor losAngle (A.zenithDeviation lg spread c p sign z) i -
      Arith.exact.zoaClusters los indoor losAngle (Arith.exact.zenithDeviation Real.log spread c p sign z) i| ≤ 0.01 ∧
    |A.zodClusters los indoor losAngle zodOff (A.zenithDeviation lg spread c p sign z) i -
      Arith.exact.zodClusters los indoor losAngle zodOff (Arith.exact.zenithDeviation Real.log spread c p sign z) i| ≤ 0.01 := by
  have d : ∀ i, |A.zenithDeviation lg spread c p sign z i - Arith.exact.zenithDeviation Real.log spread c p sign z i| ≤ 3.4e-3 + 4.1e-4 ∧
      |Arith.exact.zenithDeviation Real.log spread c p sign z i| ≤ 3210 := fun i => by
    obtain ⟨q, q0, q1, e1, e2⟩ := relative_near hf hr h i
    unfold Arith.zenithDeviation
    rw [e1, e2]
    have := zenithPrime_near hf hr hl h.spread_nonneg h.spread_le h.constant q0 q1
    exact deviation_near hf hr h.spread_nonneg (h.spread_le.trans (by norm_num)) (h.draws i) this.2 this.1 (by norm_num)
  generalize A.zenithDeviation lg spread c p sign z = x' at *
  generalize Arith.exact.zenithDeviation Real.log spread c p sign z = x at *
  have la := h.angle.trans (show (360 : ℝ) ≤ 364 by norm_num)
  have shift : ∀ l l' : ℝ, |l' - l| ≤ 1e-4 → |l| ≤ 364 → |A.rnd (x' i + l') - (x i + l)| ≤ 0.01 := fun l l' h1 h2 => by
    have a1 : |x' i + l' - (x i + l)| ≤ 3.4e-3 + 4.1e-4 + 1e-4 := by
      rw [add_sub_add_comm]; exact (abs_add_le _ _).trans (add_le_add (d i).1 h1)
    have ab : |x i + l| ≤ 3574 := (abs_add_le _ _).trans ((add_le_add (d i).2 h2).trans (by norm_num))
    exact (tri_of (rnd_size hf hr (B := 3575) ((near_of a1 ab).trans (by norm_num)) (by norm_num) (by norm_num)) a1).trans (by norm_num)
  have cen := (centre_near' hf hr (d i).1 (d 0).1 (d i).2 (d 0).2 la (by norm_num)).trans (show _ ≤ (0.01 : ℝ) by norm_num)
  have off := rnd_size hf hr (x := losAngle + zodOff) (B := 364) ((abs_add_le _ _).trans ((add_le_add h.angle ho).trans (by norm_num))) (by norm_num) (by norm_num)
  have offb : |losAngle + zodOff| ≤ 364 := (abs_add_le _ _).trans ((add_le_add h.angle ho).trans (by norm_num))
  have s90 := shift 90 90 (by norm_num) (by norm_num)
  have sl := shift losAngle losAngle (by norm_num) la
  have so := shift (losAngle + zodOff) (A.rnd (losAngle + zodOff)) (off.trans (by norm_num)) offb
  unfold Arith.zoaClusters Arith.zodClusters
  cases los <;> cases indoor
  · exact ⟨sl, so⟩
  · exact ⟨s90, so⟩
  · exact ⟨cen, cen⟩
  · exact ⟨s90, so⟩

/-- In LoS the first cluster is within 3/10000 of a degree of the LoS direction, in azimuth and in zenith. -/
theorem C221_los {spread c losAngle : ℝ} {p z : Fin M → ℝ} (sign : Fin M → Bool) :
    (DirectionRange 104 spread c losAngle p z → |A.azimuthClusters lg true spread c losAngle p sign z 0 - losAngle| ≤ 3e-4) ∧
    (DirectionRange 52 spread c losAngle p z → ∀ zodOff, |A.zoaClusters true false losAngle (A.zenithDeviation lg spread c p sign z) 0 - losAngle| ≤ 3e-4 ∧
      |A.zodClusters true false losAngle zodOff (A.zenithDeviation lg spread c p sign z) 0 - losAngle| ≤ 3e-4) := by
  refine ⟨fun h => ?_, fun h zodOff => ?_⟩
  · obtain ⟨q, q0, q1, e1, e2⟩ := relative_near hf hr h 0
    have a := azimuthPrime_near hf hr hl h.spread_nonneg h.spread_le h.constant q0 q1
    have d := deviation_near hf hr (b := sign 0) h.spread_nonneg h.spread_le (h.draws 0) (a.2.trans (by norm_num)) a.1 (by norm_num)
    have b := near_of d.1 d.2
    have hx := h.angle
    unfold Arith.azimuthClusters
    simp only [e2, if_true]
    generalize A.deviation spread _ _ _ = x at *
    have r1 := rnd_size hf hr (x := x + losAngle) (B := 3571) ((abs_add_le _ _).trans ((add_le_add b hx).trans (by norm_num))) (by norm_num) (by norm_num)
    have r2 : |A.rnd (x + losAngle) - x - losAngle| ≤ 6e-8 * 3571 := by rwa [sub_sub]
    have r3 := tri_of (rnd_size hf hr (B := 361) ((near_of r2 hx).trans (by norm_num)) (by norm_num) (by norm_num)) r2
    exact r3.trans (by norm_num)
  · obtain ⟨q, q0, q1, e1, e2⟩ := relative_near hf hr h 0
    have a := zenithPrime_near hf hr hl h.spread_nonneg h.spread_le h.constant q0 q1
    have d := deviation_near hf hr (b := sign 0) h.spread_nonneg (h.spread_le.trans (by norm_num)) (h.draws 0) a.2 a.1 (by norm_num)
    have b := near_of d.1 d.2
    have hx := h.angle
    have key : |A.rnd (A.zenithDeviation lg spread c p sign z 0 + -A.rnd (A.zenithDeviation lg spread c p sign z 0 - losAngle)) - losAngle| ≤ 3e-4 := by
      unfold Arith.zenithDeviation
      rw [e2]
      generalize A.deviation spread _ _ _ = x at *
      have r1 := rnd_size hf hr (x := x - losAngle) (B := 3571) ((abs_sub _ _).trans ((add_le_add b hx).trans (by norm_num))) (by norm_num) (by norm_num)
      have r2 : |x + -A.rnd (x - losAngle) - losAngle| ≤ 6e-8 * 3571 := by
        rw [show x + -A.rnd (x - losAngle) - losAngle = -(A.rnd (x - losAngle) - (x - losAngle)) by ring, abs_neg]; exact r1
      have r3 := tri_of (rnd_size hf hr (B := 361) ((near_of r2 hx).trans (by norm_num)) (by norm_num) (by norm_num)) r2
      exact r3.trans (by norm_num)
    exact ⟨key, key⟩

end

/-- Non-vacuity: two clusters of different power. -/
example : DirectionRange (M := 2) 52 30 (1 / 2) (-170) ![3 / 4, 1 / 4] ![1, -2] where
  power i := by fin_cases i <;> norm_num
  some_power := ⟨0, by norm_num⟩
  spread_nonneg := by norm_num
  spread_le := by norm_num
  constant := by norm_num
  draws i := by fin_cases i <;> norm_num
  angle := by norm_num [abs_le]

example : AccurateLogUnit Real.log := fun x _ _ => by simp

example : ∃ A : Arith, Nearest Spec.single A.rnd := by
  obtain ⟨A, hr, _⟩ := exists_arith Spec.single (Or.inl rfl)
  exact ⟨A, hr⟩

end OpenNTN
