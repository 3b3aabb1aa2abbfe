import Verif.Model.Rounding
import Verif.Lemmas.Rounding
import Mathlib.Analysis.Complex.Trigonometric
import Mathlib.Analysis.SpecialFunctions.Trigonometric.Bounds
import Mathlib.Analysis.Real.Pi.Bounds
import Mathlib.Analysis.SpecialFunctions.Complex.Arg

/-
Rounding of the phases of the channel coefficients.
-/
namespace OpenNTN

open Spec

/-- The formats of the two values of `precision`. -/
def Spec.IEEE (f : Format) : Prop := f = single ∨ f = double

/-- Half a unit of the last place, relative. -/
noncomputable def Spec.Format.unit (f : Format) : ℝ := (2 : ℝ) ^ (-(f.digits : ℤ))

theorem unit_single : single.unit = 1 / 16777216 := by
  unfold Spec.Format.unit single; norm_num

theorem unit_double : double.unit = 1 / 9007199254740992 := by
  unfold Spec.Format.unit double; norm_num

theorem unit_pos (f : Format) : 0 < f.unit := by unfold Spec.Format.unit; positivity

theorem unit_le {f : Format} (hf : IEEE f) : f.unit ≤ 1 / 16777216 := by
  rcases hf with rfl | rfl
  · rw [unit_single]
  · rw [unit_double]; norm_num

theorem unit_lt_one {f : Format} (hf : IEEE f) : f.unit < 1 := (unit_le hf).trans_lt (by norm_num)

theorem unit_double_le {f : Format} (hf : IEEE f) : double.unit ≤ f.unit := by
  rcases hf with rfl | rfl
  · rw [unit_single, unit_double]; norm_num
  · exact le_rfl

theorem range_ge {f : Format} (hf : IEEE f) : (10 : ℝ) ^ 38 < f.range := by
  have : (10 : ℝ) ^ 38 < (2 : ℝ) ^ (127 : ℤ) := by norm_num
  refine this.trans_le ?_
  unfold Spec.Format.range
  rcases hf with rfl | rfl <;> exact zpow_le_zpow_right₀ (by norm_num) (by norm_num [single, double])

theorem tiny_le {f : Format} (hf : IEEE f) : (2 : ℝ) ^ (f.emin + f.digits - 1) ≤ (2 : ℝ) ^ (-126 : ℤ) := by
  rcases hf with rfl | rfl <;> exact zpow_le_zpow_right₀ (by norm_num) (by norm_num [single, double])

theorem digits_pos {f : Format} (hf : IEEE f) : 1 ≤ f.digits := by rcases hf with rfl | rfl <;> norm_num [single, double]

theorem emin_le {f : Format} (hf : IEEE f) : f.emin ≤ f.emax := by rcases hf with rfl | rfl <;> norm_num [single, double]

theorem rnd_rel {f : Format} (hf : IEEE f) {rnd : ℝ → ℝ} (h : Nearest f rnd) {x : ℝ} (lo : 1 / 10 ^ 30 ≤ |x|) (hi : |x| ≤ 10 ^ 30) :
    Rel f.unit 1 x (rnd x) := by
  refine Rel.of_err (unit_pos f).le (unit_lt_one hf) (h.rel (digits_pos hf) ?_ ?_)
  · exact (tiny_le hf).trans (le_trans (by norm_num) lo)
  · exact hi.trans_lt (lt_trans (by norm_num) (range_ge hf))

theorem rnd_err {f : Format} (hf : IEEE f) {rnd : ℝ → ℝ} (h : Nearest f rnd) {x : ℝ} (hi : |x| ≤ 10 ^ 30) :
    |rnd x - x| ≤ f.unit * |x| + (2 : ℝ) ^ (-126 : ℤ) :=
  (h.err (digits_pos hf) (emin_le hf) (hi.trans_lt (lt_trans (by norm_num) (range_ge hf)))).trans (by
    have := tiny_le hf
    unfold Spec.Format.unit; linarith)

/-- Conversion of a Python float to a tensor. -/
theorem conv_rel {f : Format} (hf : IEEE f) {A : Arith} (hr : Nearest f A.rnd) (hp : Nearest double A.py) {x : ℝ} (lo : 1 / 10 ^ 20 ≤ x)
    (hi : x ≤ 10 ^ 20) : Rel f.unit 2 x (A.rnd (A.py x)) := by
  have x0 : 0 < x := lt_of_lt_of_le (by norm_num) lo
  have u1 := unit_lt_one hf
  have h1 : |A.py x - x| ≤ double.unit * |x| := hp.rel (by norm_num [double])
    (by rw [abs_of_pos x0]
        exact (tiny_le (Or.inr rfl)).trans (le_trans (by norm_num) lo))
    (by rw [abs_of_pos x0]; exact hi.trans_lt (lt_trans (by norm_num) (range_ge (Or.inr rfl))))
  have h2 : |A.py x - x| ≤ f.unit * |x| := h1.trans (by gcongr; exact unit_double_le hf)
  have ud : double.unit ≤ 1 / 2 := by rw [unit_double]; norm_num
  rw [abs_of_pos x0] at h1
  have h3 := abs_le.1 (h1.trans (mul_le_mul_of_nonneg_right ud x0.le))
  have p0 : 0 < A.py x := by linarith
  refine Rel.trans u1 (Rel.of_err (unit_pos f).le u1 h2) (rnd_rel hf hr ?_ ?_)
  · rw [abs_of_pos p0]
    refine le_trans ?_ (show 1 / 2 * x ≤ A.py x by linarith)
    refine le_trans (b := 1 / 2 * (1 / 10 ^ 20)) (by norm_num) (by gcongr)
  · rw [abs_of_pos p0]
    refine le_trans (show A.py x ≤ 3 / 2 * x by linarith) ?_
    refine le_trans (b := 3 / 2 * 10 ^ 20) (by gcongr) (by norm_num)

/-- Bounds that follow from few relative errors. -/
theorem Rel.bounds {f : Format} (hf : IEEE f) {k : ℕ} (hk : k ≤ 20) {x y : ℝ} (x0 : 0 < x) (h : Rel f.unit k x y) : x / 2 ≤ y ∧ y ≤ 2 * x := by
  have k20 : (k : ℝ) ≤ 20 := by exact_mod_cast hk
  have u := unit_le hf
  have up := unit_pos f
  have := h.abs up.le (by
    calc (k : ℝ) * (k + 1) * f.unit ≤ 20 * (20 + 1) * (1 / 16777216) := by gcongr
      _ ≤ 1 := by norm_num)
  rw [abs_of_pos x0] at this
  have : |y - x| ≤ (20 + 1) * (1 / 16777216) * x := this.trans (by gcongr)
  rcases abs_le.1 this with ⟨a, b⟩
  constructor <;> nlinarith

theorem Rel.pos {f : Format} (hf : IEEE f) {k : ℕ} {x y : ℝ} (x0 : 0 < x) (h : Rel f.unit k x y) : 0 < y := by
  obtain ⟨r, r1, _, rfl⟩ := h
  have : 0 < 1 - f.unit := by linarith [unit_lt_one hf]
  have : 0 < r := lt_of_lt_of_le (by positivity) r1
  positivity

/-- One more rounding of a positive quantity of moderate size. -/
theorem Rel.rnd {f : Format} (hf : IEEE f) {r : ℝ → ℝ} (hr : Nearest f r) {k : ℕ} (hk : k ≤ 20) {x y : ℝ} (h : Rel f.unit k x y)
    (lo : 1 / 10 ^ 25 ≤ x) (hi : x ≤ 10 ^ 25) : Rel f.unit (k + 1) x (r y) := by
  have x0 : 0 < x := lt_of_lt_of_le (by norm_num) lo
  obtain ⟨a, b⟩ := Rel.bounds hf hk x0 h
  have y0 := Rel.pos hf x0 h
  refine Rel.trans (unit_lt_one hf) h (rnd_rel hf hr ?_ ?_)
  · rw [abs_of_pos y0]; refine le_trans ?_ a
    refine le_trans (b := 1 / 10 ^ 25 / 2) (by norm_num) (by gcongr)
  · rw [abs_of_pos y0]; refine b.trans ?_
    refine le_trans (b := 2 * 10 ^ 25) (by gcongr) (by norm_num)

theorem twoPi_rel {f : Format} (hf : IEEE f) {A : Arith} (hr : Nearest f A.rnd) (hp : Nearest double A.py) : Rel f.unit 2 (2 * Real.pi) A.twoPi :=
  conv_rel hf hr hp (by linarith [Real.pi_gt_three]) (by linarith [Real.pi_le_four])

theorem lambda_rel {f : Format} (hf : IEEE f) {A : Arith} (hr : Nearest f A.rnd) (hp : Nearest double A.py) {fc : ℝ} (f1 : 10 ^ 8 ≤ fc)
    (f2 : fc ≤ 10 ^ 12) : Rel f.unit 2 (speedOfLight / fc) (A.lambda0 fc) := by
  have : 0 < fc := lt_of_lt_of_le (by norm_num) f1
  refine conv_rel hf hr hp ?_ ?_
  · unfold speedOfLight; rw [le_div_iff₀ this]; linarith
  · unfold speedOfLight; rw [div_le_iff₀ this]; linarith

theorem genLambda_rel {f : Format} (hf : IEEE f) {A : Arith} (hr : Nearest f A.rnd) (hp : Nearest double A.py) (tensor : Bool) {fc : ℝ} (f1 : 10 ^ 8 ≤ fc)
    (f2 : fc ≤ 10 ^ 12) : Rel f.unit 3 (speedOfLight / fc) (A.genLambda tensor fc) := by
  have fp : 0 < fc := lt_of_lt_of_le (by norm_num) f1
  cases tensor with
  | false => exact Rel.mono (unit_pos f).le (unit_lt_one hf) (by norm_num) (lambda_rel hf hr hp f1 f2)
  | true =>
    have c := rnd_rel hf hr (x := speedOfLight) (by norm_num [speedOfLight]) (by norm_num [speedOfLight])
    have d := rnd_rel hf hr (x := fc) (by rw [abs_of_pos fp]; exact le_trans (by norm_num) f1) (by rw [abs_of_pos fp]; exact f2.trans (by norm_num))
    refine Rel.rnd hf hr (by norm_num) (Rel.div (unit_lt_one hf) c d) ?_ ?_
    · unfold speedOfLight; rw [le_div_iff₀ fp]; linarith
    · unfold speedOfLight; rw [div_le_iff₀ fp]; linarith

theorem losPhase_rel {f : Format} (hf : IEEE f) {A : Arith} (hr : Nearest f A.rnd) (hp : Nearest double A.py) (tensor : Bool) {fc d : ℝ} (f1 : 10 ^ 8 ≤ fc)
    (f2 : fc ≤ 10 ^ 12) (d1 : 1 ≤ d) (d2 : d ≤ 10 ^ 10) : Rel f.unit 7 (2 * Real.pi * d * fc / speedOfLight) (A.losPhase tensor fc d) := by
  have u1 := unit_lt_one hf
  have fp : 0 < fc := lt_of_lt_of_le (by norm_num) f1
  have p3 := Real.pi_gt_three
  have p4 := Real.pi_le_four
  have h1 := Rel.rnd hf hr (by norm_num) (Rel.mul u1 (twoPi_rel hf hr hp) (Rel.refl f.unit d)) (by nlinarith) (by nlinarith)
  have h2 := Rel.div u1 h1 (genLambda_rel hf hr hp tensor f1 f2)
  have e : 2 * Real.pi * d / (speedOfLight / fc) = 2 * Real.pi * d * fc / speedOfLight := by field_simp
  rw [e] at h2
  refine Rel.rnd hf hr (by norm_num) h2 ?_ ?_
  · unfold speedOfLight
    rw [le_div_iff₀ (by norm_num)]
    have : (1 : ℝ) ≤ 2 * Real.pi * d := by nlinarith
    nlinarith
  · unfold speedOfLight
    rw [div_le_iff₀ (by norm_num)]
    have : 2 * Real.pi * d ≤ 8 * 10 ^ 10 := by nlinarith
    nlinarith

/-- The distance of two points of the unit circle. -/
theorem circle_dist (a b : ℝ) : ‖Complex.exp (Complex.I * (a : ℂ)) - Complex.exp (Complex.I * (b : ℂ))‖ ^ 2 = 2 - 2 * Real.cos (a - b) := by
  have : Complex.exp (Complex.I * (a : ℂ)) - Complex.exp (Complex.I * (b : ℂ)) = ⟨Real.cos a - Real.cos b, Real.sin a - Real.sin b⟩ := by
    apply Complex.ext <;> simp [Complex.exp_re, Complex.exp_im]
  rw [this, ← Complex.normSq_eq_norm_sq, Complex.normSq_mk, Real.cos_sub]
  nlinarith [Real.sin_sq_add_cos_sq a, Real.sin_sq_add_cos_sq b]

theorem circle_dist_le (a b : ℝ) : ‖Complex.exp (Complex.I * (a : ℂ)) - Complex.exp (Complex.I * (b : ℂ))‖ ≤ |a - b| := by
  have h := circle_dist a b
  have c := Real.one_sub_sq_div_two_le_cos (x := a - b)
  refine abs_le_of_sq_le_sq' ?_ (abs_nonneg _) |>.2
  rw [h, sq_abs]; linarith

/-! ### C147 -/

/-- C147: the phase of the LoS path belongs to its length. -/
def C147_statement : Prop :=
  ∀ (f : Format), IEEE f → ∀ A : Arith, Nearest f A.rnd → Nearest double A.py → ∀ (tensor : Bool) (fc d : ℝ), 10 ^ 8 ≤ fc → fc ≤ 10 ^ 11 → f.Num d → 1 ≤ d →
    d ≤ 42 * 10 ^ 6 → ‖Complex.exp (Complex.I * (A.losPhase tensor fc d : ℂ)) - Complex.exp (Complex.I * (2 * Real.pi * d * fc / speedOfLight : ℝ))‖ ≤ 1 / 2

/-- C147: with exact arithmetic the phase is the one of the model. -/
theorem C147_model (tensor : Bool) (g : CoeffGen) (l : LinkTopo) (u s : ℕ) (t : ℝ) :
    losCoeff g l u s t = fieldMatrix g l l.losAoa l.losAod l.losZoa l.losZod (withFaraday g l losPhaseMatrix) u s
      * arrayOffset g l l.losAoa l.losAod l.losZoa l.losZod u s * dopplerTerm g l l.losAoa l.losZoa l.losAod l.losZod t
      * Complex.exp (Complex.I * (Arith.exact.losPhase tensor g.fc l.distance3d : ℂ)) := by cases tensor <;> rfl

/-- C147 (partial): the phase has a relative error of eight units. So the statement holds in double precision, and in single precision up to
165 000 wavelengths. From `2ᵏ` on, the phase in single precision is a multiple of `2^(k-23)`. -/
theorem C147_phase_partial (f : Format) (hf : IEEE f) (A : Arith) (hr : Nearest f A.rnd) (hp : Nearest double A.py) (tensor : Bool) (fc d : ℝ) (f1 : 10 ^ 8 ≤ fc)
    (f2 : fc ≤ 10 ^ 11) (d1 : 1 ≤ d) (d2 : d ≤ 42 * 10 ^ 6) :
    |A.losPhase tensor fc d - 2 * Real.pi * d * fc / speedOfLight| ≤ 8 * (2 : ℝ) ^ (-(f.digits : ℤ)) * (2 * Real.pi * d * fc / speedOfLight) ∧
    (f = double ∨ d * fc / speedOfLight ≤ 165000 →
      ‖Complex.exp (Complex.I * (A.losPhase tensor fc d : ℂ)) - Complex.exp (Complex.I * (2 * Real.pi * d * fc / speedOfLight : ℝ))‖ ≤ 1 / 2) ∧
    (f = single → ∀ k : ℤ, (2 : ℝ) ^ k ≤ A.losPhase tensor fc d → ∃ n : ℤ, A.losPhase tensor fc d = n * (2 : ℝ) ^ (k - 23)) := by
  have fp : 0 < fc := lt_of_lt_of_le (by norm_num) f1
  have dp : 0 < d := lt_of_lt_of_le (by norm_num) d1
  have cp : 0 < speedOfLight := by unfold speedOfLight; norm_num
  have pp := Real.pi_pos
  have ul := unit_le hf
  have up := unit_pos f
  have rel := losPhase_rel hf hr hp tensor f1 (f2.trans (by norm_num)) d1 (d2.trans (by norm_num))
  have xp : 0 < 2 * Real.pi * d * fc / speedOfLight := by positivity
  have h := rel.abs up.le (by push_cast; linarith)
  rw [abs_of_pos xp] at h
  have h' : |A.losPhase tensor fc d - 2 * Real.pi * d * fc / speedOfLight| ≤ 8 * f.unit * (2 * Real.pi * d * fc / speedOfLight) := by
    refine h.trans (le_of_eq ?_); push_cast; ring
  refine ⟨h', fun c => (circle_dist_le _ _).trans (h'.trans ?_), ?_⟩
  · have p4 := Real.pi_lt_d2
    rcases c with rfl | c
    · rw [unit_double]
      have : 2 * Real.pi * d * fc / speedOfLight ≤ 10 ^ 12 := by
        unfold speedOfLight
        rw [div_le_iff₀ (by norm_num)]
        calc 2 * Real.pi * d * fc ≤ 2 * 3.15 * (42 * 10 ^ 6) * 10 ^ 11 := by gcongr
          _ ≤ _ := by norm_num
      linarith
    · have : 2 * Real.pi * d * fc / speedOfLight = 2 * Real.pi * (d * fc / speedOfLight) := by ring
      rw [this]
      calc 8 * f.unit * (2 * Real.pi * (d * fc / speedOfLight)) ≤ 8 * (1 / 16777216) * (2 * 3.15 * 165000) := by gcongr
        _ ≤ 1 / 2 := by norm_num
  · rintro rfl k hk
    have ap : 0 < A.losPhase tensor fc d := Rel.pos (Or.inl rfl) xp rel
    have num : single.Num (A.losPhase tensor fc d) := by
      refine (hr _ ?_).1
      have h1 := Rel.rnd (Or.inl rfl) hr (k := 2) (by norm_num)
        (Rel.mul (unit_lt_one (Or.inl rfl)) (twoPi_rel (Or.inl rfl) hr hp) (Rel.refl single.unit d)) (by nlinarith [Real.pi_gt_three]) (by nlinarith [Real.pi_le_four])
      have h2 := Rel.div (unit_lt_one (Or.inl rfl)) h1 (genLambda_rel (Or.inl rfl) hr hp tensor f1 (f2.trans (by norm_num)))
      have qp : 0 < 2 * Real.pi * d / (speedOfLight / fc) := by positivity
      have b := (Rel.bounds (Or.inl rfl) (by norm_num) qp h2).2
      rw [abs_of_pos (Rel.pos (Or.inl rfl) qp h2)]
      refine lt_of_le_of_lt b (lt_trans ?_ (range_ge (Or.inl rfl)))
      have e : 2 * Real.pi * d / (speedOfLight / fc) = 2 * Real.pi * d * fc / speedOfLight := by field_simp
      rw [e]
      have : 2 * Real.pi * d * fc / speedOfLight ≤ 10 ^ 12 := by
        unfold speedOfLight
        rw [div_le_iff₀ (by norm_num)]
        calc 2 * Real.pi * d * fc ≤ 2 * 4 * (42 * 10 ^ 6) * 10 ^ 11 := by gcongr; exact Real.pi_le_four
          _ ≤ _ := by norm_num
      linarith
    obtain ⟨n, hn⟩ := num.spacing k (hk.trans (le_abs_self _))
    rw [show k - (single.digits : ℤ) + 1 = k - 23 by norm_num [single]; ring] at hn
    exact ⟨n, hn⟩

/-- The wavelength of 2 GHz in single precision, from Python numbers. -/
theorem lambda_2GHz {A : Arith} (hr : Nearest single A.rnd) (hp : Nearest double A.py) : A.lambda0 (2 * 10 ^ 9) = 10059366 * (2 : ℝ) ^ (-26 : ℤ) := by
  have p : |A.py (speedOfLight / (2 * 10 ^ 9)) - speedOfLight / (2 * 10 ^ 9)| ≤ 1 / 10 ^ 12 := by
    refine (hp.rel (by norm_num [double]) ?_ ?_).trans ?_
    · refine (tiny_le (Or.inr rfl)).trans ?_
      norm_num [speedOfLight]
    · refine lt_trans ?_ (range_ge (Or.inr rfl))
      norm_num [speedOfLight]
    · rw [show (2 : ℝ) ^ (-(double.digits : ℤ)) = double.unit from rfl, unit_double]; norm_num [speedOfLight]
  rcases abs_le.1 p with ⟨a, b⟩
  have s : speedOfLight / (2 * 10 ^ 9) = 0.149896229 := by norm_num [speedOfLight]
  rw [s] at a b
  have := hr.eval (by norm_num [single]) (x := A.py (speedOfLight / (2 * 10 ^ 9))) 10059366 (-26) (by norm_num [single]) (by norm_num [single])
    (by norm_num [single]) (by norm_num [single])
    (by refine lt_trans ?_ (range_ge (Or.inl rfl))
        rw [s, abs_lt]; constructor <;> norm_num at a b ⊢ <;> linarith)
    (by rw [s, abs_lt]; constructor <;> norm_num at a b ⊢ <;> linarith)
  simpa [Arith.lambda0] using this

/-- The speed of light in single precision. -/
theorem light_single {A : Arith} (hr : Nearest single A.rnd) : A.rnd speedOfLight = 299792448 := by
  have := hr.eval (by norm_num [single]) (x := speedOfLight) 9368514 5 (by norm_num [single]) (by norm_num [single])
    (by norm_num [single]) (by norm_num [single])
    (by refine lt_trans ?_ (range_ge (Or.inl rfl)); norm_num [speedOfLight, abs_lt])
    (by norm_num [speedOfLight, abs_lt])
  rw [this]; norm_num

/-- The wavelength of 2 GHz in single precision, from tensors. -/
theorem genLambda_2GHz {A : Arith} (hr : Nearest single A.rnd) : A.genLambda true (2 * 10 ^ 9) = 10059365 * (2 : ℝ) ^ (-26 : ℤ) := by
  have f1 : A.rnd (2 * 10 ^ 9) = 2 * 10 ^ 9 := hr.num ⟨1953125, 10, by norm_num [single], by norm_num [single], by norm_num [single], by norm_num⟩
    (by refine lt_trans ?_ (range_ge (Or.inl rfl)); norm_num [abs_lt])
  have := hr.eval (by norm_num [single]) (x := 299792448 / (2 * 10 ^ 9)) 10059365 (-26) (by norm_num [single]) (by norm_num [single])
    (by norm_num [single]) (by norm_num [single])
    (by refine lt_trans ?_ (range_ge (Or.inl rfl)); norm_num [abs_lt])
    (by norm_num [abs_lt])
  simpa [Arith.genLambda, light_single hr, f1] using this

/-- `2*PI` in single precision. -/
theorem twoPi_single {A : Arith} (hr : Nearest single A.rnd) (hp : Nearest double A.py) : A.twoPi = 13176795 * (2 : ℝ) ^ (-21 : ℤ) := by
  have p1 := Real.pi_gt_d20
  have p2 := Real.pi_lt_d20
  have p : |A.py (2 * Real.pi) - 2 * Real.pi| ≤ 1 / 10 ^ 12 := by
    refine (hp.rel (by norm_num [double]) ?_ ?_).trans ?_
    · refine (tiny_le (Or.inr rfl)).trans ?_
      rw [abs_of_pos (by positivity)]; norm_num; linarith
    · refine lt_trans ?_ (range_ge (Or.inr rfl))
      rw [abs_of_pos (by positivity)]; linarith
    · rw [show (2 : ℝ) ^ (-(double.digits : ℤ)) = double.unit from rfl, unit_double, abs_of_pos (by positivity)]; linarith
  rcases abs_le.1 p with ⟨a, b⟩
  have := hr.eval (by norm_num [single]) (x := A.py (2 * Real.pi)) 13176795 (-21) (by norm_num [single]) (by norm_num [single])
    (by norm_num [single]) (by norm_num [single])
    (by refine lt_trans ?_ (range_ge (Or.inl rfl))
        rw [abs_lt]; constructor <;> linarith)
    (by rw [abs_lt]; constructor <;> norm_num at a b p1 p2 ⊢ <;> linarith)
  simpa [Arith.twoPi] using this

/-- The phase of an LoS path of 786.432 km at 2 GHz in single precision; the exact phase is 32964791.846. -/
theorem losPhase_witness {A : Arith} (hr : Nearest single A.rnd) (hp : Nearest double A.py) : A.losPhase true (2 * 10 ^ 9) 786432 = 32964794 := by
  have e1 : A.rnd (A.twoPi * 786432) = 9882596 * (2 : ℝ) ^ (-1 : ℤ) := by
    rw [twoPi_single hr hp]
    have := hr.eval (by norm_num [single]) (x := 13176795 * (2 : ℝ) ^ (-21 : ℤ) * 786432) 9882596 (-1) (by norm_num [single]) (by norm_num [single])
      (by norm_num [single]) (by norm_num [single])
      (by refine lt_trans ?_ (range_ge (Or.inl rfl)); norm_num [abs_lt])
      (by norm_num [abs_lt])
    simpa using this
  have e2 := hr.eval (by norm_num [single]) (x := 9882596 * (2 : ℝ) ^ (-1 : ℤ) / (10059365 * (2 : ℝ) ^ (-26 : ℤ))) 16482397 1 (by norm_num [single])
      (by norm_num [single]) (by norm_num [single]) (by norm_num [single])
      (by refine lt_trans ?_ (range_ge (Or.inl rfl)); norm_num [abs_lt])
      (by norm_num [abs_lt])
  unfold Arith.losPhase
  rw [e1, genLambda_2GHz hr, e2]; norm_num

theorem exists_arith (f : Format) (hf : IEEE f) : ∃ A : Arith, Nearest f A.rnd ∧ Nearest double A.py := by
  obtain ⟨r, hr⟩ := exists_nearest f (emin_le hf)
  obtain ⟨p, hp⟩ := exists_nearest double (emin_le (Or.inr rfl))
  exact ⟨⟨r, p, Real.sin, log10⟩, hr, hp⟩

/-- C147 fails: at 2 GHz and 786.432 km single precision misses the phase by 2.15 rad. -/
theorem C147_violated : ¬ C147_statement := by
  intro h
  obtain ⟨A, hr, hp⟩ := exists_arith single (Or.inl rfl)
  have := h single (Or.inl rfl) A hr hp true (2 * 10 ^ 9) 786432 (by norm_num) (by norm_num)
    ⟨786432, 0, by norm_num [single], by norm_num [single], by norm_num [single], by norm_num⟩ (by norm_num) (by norm_num)
  rw [losPhase_witness hr hp] at this
  have d := circle_dist 32964794 (2 * Real.pi * 786432 * (2 * 10 ^ 9) / speedOfLight)
  have p1 := Real.pi_gt_d20
  have p2 := Real.pi_lt_d20
  have c : Real.cos (32964794 - 2 * Real.pi * 786432 * (2 * 10 ^ 9) / speedOfLight) ≤ 0 := by
    apply Real.cos_nonpos_of_pi_div_two_le_of_le
    · unfold speedOfLight; linarith
    · unfold speedOfLight; linarith
  have : ‖Complex.exp (Complex.I * ((32964794 : ℝ) : ℂ)) - Complex.exp (Complex.I * (2 * Real.pi * 786432 * (2 * 10 ^ 9) / speedOfLight : ℝ))‖ ^ 2 ≤
      (1 / 2) ^ 2 := pow_le_pow_left₀ (norm_nonneg _) this 2
  rw [d] at this
  linarith

/-- C147_phase_partial is satisfiable. -/
example : ∃ A : Arith, Nearest single A.rnd ∧ Nearest double A.py ∧ A.losPhase true (2 * 10 ^ 9) 786432 = 32964794 := by
  obtain ⟨A, hr, hp⟩ := exists_arith single (Or.inl rfl)
  exact ⟨A, hr, hp, losPhase_witness hr hp⟩

/-! ### C148 -/

/-- The exact phase due to movement: radial speed of the UT plus radial speed of a satellite. -/
noncomputable def Spec.dopplerPhase (fc s v t : ℝ) (satellite : Bool) : ℝ := 2 * Real.pi * fc / 299792458 * (s + if satellite then v else 0) * t

/-- C148: over ten seconds the phase due to movement stays within a tenth of a radian. -/
def C148_statement : Prop :=
  ∀ (f : Format), IEEE f → ∀ A : Arith, Nearest f A.rnd → Nearest double A.py → ∀ (tensor : Bool) (fc s v fs : ℝ) (n : ℕ) (satellite : Bool), 10 ^ 8 ≤ fc →
    fc ≤ 10 ^ 11 → f.Num s → f.Num v → |s| ≤ 1000 → |v| ≤ 8000 → 1 ≤ fs → fs ≤ 10 ^ 11 → n ≤ 2 ^ 24 → n / fs ≤ 10 →
    ‖Complex.exp (Complex.I * (A.dopplerExponent tensor fc s v (A.sampleTime fs n) satellite : ℂ))
      - Complex.exp (Complex.I * (dopplerPhase fc s v (n / fs) satellite : ℂ))‖ ≤ 1 / 10

theorem sampleTime_rel {f : Format} (hf : IEEE f) {A : Arith} (hr : Nearest f A.rnd) {fs : ℝ} {n : ℕ} (s1 : 1 ≤ fs) (s2 : fs ≤ 10 ^ 11)
    (hn : n ≤ 2 ^ 24) : Rel f.unit 2 (n / fs) (A.sampleTime fs n) := by
  have fp : 0 < fs := by linarith
  rcases Nat.eq_zero_or_pos n with rfl | np
  · have : A.sampleTime fs 0 = 0 := by unfold Arith.sampleTime; simpa using hr.zero (emin_le hf)
    rw [this]
    exact Rel.mono (unit_pos f).le (unit_lt_one hf) (k := 0) (by norm_num) (by simpa using Rel.refl f.unit 0)
  · have n1 : (1 : ℝ) ≤ n := by exact_mod_cast np
    have n2 : (n : ℝ) ≤ 2 ^ 24 := by exact_mod_cast hn
    have h := Rel.div (unit_lt_one hf) (Rel.refl f.unit (n : ℝ))
      (rnd_rel hf hr (x := fs) (by rw [abs_of_pos fp]; exact le_trans (by norm_num) s1) (by rw [abs_of_pos fp]; exact s2.trans (by norm_num)))
    refine Rel.rnd hf hr (by norm_num) h ?_ ?_
    · rw [le_div_iff₀ fp]; linarith
    · rw [div_le_iff₀ fp]; nlinarith

theorem perMetre_rel {f : Format} (hf : IEEE f) {A : Arith} (hr : Nearest f A.rnd) (hp : Nearest double A.py) (tensor : Bool) {fc : ℝ} (f1 : 10 ^ 8 ≤ fc)
    (f2 : fc ≤ 10 ^ 11) : Rel f.unit 6 (2 * Real.pi * fc / 299792458) (A.rnd (A.twoPi / A.genLambda tensor fc)) := by
  have fp : 0 < fc := lt_of_lt_of_le (by norm_num) f1
  have h := Rel.div (unit_lt_one hf) (twoPi_rel hf hr hp) (genLambda_rel hf hr hp tensor f1 (f2.trans (by norm_num)))
  have e : 2 * Real.pi / (speedOfLight / fc) = 2 * Real.pi * fc / 299792458 := by unfold speedOfLight; field_simp
  rw [e] at h
  have p3 := Real.pi_gt_three
  have p4 := Real.pi_le_four
  refine Rel.rnd hf hr (by norm_num) h ?_ ?_
  · rw [le_div_iff₀ (by norm_num)]; nlinarith
  · rw [div_le_iff₀ (by norm_num)]; nlinarith

/-- Two rounded multiplications. -/
theorem product_err {f : Format} (hf : IEEE f) {r : ℝ → ℝ} (hr : Nearest f r) {k : ℕ} (hk : k ≤ 6) {q q' s t t' : ℝ} (hq : Rel f.unit k q q') (ht : Rel f.unit 2 t t')
    (q0 : 0 < q) (q1 : q ≤ 10 ^ 6) (s1 : |s| ≤ 10 ^ 10) (t0 : 0 ≤ t) (t1 : t ≤ 10 ^ 6) :
    |r (r (q' * s) * t') - q * s * t| ≤ ((k : ℝ) + 6) * f.unit * |q * s * t| + 1 / 10 ^ 30 := by
  have u1 := unit_lt_one hf
  have up := unit_pos f
  have ul := unit_le hf
  have y := Rel.mul u1 (Rel.mul u1 hq (Rel.refl f.unit s)) ht
  have kr : (k : ℝ) ≤ 6 := by exact_mod_cast hk
  have k0 : (0 : ℝ) ≤ k := by positivity
  have yx := y.abs up.le (by
    push_cast
    calc ((k : ℝ) + 0 + 2) * (k + 0 + 2 + 1) * f.unit ≤ (6 + 0 + 2) * (6 + 0 + 2 + 1) * (1 / 16777216) := by gcongr
      _ ≤ 1 := by norm_num)
  push_cast at yx
  obtain ⟨qa, qb⟩ := Rel.bounds hf (by omega) q0 hq
  have t'b : 0 ≤ t' ∧ t' ≤ 2 * 10 ^ 6 := by
    rcases eq_or_lt_of_le t0 with e | tp
    · obtain ⟨w, _, _, rfl⟩ := ht; rw [← e]; norm_num
    · obtain ⟨a, b⟩ := Rel.bounds hf (by norm_num) tp ht
      exact ⟨by linarith, by linarith⟩
  obtain ⟨t'0, t'1⟩ := t'b
  have q'0 : 0 < q' := by linarith
  have a1 : |q' * s| ≤ 2 * 10 ^ 16 := by
    rw [abs_mul, abs_of_pos q'0]
    calc q' * |s| ≤ (2 * 10 ^ 6) * 10 ^ 10 := by gcongr; linarith
      _ = _ := by norm_num
  have e1 := rnd_err hf hr (x := q' * s) (a1.trans (by norm_num))
  set a := q' * s
  set η : ℝ := (2 : ℝ) ^ (-126 : ℤ) with hη
  have ηs : η ≤ 1 / 10 ^ 37 := by rw [hη]; norm_num
  have η0 : 0 < η := by rw [hη]; positivity
  set Y := a * t'
  set X := q * s * t
  have b1 : |r a * t' - Y| ≤ f.unit * |Y| + η * t' := by
    rw [show r a * t' - Y = (r a - a) * t' by ring, abs_mul, abs_of_nonneg t'0, show |Y| = |a| * t' by rw [abs_mul, abs_of_nonneg t'0]]
    calc |r a - a| * t' ≤ (f.unit * |a| + η) * t' := by gcongr
      _ = _ := by ring
  have Yb : |Y| ≤ |X| + |Y - X| := by
    have := abs_add_le X (Y - X)
    rwa [add_sub_cancel] at this
  have bb : |r a * t'| ≤ |Y| + |r a * t' - Y| := by
    have := abs_add_le Y (r a * t' - Y)
    rwa [add_sub_cancel] at this
  have ηt : η * t' ≤ 2 / 10 ^ 31 := by
    calc η * t' ≤ 1 / 10 ^ 37 * (2 * 10 ^ 6) := by gcongr
      _ = _ := by norm_num
  have uX : f.unit * |X| ≤ 1 / 16777216 * |X| := by gcongr
  have uY : f.unit * |Y| ≤ 1 / 16777216 * |Y| := by gcongr
  have Ys : |Y| ≤ 2 * 10 ^ 16 * (2 * 10 ^ 6) := by rw [abs_mul, abs_of_nonneg t'0]; gcongr
  have X0 := abs_nonneg X
  have e2 := rnd_err hf hr (x := r a * t') (by
    have : η * t' ≤ 1 := ηt.trans (by norm_num)
    have : |r a * t'| ≤ 2 * (2 * 10 ^ 16 * (2 * 10 ^ 6)) + 1 := by linarith
    exact this.trans (by norm_num))
  rw [← hη] at e2
  have tri : |r (r a * t') - X| ≤ |r (r a * t') - r a * t'| + |r a * t' - Y| + |Y - X| := by
    have := abs_add_three (r (r a * t') - r a * t') (r a * t' - Y) (Y - X)
    rwa [show r (r a * t') - r a * t' + (r a * t' - Y) + (Y - X) = r (r a * t') - X by ring] at this
  have kX : (k : ℝ) * (f.unit * |X|) ≤ 6 * (f.unit * |X|) := mul_le_mul_of_nonneg_right kr (mul_nonneg up.le X0)
  have hY : |Y| ≤ (1 + 9 * f.unit) * |X| := by linarith
  have ub : f.unit * |r a * t'| ≤ f.unit * (|Y| + (f.unit * |Y| + η * t')) := by gcongr; linarith
  have uY' : f.unit * |Y| ≤ f.unit * ((1 + 9 * f.unit) * |X|) := by gcongr
  have k1 : f.unit * ((1 + 9 * f.unit) * |X|) ≤ 1.1 * f.unit * |X| := by
    have : 1 + 9 * f.unit ≤ 1.1 := by linarith
    calc f.unit * ((1 + 9 * f.unit) * |X|) ≤ f.unit * (1.1 * |X|) := by gcongr
      _ = _ := by ring
  have k2 : f.unit * (f.unit * |Y|) ≤ 0.1 * f.unit * |X| := by
    calc f.unit * (f.unit * |Y|) ≤ (1 / 16777216) * (1.1 * f.unit * |X|) := mul_le_mul ul (uY'.trans k1) (by positivity) (by norm_num)
      _ ≤ 0.1 * f.unit * |X| := by nlinarith [mul_nonneg up.le X0]
  have k3 : f.unit * (η * t') ≤ 1 * (2 / 10 ^ 31) := by gcongr
  have fin : |r (r a * t') - X| ≤ ((k : ℝ) + 6) * f.unit * |X| + (f.unit * (η * t') + η * t' + η) := by
    generalize |r (r a * t') - X| = z0 at *
    generalize |r (r a * t') - r a * t'| = z1 at *
    generalize |r a * t' - Y| = z2 at *
    generalize |r a * t'| = z3 at *
    generalize |Y - X| = z4 at *
    generalize η * t' = z5 at *
    have : 0 ≤ f.unit * |X| := mul_nonneg up.le X0
    have e3 : f.unit * (|Y| + (f.unit * |Y| + z5)) = f.unit * |Y| + f.unit * (f.unit * |Y|) + f.unit * z5 := by ring
    linarith
  refine fin.trans ?_
  have : f.unit * (η * t') + η * t' + η ≤ 1 / 10 ^ 30 := by
    calc f.unit * (η * t') + η * t' + η ≤ 1 * (2 / 10 ^ 31) + 2 / 10 ^ 31 + 1 / 10 ^ 37 := by gcongr
      _ ≤ 1 / 10 ^ 30 := by norm_num
  gcongr

/-- C148 (partial): the phase due to movement has an error of 14 units of the rotation. So the statement holds in double precision, and in
single precision as long as both movements together rotate the phase by at most 119 000 rad. -/
theorem C148_phase_partial (f : Format) (hf : IEEE f) (A : Arith) (hr : Nearest f A.rnd) (hp : Nearest double A.py) (tensor : Bool) (fc s v fs : ℝ) (n : ℕ)
    (satellite : Bool) (f1 : 10 ^ 8 ≤ fc) (f2 : fc ≤ 10 ^ 11) (hs : |s| ≤ 1000) (hv : |v| ≤ 8000) (fs1 : 1 ≤ fs) (fs2 : fs ≤ 10 ^ 11)
    (hn : n ≤ 2 ^ 24) (ht : n / fs ≤ 10) :
    let rotation := 2 * Real.pi * fc / 299792458 * (|s| + if satellite then |v| else 0) * (n / fs)
    |A.dopplerExponent tensor fc s v (A.sampleTime fs n) satellite - dopplerPhase fc s v (n / fs) satellite| ≤
      14 * (2 : ℝ) ^ (-(f.digits : ℤ)) * rotation + 1 / 10 ^ 29 ∧
    (f = double ∨ rotation ≤ 119000 →
      ‖Complex.exp (Complex.I * (A.dopplerExponent tensor fc s v (A.sampleTime fs n) satellite : ℂ))
        - Complex.exp (Complex.I * (dopplerPhase fc s v (n / fs) satellite : ℂ))‖ ≤ 1 / 10) := by
  intro rotation
  have up := unit_pos f
  have ul := unit_le hf
  have fp : 0 < fc := lt_of_lt_of_le (by norm_num) f1
  have fsp : 0 < fs := by linarith
  have p3 := Real.pi_gt_three
  have p4 := Real.pi_le_four
  have hq := perMetre_rel hf hr hp tensor f1 f2
  have htr := sampleTime_rel hf hr fs1 fs2 hn
  set q := 2 * Real.pi * fc / 299792458 with qd
  set t : ℝ := n / fs with td
  have q0 : 0 < q := by positivity
  have q1 : q ≤ 10 ^ 4 := by
    rw [qd, div_le_iff₀ (by norm_num)]; nlinarith
  have t0 : 0 ≤ t := by positivity
  have ps := product_err hf hr le_rfl hq htr q0 (q1.trans (by norm_num)) (hs.trans (by norm_num)) t0 (ht.trans (by norm_num))
  rw [show (((6 : ℕ) : ℝ) + 6) = 12 by norm_num] at ps
  have pv := product_err hf hr le_rfl hq htr q0 (q1.trans (by norm_num)) (hv.trans (by norm_num)) t0 (ht.trans (by norm_num))
  rw [show (((6 : ℕ) : ℝ) + 6) = 12 by norm_num] at pv
  have rb : rotation ≤ 10 ^ 9 := by
    have : (|s| + if satellite then |v| else 0) ≤ 9000 := by
      cases satellite <;> simp <;> linarith
    calc rotation ≤ 10 ^ 4 * 9000 * 10 := by show q * _ * t ≤ _; gcongr
      _ ≤ 10 ^ 9 := by norm_num
  have r0 : 0 ≤ rotation := by
    have : (0 : ℝ) ≤ (|s| + if satellite then |v| else 0) := by
      cases satellite <;> simp <;> positivity
    exact mul_nonneg (mul_nonneg q0.le this) t0
  have main : |A.dopplerExponent tensor fc s v (A.sampleTime fs n) satellite - dopplerPhase fc s v t satellite| ≤ 14 * f.unit * rotation + 1 / 10 ^ 29 := by
    have as : |q * s * t| = q * |s| * t := by rw [abs_mul, abs_mul, abs_of_pos q0, abs_of_nonneg t0]
    have av : |q * v * t| = q * |v| * t := by rw [abs_mul, abs_mul, abs_of_pos q0, abs_of_nonneg t0]
    cases satellite with
    | false =>
      have e : dopplerPhase fc s v t false = q * s * t := by simp [Spec.dopplerPhase, qd]
      have er : rotation = q * |s| * t := by simp [rotation, qd, td]
      rw [e]
      have ee : A.dopplerExponent tensor fc s v (A.sampleTime fs n) false = A.rnd (A.rnd (A.rnd (A.twoPi / A.genLambda tensor fc) * s) * A.sampleTime fs n) := by
        simp [Arith.dopplerExponent]
      rw [ee]
      rw [as, ← er] at ps
      nlinarith [mul_nonneg up.le r0]
    | true =>
      have e : dopplerPhase fc s v t true = q * s * t + q * v * t := by simp [Spec.dopplerPhase, qd]; ring
      have er : rotation = q * |s| * t + q * |v| * t := by simp [rotation, qd, td]; ring
      have ee : A.dopplerExponent tensor fc s v (A.sampleTime fs n) true = A.rnd (A.rnd (A.rnd (A.rnd (A.twoPi / A.genLambda tensor fc) * s) * A.sampleTime fs n)
          + A.rnd (A.rnd (A.rnd (A.twoPi / A.genLambda tensor fc) * v) * A.sampleTime fs n)) := by
        simp [Arith.dopplerExponent]
      rw [e, ee]
      rw [as] at ps
      rw [av] at pv
      set E := A.rnd (A.rnd (A.rnd (A.twoPi / A.genLambda tensor fc) * s) * A.sampleTime fs n)
      set V := A.rnd (A.rnd (A.rnd (A.twoPi / A.genLambda tensor fc) * v) * A.sampleTime fs n)
      have sum : |E + V - (q * s * t + q * v * t)| ≤ 12 * f.unit * rotation + 2 / 10 ^ 30 := by
        have := abs_add_le (E - q * s * t) (V - q * v * t)
        rw [show E - q * s * t + (V - q * v * t) = E + V - (q * s * t + q * v * t) by ring] at this
        rw [er]; linarith
      have exact : |q * s * t + q * v * t| ≤ rotation := by
        refine (abs_add_le _ _).trans ?_
        rw [as, av, er]
      have size : |E + V| ≤ rotation + (12 * f.unit * rotation + 2 / 10 ^ 30) := by
        have := abs_add_le (q * s * t + q * v * t) (E + V - (q * s * t + q * v * t))
        rw [add_sub_cancel] at this
        linarith
      have ur : f.unit * rotation ≤ 1 / 16777216 * rotation := by gcongr
      have err := rnd_err hf hr (x := E + V) (by linarith)
      have tri := abs_add_le (A.rnd (E + V) - (E + V)) (E + V - (q * s * t + q * v * t))
      rw [show A.rnd (E + V) - (E + V) + (E + V - (q * s * t + q * v * t)) = A.rnd (E + V) - (q * s * t + q * v * t) by ring] at tri
      have us : f.unit * |E + V| ≤ f.unit * (rotation + (12 * f.unit * rotation + 2 / 10 ^ 30)) := by gcongr
      have k1 : f.unit * (12 * f.unit * rotation) ≤ 1 / 16777216 * (12 * f.unit * rotation) := by gcongr
      have tiny : (2 : ℝ) ^ (-126 : ℤ) ≤ 1 / 10 ^ 37 := by norm_num
      generalize (2 : ℝ) ^ (-126 : ℤ) = η at *
      have k2 : f.unit * (2 / 10 ^ 30) ≤ 1 * (2 / 10 ^ 30) := by gcongr; exact (unit_lt_one hf).le
      have e3 : f.unit * (rotation + (12 * f.unit * rotation + 2 / 10 ^ 30)) = f.unit * rotation + f.unit * (12 * f.unit * rotation)
          + f.unit * (2 / 10 ^ 30) := by ring
      have k3 : 1 / 16777216 * (12 * f.unit * rotation) ≤ f.unit * rotation := by nlinarith [mul_nonneg up.le r0]
      have fin : |A.rnd (E + V) - (q * s * t + q * v * t)| ≤ 14 * (f.unit * rotation) + (2 / 10 ^ 30 + 2 / 10 ^ 30 + η) := by linarith
      have : (2 : ℝ) / 10 ^ 30 + 2 / 10 ^ 30 + η ≤ 1 / 10 ^ 29 := by
        calc (2 : ℝ) / 10 ^ 30 + 2 / 10 ^ 30 + η ≤ 2 / 10 ^ 30 + 2 / 10 ^ 30 + 1 / 10 ^ 37 := by gcongr
          _ ≤ _ := by norm_num
      calc _ ≤ _ := fin
        _ ≤ 14 * (f.unit * rotation) + 1 / 10 ^ 29 := by gcongr
        _ = _ := by ring
  refine ⟨main, fun c => (circle_dist_le _ _).trans (main.trans ?_)⟩
  rcases c with rfl | c
  · rw [unit_double]; linarith
  · have : f.unit * rotation ≤ 1 / 16777216 * 119000 := by gcongr
    linarith

/-- C148: with exact arithmetic the phase is the one of the model. -/
theorem C148_model (tensor : Bool) (g : CoeffGen) (l : LinkTopo) (aoa zoa aod zod t : ℝ) :
    dopplerExponent g l aoa zoa aod zod t =
      Arith.exact.dopplerExponent tensor g.fc (∑ k, (if l.movingRx then unitSphere zoa aoa else unitSphere zod aod) k * l.velocity k) l.satSpeed t
        (decide (600000 ≤ l.bsHeight ∧ l.doppler = true)) := by
  by_cases h : 600000 ≤ l.bsHeight ∧ l.doppler = true
  · simp [dopplerExponent, Arith.dopplerExponent, Arith.exact, Arith.twoPi, Arith.genLambda, Arith.lambda0, CoeffGen.lambda0, h]
  · simp only [dopplerExponent, Arith.dopplerExponent, Arith.exact, Arith.twoPi, Arith.genLambda, Arith.lambda0, CoeffGen.lambda0, h, if_false, decide_false, id]
    simp

/-- The wavelength of 20 GHz in single precision, from tensors. -/
theorem genLambda_20GHz {A : Arith} (hr : Nearest single A.rnd) : A.genLambda true (20 * 10 ^ 9) = 16094984 * (2 : ℝ) ^ (-30 : ℤ) := by
  have f1 : A.rnd (20 * 10 ^ 9) = 20 * 10 ^ 9 := hr.num ⟨9765625, 11, by norm_num [single], by norm_num [single], by norm_num [single], by norm_num⟩
    (by refine lt_trans ?_ (range_ge (Or.inl rfl)); norm_num [abs_lt])
  have := hr.eval (by norm_num [single]) (x := 299792448 / (20 * 10 ^ 9)) 16094984 (-30) (by norm_num [single]) (by norm_num [single])
    (by norm_num [single]) (by norm_num [single])
    (by refine lt_trans ?_ (range_ge (Or.inl rfl)); norm_num [abs_lt])
    (by norm_num [abs_lt])
  simpa [Arith.genLambda, light_single hr, f1] using this

/-- The phase after ten seconds at 20 GHz with a radial speed of the satellite of 4096 m/s; the exact phase is 17169162.42. -/
theorem doppler_witness {A : Arith} (hr : Nearest single A.rnd) (hp : Nearest double A.py) :
    A.dopplerExponent true (20 * 10 ^ 9) 0 4096 (A.sampleTime 16384 163840) true = 17169164 := by
  have z : A.rnd 0 = 0 := hr.zero (by norm_num [single])
  have f1 : A.rnd 16384 = 16384 := hr.num ⟨16384, 0, by norm_num [single], by norm_num [single], by norm_num [single], by norm_num⟩
    (by refine lt_trans ?_ (range_ge (Or.inl rfl)); norm_num [abs_lt])
  have f2 : A.rnd 10 = 10 := hr.num ⟨10, 0, by norm_num [single], by norm_num [single], by norm_num [single], by norm_num⟩
    (by refine lt_trans ?_ (range_ge (Or.inl rfl)); norm_num [abs_lt])
  have t : A.sampleTime 16384 163840 = 10 := by unfold Arith.sampleTime; rw [f1]; norm_num [f2]
  have q : A.rnd (A.twoPi / A.genLambda true (20 * 10 ^ 9)) = 13735331 * (2 : ℝ) ^ (-15 : ℤ) := by
    rw [twoPi_single hr hp, genLambda_20GHz hr]
    have := hr.eval (by norm_num [single]) (x := 13176795 * (2 : ℝ) ^ (-21 : ℤ) / (16094984 * (2 : ℝ) ^ (-30 : ℤ))) 13735331 (-15)
      (by norm_num [single]) (by norm_num [single]) (by norm_num [single]) (by norm_num [single])
      (by refine lt_trans ?_ (range_ge (Or.inl rfl)); norm_num [abs_lt])
      (by norm_num [abs_lt])
    simpa using this
  have w : A.rnd (13735331 * (2 : ℝ) ^ (-15 : ℤ) * 4096) = 13735331 * (2 : ℝ) ^ (-3 : ℤ) := by
    have := hr.eval (by norm_num [single]) (x := 13735331 * (2 : ℝ) ^ (-15 : ℤ) * 4096) 13735331 (-3)
      (by norm_num [single]) (by norm_num [single]) (by norm_num [single]) (by norm_num [single])
      (by refine lt_trans ?_ (range_ge (Or.inl rfl)); norm_num [abs_lt])
      (by norm_num)
    simpa using this
  have y : A.rnd (13735331 * (2 : ℝ) ^ (-3 : ℤ) * 10) = 17169164 := by
    have := hr.eval (by norm_num [single]) (x := 13735331 * (2 : ℝ) ^ (-3 : ℤ) * 10) 8584582 1
      (by norm_num [single]) (by norm_num [single]) (by norm_num [single]) (by norm_num [single])
      (by refine lt_trans ?_ (range_ge (Or.inl rfl)); norm_num [abs_lt])
      (by norm_num [abs_lt])
    rw [this]; norm_num
  have x : A.rnd 17169164 = 17169164 := by
    have := hr.eval (by norm_num [single]) (x := 17169164) 8584582 1
      (by norm_num [single]) (by norm_num [single]) (by norm_num [single]) (by norm_num [single])
      (by refine lt_trans ?_ (range_ge (Or.inl rfl)); norm_num [abs_lt])
      (by norm_num)
    rw [this]; norm_num
  unfold Arith.dopplerExponent
  simp only [t, q, mul_zero, z, zero_mul, zero_add, if_true, w, y, x]

/-- C148 fails: at 20 GHz, with a radial speed of 4096 m/s, the phase in single precision is off by 1.58 rad after ten seconds. -/
theorem C148_violated : ¬ C148_statement := by
  intro h
  obtain ⟨A, hr, hp⟩ := exists_arith single (Or.inl rfl)
  have := h single (Or.inl rfl) A hr hp true (20 * 10 ^ 9) 0 4096 16384 163840 true (by norm_num) (by norm_num)
    (Spec.Format.num_zero (by norm_num [single]))
    ⟨4096, 0, by norm_num [single], by norm_num [single], by norm_num [single], by norm_num⟩
    (by norm_num) (by norm_num) (by norm_num) (by norm_num) (by norm_num) (by norm_num)
  rw [doppler_witness hr hp] at this
  have e : Spec.dopplerPhase (20 * 10 ^ 9) 0 4096 ((163840 : ℕ) / 16384) true = 2 * Real.pi * (20 * 10 ^ 9) / 299792458 * 4096 * 10 := by
    unfold Spec.dopplerPhase; norm_num
  rw [e] at this
  have d := circle_dist 17169164 (2 * Real.pi * (20 * 10 ^ 9) / 299792458 * 4096 * 10)
  have p1 := Real.pi_gt_d20
  have p2 := Real.pi_lt_d20
  set x := 17169164 - 2 * Real.pi * (20 * 10 ^ 9) / 299792458 * 4096 * 10 with xd
  have x1 : 1.57 ≤ x := by rw [xd]; linarith
  have x2 : x ≤ 1.59 := by rw [xd]; linarith
  have c := Real.cos_le_one_sub_mul_cos_sq (x := x) (by rw [abs_le]; constructor <;> linarith)
  have sq : (0.16 : ℝ) ≤ x ^ 2 := by nlinarith
  have k : 2 / 10 * (0.16 : ℝ) ≤ 2 / Real.pi ^ 2 * x ^ 2 := by
    have : 2 / 10 ≤ 2 / Real.pi ^ 2 := by
      apply div_le_div_of_nonneg_left (by norm_num) (by positivity); nlinarith
    gcongr
  have := pow_le_pow_left₀ (norm_nonneg _) this 2
  rw [d] at this
  norm_num at this k
  linarith

/-- C148_phase_partial is satisfiable. -/
example : ∃ A : Arith, Nearest single A.rnd ∧ Nearest double A.py ∧ A.dopplerExponent true (20 * 10 ^ 9) 0 4096 (A.sampleTime 16384 163840) true = 17169164 := by
  obtain ⟨A, hr, hp⟩ := exists_arith single (Or.inl rfl)
  exact ⟨A, hr, hp, doppler_witness hr hp⟩

end OpenNTN
