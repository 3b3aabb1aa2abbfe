import Verif.Props.Rounding
import Verif.Model.Scenario

/-
The comparison of the carrier frequencies of scenario and arrays, which compares rounded wavelengths.
-/
namespace OpenNTN

open Spec

/-- C168: a scenario accepts arrays that were made for its carrier frequency, and no others. -/
def C168_statement : Prop :=
  ∀ (f : Format), IEEE f → ∀ A : Arith, Nearest f A.rnd → Nearest double A.py → ∀ fc fu fb : ℝ, double.Num fc → double.Num fu → double.Num fb →
    10 ^ 8 ≤ fc → fc ≤ 10 ^ 11 → 10 ^ 8 ≤ fu → fu ≤ 10 ^ 11 → 10 ^ 8 ≤ fb → fb ≤ 10 ^ 11 → (A.wavelengthsMatch fc fu fb ↔ fu = fc ∧ fb = fc)

/-- C168: with exact arithmetic the comparison is the one of the model of the constructor, for arrays from `panelFor`. -/
theorem C168_model (fc fu fb : ℝ) :
    Arith.exact.wavelengthsMatch fc fu fb ↔
      ∃ ul bl, panelFor fu = .panel ul ∧ panelFor fb = .panel bl ∧ ul = bl ∧ bl = speedOfLight / fc := by
  unfold Arith.wavelengthsMatch Arith.lambda0 Arith.exact panelFor
  constructor
  · rintro ⟨h1, h2⟩
    exact ⟨_, _, rfl, rfl, h1, h2⟩
  · rintro ⟨ul, bl, h1, h2, h3, h4⟩
    cases h1; cases h2
    exact ⟨h3, h4⟩

/-- Equal rounded wavelengths come from nearly equal frequencies. -/
theorem lambda_eq {f : Format} (hf : IEEE f) {A : Arith} (hr : Nearest f A.rnd) (hp : Nearest double A.py) {a b : ℝ} (a1 : 10 ^ 8 ≤ a)
    (a2 : a ≤ 10 ^ 11) (b1 : 10 ^ 8 ≤ b) (b2 : b ≤ 10 ^ 11) (e : A.lambda0 a = A.lambda0 b) : |a - b| ≤ 7 * f.unit * b := by
  have ap : 0 < a := lt_of_lt_of_le (by norm_num) a1
  have bp : 0 < b := lt_of_lt_of_le (by norm_num) b1
  have cp : 0 < speedOfLight := by unfold speedOfLight; norm_num
  have ul := unit_le hf
  have up := unit_pos f
  have ra := (lambda_rel hf hr hp a1 (a2.trans (by norm_num))).abs up.le (by push_cast; linarith)
  have rb := (lambda_rel hf hr hp b1 (b2.trans (by norm_num))).abs up.le (by push_cast; linarith)
  rw [abs_of_pos (show 0 < speedOfLight / a by positivity)] at ra
  rw [abs_of_pos (show 0 < speedOfLight / b by positivity)] at rb
  rw [e] at ra
  push_cast at ra rb
  have x : |speedOfLight / a - speedOfLight / b| ≤ 3 * f.unit * (speedOfLight / a) + 3 * f.unit * (speedOfLight / b) := by
    calc _ = |(A.lambda0 b - speedOfLight / b) - (A.lambda0 b - speedOfLight / a)| := by congr 1; ring
      _ ≤ _ := abs_sub _ _
      _ ≤ _ := by linarith
  have y : speedOfLight / a - speedOfLight / b = speedOfLight / (a * b) * (b - a) := by field_simp
  rw [y, abs_mul, abs_of_pos (by positivity), abs_sub_comm] at x
  have z : 3 * f.unit * (speedOfLight / a) + 3 * f.unit * (speedOfLight / b) = speedOfLight / (a * b) * (3 * f.unit * (a + b)) := by
    field_simp; ring
  rw [z] at x
  have x' := le_of_mul_le_mul_left x (by positivity)
  rcases abs_le.1 x' with ⟨l, r⟩
  rw [abs_le]
  constructor
  · nlinarith
  · have : a * (1 - 3 * f.unit) ≤ b * (1 + 3 * f.unit) := by linarith
    have : a ≤ b * (1 + 7 * f.unit) := by
      have q : b * (1 + 3 * f.unit) ≤ b * (1 + 7 * f.unit) * (1 - 3 * f.unit) := by
        rw [mul_assoc]
        refine mul_le_mul_of_nonneg_left ?_ bp.le
        nlinarith
      exact le_of_mul_le_mul_right (this.trans q) (by linarith)
    linarith

/-- C168 (partial): equal frequencies are accepted, and accepted frequencies agree up to seven units of rounding: `4.2·10⁻⁷` of the frequency in
single precision and `7.8·10⁻¹⁶` in double precision. -/
theorem C168_match_partial (f : Format) (hf : IEEE f) (A : Arith) (hr : Nearest f A.rnd) (hp : Nearest double A.py) (fc fu fb : ℝ)
    (c1 : 10 ^ 8 ≤ fc) (c2 : fc ≤ 10 ^ 11) (u1 : 10 ^ 8 ≤ fu) (u2 : fu ≤ 10 ^ 11) (b1 : 10 ^ 8 ≤ fb) (b2 : fb ≤ 10 ^ 11) :
    (fu = fc → fb = fc → A.wavelengthsMatch fc fu fb) ∧
    (A.wavelengthsMatch fc fu fb → |fu - fc| ≤ 7 * (2 : ℝ) ^ (-(f.digits : ℤ)) * fc ∧ |fb - fc| ≤ 7 * (2 : ℝ) ^ (-(f.digits : ℤ)) * fc) := by
  refine ⟨?_, fun ⟨e1, e2⟩ => ⟨lambda_eq hf hr hp u1 u2 c1 c2 (e1.trans e2), lambda_eq hf hr hp b1 b2 c1 c2 e2⟩⟩
  rintro rfl rfl
  exact ⟨rfl, rfl⟩

/-- The wavelength of 2 GHz + 1 Hz in single precision is that of 2 GHz. -/
theorem lambda_2GHz_next {A : Arith} (hr : Nearest single A.rnd) (hp : Nearest double A.py) :
    A.lambda0 (2 * 10 ^ 9 + 1) = 10059366 * (2 : ℝ) ^ (-26 : ℤ) := by
  have p : |A.py (speedOfLight / (2 * 10 ^ 9 + 1)) - speedOfLight / (2 * 10 ^ 9 + 1)| ≤ 1 / 10 ^ 12 := by
    refine (hp.rel (by norm_num [double]) ?_ ?_).trans ?_
    · refine (tiny_le (Or.inr rfl)).trans ?_
      norm_num [speedOfLight]
    · refine lt_trans ?_ (range_ge (Or.inr rfl))
      norm_num [speedOfLight]
    · rw [show (2 : ℝ) ^ (-(double.digits : ℤ)) = double.unit from rfl, unit_double]; norm_num [speedOfLight]
  rcases abs_le.1 p with ⟨a, b⟩
  have s1 : (0.1498962288 : ℝ) ≤ speedOfLight / (2 * 10 ^ 9 + 1) := by norm_num [speedOfLight]
  have s2 : speedOfLight / (2 * 10 ^ 9 + 1) ≤ (0.149896229 : ℝ) := by norm_num [speedOfLight]
  have := hr.eval (by norm_num [single]) (x := A.py (speedOfLight / (2 * 10 ^ 9 + 1))) 10059366 (-26) (by norm_num [single]) (by norm_num [single])
    (by norm_num [single]) (by norm_num [single])
    (by refine lt_trans ?_ (range_ge (Or.inl rfl))
        rw [abs_lt]; constructor <;> norm_num at a b s1 s2 ⊢ <;> linarith)
    (by rw [abs_lt]; constructor <;> norm_num at a b s1 s2 ⊢ <;> linarith)
  simpa [Arith.lambda0] using this

/-- C168 fails: in single precision a scenario at 2 GHz accepts arrays for 2 GHz + 1 Hz. -/
theorem C168_violated : ¬ C168_statement := by
  intro h
  obtain ⟨A, hr, hp⟩ := exists_arith single (Or.inl rfl)
  have n0 : double.Num (2 * 10 ^ 9) := ⟨2 * 10 ^ 9, 0, by norm_num [double], by norm_num [double], by norm_num [double], by norm_num⟩
  have n1 : double.Num (2 * 10 ^ 9 + 1) := ⟨2 * 10 ^ 9 + 1, 0, by norm_num [double], by norm_num [double], by norm_num [double], by norm_num⟩
  have := (h single (Or.inl rfl) A hr hp (2 * 10 ^ 9) (2 * 10 ^ 9 + 1) (2 * 10 ^ 9 + 1) n0 n1 n1 (by norm_num) (by norm_num) (by norm_num)
    (by norm_num) (by norm_num) (by norm_num)).1 ⟨rfl, (lambda_2GHz_next hr hp).trans (lambda_2GHz hr hp).symm⟩
  exact absurd this.1 (by norm_num)

/-- C168_match_partial is satisfiable with different frequencies. -/
example : ∃ A : Arith, Nearest single A.rnd ∧ Nearest double A.py ∧ A.wavelengthsMatch (2 * 10 ^ 9) (2 * 10 ^ 9 + 1) (2 * 10 ^ 9) := by
  obtain ⟨A, hr, hp⟩ := exists_arith single (Or.inl rfl)
  exact ⟨A, hr, hp, (lambda_2GHz_next hr hp).trans (lambda_2GHz hr hp).symm, rfl⟩

/-- Frequencies that are a kilohertz apart are told apart. -/
example (A : Arith) (hr : Nearest single A.rnd) (hp : Nearest double A.py) : ¬ A.wavelengthsMatch (2 * 10 ^ 9) (2 * 10 ^ 9 + 1000) (2 * 10 ^ 9) := fun h => by
  have := ((C168_match_partial single (Or.inl rfl) A hr hp (2 * 10 ^ 9) (2 * 10 ^ 9 + 1000) (2 * 10 ^ 9) (by norm_num) (by norm_num) (by norm_num)
    (by norm_num) (by norm_num) (by norm_num)).2 h).1
  norm_num [single] at this

end OpenNTN
