import Mathlib.Analysis.SpecialFunctions.Trigonometric.Basic
import Mathlib.Analysis.SpecialFunctions.Log.Base

/-
Independent specification of floating point formats and of rounding to nearest (IEEE 754, without infinities and NaN).
-/
namespace OpenNTN.Spec

/-- A binary format: number of significant bits, exponents of the last bit. -/
structure Format where
  digits : ℕ
  emin : ℤ
  emax : ℤ

/-- Single precision. -/
def single : Format := ⟨24, -149, 104⟩

/-- Double precision. -/
def double : Format := ⟨53, -1074, 971⟩

/-- `x` is a finite number of the format. -/
def Format.Num (f : Format) (x : ℝ) : Prop :=
  ∃ m e : ℤ, |m| < 2 ^ f.digits ∧ f.emin ≤ e ∧ e ≤ f.emax ∧ x = m * (2 : ℝ) ^ e

/-- Below half of this power of two and the largest number nothing overflows. -/
noncomputable def Format.range (f : Format) : ℝ := (2 : ℝ) ^ (f.emax + f.digits - 1)

/-- `rnd` rounds to a nearest number of the format; the choice between two equally near numbers is left open. -/
def Nearest (f : Format) (rnd : ℝ → ℝ) : Prop :=
  ∀ x, |x| < f.range → f.Num (rnd x) ∧ ∀ y, f.Num y → |rnd x - x| ≤ |y - x|

/-- The sine of the library is accurate to `2⁻²³` on the first quadrant. -/
def AccurateSin (sin : ℝ → ℝ) : Prop := ∀ x, 0 ≤ x → x ≤ 1.6 → |sin x - Real.sin x| ≤ (2 : ℝ) ^ (-23 : ℤ)

/-- The decadic logarithm of the library has a relative error of at most `2⁻²¹`. -/
def AccurateLog (log : ℝ → ℝ) : Prop := ∀ x, 0 < x → |log x - Real.logb 10 x| ≤ (2 : ℝ) ^ (-21 : ℤ) * |Real.logb 10 x|

end OpenNTN.Spec
