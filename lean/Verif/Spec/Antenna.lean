import Mathlib.Data.Nat.Basic
import Mathlib.Data.Real.Basic

/- Vocabulary for the antenna array properties. -/
namespace OpenNTN.Spec

/-- Number of the element in row `i` and column `j` of polarization `q` in the panel in panel row `pi` and panel column `pj`: elements are
counted down the rows first, then the columns, then the polarizations, then panel rows, then panel columns. -/
def elementIndex (rows cols pols panelRows : ℕ) (pj pi q j i : ℕ) : ℕ :=
  (((pj * panelRows + pi) * pols + q) * cols + j) * rows + i

/-- The combinations of polarization, polarization type and element pattern of the documentation of `PanelArray`. -/
def DocumentedArray (polarization polarizationType pattern : String) : Prop :=
  (polarization = "single" ∧ (polarizationType = "V" ∨ polarizationType = "H") ∨
    polarization = "dual" ∧ (polarizationType = "VH" ∨ polarizationType = "cross")) ∧
  (pattern = "omni" ∨ pattern = "38.901" ∨ pattern = "aperture" ∨ pattern = "dlp")

/-- A spacing of elements in wavelengths; half a wavelength if it is not given. -/
noncomputable def spacingOr : Option ℝ → ℝ
  | none => 1 / 2
  | some d => d

/-- A panel spacing, if given, exceeds the extent of a panel with `n` elements in a row. -/
def PanelsApart (panel element : Option ℝ) (n : ℕ) : Prop :=
  ∀ D, panel = some D → ((n : ℝ) - 1) * spacingOr element < D

/-- Distance of neighbouring panels in wavelengths: half a wavelength more than the extent of a panel of `n` elements unless given. -/
noncomputable def panelPitch (given : Option ℝ) (n : ℕ) (pitch : ℝ) : ℝ := match given with
  | some d => d
  | none => ((n : ℝ) - 1) * pitch + 1 / 2

/-- Number of polarizations. -/
def polarizations (polarization : String) : ℕ := if polarization = "dual" then 2 else 1

end OpenNTN.Spec
