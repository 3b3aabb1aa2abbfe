import Verif.Model.Num
import Mathlib.Analysis.SpecialFunctions.Trigonometric.Inverse
import Mathlib.MeasureTheory.Integral.IntervalIntegral.Basic
import Mathlib.Data.Fin.VecNotation

/-
Model of antenna.py: antenna elements, panels and panel arrays. `_compute_gain` is in Model/Gain, the read-only
properties are in Model/ArrayAttrs, element types in Model/Precision. Plotting functions are in Model/ShowArray and Model/ShowElement.
-/
namespace OpenNTN

open Classical

/-- The radiation patterns accepted by antenna.py 50-63. -/
inductive Pattern
  | omni
  | p38901
  | aperture
  | dlp
deriving DecidableEq

/-- antenna.py 50-63. -/
def patternOf (s : String) : Except Err Pattern :=
  if s = "omni" then .ok .omni
  else if s = "38.901" then .ok .p38901
  else if s = "aperture" then .ok .aperture
  else if s = "dlp" then .ok .dlp
  else .error .assertion

/-- `_radiation_pattern_omni`, antenna.py 137-149. -/
def patternOmni (_theta _phi : ℝ) : ℝ := 1

/-- `_radiation_pattern_38901`, antenna.py 151-169. -/
noncomputable def pattern38901 (theta phi : ℝ) : ℝ :=
  let angle3db : ℝ := 65 / 180 * Real.pi
  let aMax : ℝ := 30
  let gMax : ℝ := 8
  let aV := -min (12 * ((theta - Real.pi / 2) / angle3db) ^ 2) aMax
  let aH := -min (12 * (phi / angle3db) ^ 2) aMax
  let aDb := -min (-(aV + aH)) aMax + gMax
  pow10 (aDb / 10)

/-- `tf.math.special.bessel_j1` (antenna.py 190): Bessel's integral for the Bessel function of the first kind of order one. -/
noncomputable def besselJ1 (x : ℝ) : ℝ := (1 / Real.pi) * ∫ t in (0 : ℝ)..Real.pi, Real.cos (t - x * Real.sin t)

/-- `_radiation_pattern_circular_aperture`, antenna.py 171-191, with the default radius. The division `0/0` at `r = pi` is in a branch
that the last `tf.where` does not select. -/
noncomputable def patternAperture (theta phi : ℝ) : ℝ :=
  let ka : ℝ := 10 * 2 * Real.pi
  let r := Real.arccos (Real.sin theta * Real.cos phi)
  let amplitude := if 0 = r then 1 else 4 * |besselJ1 (Real.sin r * ka) / (ka * Real.sin r)| ^ 2
  if 0.5 * Real.pi < |r| then 0 else amplitude

/-- `_radiation_pattern_co_phased_DLp`, antenna.py 193-223. -/
noncomputable def patternDlp (theta phi : ℝ) : ℝ :=
  let thetaDeg := theta * (180 / Real.pi)
  let phiDeg := phi * (180 / Real.pi)
  let aEV := -min (12 * ((thetaDeg - 90) / 90) ^ 2) 25
  let aEH := -min (12 * (phiDeg / 90) ^ 2) 25
  let gain := -min (-(aEV + aEH)) 25
  pow10 (gain / 10)

/-- The `_radiation_pattern` attribute, antenna.py 56-63. -/
noncomputable def Pattern.power : Pattern → ℝ → ℝ → ℝ
  | .omni => patternOmni
  | .p38901 => pattern38901
  | .aperture => patternAperture
  | .dlp => patternDlp

/-- `AntennaElement`, antenna.py 44-63. -/
structure Element where
  pattern : Pattern
  slant : ℝ

/-- `AntennaElement.field`, antenna.py 65-81: zenith and azimuth component. -/
noncomputable def Element.field (e : Element) (theta phi : ℝ) : Fin 2 → ℝ :=
  let a := Real.sqrt (e.pattern.power theta phi)
  ![a * Real.cos e.slant, a * Real.sin e.slant]

/-- A numpy array that is filled by the assignments `ws`, in this order. -/
def writeAll {α : Type*} (init : ℕ → α) (ws : List (ℕ × α)) : ℕ → α :=
  ws.foldl (fun a w => Function.update a w.1 w.2) init

/-- antenna.py 301-318: `ant_pos` of an `AntennaPanel` with `dual` polarization or not. Entry `k` is defined for
`k < numRows * numCols * p`. -/
noncomputable def panelPos (numRows numCols : ℕ) (dual : Bool) (vertical horizontal : ℝ) : ℕ → Fin 3 → ℝ :=
  let writes : List (ℕ × (Fin 3 → ℝ)) := (List.range numRows).flatMap fun i => (List.range numCols).map fun j =>
    (i + j * numRows, ![0, j * horizontal, -i * vertical])
  let antPos := writeAll (fun _ => 0) writes
  let offset : Fin 3 → ℝ := ![0, -((numCols : ℝ) - 1) * horizontal / 2, ((numRows : ℝ) - 1) * vertical / 2]
  let antPos : ℕ → Fin 3 → ℝ := fun k => antPos k + offset
  if dual then fun k => if numRows * numCols ≤ k then antPos (k - numRows * numCols) else antPos k else antPos

/-- Arguments of `PanelArray`, antenna.py 446-458 (sizes are natural numbers, `none` is Python's `None`). -/
structure ArrayArgs where
  numRowsPerPanel : ℕ
  numColsPerPanel : ℕ
  polarization : String
  polarizationType : String
  pattern : String
  carrierFrequency : ℝ
  numRows : ℕ := 1
  numCols : ℕ := 1
  panelVertical : Option ℝ := none
  panelHorizontal : Option ℝ := none
  elementVertical : Option ℝ := none
  elementHorizontal : Option ℝ := none

/-- What the rest of the code uses of a `PanelArray`; `pol2` is `none` for single polarization. -/
structure PanelArray where
  numAnt : ℕ
  polarization : String
  pol1 : Element
  pol2 : Option Element
  antPos : ℕ → Fin 3 → ℝ
  indPol1 : List ℕ
  indPol2 : List ℕ

/-- antenna.py 465-478: element spacings and panel spacings after filling in the defaults. -/
noncomputable def ArrayArgs.elementV (a : ArrayArgs) : ℝ := a.elementVertical.getD 0.5
noncomputable def ArrayArgs.elementH (a : ArrayArgs) : ℝ := a.elementHorizontal.getD 0.5
noncomputable def ArrayArgs.panelV (a : ArrayArgs) : ℝ :=
  a.panelVertical.getD (((a.numRowsPerPanel : ℝ) - 1) * a.elementV + 0.5)
noncomputable def ArrayArgs.panelH (a : ArrayArgs) : ℝ :=
  a.panelHorizontal.getD (((a.numColsPerPanel : ℝ) - 1) * a.elementH + 0.5)

/-- antenna.py 505, 508, 510. -/
def ArrayArgs.p (a : ArrayArgs) : ℕ := if a.polarization = "single" then 1 else 2
def ArrayArgs.numPanels (a : ArrayArgs) : ℕ := a.numCols * a.numRows
def ArrayArgs.numPanelAnt (a : ArrayArgs) : ℕ := a.numColsPerPanel * a.numRowsPerPanel * a.p
def ArrayArgs.numAnt (a : ArrayArgs) : ℕ := a.numPanels * a.numPanelAnt

/-- antenna.py 534-557: positions of all elements in metres. -/
noncomputable def ArrayArgs.positions (a : ArrayArgs) : ℕ → Fin 3 → ℝ :=
  let pos := panelPos a.numRowsPerPanel a.numColsPerPanel (a.polarization = "dual") a.elementV a.elementH
  -- lines 539-548; `count` is `i + j * num_rows` in iteration `(j, i)`
  let writes : List (ℕ × (Fin 3 → ℝ)) := (List.range a.numCols).flatMap fun j => (List.range a.numRows).flatMap fun i =>
    (List.range a.numPanelAnt).map fun k =>
      ((i + j * a.numRows) * a.numPanelAnt + k, pos k + ![0, j * a.panelH, -i * a.panelV])
  let antPos := writeAll (fun _ => 0) writes
  let offset : Fin 3 → ℝ := ![0, -((a.numCols : ℝ) - 1) * a.panelH / 2, ((a.numRows : ℝ) - 1) * a.panelV / 2]
  let lambda0 := speedOfLight / a.carrierFrequency
  fun k => lambda0 • (antPos k + offset)

/-- antenna.py 561-568: the rows `rows` of the index table with `numPanels * p` rows, one after the other. -/
def ArrayArgs.indexRows (a : ArrayArgs) (rows : List ℕ) : List ℕ :=
  let len := a.numAnt / (a.numPanels * a.p)
  rows.flatMap fun r => (List.range len).map fun k => r * len + k

/-- `PanelArray.__init__`, antenna.py 446-574. Line 527 compares `polarization`, not `polarization_type`. The reshape of line 562
fails if there is no panel. -/
noncomputable def mkArray (a : ArrayArgs) : Except Err PanelArray :=
  if ¬(a.polarization = "single" ∨ a.polarization = "dual") then .error .assertion
  else if ¬(((a.numColsPerPanel : ℝ) - 1) * a.elementH < a.panelH) then .error .assertion
  else if ¬(((a.numRowsPerPanel : ℝ) - 1) * a.elementV < a.panelV) then .error .assertion
  else
    let elements : Except Err (Element × Option Element) :=
      if a.polarization = "single" then
        if ¬(a.polarizationType = "V" ∨ a.polarizationType = "H") then .error .assertion
        else
          let slant : ℝ := if a.polarizationType = "V" then 0 else Real.pi / 2
          (patternOf a.pattern).map fun p => (⟨p, slant⟩, none)
      else
        if ¬(a.polarizationType = "VH" ∨ a.polarizationType = "cross") then .error .assertion
        else
          let slant : ℝ := if a.polarization = "VH" then 0 else -Real.pi / 4
          (patternOf a.pattern).map fun p => (⟨p, slant⟩, some ⟨p, slant + Real.pi / 2⟩)
    match elements with
    | .error e => .error e
    | .ok (e1, e2) =>
      if a.numPanels = 0 then .error .invalidArgument
      else .ok
        { numAnt := a.numAnt
          polarization := a.polarization
          pol1 := e1
          pol2 := e2
          antPos := a.positions
          indPol1 := a.indexRows ((List.range (a.numPanels * a.p)).filter fun r => r % a.p = 0)
          indPol2 := if a.polarization = "single" then []
            else a.indexRows ((List.range (a.numPanels * a.p)).filter fun r => r % 2 = 1) }

/-- `Antenna`, antenna.py 755-767. -/
noncomputable def mkAntenna (polarization polarizationType pattern : String) (fc : ℝ) : Except Err PanelArray :=
  mkArray { numRowsPerPanel := 1, numColsPerPanel := 1, polarization := polarization, polarizationType := polarizationType
            pattern := pattern, carrierFrequency := fc }

/-- `AntennaArray`, antenna.py 813-831. -/
noncomputable def mkAntennaArray (numRows numCols : ℕ) (polarization polarizationType pattern : String) (fc : ℝ)
    (vertical horizontal : Option ℝ) : Except Err PanelArray :=
  mkArray { numRowsPerPanel := numRows, numColsPerPanel := numCols, polarization := polarization
            polarizationType := polarizationType, pattern := pattern, carrierFrequency := fc
            elementVertical := vertical, elementHorizontal := horizontal }

end OpenNTN
