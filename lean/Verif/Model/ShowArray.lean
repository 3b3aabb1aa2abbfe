import Verif.Model.ArrayAttrs

/-
Model of `PanelArray.show`, antenna.py 689-719: which lines are drawn where. Colours, sizes and the legend are left out.
-/
namespace OpenNTN

/-- The markers used, matplotlib's "|", "_" and `(2, 0, angle)`; the last is a vertical line turned counterclockwise by an angle in degrees. -/
inductive Marker
  | vertical
  | horizontal
  | turned (degrees : ℝ)

/-- Markers at places in the plane of y and z, and texts at places. -/
structure ArrayFigure where
  marked : List (Marker × ℝ × ℝ)
  texts : List (ℕ × ℝ × ℝ)

/-- antenna.py 691-702: the markers of the two polarizations; an unset variable is `none`. -/
def showMarkers (polarization polarizationType : String) : Option Marker × Option Marker :=
  if polarization = "single" then
    if polarizationType = "H" then (some .horizontal, none) else (some .vertical, none)
  else if polarization = "dual" then
    if polarizationType = "cross" then (some (.turned (-45)), some (.turned 45)) else (some .horizontal, some .vertical)
  else (none, none)

/-- `PanelArray.show`, antenna.py 689-719. Line 710 takes the text from the index of the i-th element, an element without index is out of range. -/
def PanelArray.show (arr : PanelArray) (polarizationType : String) : Except Err ArrayFigure :=
  let markers := showMarkers arr.polarization polarizationType
  match markers.1 with
  | none => .error .nameError
  | some m1 =>
    let pos1 := arr.getPosPol1
    let first := pos1.map fun p => (m1, p 1, p 2)
    let texts := (arr.indPol1.zip pos1).map fun q => (q.1 + 1, q.2 1, q.2 2)
    if arr.polarization = "dual" then
      match markers.2 with
      | none => .error .nameError
      | some m2 => .ok { marked := first ++ (arr.indPol2.map arr.antPos).map fun p => (m2, p 1, p 2), texts := texts }
    else .ok { marked := first, texts := texts }

end OpenNTN
