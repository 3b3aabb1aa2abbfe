import Verif.Model.Antenna
import Verif.Model.Ofdm

/-
Model of `AntennaElement.show`, antenna.py 83-129, and `AntennaPanel.show`, antenna.py 350-365: which points are drawn where. Colours, sizes, titles
and legends are left out.
-/
namespace OpenNTN
open Classical

/-- `10 * log10(x)` for `x ≥ 0`; the logarithm of zero is `-inf` (`⊥`). -/
noncomputable def toDecibel (x : ℝ) : WithBot ℝ := if x = 0 then ⊥ else ((10 * log10 x : ℝ) : WithBot ℝ)

/-- What `AntennaElement.show` draws: two curves in polar coordinates (angle, radius) and the points of a surface. -/
structure ElementFigure where
  vertical : List (ℝ × WithBot ℝ)
  horizontal : List (ℝ × WithBot ℝ)
  surface : List (Fin 3 → ℝ)

/-- antenna.py 108-113: distance of a point of the surface from the origin, for the gain `g`. The second argument of `tf.math.log` at line 112 is the name
of the operation, so that the logarithm is the natural one; its value `-inf` for `g = 0` is replaced by zero like all negative ones. -/
noncomputable def surfaceRadius (p : Pattern) (g : ℝ) : ℝ :=
  if p = .aperture then
    if g = 0 then 0 else if 0 < 50 + Real.log g then 50 + Real.log g else 0
  else g

/-- `AntennaElement.show`, antenna.py 83-129. -/
noncomputable def Element.show (e : Element) : ElementFigure :=
  -- 87-90
  let theta := tfLinspace 0 Real.pi 361
  let phi := tfLinspace (-Real.pi) Real.pi 361
  let vertical := theta.map fun t => (t, toDecibel (e.pattern.power t 0))
  let horizontal := phi.map fun p => (p, toDecibel (e.pattern.power (Real.pi / 2 * 1) p))
  -- 105-118
  let theta := tfLinspace 0 Real.pi 100
  let phi := tfLinspace (-Real.pi) Real.pi 100
  let surface := theta.flatMap fun t => phi.map fun p =>
    let a := surfaceRadius e.pattern (e.pattern.power t p)
    ![a * Real.sin t * Real.cos p, a * Real.sin t * Real.sin p, a * Real.cos t]
  { vertical := vertical, horizontal := horizontal, surface := surface }

/-- What `AntennaPanel.show` draws: vertical and horizontal lines at places in the plane of y and z, and texts at places. -/
structure PanelFigure where
  lines : List (ℝ × ℝ)
  bars : List (ℝ × ℝ)
  texts : List (ℕ × ℝ × ℝ)

/-- `AntennaPanel.show`, antenna.py 350-365, with the positions of `panelPos` (`__init__`, antenna.py 283-319). -/
noncomputable def panelShow (numRows numCols : ℕ) (dual : Bool) (vertical horizontal : ℝ) : PanelFigure :=
  let antPos := (List.range (numRows * numCols * if dual then 2 else 1)).map (panelPos numRows numCols dual vertical horizontal)
  let pos := antPos.take (numRows * numCols)
  let lines := pos.map fun p => (p 1, p 2)
  let texts := pos.zipIdx.map fun q => (q.2 + 1, q.1 1, q.1 2)
  let bars := if dual then (antPos.drop (numRows * numCols)).map fun p => (p 1, p 2) else []
  { lines := lines, bars := bars, texts := texts }

end OpenNTN
