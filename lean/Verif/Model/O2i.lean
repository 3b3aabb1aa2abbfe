import Verif.Model.Coeff

/-
Functions that nothing else calls: penetration loss of indoor UTs (/repo/OpenNTN/lsp.py 408-521) and the satellite Doppler helper
(/repo/OpenNTN/utils.py 1964-1999).
-/
namespace OpenNTN

/-- `_o2i_low_loss`, lsp.py 408-461, for one link; `z` is a standard normal draw. -/
noncomputable def o2iLowLoss (carrierFrequency : ℝ) (indoor : Bool) (distance2dIn z : ℝ) : ℝ :=
  let fc := carrierFrequency / 1e9
  let lGlass := 2 + 0.2 * fc
  let lConcrete := 5 + 4 * fc
  let plTw := 5 - 10 * log10 (0.3 * pow10 (-lGlass / 10) + 0.7 * pow10 (-lConcrete / 10))
  let indoorMask : ℝ := if indoor then 1 else 0
  let plTw := plTw * indoorMask
  let plIn := 0.5 * distance2dIn
  let plRnd := 4.4 * z
  let plRnd := plRnd * indoorMask
  plTw + plIn + plRnd

/-- `_o2i_high_loss`, lsp.py 469-521, for one link; `z` is a standard normal draw. -/
noncomputable def o2iHighLoss (carrierFrequency : ℝ) (indoor : Bool) (distance2dIn z : ℝ) : ℝ :=
  let fc := carrierFrequency / 1e9
  let lIirglass := 23 + 0.3 * fc
  let lConcrete := 5 + 4 * fc
  let plTw := 5 - 10 * log10 (0.7 * pow10 (-lIirglass / 10) + 0.3 * pow10 (-lConcrete / 10))
  let indoorMask : ℝ := if indoor then 1 else 0
  let plTw := plTw * indoorMask
  let plIn := 0.5 * distance2dIn
  let plRnd := 6.5 * z
  let plRnd := plRnd * indoorMask
  plTw + plIn + plRnd

/-- `compute_stallite_doppler`, utils.py 1964-1999. The function has no `return` statement, so the result is `None`. -/
noncomputable def computeStalliteDoppler (hSat elevationAngle carrierFrequency : ℝ) : Option ℝ :=
  let vLight : ℝ := 299792458
  let rEarth : ℝ := 6371000
  let vSat := satelliteSpeed hSat
  let _additionalDopplerShift811 := vSat / vLight * (rEarth / (rEarth + hSat) * Real.cos (elevationAngle * Real.pi / 180)) * carrierFrequency
  none

end OpenNTN
