import Mathlib.Analysis.SpecialFunctions.Pow.Real
import Mathlib.Analysis.SpecialFunctions.Trigonometric.Arctan

/-
Reference formulas of the ITU-R recommendations and of TR 38.811 section 6.6 that the losses of the code are named after, written down
from the recommendations and independently of the model.
-/
namespace OpenNTN.Spec

/-- A line of the water vapour spectrum, ITU-R P.676-9 Annex 2 equation (23a). -/
structure VapourLine where
  centre : ℝ
  strength : ℝ
  damping : ℝ
  temperature : ℝ
  /-- Frequency for the factor `g`, if any. -/
  shape : Option ℝ
  /-- Whether the second width `η₂` applies. -/
  second : Bool

/-- The nine lines of equation (23a). -/
noncomputable def vapourLines : List VapourLine :=
  [⟨22.235, 3.98, 9.42, 2.23, some 22, false⟩, ⟨183.31, 11.96, 11.14, 0.7, none, false⟩, ⟨321.226, 0.081, 6.29, 6.44, none, false⟩,
    ⟨325.153, 3.66, 9.22, 1.6, none, false⟩, ⟨380, 25.37, 0, 1.09, none, false⟩, ⟨448, 17.4, 0, 1.46, none, false⟩,
    ⟨557, 844.6, 0, 0.17, some 557, false⟩, ⟨752, 290, 0, 0.41, some 752, false⟩, ⟨1780, 8.3328e4, 0, 0.99, some 1780, true⟩]

/-- Contribution of a line. -/
noncomputable def VapourLine.value (l : VapourLine) (f rt η₁ η₂ : ℝ) : ℝ :=
  let η := if l.second then η₂ else η₁
  let g := match l.shape with | none => 1 | some fi => 1 + ((f - fi) / (f + fi)) ^ 2
  l.strength * η * Real.exp (l.temperature * (1 - rt)) / ((f - l.centre) ^ 2 + l.damping * η ^ 2) * g

/-- Specific attenuation of water vapour in dB/km, (23a)-(23c); `ρ` in g/m³, `f` in GHz. -/
noncomputable def vapourAttenuation (f rp rt ρ : ℝ) : ℝ :=
  let η₁ := 0.955 * rp * rt ^ (0.68 : ℝ) + 0.006 * ρ
  let η₂ := 0.735 * rp * rt ^ (0.5 : ℝ) + 0.0353 * rt ^ 4 * ρ
  (vapourLines.map fun l => l.value f rt η₁ η₂).sum * (f ^ 2 * rt ^ (2.5 : ℝ) * ρ * 1e-4)

/-- The function `φ` of (22i). -/
noncomputable def phi (rp rt a b c d : ℝ) : ℝ := rp ^ a * rt ^ b * Real.exp (c * (1 - rp) + d * (1 - rt))

/-- Specific attenuation of dry air in dB/km up to 54 GHz, (22a). -/
noncomputable def dryAttenuation (f rp rt : ℝ) : ℝ :=
  let ξ₁ := phi rp rt 0.0717 (-1.8132) 0.0156 (-1.6515)
  let ξ₂ := phi rp rt 0.5146 (-4.6368) (-0.1921) (-5.7416)
  let ξ₃ := phi rp rt 0.3414 (-6.5851) 0.2130 (-8.5854)
  (7.2 * rt ^ (2.8 : ℝ) / (f ^ 2 + 0.34 * rp ^ 2 * rt ^ (1.6 : ℝ)) + 0.62 * ξ₃ / ((54 - f) ^ (1.16 * ξ₁) + 0.83 * ξ₂)) * f ^ 2 * rp ^ 2 * 1e-3

/-- Equivalent height of dry air in km, (25a)-(25e), below 70 GHz. -/
noncomputable def dryHeight (f rp : ℝ) : ℝ :=
  let t₁ := 4.64 / (1 + 0.066 * rp ^ (-2.3 : ℝ)) * Real.exp (-((f - 59.7) / (2.87 + 12.4 * Real.exp (-7.9 * rp))) ^ 2)
  let t₂ := 0.14 * Real.exp (2.12 * rp) / ((f - 118.75) ^ 2 + 0.031 * Real.exp (2.2 * rp))
  let t₃ := 0.0114 / (1 + 0.14 * rp ^ (-2.6 : ℝ)) * f * (-0.0247 + 0.0001 * f + 1.61e-6 * f ^ 2) /
    (1 - 0.0169 * f + 4.1e-5 * f ^ 2 + 3.2e-7 * f ^ 3)
  min (6.1 / (1 + 0.17 * rp ^ (-1.1 : ℝ)) * (1 + t₁ + t₂ + t₃)) (10.7 * rp ^ (0.3 : ℝ))

/-- Resonances of the equivalent height of water vapour, (26a). -/
noncomputable def vapourHeightTerms : List (ℝ × ℝ × ℝ) := [(22.235, 1.39, 2.56), (183.31, 3.37, 4.69), (325.1, 1.58, 2.89)]

/-- Equivalent height of water vapour in km, (26a), (26b). -/
noncomputable def vapourHeight (f rp : ℝ) : ℝ :=
  let σ := 1.013 / (1 + Real.exp (-8.6 * (rp - 0.57)))
  1.66 * (1 + (vapourHeightTerms.map fun t => t.2.1 * σ / ((f - t.1) ^ 2 + t.2.2 * σ)).sum)

/-- Attenuation by gases in the zenith, (27); temperature in K, pressure in hPa. -/
noncomputable def gasZenith (f temperature pressure ρ : ℝ) : ℝ :=
  let rt := 288 / temperature
  let rp := pressure / 1013
  dryAttenuation f rp rt * dryHeight f rp + vapourAttenuation f rp rt ρ * vapourHeight f rp

/-- Attenuation by gases at an elevation in degree, (28). -/
noncomputable def gasAttenuation (f el temperature pressure ρ : ℝ) : ℝ :=
  gasZenith f temperature pressure ρ / Real.sin (el * (Real.pi / 180))

/-- Wet term of the refractivity, ITU-R P.453; temperature in K, humidity in percent. -/
noncomputable def wetRefractivity (temperature humidity : ℝ) : ℝ :=
  let t := temperature - 273.15
  3732 * humidity * (6.1121 * Real.exp (17.502 * t / (t + 240.97))) / (273 + t) ^ 2

/-- Antenna averaging factor squared, ITU-R P.618 section 2.4.1; `arctan (1/x)` is written as `π/2 - arctan x`, also for `x = 0`. -/
noncomputable def averagingSq (x : ℝ) : ℝ :=
  3.86 * (x ^ 2 + 1) ^ ((11 : ℝ) / 12) * Real.sin (11 / 6 * (Real.pi / 2 - Real.arctan x)) - 7.08 * x ^ ((5 : ℝ) / 6)

/-- Fade depth by tropospheric scintillation exceeded for 0.01 % of the time, for an effective path length `L` in m; zero if the averaging
factor is not real. -/
noncomputable def scintillationFade (f el L temperature humidity diameter efficiency : ℝ) : ℝ :=
  let σref := 3.6e-3 + 1e-4 * wetRefractivity temperature humidity
  let x := 1.22 * (efficiency * diameter ^ 2) * f / L
  let σ := σref * f ^ ((7 : ℝ) / 12) * Real.sqrt (averagingSq x) / Real.sin (el * (Real.pi / 180)) ^ (1.2 : ℝ)
  -- `a(p)` for `log10 p = -2`
  (-0.061 * (-2) ^ 3 + 0.072 * (-2) ^ 2 - 1.71 * (-2) + 3) * σ

/-- Effective path length through a turbulent layer of 1000 m. -/
noncomputable def turbulentPath (el : ℝ) : ℝ :=
  2 * 1000 / (Real.sqrt (Real.sin (el * (Real.pi / 180)) ^ 2 + 2.35e-4) + Real.sin (el * (Real.pi / 180)))

end OpenNTN.Spec
