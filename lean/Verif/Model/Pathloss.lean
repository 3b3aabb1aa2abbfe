import Verif.Model.Lsp
import Verif.Model.Geometry

/-
Model of the path loss computations: utils.py 1593-1784, lsp.py 94-118, system_level_channel.py 403-431.
-/
namespace OpenNTN

open Classical

/-- The atmospheric attributes of a scenario (system_level_scenario.py 572-616) that the losses depend on. Latitude, liquid water
content and rain rate are stored but only used by the unused `compute_pathloss_additional`. -/
structure Atmosphere where
  latitude : ℝ
  lwc : ℝ
  rainRate : ℝ
  pressure : ℝ
  temperature : ℝ
  vaporDensity : ℝ
  humidity : ℝ
  diameter : ℝ
  efficiency : ℝ

/-- utils.py 1612-1624: water vapour specific attenuation `Yw`; `f` in GHz. -/
noncomputable def gasYw (f rt rp pw : ℝ) : ℝ :=
  let n1 := 0.955 * rp * rt ^ (0.68 : ℝ) + 0.006 * pw
  let n2 := 0.735 * rp * rt ^ (0.5 : ℝ) + 0.0353 * rt ^ 4 * pw
  let e (k : ℝ) := Real.exp (k * (1 - rt))
  (((3.98 * n1 * e 2.23) / ((f - 22.235) ^ 2 + 9.42 * n1 ^ 2)) * (1 + ((f - 22) / (f + 22)) ^ 2) +
    ((11.96 * n1 * e 0.7) / ((f - 183.31) ^ 2 + 11.14 * n1 ^ 2)) +
    ((0.081 * n1 * e 6.44) / ((f - 321.226) ^ 2 + 6.29 * n1 ^ 2)) +
    ((3.66 * n1 * e 1.6) / ((f - 325.153) ^ 2 + 9.22 * n1 ^ 2)) +
    ((25.37 * n1 * e 1.09) / (f - 380) ^ 2) +
    ((17.4 * n1 * e 1.46) / (f - 448) ^ 2) +
    ((844.6 * n1 * e 0.17) / (f - 557) ^ 2) * (1 + ((f - 557) / (f + 557)) ^ 2) +
    ((290 * n1 * e 0.41) / (f - 752) ^ 2) * (1 + ((f - 752) / (f + 752)) ^ 2) +
    ((83328 * n2 * e 0.99) / (f - 1780) ^ 2) * (1 + ((f - 1780) / (f + 1780)) ^ 2)) *
    (f ^ 2 * rt ^ (2.5 : ℝ) * (pw * (10 ^ 4)⁻¹))

/-- utils.py 1626-1628: path length for water vapour contents. -/
noncomputable def gasHw (f rp : ℝ) : ℝ :=
  let conw := 1.013 / (1 + Real.exp ((0 - 8.1) * (rp - 0.57)))
  1.66 * (1 + ((1.39 * conw) / ((f - 22.235) ^ 2 + 2.56 * conw)) + ((3.37 * conw) / ((f - 183.31) ^ 2 + 4.69 * conw)) +
    ((1.5 * conw) / ((f - 325.1) ^ 2 + 2.89 * conw)))

/-- utils.py 1633-1675: dry air specific attenuation `Yo`, all frequency branches. -/
noncomputable def gasYo (f rt rp : ℝ) : ℝ :=
  let ee (a b c d : ℝ) := rp ^ a * rt ^ b * Real.exp (c * (1 - rp) + d * (1 - rt))
  let ee1 := ee 0.0717 (-1.8132) 0.0156 (-1.6515)
  let ee2 := ee 0.5146 (-4.6368) (-0.1921) (-5.7416)
  let ee3 := ee 0.3414 (0 - 6.5851) 0.2130 (-8.5854)
  let ee4 := ee (-0.0112) 0.0092 (-0.1033) (-0.0009)
  let ee5 := ee 0.2705 (-2.7192) (-0.3016) (-4.1033)
  let ee6 := ee 0.2445 (-5.9191) 0.0422 (-8.0719)
  let ee7 := ee (-0.1833) 6.5589 (-0.2402) 6.131
  let g (k a b d : ℝ) := k * rp ^ a * rt ^ b * Real.exp (d * (1 - rt))
  let g54 := g 2.136 1.4975 (-1.5852) (-2.5196)
  let g57 := g 9.984 0.9313 2.6732 0.8563
  let g60 := g 15.42 0.8595 3.6178 1.1521
  let g63 := g 10.63 0.9298 2.3284 0.6287
  let g66 := g 1.944 1.6657 (-3.3714) (-4.1643)
  let N : ℝ := if f ≤ 60 then 0 else -15
  if f ≤ 54 then
    (7.2 * rt ^ (2.8 : ℝ) / (f ^ 2 + 0.34 * rp ^ 2 * rt ^ (1.6 : ℝ)) + 0.62 * ee3 / ((54 - f) ^ (1.16 * ee1) + 0.83 * ee2)) *
      (f ^ 2 * rp ^ 2 * (10 ^ 3)⁻¹)
  else if 54 < f ∧ f ≤ 66 then
    Real.exp (((54 : ℝ) ^ (-N) * Real.log g54 * (f - 57) * (f - 60) * (f - 63) * (f - 66) / 1944 -
      (57 : ℝ) ^ (-N) * Real.log g57 * (f - 54) * (f - 60) * (f - 63) * (f - 66) / 486 +
      (60 : ℝ) ^ (-N) * Real.log g60 * (f - 54) * (f - 57) * (f - 63) * (f - 66) / 324 -
      (63 : ℝ) ^ (-N) * Real.log g63 * (f - 54) * (f - 57) * (f - 60) * (f - 66) / 486 +
      (66 : ℝ) ^ (-N) * Real.log g66 * (f - 54) * (f - 57) * (f - 60) * (f - 63) / 1944) * f ^ N)
  else if 66 < f ∧ f ≤ 120 then
    3.02 * (10 ^ 4)⁻¹ * rt ^ (3.5 : ℝ) + 0.283 * rt ^ (3.8 : ℝ) / ((f - 118.75) ^ 2 + 2.91 * rp ^ 2 * rt ^ (1.6 : ℝ)) +
      0.502 * ee6 * (1 - 0.0163 * ee7 * (f - 66)) / (f - 66) ^ (1.4346 * ee4 + 1.15 * ee5)
  else 0

/-- utils.py 1677-1681: equivalent height `ho`. -/
noncomputable def gasHo (f rp : ℝ) : ℝ :=
  let t1 := 4.64 / (1 + 0.066 * rp ^ (-2.3 : ℝ)) * Real.exp (-((f - 59.7) / (2.87 + 12.4 * Real.exp (-7.9 * rp))) ^ 2)
  let t2 := 0.14 * Real.exp (2.12 * rp) / ((f - 118.75) ^ 2 + 0.031 * Real.exp (2.2 * rp))
  let t3 := 0.0114 / (1 + 0.14 * rp ^ (-2.6 : ℝ)) * f *
    ((-0.0247 + 0.0001 * f + 1.61 * (10 ^ 6)⁻¹ * f ^ 2) / (1 - 0.0169 * f + 4.1 * (10 ^ 5)⁻¹ * f ^ 2 + 3.2 * (10 ^ 7)⁻¹ * f ^ 3))
  6.1 / (1 + 0.17 * rp ^ (-1.1 : ℝ)) * (1 + t1 + t2 + t3)

/-- `compute_pathloss_gas`, utils.py 1593-1692; `f` in GHz. For a non-positive temperature or pressure the Python powers divide
by zero or turn complex, which TensorFlow rejects; the kind of exception is not modelled. -/
noncomputable def gasLoss (f el : ℝ) (a : Atmosphere) : Except Err ℝ :=
  if a.temperature ≤ 0 ∨ a.pressure ≤ 0 then .error .invalidArgument
  else
    let rt := 288 / a.temperature
    let rp := a.pressure / 1013
    let aw := gasYw f rt rp a.vaporDensity * gasHw f rp
    let ao := gasYo f rt rp * gasHo f rp
    .ok |(ao + aw) / Real.sin (deg2rad el)|

/-- utils.py 1715-1717: effective path length. -/
noncomputable def scintPathLength (el : ℝ) : ℝ :=
  2 * 1000 / Real.sqrt (Real.sin (deg2rad el) ^ 2 + 2.35e-4 + Real.sin (deg2rad el))

/-- utils.py 1726: radicand of the antenna averaging factor; `1/x` is infinite for `x = 0`. -/
noncomputable def scintRadicand (x : ℝ) : ℝ :=
  let at' := if x = 0 then Real.pi / 2 else Real.arctan (1 / x)
  3.86 * (x ^ 2 + 1) ^ ((11 : ℝ) / 12) * Real.sin (11 / 6 * at') - 7.08 * x ^ ((5 : ℝ) / 6)

/-- `compute_pathloss_scintilation`, utils.py 1695-1755; `f` in GHz. `none` is NaN (root of a negative number). -/
noncomputable def scintLoss (f el : ℝ) (a : Atmosphere) : Except Err (Option ℝ) :=
  if 6 ≤ f then
    let tc := a.temperature - 273
    if tc + 240.97 = 0 ∨ a.temperature = 0 ∨ a.efficiency < 0 then .error .invalidArgument
    else
      let es := 6.1121 * Real.exp (17.502 * tc / (tc + 240.97))
      let nwet := 3732 * a.humidity * es / (tc + 273) ^ 2
      let ref := 3.6e-3 + nwet * 1e-4
      let L := scintPathLength el
      let deff := Real.sqrt a.efficiency * a.diameter
      let x := 1.22 * deff ^ 2 * f / L
      if scintRadicand x < 0 then .ok none
      else
        let g := Real.sqrt (scintRadicand x)
        let gx := ref * f ^ ((7 : ℝ) / 12) * g / Real.sin (deg2rad el) ^ (1.2 : ℝ)
        let lp := log10 0.01
        let ap := -0.061 * lp ^ 3 + 0.072 * lp ^ 2 - 1.71 * lp + 3
        .ok (some |ap * gx|)
  else
    let ais := 1.1 * (f / 4) ^ (-1.5 : ℝ)
    .ok (some (ais / Real.sqrt 2))

/-- `compute_pathloss_entry`, utils.py 1759-1762. -/
def entryLoss : ℝ := 0

/-- Free space path loss, utils.py 1768-1771; distance in m, carrier in Hz. -/
noncomputable def freeSpaceLoss (fc d : ℝ) : ℝ := 32.45 + 20 * log10 (fc / 10 ^ 9) + 20 * log10 d

/-- A lookup for the row of the configuration that is used in real arithmetic (utils.py 1773-1775). -/
noncomputable def Config.rowReal (c : Config) (f : ParamFile) (p : Param) : Except Err ℝ :=
  match lookupAngle f p c.angleKey with
  | .error e => .error e
  | .ok cell => match cell.val with
    | ⊥ => .error .notANumber
    | (x : ℝ) => .ok x

/-- `compute_pathloss_basic`, utils.py 1777-1784, for a link: `zLos`, `zNlos` are the standard normal numbers behind the draws of
lines 1777-1778 (`tf.random.normal` scales them with `stddev`). -/
noncomputable def basicLossWith (c : Config) (cl sigmaLos sigmaNlos : ℝ) (los : Bool) (d zLos zNlos : ℝ) : ℝ :=
  let fspl := freeSpaceLoss c.carrierFrequency d
  let sfLos := zLos * sigmaLos
  let sfNlos := zNlos * sigmaNlos
  let plLos := fspl + sfLos
  let plNlos := fspl + sfNlos + cl
  if los then plLos else plNlos

/-- `compute_pathloss_basic`, utils.py 1765-1784, with the lookups of lines 1773-1775. -/
noncomputable def basicLoss (c : Config) (los : Bool) (d zLos zNlos : ℝ) : Except Err ℝ := do
  let cl ← c.rowReal c.paramsNlos .pCL
  let sigmaLos ← c.rowReal c.paramsLos .psigmaSF
  let sigmaNlos ← c.rowReal c.paramsNlos .psigmaSF
  return basicLossWith c cl sigmaLos sigmaNlos los d zLos zNlos

/-- `sample_pathloss`, lsp.py 94-118, for a link. -/
noncomputable def totalLoss (basic gas : ℝ) (scint : Option ℝ) (entry : ℝ) : Option ℝ := scint.map fun s => basic + gas + s + entry

/-- The gain of `_step_12`, system_level_channel.py 415-426, for a link. -/
noncomputable def step12Gain (pathlossEnabled shadowEnabled : Bool) (pl sf : ℝ) : ℝ :=
  let plDb := if pathlossEnabled then pl else 0
  let sf' := if shadowEnabled then sf else 1
  pow10 (-plDb / 20) * Real.sqrt sf'

end OpenNTN
