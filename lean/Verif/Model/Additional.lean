import Verif.Model.Topology

/-
Model of `compute_pathloss_additional`, utils.py 1790-1952: cloud and rain loss. The only call is commented out
(system_level_scenario.py 663). The carrier `f` is in GHz. Overflow of `math.exp` is not modelled.
-/
namespace OpenNTN

variable {B N U : ℕ}

/-- utils.py 1798-1800: relaxation frequencies of water at the temperature `t`. -/
noncomputable def debyePrimary (t : ℝ) : ℝ := 20.09 - 142 * (300 / t - 1) + 294 * (300 / t - 1) ^ 2
noncomputable def debyeSecondary (t : ℝ) : ℝ := 590 - 1500 * (300 / t - 1)

/-- utils.py 1804-1807: imaginary part of the permittivity of water. -/
noncomputable def waterEta2 (f t : ℝ) : ℝ :=
  let fp := debyePrimary t
  let fs := debyeSecondary t
  let eo := 77.6 + 103.3 * (300 / t - 1)
  let e1 := 5.48
  let e2 := 3.51
  (f / fp) * ((eo - e1) / (1 + (f / fp) ^ 2)) + (f / fs) * ((e1 - e2) / (1 + (f / fs) ^ 2))

/-- utils.py 1804-1808: real part of the permittivity of water. -/
noncomputable def waterEta1 (f t : ℝ) : ℝ :=
  let fp := debyePrimary t
  let fs := debyeSecondary t
  let eo := 77.6 + 103.3 * (300 / t - 1)
  let e1 := 5.48
  let e2 := 3.51
  ((eo - e1) / (1 + (f / fp) ^ 2)) + ((e1 - e2) / (1 + (f / fs) ^ 2)) + e2

/-- utils.py 1792-1817: cloud attenuation. Temperature zero divides by zero, `fs = 0` or `eta2 = 0` lead to NaN or infinity. -/
noncomputable def cloudLoss (f el : ℝ) (a : Atmosphere) : Except Err ℝ :=
  if a.temperature = 0 then .error .invalidArgument
  else
    let t := a.temperature
    let eta2 := waterEta2 f t
    if debyeSecondary t = 0 ∨ eta2 = 0 then .error .notANumber
    else
      let n := (2 + waterEta1 f t) / eta2
      let kl := 0.819 * f / (eta2 * (1 + n ^ 2))
      .ok (a.lwc * kl / Real.sin (deg2rad el))

/-- utils.py 1841-1845 and the three loops like it: sum of Gaussians in the logarithm of the frequency plus a straight line. -/
noncomputable def regression (terms : List (ℝ × ℝ × ℝ)) (m d f : ℝ) : ℝ :=
  (terms.foldl (fun acc t => acc + t.1 * Real.exp (-((log10 f - t.2.1) / t.2.2) ^ 2)) 0) + m * log10 f + d

/-- utils.py 1830-1848. -/
noncomputable def rainKH (f : ℝ) : ℝ :=
  pow10 (regression [(-5.33980, -0.10008, 1.13098), (-0.35351, 1.26970, 0.45400), (-0.23789, 0.86036, 0.15354),
    (-0.94158, 0.64552, 0.16817)] (-0.18961) 0.71147 f)

/-- utils.py 1850-1868. -/
noncomputable def rainKV (f : ℝ) : ℝ :=
  pow10 (regression [(-3.80595, 0.56934, 0.81061), (-3.44965, -0.22911, 0.51059), (-0.39902, 0.73042, 0.11899),
    (0.50167, 1.07319, 0.27195)] (-0.16398) 0.63297 f)

/-- utils.py 1870-1888. -/
noncomputable def rainAH (f : ℝ) : ℝ :=
  regression [(-0.14318, 1.82442, -0.55187), (0.29591, 0.77564, 0.19822), (0.32177, 0.63773, 0.13164),
    (-5.37610, -0.96230, 1.47828), (16.1721, -3.29980, 3.43990)] 0.67849 (-1.95537) f

/-- utils.py 1890-1908. -/
noncomputable def rainAV (f : ℝ) : ℝ :=
  regression [(-0.07771, 2.33840, -0.76284), (0.56727, 0.95545, 0.54039), (-0.20238, 1.14520, 0.26809),
    (-48.2991, 0.791669, 0.116226), (48.5833, 0.791459, 0.116479)] (-0.053739) 0.83433 f

/-- utils.py 1910-1922: specific attenuation in dB/km; the rain rate is the constant of line 1920. -/
noncomputable def rainSpecific (f el : ℝ) : ℝ :=
  let x := el * Real.pi / 180
  let y := Real.cos x ^ 2
  let y1 := Real.cos (2 * 45 * Real.pi / 180)
  let y2 := y * y1
  let k := (rainKH f + rainKV f + (rainKH f - rainKV f) * y2) / 2
  let a := (rainKH f * rainAH f + rainKV f * rainAV f + (rainKH f * rainAH f - rainKV f * rainAV f) * y2) / (2 * k)
  let r : ℝ := 40
  k * r ^ a

/-- utils.py 1826: rain height. -/
noncomputable def rainHeight (latitude : ℝ) : ℝ := 5 - 0.075 * (latitude - 23)

/-- utils.py 1827-1829, 1923-1946: rain attenuation for the station height `hs`. `math.sqrt` of a negative number raises (lines 1926 and
1939), so does a division by zero (line 1929). -/
noncomputable def rainLoss (f el hs : ℝ) (a : Atmosphere) : Except Err ℝ :=
  let hr := rainHeight a.latitude
  let x := el * Real.pi / 180
  let ls := (hr - hs) / Real.sin x
  let lg := ls / 1000 * Real.cos x
  let yr := rainSpecific f el
  let m1 := lg * yr / f
  let m2 := 0.38 * (1 - Real.exp (-2 * lg))
  if m1 - m2 < 0 then .error .invalidArgument
  else
    let m3 := 0.78 * Real.sqrt (m1 - m2)
    let hrf := 1 / (1 + m3)
    if lg * hrf = 0 then .error .invalidArgument
    else
      let z1 := (hr - hs) / (lg * hrf)
      let z2 := z1 * Real.pi / 180
      let z := Real.tan z2
      let lr := open Classical in if z > x then lg * hrf / Real.cos x else ls
      if lr * yr < 0 then .error .invalidArgument
      else
        let den := 1 + Real.sqrt (Real.sin x) * (31 * (1 - Real.exp (-x)) * (Real.sqrt (lr * yr) / f ^ 2) - 0.45)
        if den = 0 then .error .notANumber
        else
          let vrf := 1 / den
          let le := lr * vrf
          .ok |le * yr|

/-- utils.py 1820-1823, 1948-1952: the total, stored for every link. In the downlink the station height is a tensor of shape [batch size,
number of BSs]; `math` functions accept it only if it has one element. -/
noncomputable def additionalLoss (c : Config) (s : TopoState B N U) : Except Err (PerLink B N U ℝ) :=
  match s.atmosphere, s.bsLoc, s.los with
  | some a, some bs, some _ =>
    let f := c.carrierFrequency / 10 ^ 9
    match cloudLoss f c.elevationAngle a with
    | .error e => .error e
    | .ok cloud =>
      let rain : Except Err ℝ :=
        if c.direction = "downlink" then
          if h : B = 1 ∧ N = 1 then rainLoss f c.elevationAngle (bs ⟨0, by omega⟩ ⟨0, by omega⟩).z a else .error .typeError
        else rainLoss f c.elevationAngle 0 a
      match rain with
      | .error e => .error e
      | .ok rain => .ok fun _ _ _ => rain + cloud
  | _, _, _ => .error .attributeError

end OpenNTN
