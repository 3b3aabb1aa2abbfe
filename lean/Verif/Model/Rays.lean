import Verif.Model.Channel
import Mathlib.Data.Fin.Tuple.Sort

/-
Model of ray generation, rays.py (`RaysGenerator`). Everything up to random coupling is pointwise in batch example, BS and UT, so one
link is modelled; `M` is the number of clusters that are generated (`num_clusters_max`) and there are 20 rays per cluster. A result
that is not a finite number (division by zero, logarithm of a number that is not positive) is the error `notANumber` of that link.
-/
namespace OpenNTN

open Classical

/-- `10.0*log10(k)`, rays.py 313, 447, 611. -/
noncomputable def kFactorDb (k : ℝ) : Except Err ℝ := if 0 < k then .ok (10 * log10 k) else .error .notANumber

/-- `rays_per_cluster`, dense_urban_scenario.py 137-140 (same in the sibling classes). -/
abbrev raysPerCluster : ℕ := 20

/-- `_ray_offsets`, rays.py 103-113. -/
noncomputable def rayOffsets : Fin raysPerCluster → ℝ :=
  ![0.0447, -0.0447, 0.1413, -0.1413, 0.2492, -0.2492, 0.3715, -0.3715, 0.5129, -0.5129, 0.6797, -0.6797, 0.8844, -0.8844,
    1.1481, -0.1481, 1.5195, -1.5195, 2.1551, -2.1551]

section

variable {M : ℕ} [NeZero M]

/-- `tf.reduce_min` over the cluster axis. -/
noncomputable def reduceMin (f : Fin M → ℝ) : ℝ := Finset.univ.inf' Finset.univ_nonempty f

/-- `tf.reduce_max` over the cluster axis. -/
noncomputable def reduceMax (f : Fin M → ℝ) : ℝ := Finset.univ.sup' Finset.univ_nonempty f

/-- `tf.sort` over the cluster axis. -/
noncomputable def tfSort (f : Fin M → ℝ) : Fin M → ℝ := f ∘ Tuple.sort f

/-- rays.py 300-305: delays of the clusters in the order of generation; `x` are the uniform draws of line 296. -/
noncomputable def rawDelays (rTau ds : ℝ) (mask x : Fin M → ℝ) (k : Fin M) : ℝ :=
  -rTau * ds * Real.log (x k) * (1 - mask k) + mask k

/-- rays.py 307-310. -/
noncomputable def unscaledDelays (rTau ds : ℝ) (mask x : Fin M → ℝ) : Fin M → ℝ :=
  let raw := rawDelays rTau ds mask x
  tfSort fun k => raw k - reduceMin raw

/-- rays.py 314-317. -/
noncomputable def delayScaling (kDb : ℝ) : ℝ := 0.7705 - 0.0433 * kDb + 0.0002 * kDb ^ 2 + 0.000017 * kDb ^ 3

/-- `_cluster_delays`, rays.py 257-322: delays and unscaled delays. -/
noncomputable def clusterDelays (c : Config) (los : Bool) (ds k : ℝ) (mask x : Fin M → ℝ) :
    Except Err ((Fin M → ℝ) × (Fin M → ℝ)) := do
  let rTau ← c.getReal .prTau los
  let u := unscaledDelays rTau ds mask x
  if los then
    let kDb ← kFactorDb k
    if delayScaling kDb = 0 then .error .notANumber else .ok (fun i => u i / delayScaling kDb, u)
  else .ok (u, u)

/-- rays.py 363-375: powers before normalisation; `z` are standard normal draws. -/
noncomputable def rawPowers (rTau zeta ds : ℝ) (mask u z : Fin M → ℝ) (i : Fin M) : ℝ :=
  Real.exp (-u i * (rTau - 1) / (rTau * ds)) * pow10 (-(zeta * z i) / 10) * (1 - mask i)

/-- `_cluster_powers`, rays.py 324-390: powers and powers for the generation of angles. -/
noncomputable def clusterPowers (c : Config) (los : Bool) (ds k : ℝ) (mask u z : Fin M → ℝ) :
    Except Err ((Fin M → ℝ) × (Fin M → ℝ)) := do
  let rTau ← c.getReal .prTau los
  let zeta ← c.getReal .pzeta los
  if rTau * ds = 0 then .error .notANumber else
  let raw := rawPowers rTau zeta ds mask u z
  if ∑ i, raw i = 0 then .error .notANumber else
  let powers : Fin M → ℝ := fun i => raw i / ∑ j, raw j
  if los then
    if k + 1 = 0 then .error .notANumber else
    let pNlosScaling := 1 / (k + 1)
    let p1Los := k * pNlosScaling
    .ok (powers, fun i => if i = 0 then pNlosScaling * powers i + p1Los else pNlosScaling * powers i)
  else .ok (powers, powers)

/-- rays.py 449-451, the factor for LoS links. -/
noncomputable def cPhiScaling (kDb : ℝ) : ℝ := 1.1035 - 0.028 * kDb - 0.002 * kDb ^ 2 + 0.0001 * kDb ^ 3

/-- rays.py 613-615, the factor for LoS links. -/
noncomputable def cThetaScaling (kDb : ℝ) : ℝ := 1.3086 + 0.0339 * kDb - 0.0077 * kDb ^ 2 + 0.0002 * kDb ^ 3

/-- rays.py 456-457, 619-620: powers relative to the largest one, clipped. -/
noncomputable def relativePower (p : Fin M → ℝ) : Except Err (Fin M → ℝ) :=
  if reduceMax p = 0 then .error .notANumber else .ok fun i => min 1 (max 1e-6 (p i / reduceMax p))

/-- `2*random_sign - 1`, rays.py 464, 626. -/
def signOf (b : Bool) : ℝ := if b then 1 else -1

/-- rays.py 445-453: scaling constant of azimuth angles. -/
noncomputable def cPhi (c : Config) (los : Bool) (k : ℝ) : Except Err ℝ := do
  let n ← c.getReal .pCPhiNLoS los
  if los then
    let kDb ← kFactorDb k
    .ok (n * cPhiScaling kDb)
  else .ok n

/-- rays.py 610-616: scaling constant of zenith angles. -/
noncomputable def cTheta (c : Config) (los losUt : Bool) (k : ℝ) : Except Err ℝ := do
  let n ← c.getReal .pCThetaNLoS los
  if losUt then
    let kDb ← kFactorDb k
    .ok (n * cThetaScaling kDb)
  else .ok n

/-- rays.py 445-474: azimuth of the clusters, in degree. `z` are standard normal draws. -/
noncomputable def azimuthClusters (c : Config) (los : Bool) (spread k losAngle : ℝ) (p : Fin M → ℝ) (sign : Fin M → Bool)
    (z : Fin M → ℝ) : Except Err (Fin M → ℝ) := do
  let cphi ← cPhi c los k
  let rel ← relativePower p
  if cphi = 0 then .error .notANumber else
  let prime : Fin M → ℝ := fun i => (2 * spread / 1.4) * (Real.sqrt (-Real.log (rel i)) / cphi)
  let comp : Fin M → ℝ := fun i => spread / 7 * z i
  let angles : Fin M → ℝ := fun i => signOf (sign i) * prime i + comp i + losAngle
  .ok fun i => angles i - (if los then signOf (sign 0) * prime 0 + comp 0 else 0)

/-- rays.py 482-488: azimuth of the rays of a cluster, with wrapping. -/
noncomputable def azimuthRay (cluster clusterSpread offset : ℝ) : ℝ :=
  let a := wrapAngle0_360 (cluster + clusterSpread * offset)
  if 180 < a then a - 360 else a

/-- `_azimuth_angles(..., 'aoa')`, rays.py 437-490. -/
noncomputable def azimuthOfArrival (c : Config) (los : Bool) (spread k losAngle : ℝ) (p : Fin M → ℝ) (sign : Fin M → Bool)
    (z : Fin M → ℝ) : Except Err (Fin M → Fin raysPerCluster → ℝ) := do
  let cas ← c.getReal .pcASA los
  let cl ← azimuthClusters c los spread k losAngle p sign z
  .ok fun i r => azimuthRay (cl i) cas (rayOffsets r)

/-- rays.py 434-435, 599-600: `bsHeight` is the height of the first BS of the first batch example. -/
noncomputable def departureSpread (bsHeight spread : ℝ) : ℝ := if 160000 ≤ bsHeight then 0 else spread

/-- `_azimuth_angles(..., 'aod')`, rays.py 430-490. -/
noncomputable def azimuthOfDeparture (c : Config) (los : Bool) (bsHeight spread k losAngle : ℝ) (p : Fin M → ℝ) (sign : Fin M → Bool)
    (z : Fin M → ℝ) : Except Err (Fin M → Fin raysPerCluster → ℝ) := do
  let cas ← c.getReal .pcASD los
  let cl ← azimuthClusters c los (departureSpread bsHeight spread) k losAngle p sign z
  .ok fun i r => azimuthRay (cl i) cas (rayOffsets r)

/-- rays.py 610-636: deviation of zenith angles of the clusters, not yet centred, in degree. -/
noncomputable def zenithDeviation (c : Config) (los indoor : Bool) (spread k : ℝ) (p : Fin M → ℝ) (sign : Fin M → Bool)
    (z : Fin M → ℝ) : Except Err (Fin M → ℝ) := do
  let cth ← cTheta c los (los && !indoor) k
  let rel ← relativePower p
  if cth = 0 then .error .notANumber else
  let prime : Fin M → ℝ := fun i => -spread * Real.log (rel i) / cth
  let comp : Fin M → ℝ := fun i => spread / 7 * z i
  .ok fun i => signOf (sign i) * prime i + comp i

/-- rays.py 640-648: zenith of arrival of the clusters. -/
noncomputable def zoaClusters (los indoor : Bool) (losAngle : ℝ) (dev : Fin M → ℝ) (i : Fin M) : ℝ :=
  let a1 := if los && !indoor then -(dev 0 - losAngle) else 0
  let a2 := if !los && !indoor then losAngle else a1
  let a3 := if indoor then 90 else a2
  dev i + a3

/-- rays.py 637-639, 648: zenith of departure of the clusters. The offset is in radian. -/
noncomputable def zodClusters (los indoor : Bool) (losAngle zodOff : ℝ) (dev : Fin M → ℝ) (i : Fin M) : ℝ :=
  dev i + (if los && !indoor then -(dev 0 - losAngle) else losAngle + zodOff)

/-- rays.py 657-664: zenith of the rays of a cluster, with wrapping. -/
noncomputable def zenithRay (cluster clusterSpread offset : ℝ) : ℝ :=
  let a := wrapAngle0_360 (cluster + clusterSpread * offset)
  if 180 < a then 360 - a else a

/-- `_zenith_angles(..., 'zoa')`, rays.py 544-666. -/
noncomputable def zenithOfArrival (c : Config) (los indoor : Bool) (spread k losAngle : ℝ) (p : Fin M → ℝ) (sign : Fin M → Bool)
    (z : Fin M → ℝ) : Except Err (Fin M → Fin raysPerCluster → ℝ) := do
  let cas ← c.getReal .pcZSA los
  let dev ← zenithDeviation c los indoor spread k p sign z
  .ok fun i r => zenithRay (zoaClusters los indoor losAngle dev i) cas (rayOffsets r)

/-- `_zenith_angles(..., 'zod')`, rays.py 544-666; `meanZsd` is entry 6 of `lsp_log_mean`. -/
noncomputable def zenithOfDeparture (c : Config) (los indoor : Bool) (bsHeight spread k losAngle zodOff : ℝ) (meanZsd : WithBot ℝ)
    (p : Fin M → ℝ) (sign : Fin M → Bool) (z : Fin M → ℝ) : Except Err (Fin M → Fin raysPerCluster → ℝ) := do
  let dev ← zenithDeviation c los indoor (departureSpread bsHeight spread) k p sign z
  .ok fun i r => zenithRay (zodClusters los indoor losAngle zodOff dev i) (3 / 8 * pow10X meanZsd) (rayOffsets r)

/-- `_cross_polarization_power_ratios`, rays.py 796-836; `z` are standard normal draws. -/
noncomputable def crossPolarization (c : Config) (los : Bool) (z : Fin M → Fin raysPerCluster → ℝ) :
    Except Err (Fin M → Fin raysPerCluster → ℝ) := do
  let mu ← c.getReal .pmuXPR los
  let sigma ← c.getReal .psigmaXPR los
  .ok fun i r => pow10 ((mu + sigma * z i r) / 10)

end

/-- `_shuffle_angles`, rays.py 720-751: the draws `r`, hence the order, are shared by all UTs. -/
noncomputable def shuffleAngles {B N U M R : ℕ} (r : PerBs B N (Fin M → Fin R → ℝ)) (a : PerLink B N U (Fin M → Fin R → ℝ)) :
    PerLink B N U (Fin M → Fin R → ℝ) :=
  fun b n u i j => a b n u i (Tuple.sort (r b n i) j)

/-- Random draws of `RaysGenerator.__call__`. Uniform draws are in `[1e-6, 1)`, signs are shared by the UTs, and so are the draws of
random coupling. -/
structure RayDraws (B N U M : ℕ) where
  delay : PerLink B N U (Fin M → ℝ)
  shadow : PerLink B N U (Fin M → ℝ)
  signAoa : PerBs B N (Fin M → Bool)
  signAod : PerBs B N (Fin M → Bool)
  signZoa : PerBs B N (Fin M → Bool)
  signZod : PerBs B N (Fin M → Bool)
  aoa : PerLink B N U (Fin M → ℝ)
  aod : PerLink B N U (Fin M → ℝ)
  zoa : PerLink B N U (Fin M → ℝ)
  zod : PerLink B N U (Fin M → ℝ)
  xpr : PerLink B N U (Fin M → Fin raysPerCluster → ℝ)
  couplingAoa : PerBs B N (Fin M → Fin raysPerCluster → ℝ)
  couplingAod : PerBs B N (Fin M → Fin raysPerCluster → ℝ)
  couplingZoa : PerBs B N (Fin M → Fin raysPerCluster → ℝ)
  couplingZod : PerBs B N (Fin M → Fin raysPerCluster → ℝ)

/-- Class `Rays`, rays.py 22-60, for a link. -/
structure LinkRays (M : ℕ) where
  delays : Fin M → ℝ
  powers : Fin M → ℝ
  aoa : Fin M → Fin raysPerCluster → ℝ
  aod : Fin M → Fin raysPerCluster → ℝ
  zoa : Fin M → Fin raysPerCluster → ℝ
  zod : Fin M → Fin raysPerCluster → ℝ
  xpr : Fin M → Fin raysPerCluster → ℝ

/-- What ray generation reads for a link: state, large scale parameters, cluster mask, geometry. -/
structure RayInputs (B N U : ℕ) where
  lsp : PerLink B N U LspValues
  mask : PerLink B N U (ℕ → ℝ)
  los : PerLink B N U Bool
  indoor : PerUt B U Bool
  angles : PerLink B N U LosAngles
  bsHeight : PerBs B N ℝ
  meanZsd : PerLink B N U (WithBot ℝ)
  zodOff : PerLink B N U ℝ

/-- `RaysGenerator.__call__`, rays.py 119-164. Coupling and conversion to radian are applied to links without NaN. -/
noncomputable def raysCall {B N U M : ℕ} [NeZero B] [NeZero N] [NeZero M] (c : Config) (i : RayInputs B N U) (w : RayDraws B N U M) :
    PerLink B N U (Except Err (LinkRays M)) := fun b n u => do
  let l := i.lsp b n u
  let los := i.los b n u
  let indoor := i.indoor b u
  let g := i.angles b n u
  let mask : Fin M → ℝ := fun k => i.mask b n u k
  let (delays, unscaled) ← clusterDelays c los l.ds l.kFactor mask (w.delay b n u)
  let (powers, forAngles) ← clusterPowers c los l.ds l.kFactor mask unscaled (w.shadow b n u)
  let aoa ← azimuthOfArrival c los l.asa l.kFactor g.aoa forAngles (w.signAoa b n) (w.aoa b n u)
  let aod ← azimuthOfDeparture c los (i.bsHeight 0 0) l.asd l.kFactor g.aod forAngles (w.signAod b n) (w.aod b n u)
  let zoa ← zenithOfArrival c los indoor l.zsa l.kFactor g.zoa forAngles (w.signZoa b n) (w.zoa b n u)
  let zod ← zenithOfDeparture c los indoor (i.bsHeight 0 0) l.zsd l.kFactor g.zod (i.zodOff b n u) (i.meanZsd b n u) forAngles
    (w.signZod b n) (w.zod b n u)
  let xpr ← crossPolarization c los (w.xpr b n u)
  .ok {
    delays := delays
    powers := powers
    aoa := fun m r => deg2rad (shuffleAngles w.couplingAoa (fun _ _ _ => aoa) b n u m r)
    aod := fun m r => deg2rad (shuffleAngles w.couplingAod (fun _ _ _ => aod) b n u m r)
    zoa := fun m r => deg2rad (shuffleAngles w.couplingZoa (fun _ _ _ => zoa) b n u m r)
    zod := fun m r => deg2rad (shuffleAngles w.couplingZod (fun _ _ _ => zod) b n u m r)
    xpr := xpr }

end OpenNTN
