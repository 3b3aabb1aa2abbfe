import Verif.Model.Antenna
import Verif.Model.Rays
import Mathlib.Analysis.SpecialFunctions.Complex.Arg
import Mathlib.LinearAlgebra.Matrix.Notation

/-
Model of channel_coefficients.py for one link (batch example, TX, RX). The code treats these three axes pointwise; tensors over antennas
are functions of the antenna numbers (`ℕ`), tensors over time functions of the time.
-/
namespace OpenNTN

open Classical Matrix

/-- `compute_satellite_speed`, utils.py 1955-1962. The square root of a negative number (below the centre of the earth) is NaN in the
code; all statements are about altitudes of at least zero. -/
noncomputable def satelliteSpeed (h : ℝ) : ℝ :=
  let G : ℝ := 6.6743 * 10 ^ (-11 : ℤ)
  let M : ℝ := 5.972 * 10 ^ 24
  Real.sqrt (G * M / (6371000 + h))

/-- `Topology.__init__`, channel_coefficients.py 99-103: satellite speed towards the UT; `direction` is the uniform draw in `[0, 2 pi)`. -/
noncomputable def topologySatSpeed (bsHeight elevation direction : ℝ) : ℝ :=
  let maxSpeed := Real.cos (elevation * (Real.pi / 180)) * satelliteSpeed bsHeight
  Real.cos direction * maxSpeed

/-- Class `Topology`, channel_coefficients.py 68-103, as seen by one link. `movingRx` is `moving_end == 'rx'`, `velocity` the velocity of
the UT of the link. -/
structure LinkTopo where
  velocity : Fin 3 → ℝ
  movingRx : Bool
  losAoa : ℝ
  losAod : ℝ
  losZoa : ℝ
  losZod : ℝ
  los : Bool
  distance3d : ℝ
  txOri : Fin 3 → ℝ
  rxOri : Fin 3 → ℝ
  bsHeight : ℝ
  satSpeed : ℝ
  doppler : Bool

/-- Constructor arguments of `ChannelCoefficientsGenerator`, channel_coefficients.py 182-194. -/
structure CoeffGen where
  fc : ℝ
  tx : PanelArray
  rx : PanelArray

/-- channel_coefficients.py 190: wavelength. -/
noncomputable def CoeffGen.lambda0 (g : CoeffGen) : ℝ := speedOfLight / g.fc

/-- `_unit_sphere_vector`, channel_coefficients.py 227-248. -/
noncomputable def unitSphere (theta phi : ℝ) : Fin 3 → ℝ :=
  ![Real.sin theta * Real.cos phi, Real.sin theta * Real.sin phi, Real.cos theta]

/-- `_forward_rotation_matrix`, channel_coefficients.py 250-279. -/
noncomputable def forwardRot (o : Fin 3 → ℝ) : Matrix (Fin 3) (Fin 3) ℝ :=
  let a := o 0
  let b := o 1
  let c := o 2
  !![Real.cos a * Real.cos b, Real.cos a * Real.sin b * Real.sin c - Real.sin a * Real.cos c,
       Real.cos a * Real.sin b * Real.cos c + Real.sin a * Real.sin c;
     Real.sin a * Real.cos b, Real.sin a * Real.sin b * Real.sin c + Real.cos a * Real.cos c,
       Real.sin a * Real.sin b * Real.cos c - Real.cos a * Real.sin c;
     -Real.sin b, Real.cos b * Real.sin c, Real.cos b * Real.cos c]

/-- `_rot_pos`, channel_coefficients.py 281-299. -/
noncomputable def rotPos (o p : Fin 3 → ℝ) : Fin 3 → ℝ := forwardRot o *ᵥ p

/-- `_reverse_rotation_matrix`, channel_coefficients.py 301-317. -/
noncomputable def reverseRot (o : Fin 3 → ℝ) : Matrix (Fin 3) (Fin 3) ℝ := (forwardRot o)ᵀ

/-- `_gcs_to_lcs`, channel_coefficients.py 319-363: local zenith and azimuth. -/
noncomputable def gcsToLcs (o : Fin 3 → ℝ) (theta phi : ℝ) : ℝ × ℝ :=
  let rotRho := reverseRot o *ᵥ unitSphere theta phi
  let z := ![0, 0, 1] ⬝ᵥ rotRho
  let z := min (max z (-1)) 1
  let w : ℂ := ![1, Complex.I, 0] ⬝ᵥ (fun k => (rotRho k : ℂ))
  (Real.arccos z, Complex.arg w)

/-- `_compute_psi`, channel_coefficients.py 365-394. -/
noncomputable def computePsi (o : Fin 3 → ℝ) (theta phi : ℝ) : ℝ :=
  let a := o 0
  let b := o 1
  let c := o 2
  let re := Real.sin c * Real.cos theta * Real.sin (phi - a) +
    Real.cos c * (Real.cos b * Real.sin theta - Real.sin b * Real.cos theta * Real.cos (phi - a))
  let im := Real.sin c * Real.cos (phi - a) + Real.sin b * Real.cos c * Real.sin (phi - a)
  Complex.arg ⟨re, im⟩

/-- `_l2g_response`, channel_coefficients.py 396-425. -/
noncomputable def l2gResponse (f : Fin 2 → ℝ) (o : Fin 3 → ℝ) (theta phi : ℝ) : Fin 2 → ℝ :=
  let psi := computePsi o theta phi
  !![Real.cos psi, -Real.sin psi; Real.sin psi, Real.cos psi] *ᵥ f

/-- `_step_11_phase_matrix`, channel_coefficients.py 511-544, for a ray. -/
noncomputable def phaseMatrix (phi : Fin 4 → ℝ) (xpr : ℝ) : Matrix (Fin 2) (Fin 2) ℂ :=
  let scale : ℂ := ((Real.sqrt (1 / xpr) : ℝ) : ℂ)
  let e (k : Fin 4) : ℂ := Complex.exp (Complex.I * (phi k : ℂ))
  !![e 0, scale * e 1; scale * e 2, e 3]

/-- `_step_11_faraday_rotation`, channel_coefficients.py 1108-1119. -/
noncomputable def faradayRotation (fc : ℝ) : Matrix (Fin 2) (Fin 2) ℂ :=
  let f := fc / 1e9
  let psi := 108 / (f * f) * (Real.pi / 180)
  !![(Real.cos psi : ℂ), (-Real.sin psi : ℂ); (Real.sin psi : ℂ), (Real.cos psi : ℂ)]

/-- channel_coefficients.py 875-878 and 1023-1027: the Faraday rotation is applied for satellites only. -/
noncomputable def withFaraday (g : CoeffGen) (l : LinkTopo) (P : Matrix (Fin 2) (Fin 2) ℂ) : Matrix (Fin 2) (Fin 2) ℂ :=
  if 600000 ≤ l.bsHeight then P * faradayRotation g.fc else P

/-- `_step_11_doppler_matrix`, channel_coefficients.py 546-634: the phase. -/
noncomputable def dopplerExponent (g : CoeffGen) (l : LinkTopo) (aoa zoa aod zod t : ℝ) : ℝ :=
  let rHatUt := if l.movingRx then unitSphere zoa aoa else unitSphere zod aod
  let exponent := 2 * Real.pi / g.lambda0 * (∑ k, rHatUt k * l.velocity k) * t
  if 600000 ≤ l.bsHeight ∧ l.doppler = true then exponent + 2 * Real.pi / g.lambda0 * l.satSpeed * t else exponent

/-- `_step_11_doppler_matrix`, channel_coefficients.py 631-634. -/
noncomputable def dopplerTerm (g : CoeffGen) (l : LinkTopo) (aoa zoa aod zod t : ℝ) : ℂ :=
  Complex.exp (Complex.I * (dopplerExponent g l aoa zoa aod zod t : ℂ))

/-- `_step_11_array_offsets`, channel_coefficients.py 636-718, for RX antenna `u` and TX antenna `s`. -/
noncomputable def arrayOffset (g : CoeffGen) (l : LinkTopo) (aoa aod zoa zod : ℝ) (u s : ℕ) : ℂ :=
  let dRx := rotPos l.rxOri (g.rx.antPos u)
  let dTx := rotPos l.txOri (g.tx.antPos s)
  let expRx := 2 * Real.pi / g.lambda0 * ∑ k, unitSphere zoa aoa k * dRx k
  let expTx := 2 * Real.pi / g.lambda0 * ∑ k, unitSphere zod aod k * dTx k
  Complex.exp (Complex.I * (expRx : ℂ)) * Complex.exp (Complex.I * (expTx : ℂ))

/-- channel_coefficients.py 755-836: field of antenna `u` of an array with orientation `o` in direction `theta`, `phi`. For dual
polarization line 813 marks the antennas of the second polarization. -/
noncomputable def fieldVector (arr : PanelArray) (o : Fin 3 → ℝ) (theta phi : ℝ) (u : ℕ) : Fin 2 → ℝ :=
  let (theta', phi') := gcsToLcs o theta phi
  let e := if arr.polarization = "single" then arr.pol1
    else if arr.indPol2.count u = 0 then arr.pol1 else arr.pol2.getD arr.pol1
  l2gResponse (e.field theta' phi') o theta phi

/-- `_step_11_field_matrix`, channel_coefficients.py 720-845. -/
noncomputable def fieldMatrix (g : CoeffGen) (l : LinkTopo) (aoa aod zoa zod : ℝ) (P : Matrix (Fin 2) (Fin 2) ℂ) (u s : ℕ) : ℂ :=
  let fTx : Fin 2 → ℂ := P *ᵥ fun k => (fieldVector g.tx l.txOri zod aod s k : ℂ)
  let fRx : Fin 2 → ℂ := fun k => (fieldVector g.rx l.rxOri zoa aoa u k : ℂ)
  ∑ k, fRx k * fTx k

/-- Channel coefficients by RX antenna, TX antenna and time. -/
abbrev Coeff := ℕ → ℕ → ℝ → ℂ

/-- `_step_11_nlos`, channel_coefficients.py 847-896: contribution of ray `m` of cluster `n`; `phi` are the phases of `_step_10`
(channel_coefficients.py 491-509). -/
noncomputable def nlosRay {M : ℕ} (g : CoeffGen) (l : LinkTopo) (r : LinkRays M) (phi : Fin M → Fin raysPerCluster → Fin 4 → ℝ)
    (n : Fin M) (m : Fin raysPerCluster) : Coeff := fun u s t =>
  let P := withFaraday g l (phaseMatrix (phi n m) (r.xpr n m))
  let hField := fieldMatrix g l (r.aoa n m) (r.aod n m) (r.zoa n m) (r.zod n m) P u s
  let hArray := arrayOffset g l (r.aoa n m) (r.aod n m) (r.zoa n m) (r.zod n m) u s
  let hDoppler := dopplerTerm g l (r.aoa n m) (r.zoa n m) (r.aod n m) (r.zod n m) t
  hField * hArray * hDoppler * ((Real.sqrt (r.powers n / raysPerCluster) : ℝ) : ℂ)

/-- channel_coefficients.py 198-202. -/
def subCl1Ind : List (Fin raysPerCluster) := [0, 1, 2, 3, 4, 5, 6, 7, 18, 19]
def subCl2Ind : List (Fin raysPerCluster) := [8, 9, 10, 11, 16, 17]
def subCl3Ind : List (Fin raysPerCluster) := [12, 13, 14, 15]
noncomputable def subClDelayOffsets : Fin 3 → ℝ := ![0, 1.28, 2.56]

/-- `_step_11_reduce_nlos`, channel_coefficients.py 923-985, with subclustering, for `n + 2` clusters. `tf.argsort` puts equal
elements in the order of their indices, as `Tuple.sort` does. The coefficients may be from any type with an addition. -/
noncomputable def reduceNlos {n : ℕ} {H : Type} [AddCommMonoid H] (powers delays : Fin (n + 2) → ℝ)
    (hFull : Fin (n + 2) → Fin raysPerCluster → H) (cDs : ℝ) : (Fin (n + 6) → H) × (Fin (n + 6) → ℝ) :=
  let strongest := Tuple.sort fun k => -powers k
  -- concatenation of lines 968-970; the flattening of line 945 puts the two clusters innermost
  let hNlos : Fin (n + 6) → H := fun k =>
    if h : k.1 < 2 then (subCl1Ind.map fun m => hFull (strongest ⟨k.1, by omega⟩) m).sum
    else if h : k.1 < 4 then (subCl2Ind.map fun m => hFull (strongest ⟨k.1 - 2, by omega⟩) m).sum
    else if h : k.1 < 6 then (subCl3Ind.map fun m => hFull (strongest ⟨k.1 - 4, by omega⟩) m).sum
    else ∑ m, hFull (strongest ⟨k.1 - 6 + 2, by omega⟩) m
  let delaysNlos : Fin (n + 6) → ℝ := fun k =>
    if h : k.1 < 6 then delays (strongest ⟨k.1 % 2, by omega⟩) + subClDelayOffsets ⟨k.1 / 2, by omega⟩ * cDs
    else delays (strongest ⟨k.1 - 6 + 2, by omega⟩)
  let delaysInd := Tuple.sort delaysNlos
  (fun k => hNlos (delaysInd k), fun k => delaysNlos (delaysInd k))

/-- The same without subclustering, channel_coefficients.py 971-985. -/
noncomputable def reduceNlosPlain {M : ℕ} {H : Type} [AddCommMonoid H] (delays : Fin M → ℝ)
    (hFull : Fin M → Fin raysPerCluster → H) : (Fin M → H) × (Fin M → ℝ) :=
  let hNlos : Fin M → H := fun k => ∑ m, hFull k m
  let delaysInd := Tuple.sort delays
  (fun k => hNlos (delaysInd k), fun k => delays (delaysInd k))

/-- channel_coefficients.py 1017-1019. -/
def losPhaseMatrix : Matrix (Fin 2) (Fin 2) ℂ := !![1, 0; 0, -1]

/-- `_step_11_los`, channel_coefficients.py 987-1051. -/
noncomputable def losCoeff (g : CoeffGen) (l : LinkTopo) : Coeff := fun u s t =>
  let P := withFaraday g l losPhaseMatrix
  let hField := fieldMatrix g l l.losAoa l.losAod l.losZoa l.losZod P u s
  let hArray := arrayOffset g l l.losAoa l.losAod l.losZoa l.losZod u s
  let hDoppler := dopplerTerm g l l.losAoa l.losZoa l.losAod l.losZod t
  let hDelay := Complex.exp (Complex.I * (2 * Real.pi * l.distance3d / g.lambda0 : ℝ))
  hField * hArray * hDoppler * hDelay

/-- `_step_11`, channel_coefficients.py 1084-1106: combination of the LoS and the NLoS coefficients of a link. The K-factor is not
negative. -/
noncomputable def combineLos {p : ℕ} (los : Bool) (k : ℝ) (hLos : Coeff) (hNlos : Fin (p + 1) → Coeff) : Fin (p + 1) → Coeff :=
  let losComp : Coeff := fun u s t => hLos u s t * ((Real.sqrt (k / (k + 1)) : ℝ) : ℂ)
  let nlosComp : Fin (p + 1) → Coeff := fun q u s t => hNlos q u s t * ((Real.sqrt (1 / (k + 1)) : ℝ) : ℂ)
  let h : Fin (p + 1) → Coeff := fun q => if q = 0 then fun u s t => losComp u s t + nlosComp 0 u s t else nlosComp q
  if los then h else hNlos

/-- `ChannelCoefficientsGenerator.__call__`, channel_coefficients.py 204-221, with subclustering, for a link: path coefficients and
delays. Sample `i` is taken at time `i / sampling_frequency` (lines 207-208). -/
noncomputable def coeffCall {n : ℕ} (g : CoeffGen) (l : LinkTopo) (k : ℝ) (r : LinkRays (n + 2)) (cDs : ℝ)
    (phi : Fin (n + 2) → Fin raysPerCluster → Fin 4 → ℝ) : (Fin (n + 6) → Coeff) × (Fin (n + 6) → ℝ) :=
  let (hNlos, delays) := reduceNlos r.powers r.delays (nlosRay g l r phi) cDs
  (combineLos l.los k (losCoeff g l) hNlos, delays)

/-- The same without subclustering (the setting of cdl.py 266-270), for `n + 1` clusters; the cluster delay spread is not used. -/
noncomputable def coeffCallPlain {n : ℕ} (g : CoeffGen) (l : LinkTopo) (k : ℝ) (r : LinkRays (n + 1))
    (phi : Fin (n + 1) → Fin raysPerCluster → Fin 4 → ℝ) : (Fin (n + 1) → Coeff) × (Fin (n + 1) → ℝ) :=
  let (hNlos, delays) := reduceNlosPlain r.delays (nlosRay g l r phi)
  (combineLos l.los k (losCoeff g l) hNlos, delays)

end OpenNTN
