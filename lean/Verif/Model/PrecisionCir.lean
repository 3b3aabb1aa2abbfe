import Verif.Model.Precision

/-
Element types of the tensors of a call of the channel model: LSP and ray sampling, channel coefficients, path loss; of the conversions of impulse
responses and of a call of the TDL model. Complements Precision.lean; conventions as
there. `log10` (sionna.phy.utils), `deg_2_rad` and `wrap_angle_0_360` (sionna.phy.channel.utils) keep the element type of their argument.
-/
namespace OpenNTN

/-- Complex element types. -/
inductive CType where
  | c64
  | c128
deriving DecidableEq

/-- `Object.cdtype`. -/
def Precision.cdtype : Precision → CType
  | .single => .c64
  | .double => .c128

/-- `tf.complex(real, imag)`: the arguments are converted one by one, so a Python float becomes float32; real and imaginary part of different types raise. -/
def tfComplex (a b : Kind) : Except Err CType :=
  match a.tf, b.tf with
  | .tensor .f32, .tensor .f32 => .ok .c64
  | .tensor .f64, .tensor .f64 => .ok .c128
  | _, _ => .error .typeError

/-- An operation of two complex tensors. -/
def CType.op (a b : CType) : Except Err CType := if a = b then .ok a else .error .invalidArgument

/-- The comparison of wavelengths in the constructor, system_level_scenario.py 101, of tensors created at antenna.py 513 and system_level_scenario.py 88
in the precision of the two arrays and of the scenario. -/
def wavelengthTypes (ut bs p : Precision) : Except Err Unit := do
  let _ ← (Kind.tensor ut.rdtype).op (.tensor bs.rdtype)
  let _ ← (Kind.tensor bs.rdtype).op (.tensor p.rdtype)
  .ok ()

/-- The tensors a call reads: attributes computed by `set_topology` (`matrix_ut_distance_2d`, `lsp_log_mean`, `lsp_log_std`, the four LoS angles,
`zod_offset`, `distance_3d`, the four losses) and tensors passed to it. `height` is the kind of the altitude. -/
structure SceneKinds where
  utDistance : Kind
  mean : Kind
  std : Kind
  angles : Kind
  zodOffset : Kind
  d3 : Kind
  losses : List Kind
  height : Kind
  txOri : Kind
  rxOri : Kind
  velocities : Kind

/-- `LSPGenerator.__call__`, lsp.py 127-164, with the two correlation matrices, lsp.py 218-299 and 356-399. -/
def lspSampleTypes (p : Precision) (s : SceneKinds) : Except Err Kind := do
  let rd := Kind.tensor p.rdtype
  -- 218-220, 242-249
  let cross ← combine [rd, rd, rd]
  -- 364-394
  let scaling ← combine [.py, rd]
  let filter ← rd.op rd
  let spatial ← combine [s.utDistance, scaling, filter]
  -- 127-142
  let z ← combine [cross, rd]
  let z ← z.op spatial
  -- 147-163
  let log ← combine [s.std, z, s.mean]
  let lsp ← rd.op log
  lsp.op .py

/-- The seven tensors of class `Rays`. -/
structure RayKinds where
  delays : Kind
  powers : Kind
  aoa : Kind
  aod : Kind
  zoa : Kind
  zod : Kind
  xpr : Kind

/-- `_azimuth_angles`, rays.py 419-490, from the spread, the K-factor, the powers and the LoS angle. -/
def azimuthTypes (p : Precision) (spread k powers los : Kind) : Except Err Kind := do
  let rd := Kind.tensor p.rdtype
  -- 447-453
  let kDb ← Kind.py.op k
  let cLos ← combine [rd, .py, kDb]
  let c ← cLos.op rd
  -- 456-459
  let z ← combine [powers, .py]
  let prime ← combine [.py, spread, z, c]
  -- 462-465: cast
  let sign := rd
  -- 466-468
  let std ← spread.op .py
  let comp ← randomOf .py std p.rdtype
  -- 469-474
  let angles ← combine [sign, prime, comp, los]
  let first ← combine [sign, prime, comp, .py]
  let angles ← angles.op first
  -- 482-488
  combine [angles, rd, rd, .py]

/-- `_zenith_angles`, rays.py 571-666; `spreadOfCluster` is the kind of `cluster_angle_spread`, `offset` that of `zod_offset`. -/
def zenithTypes (p : Precision) (departure : Bool) (spread k powers los spreadOfCluster offset : Kind) : Except Err Kind := do
  let rd := Kind.tensor p.rdtype
  -- 611-616
  let kDb ← Kind.py.op k
  let cLos ← combine [rd, .py, kDb]
  let c ← cLos.op rd
  -- 619-621
  let z ← combine [powers, .py]
  let prime ← combine [spread, z, c]
  let sign := rd
  -- 628-630
  let std ← spread.op .py
  let comp ← randomOf .py std p.rdtype
  -- 633-648
  let angles ← combine [sign, prime, comp]
  let losComp ← combine [sign, prime, comp, los]
  let additional ← if departure then combine [losComp, los, offset] else combine [losComp, rd, los, rd]
  let angles ← angles.op additional
  -- 657-664
  combine [angles, spreadOfCluster, rd, .py]

/-- `RaysGenerator.__call__`, rays.py 119-164 with 185-390 and 796-836. -/
def raysTypes (p : Precision) (s : SceneKinds) (lsp : Kind) : Except Err RayKinds := do
  let rd := Kind.tensor p.rdtype
  -- 212-255
  let mask ← combine [rd, rd, rd, rd, rd, rd, rd]
  -- 296-310
  let x ← randomOf .py .py p.rdtype
  let raw ← combine [rd, lsp, x]
  let unscaled ← combine [raw, .py, mask, mask]
  -- 313-320
  let kDb ← Kind.py.op lsp
  let scaling ← combine [.py, kDb, rd]
  let scaled ← unscaled.op scaling
  let delays ← scaled.op unscaled
  -- 364-390
  let z ← randomOf .py rd p.rdtype
  let raw ← combine [unscaled, rd, .py, rd, lsp, rd, z, .py]
  let powers ← combine [raw, .py, mask]
  let k ← combine [.py, lsp]
  let first ← combine [k, powers, lsp]
  let powersForAngles ← first.op powers
  -- 128-141
  let aoa ← azimuthTypes p lsp lsp powersForAngles s.angles
  let aod ← azimuthTypes p lsp lsp powersForAngles s.angles
  let zoa ← zenithTypes p false lsp lsp powersForAngles s.angles rd s.zodOffset
  -- 596-598
  let spreadOfCluster ← combine [.py, rd, s.mean]
  let zod ← zenithTypes p true lsp lsp powersForAngles s.angles spreadOfCluster s.zodOffset
  -- 830-835; the coupling of lines 745-750 gathers with int32 indices
  let x ← randomOf rd rd p.rdtype
  let xpr ← combine [rd, x, .py]
  .ok ⟨delays, powers, aoa, aod, zoa, zod, xpr⟩

/-- `Topology.__init__`, channel_coefficients.py 99-103 with utils.py 1955-1962: the satellite speed. The elevation is a Python number and the direction is
drawn without naming a type. -/
def satSpeedTypes (height : Kind) : Except Err Kind := do
  let speed ← combine [.py, height]
  let atElevation ← Kind.py.tf.op speed
  let direction ← randomOf .pyInt .py
  direction.op atElevation

/-- `_step_11_faraday_rotation`, channel_coefficients.py 1108-1119: the imaginary part is the Python number 0.0. -/
def faradayTypes (p : Precision) : Except Err CType := do
  let psi ← combine [.py, .tensor p.rdtype]
  tfComplex psi .py

/-- `_gcs_to_lcs`, channel_coefficients.py 345-361: zenith angle in the local system. -/
def localAngleTypes (p : Precision) (ori angle : Kind) : Except Err Kind := do
  let rotated ← combine [ori, angle]
  combine [.tensor p.rdtype, rotated]

/-- One end in `_step_11_field_matrix`, channel_coefficients.py 752-835: the field of the array in the global system. The pattern is evaluated at local angles, which
have type `rdtype`. -/
def fieldOfEnd (p : Precision) (pattern : Pattern) (ori angle : Kind) : Except Err CType := do
  let _ ← localAngleTypes p ori angle
  let l ← fieldTypes p pattern
  let response ← combine (l.map Kind.tensor)
  -- 387-394, 420-424
  let psi ← combine [ori, angle]
  let _ ← tfComplex psi psi
  let f ← psi.op response
  tfComplex f (.tensor p.rdtype)

/-- `_step_11_field_matrix`, channel_coefficients.py 752-845. -/
def fieldMatrixTypes (p : Precision) (tx rx : Pattern) (s : SceneKinds) (arrival departure : Kind) (phase : CType) : Except Err CType := do
  let ftx ← fieldOfEnd p tx s.txOri departure
  let frx ← fieldOfEnd p rx s.rxOri arrival
  let a ← phase.op ftx
  frx.op a

/-- `_step_11_array_offsets`, channel_coefficients.py 663-718 with 427-489. -/
def arrayOffsetTypes (p : Precision) (s : SceneKinds) (arrival departure : Kind) : Except Err CType := do
  let rd := Kind.tensor p.rdtype
  let rx ← combine [.py, rd, arrival, s.rxOri, rd]
  let tx ← combine [.py, rd, departure, s.txOri, rd]
  let rx ← tfComplex rd rx
  let tx ← tfComplex rd tx
  rx.op tx

/-- `_step_11_doppler_matrix`, channel_coefficients.py 571-634; `satellite` is the condition of line 609. -/
def dopplerMatrixTypes (p : Precision) (satellite : Bool) (s : SceneKinds) (satSpeed angle t : Kind) : Except Err CType := do
  let rd := Kind.tensor p.rdtype
  let exponent ← combine [.py, rd, angle, s.velocities, t]
  let exponent ← if satellite then do
      let rotation ← combine [.py, rd, satSpeed]
      let rotation ← rotation.op t
      exponent.op rotation
    else .ok exponent
  tfComplex rd exponent

/-- Optional multiplication with the Faraday rotation, channel_coefficients.py 875-878 and 1023-1027. -/
def withFaradayTypes (p : Precision) (high : Bool) (phase : CType) : Except Err CType :=
  if high then do phase.op (← faradayTypes p) else .ok phase

/-- What the types in the channel coefficients depend on: the antenna patterns, whether the altitude is at least 600 km, whether the Doppler shift is on. -/
structure CirSwitches where
  tx : Pattern
  rx : Pattern
  high : Bool
  doppler : Bool

/-- `_step_11_nlos`, channel_coefficients.py 872-896, with 511-544. -/
def nlosTypes (p : Precision) (w : CirSwitches) (s : SceneKinds) (r : RayKinds) (satSpeed t phi : Kind) : Except Err CType := do
  let rd := Kind.tensor p.rdtype
  -- 531-542
  let inverse ← Kind.pyInt.op r.xpr
  let scaling ← tfComplex inverse rd
  let e ← tfComplex rd phi
  let phase ← scaling.op e
  let phase ← withFaradayTypes p w.high phase
  let arrival ← r.aoa.op r.zoa
  let departure ← r.aod.op r.zod
  let field ← fieldMatrixTypes p w.tx w.rx s arrival departure phase
  let array ← arrayOffsetTypes p s arrival departure
  let both ← arrival.op departure
  let doppler ← dopplerMatrixTypes p (w.high && w.doppler) s satSpeed both t
  let h ← field.op array
  let h ← h.op doppler
  -- 889-894
  let power ← r.powers.op rd
  let power ← tfComplex power rd
  h.op power

/-- `_step_11_los`, channel_coefficients.py 1005-1051. -/
def losCoeffTypes (p : Precision) (w : CirSwitches) (s : SceneKinds) (satSpeed t : Kind) : Except Err CType := do
  let rd := Kind.tensor p.rdtype
  let phase ← withFaradayTypes p w.high p.cdtype
  let field ← fieldMatrixTypes p w.tx w.rx s s.angles s.angles phase
  let array ← arrayOffsetTypes p s s.angles s.angles
  let doppler ← dopplerMatrixTypes p (w.high && w.doppler) s satSpeed s.angles t
  let way ← combine [.py, s.d3, rd]
  let delay ← tfComplex rd way
  let h ← field.op array
  let h ← h.op doppler
  h.op delay

/-- `ChannelCoefficientsGenerator.__call__`, channel_coefficients.py 204-221 with 898-985 and 1053-1106: coefficients and delays. `fs` is the kind of the sampling
frequency, `cds` that of the cluster delay spread. -/
def coeffTypes (p : Precision) (w : CirSwitches) (s : SceneKinds) (r : RayKinds) (satSpeed k cds fs : Kind) : Except Err (CType × Kind) := do
  let rd := Kind.tensor p.rdtype
  -- 207
  let t ← rd.op fs
  -- 506
  let phi ← randomOf .py .py p.rdtype
  let h ← nlosTypes p w s r satSpeed t phi
  -- 943-970
  let sub ← combine [r.delays, rd, cds]
  let delays ← sub.op r.delays
  let los ← losCoeffTypes p w s satSpeed t
  -- 1087-1104
  let k ← tfComplex k rd
  let los ← los.op k
  let nlos ← h.op k
  let both ← los.op nlos
  let h ← both.op h
  .ok (h, delays)

/-- `SystemLevelChannel.__call__`, system_level_channel.py 175-269 with step 12, 415-431: element types of the coefficients and of the delays. -/
def callTypes (p : Precision) (w : CirSwitches) (pathloss : Bool) (s : SceneKinds) (fs : Kind) : Except Err (CType × DType) := do
  let rd := Kind.tensor p.rdtype
  let lsp ← lspSampleTypes p s
  let rays ← raysTypes p s lsp
  let satSpeed ← satSpeedTypes s.height
  -- 218
  let cds ← rd.op .py
  let (h, delays) ← coeffTypes p w s rays satSpeed lsp cds fs
  -- 415-429
  let pl ← if pathloss then combine s.losses else .ok rd
  let gain ← combine [rd, pl, .py, lsp]
  let gain ← tfComplex gain rd
  let h ← h.op gain
  .ok (h, delays.dtype)

/-- The tensors a call reads after `set_topology` (Precision.lean) with locations of type `loc` and orientations and velocities as passed. -/
def sceneKinds (p : Precision) (loc txOri rxOri velocities : DType) (ka requested : Bool) (los nlos : String) (angle : ℤ) : Except Err SceneKinds := do
  let (d2, d3, angles) ← distanceTypes loc
  let _ ← indoorTypes p d2 d3
  losTypes p requested (entryKind p los .pLoSp angle)
  match ← lspTypes p loc d2, ← basicTypes p d3 (entryKind p nlos .pCL angle) (entryKind p los .psigmaSF angle) (entryKind p nlos .psigmaSF angle),
      ← gasTypes p, ← scintTypes p ka with
  | [mean, std, zod], [_, basic], gas, [s, e] =>
    .ok { utDistance := d2, mean, std, angles, zodOffset := zod, d3, losses := [basic, gas, s, e], height := .tensor loc,
          txOri := .tensor txOri, rxOri := .tensor rxOri, velocities := .tensor velocities }
  | _, _, _, _ => .error .invalidArgument

/-! ### Conversions and TDL call -/

/-- `subcarrier_frequencies`, utils.py 54-70; `spacing` is the kind of the subcarrier spacing. -/
def subcarrierTypes (p : Precision) (spacing : Kind) : Except Err Kind := (Kind.tensor p.rdtype).op spacing

/-- The real type of a complex one (`tf.abs`). -/
def CType.abs : CType → DType
  | .c64 => .f32
  | .c128 => .f64

/-- `cir_to_ofdm_channel`, utils.py 218-255, for coefficients of type `a` and delays of type `tau`. -/
def cirToOfdmTypes (frequencies : Kind) (a : CType) (tau : DType) (normalize : Bool) : Except Err CType := do
  let exponent ← combine [.py, frequencies, .tensor tau]
  let e ← tfComplex (.tensor tau) exponent
  let h ← a.op e
  if normalize then do
    let c ← tfComplex (.tensor h.abs) (.tensor tau)
    h.op c
  else .ok h

/-- `cir_to_time_channel`, utils.py 304-345; `tf.experimental.numpy.sinc` keeps the type. -/
def cirToTimeTypes (bandwidth : Kind) (a : CType) (tau : DType) (normalize : Bool) : Except Err CType := do
  let argument ← combine [.tensor tau, .tensor tau, bandwidth]
  let g ← tfComplex argument (.tensor tau)
  let h ← a.op g
  if normalize then do
    let c ← tfComplex (.tensor h.abs) (.tensor tau)
    h.op c
  else .ok h

/-- `TDL.__call__`, tdl.py 415-541. The two Doppler shifts have the kinds computed by the constructor (line 313, 314), `spread` is the kind of the delay spread (a tensor
of type `rdtype` or what the setter, line 411, was given), mean powers (line 627) and correlation matrices (lines 331, 338, 345) have the
complex type of the precision. -/
def tdlCallTypes (p : Precision) (minDoppler maxDoppler fs spread : Kind) (scaleDelays los correlated : Bool) : Except Err (CType × DType) := do
  let rd := Kind.tensor p.rdtype
  -- 418
  let t ← rd.op fs
  -- 425-465
  let doppler ← randomOf minDoppler maxDoppler p.rdtype
  let theta ← randomOf rd rd p.rdtype
  let alpha ← rd.op theta
  let phi ← randomOf .py .py p.rdtype
  -- 467-478
  let argument ← combine [doppler, t, alpha, phi]
  let h ← tfComplex argument argument
  let factor ← tfComplex rd rd
  let h ← factor.op h
  let h ← p.cdtype.op h
  -- 486-506
  let h ← if los then do
      let phi0 ← randomOf .py .py p.rdtype
      let argument ← combine [doppler, t, rd, phi0]
      let spec ← tfComplex argument argument
      let spec ← spec.op p.cdtype
      spec.op h
    else .ok h
  -- 509-512
  let delays ← if scaleDelays then rd.op spread else rd.op .py
  -- 517-535
  let h ← if correlated then p.cdtype.op h else .ok h
  .ok (h, delays.dtype)

end OpenNTN
