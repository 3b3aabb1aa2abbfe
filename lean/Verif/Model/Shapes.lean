import Verif.Model.ShapeOps

/-
The shapes of all tensors between `set_topology` and the generated channel, operation by operation. Operations that keep the shape of their operand
(arithmetic with numbers, `tf.cast`, `tf.zeros_like`, `tf.sort`, `tf.argsort`, functions of one variable) are left out.
-/
namespace OpenNTN

open Shape

/-- What the shapes depend on besides the topology: the tabulated numbers of clusters (system_level_scenario.py 366-375) and the number of antennas
and the polarisation of the arrays. -/
structure ShapeConfig where
  clustersLos : ℕ
  clustersNlos : ℕ
  utAnt : ℕ
  utDual : Bool
  bsAnt : ℕ
  bsDual : Bool
  uplink : Bool

/-- `num_clusters_max`, system_level_scenario.py 378-385. -/
def ShapeConfig.clusters (c : ShapeConfig) : ℕ := max c.clustersLos c.clustersNlos

/-- Shapes of the tensors given to `set_topology`, system_level_scenario.py 501-505, or kept by it; `none` is `None`. The state requested with `los` is
a number, so only its presence matters. -/
structure SceneShapes where
  utLoc : Option Shape := none
  bsLoc : Option Shape := none
  utOri : Option Shape := none
  bsOri : Option Shape := none
  utVel : Option Shape := none
  inState : Option Shape := none

/-- Shapes of the attributes that an update of the topology writes. -/
structure DerivedShapes where
  distance2d : Shape
  distance3d : Shape
  aod : Shape
  aoa : Shape
  zod : Shape
  zoa : Shape
  utDistance : Shape
  in2d : Shape
  out2d : Shape
  in3d : Shape
  out3d : Shape
  los : Shape
  lspMean : Shape
  lspStd : Shape
  zodOffset : Shape
  fspl : Shape
  plBasic : Shape
  plGas : Shape
  plEntry : Shape
  plScint : Shape

/-- system_level_scenario.py 158-173: `batch_size`, `num_ut` and `num_bs`. -/
def sceneSizes (ut bs : Shape) : Except Err (ℕ × ℕ × ℕ) := do
  let b ← size ut 0
  let n ← size bs 1
  let u ← size ut 1
  .ok (b, n, u)

/-- `_compute_distance_2d_3d_and_angles`, system_level_scenario.py 779-844: planar distances, slant ranges, azimuth and zenith angles of departure
(those of arrival have the same shapes), distances between UTs. -/
def distanceShapes (ut bs : Shape) : Except Err (Shape × Shape × Shape × Shape × Shape) := do
  let ut1 ← expandDims ut 1
  let bs2 ← expandDims bs 2
  let utXy ← upTo ut1 3 2
  let bsXy ← upTo bs2 3 2
  let deltaXy ← bcast utXy bsXy
  let delta ← bcast ut1 bs2
  let d2 ← reduce deltaXy 3
  let heights ← pick bs 2 2
  let height ← pick heights 0 0
  let (b, n, u) ← sceneSizes ut bs
  let d3 ← fill [b, n, u] (squeezeAll height)
  let dy ← pick delta 3 1
  let dx ← pick delta 3 0
  let aod ← bcast dy dx
  let dz ← pick delta 3 2
  let zod ← bcast d2 dz
  let xy ← upTo ut 2 2
  let xy1 ← expandDims xy 1
  let xy2 ← expandDims xy 2
  let deltaUt ← bcast xy1 xy2
  let utDist ← reduce deltaUt 3
  .ok (d2, d3, aod, zod, utDist)

/-- `_sample_indoor_distance`, system_level_scenario.py 864-884. -/
def indoorShapes (ut bs indoor d2 d3 : Shape) : Except Err (Shape × Shape × Shape × Shape) := do
  let i ← expandDims indoor 1
  let (b, n, u) ← sceneSizes ut bs
  let in2 ← bcast [b, n, u] i
  let out2 ← bcast d2 in2
  let q ← bcast in2 d2
  let in3 ← bcast q d3
  let out3 ← bcast d3 in3
  .ok (in2, out2, in3, out3)

/-- `_sample_los`, system_level_scenario.py 846-862. -/
def losShape (ut bs indoor : Shape) : Except Err Shape := do
  let (b, n, u) ← sceneSizes ut bs
  let i ← expandDims indoor 1
  bcast [b, n, u] i

/-- `_compute_lsp_log_mean_std`, dense_urban_scenario.py 176-260: means, deviations, offset of the zenith of departure. `get_param`
(system_level_scenario.py 768-771) has the shape of the LoS states. -/
def lspMeanStdShapes (ut bs los d2 : Shape) : Except Err (Shape × Shape × Shape) := do
  let (b, n, u) ← sceneSizes ut bs
  let hBs ← pick bs 2 2
  let hBs ← expandDims hBs 2
  let hUt ← pick ut 2 2
  let hUt ← expandDims hUt 1
  let mean ← stack los [los, los, [b, n, u], los, los, los] 3
  let breakpoint ← bcast hBs hUt
  let near ← bcast d2 breakpoint
  let sfLos ← choose near los los
  let sf ← choose los sfLos los
  let std ← stack los [los, los, sf, los, los, los] 3
  let off ← choose los [] d2
  .ok (mean, std, off)

/-- utils.py 1593-1784: free space and basic path loss; the gas, entry and scintillation losses have the shape of the LoS states. -/
def pathlossShapes (los d3 : Shape) : Except Err (Shape × Shape) := do
  let pl ← bcast d3 los
  let plB ← choose los pl pl
  .ok (d3, plB)

/-- system_level_scenario.py 646-660: the update of the derived attributes. -/
def updateShapes (ut bs indoor : Shape) : Except Err DerivedShapes := do
  let (d2, d3, aod, zod, utDist) ← distanceShapes ut bs
  let (in2, out2, in3, out3) ← indoorShapes ut bs indoor d2 d3
  let los ← losShape ut bs indoor
  let (mean, std, off) ← lspMeanStdShapes ut bs los d2
  let (fspl, plB) ← pathlossShapes los d3
  .ok ⟨d2, d3, aod, aod, zod, zod, utDist, in2, out2, in3, out3, los, mean, std, off, fspl, plB, los, los, los⟩

/-- `_compute_cross_lsp_correlation_matrix`, lsp.py 196-296. The 21 additions have the same shapes; from the second on they change nothing. -/
def crossShape (ut bs indoor los : Shape) : Except Err Shape := do
  let (b, n, u) ← sceneSizes ut bs
  let i ← expandDims indoor 1
  let i ← tile i [1, n, 1]
  let _ ← bcast los i
  let update ← expandDims los 3
  let update ← expandDims update 4
  let update ← bcast update [1, 1, 1, 7, 7]
  let mat ← bcast [b, n, u, 7, 7] update
  cholesky mat

/-- `_compute_lsp_spatial_correlation_sqrt`, lsp.py 298-406. -/
def spatialShape (ut bs indoor los utDist : Shape) : Except Err Shape := do
  let (b, n, u) ← sceneSizes ut bs
  let i ← expandDims indoor 1
  let i ← tile i [1, n, 1]
  let los3 ← expandDims los 3
  let los2 ← expandDims los 2
  let losPair ← bcast los3 los2
  let nlos ← bcast los i
  let nlos3 ← expandDims nlos 3
  let nlos2 ← expandDims nlos 2
  let nlosPair ← bcast nlos3 nlos2
  let i3 ← expandDims i 3
  let i2 ← expandDims i 2
  let o2iPair ← bcast i3 i2
  let scaling ← tile los3 [1, 1, 1, u]
  let f ← choose losPair [] [b, n, u, u]
  let f ← choose nlosPair [] f
  let f ← choose o2iPair [] f
  let filtering ← stack f [f, f, f, f, f, f] 2
  let scaling ← stack scaling [scaling, scaling, scaling, scaling, scaling, scaling] 2
  let d ← expandDims utDist 1
  let d ← expandDims d 2
  let e ← bcast d scaling
  let c ← bcast e filtering
  cholesky c

/-- `_compute_clusters_mask`, rays.py 185-254. -/
def maskShape (c : ShapeConfig) (ut bs indoor los : Shape) : Except Err Shape := do
  let (b, n, u) ← sceneSizes ut bs
  let m := c.clusters
  let one := [1, 1, 1, m]
  let maskIndoor ← concat [0] [m] 0
  let maskIndoor ← reshape maskIndoor one
  let i ← expandDims indoor 1
  let i3 ← expandDims i 3
  let x ← bcast i3 maskIndoor
  let mask ← bcast [b, n, u, m] x
  let maskLos ← concat [c.clustersLos] [m - c.clustersLos] 0
  let maskLos ← reshape maskLos one
  let los3 ← expandDims los 3
  let x ← bcast los3 maskLos
  let mask ← bcast mask x
  let maskNlos ← concat [c.clustersNlos] [m - c.clustersNlos] 0
  let maskNlos ← reshape maskNlos one
  let nlos ← bcast los i
  let nlos3 ← expandDims nlos 3
  let x ← bcast nlos3 maskNlos
  bcast mask x

/-- `LSPGenerator.__call__`, lsp.py 120-168: the common shape of the seven parameters. -/
def lspShape (ut bs cross spatial mean std : Shape) : Except Err Shape := do
  let (b, n, u) ← sceneSizes ut bs
  let s ← expandDims [b, n, u, 7] 4
  let s ← matmul cross s
  let s ← squeeze s 4
  let s ← transpose s [0, 1, 3, 2]
  let s ← expandDims s 3
  let spatialT ← transposeLast spatial
  let s ← matmul s spatialT
  let s ← squeeze s 3
  let s ← transpose s [0, 1, 3, 2]
  let s ← bcast std s
  let s ← bcast s mean
  pick s 3 6

/-- What `SystemLevelChannel.set_topology` keeps: the scene, the derived attributes, the matrices of the samplers and the LSPs, if they are frozen. -/
structure ShapeState where
  scene : SceneShapes := {}
  derived : Option DerivedShapes := none
  cross : Option Shape := none
  spatial : Option Shape := none
  mask : Option Shape := none
  lsp : Option Shape := none

/-- `if x is not None: self._x = x` for all tensors, system_level_scenario.py 618-637. -/
def storeShapes (old new : SceneShapes) : SceneShapes :=
  ⟨new.utLoc <|> old.utLoc, new.bsLoc <|> old.bsLoc, new.utOri <|> old.utOri, new.bsOri <|> old.bsOri, new.utVel <|> old.utVel,
    new.inState <|> old.inState⟩

/-- `SystemLevelChannel.set_topology`, system_level_channel.py 81-153. What an exception leaves behind is not modelled. `los`: the argument of that name
is given; `always`: `always_generate_lsp`. -/
def setTopologyShapes (c : ShapeConfig) (always : Bool) (st : ShapeState) (a : SceneShapes) (los : Bool) : Except Err ShapeState := do
  let s := storeShapes st.scene a
  match s.utLoc, s.bsLoc, s.utOri, s.bsOri, s.utVel, s.inState with
  | some ut, some bs, some _, some _, some _, some indoor =>
    if a.utLoc.isSome || a.bsLoc.isSome || a.inState.isSome || los then
      let d ← updateShapes ut bs indoor
      let cross ← crossShape ut bs indoor d.los
      let spatial ← spatialShape ut bs indoor d.los d.utDistance
      let mask ← maskShape c ut bs indoor d.los
      let lsp ← if always then pure st.lsp else do
        let l ← lspShape ut bs cross spatial d.lspMean d.lspStd
        pure (some l)
      .ok ⟨s, some d, some cross, some spatial, some mask, lsp⟩
    else .ok { st with scene := s }
  | _, _, _, _, _, _ => .error .assertion

/-! ### Rays -/

/-- Shapes of the attributes of `Rays`, rays.py 12-60; the four kinds of angles have the same. -/
structure RayShapes where
  delays : Shape
  powers : Shape
  angles : Shape
  xpr : Shape

/-- `_cluster_delays`, rays.py 278-322: scaled and unscaled delays. `lsp` is the common shape of the large-scale parameters. -/
def delayShapes (c : ShapeConfig) (ut bs los mask lsp : Shape) : Except Err (Shape × Shape) := do
  let (b, n, u) ← sceneSizes ut bs
  let scaling ← expandDims los 3
  let spread ← expandDims lsp 3
  let x ← bcast scaling spread
  let un ← bcast x [b, n, u, c.clusters]
  let un ← bcast un mask
  let un ← bcast un mask
  let m ← reduceKeep un 3
  let un ← bcast un m
  let factor ← expandDims lsp 3
  let los3 ← expandDims los 3
  let x ← bcast un factor
  let delays ← choose los3 x un
  .ok (delays, un)

/-- `_cluster_powers`, rays.py 348-394: powers and powers for the generation of angles. -/
def powerShapes (c : ShapeConfig) (ut bs los mask lsp un : Shape) : Except Err (Shape × Shape) := do
  let (b, n, u) ← sceneSizes ut bs
  let spread ← expandDims lsp 3
  let deviation ← expandDims los 3
  let scaling ← expandDims los 3
  let z ← bcast [b, n, u, c.clusters] deviation
  let num ← bcast un scaling
  let den ← bcast scaling spread
  let e ← bcast num den
  let p ← bcast e z
  let p ← bcast p mask
  let sum ← reduceKeep p 3
  let p ← bcast p sum
  let k ← expandDims lsp 3
  let first ← upTo p 3 1
  let p1 ← bcast k first
  let p1 ← bcast p1 k
  let rest ← fromOn p 3 1
  let pn ← bcast k rest
  let los3 ← expandDims los 3
  let all ← concat p1 pn 3
  let pa ← choose los3 all p
  .ok (p, pa)

/-- The rays around the cluster angles, rays.py 471-486 and 665-680: `spread` is the spread within the cluster with its cluster axis. -/
def rayAngleShape (angles spread : Shape) : Except Err Shape := do
  let off ← upTo [20] 0 20
  let off ← reshape off [1, 1, 1, 1, 20]
  let a ← expandDims angles 4
  let x ← bcast spread off
  bcast a x

/-- `_azimuth_angles`, rays.py 420-487. -/
def azimuthShape (c : ShapeConfig) (ut bs los losAngles lsp powers : Shape) : Except Err Shape := do
  let (b, n, u) ← sceneSizes ut bs
  let spread ← expandDims lsp 3
  let h ← pick bs 0 0
  let h ← pick h 0 0
  let _ ← pick h 0 2
  let losA ← expandDims losAngles 3
  let cs ← expandDims los 3
  let cs ← expandDims cs 4
  let k ← expandDims lsp 3
  let cN ← expandDims los 3
  let cL ← bcast cN k
  let los3 ← expandDims los 3
  let cPhi ← choose los3 cL cN
  let m ← reduceKeep powers 3
  let z ← bcast powers m
  let q ← bcast z cPhi
  let prime ← bcast spread q
  let sign := [b, n, 1, c.clusters]
  let comp ← bcast [b, n, u, c.clusters] spread
  let a ← bcast sign prime
  let a ← bcast a comp
  let a ← bcast a losA
  let s1 ← upTo sign 3 1
  let p1 ← upTo prime 3 1
  let c1 ← upTo comp 3 1
  let x ← bcast s1 p1
  let x ← bcast x c1
  let x ← choose los3 x []
  let a ← bcast a x
  rayAngleShape a cs

/-- `_zenith_angles`, rays.py 571-681. `mean` is the shape of `lsp_log_mean`. -/
def zenithShape (c : ShapeConfig) (ut bs indoor los losAngles lsp powers zodOffset mean : Shape) (departure : Bool) : Except Err Shape := do
  let (b, n, u) ← sceneSizes ut bs
  let i ← expandDims indoor 1
  let losUts ← bcast los i
  let nlosUts ← bcast los i
  let spread ← expandDims lsp 3
  let k ← expandDims lsp 3
  let i3 ← expandDims i 3
  let los3 ← expandDims losUts 3
  let nlos3 ← expandDims nlosUts 3
  let cs ← if departure then do
      let m ← pick mean 3 6
      let h ← pick bs 0 0
      let h ← pick h 0 0
      let _ ← pick h 0 2
      pure m
    else pure los
  let off ← expandDims zodOffset 3
  let losA ← expandDims losAngles 3
  let cs ← expandDims cs 3
  let cN ← expandDims los 3
  let cL ← bcast cN k
  let cTheta ← choose los3 cL cN
  let m ← reduceKeep powers 3
  let z ← bcast powers m
  let x ← bcast spread z
  let prime ← bcast x cTheta
  let sign := [b, n, 1, c.clusters]
  let comp ← bcast [b, n, u, c.clusters] spread
  let a ← bcast sign prime
  let a ← bcast a comp
  let s1 ← upTo sign 3 1
  let p1 ← upTo prime 3 1
  let c1 ← upTo comp 3 1
  let x ← bcast s1 p1
  let x ← bcast x c1
  let x ← bcast x losA
  let extra ← if departure then do
      let y ← bcast losA off
      choose los3 x y
    else do
      let y ← choose los3 x []
      let y ← choose nlos3 losA y
      choose i3 [] y
  let a ← bcast a extra
  let cs ← expandDims cs 4
  rayAngleShape a cs

/-- `_shuffle_angles`, rays.py 737-754. -/
def shuffleShape (c : ShapeConfig) (ut bs angles : Shape) : Except Err Shape := do
  let (b, n, u) ← sceneSizes ut bs
  let ind ← tile [b, n, 1, c.clusters, 20] [1, 1, u, 1, 1]
  gatherBatch angles ind 4

/-- `_cross_polarization_power_ratios`, rays.py 812-836. -/
def xprShape (c : ShapeConfig) (ut bs los : Shape) : Except Err Shape := do
  let (b, n, u) ← sceneSizes ut bs
  let mu ← expandDims los 3
  let mu ← expandDims mu 4
  let x ← bcast [b, n, u, c.clusters, 20] mu
  bcast x mu

/-- `RaysGenerator.__call__`, rays.py 119-165. That the four kinds of angles have one shape is checked, since `RayShapes` says so. -/
def raysShapes (c : ShapeConfig) (ut bs indoor : Shape) (d : DerivedShapes) (mask lsp : Shape) : Except Err RayShapes := do
  let (delays, un) ← delayShapes c ut bs d.los mask lsp
  let (powers, pa) ← powerShapes c ut bs d.los mask lsp un
  let aoa ← azimuthShape c ut bs d.los d.aoa lsp pa
  let aod ← azimuthShape c ut bs d.los d.aod lsp pa
  let zoa ← zenithShape c ut bs indoor d.los d.zoa lsp pa d.zodOffset d.lspMean false
  let zod ← zenithShape c ut bs indoor d.los d.zod lsp pa d.zodOffset d.lspMean true
  let xpr ← xprShape c ut bs d.los
  let aoa ← shuffleShape c ut bs aoa
  let aod ← shuffleShape c ut bs aod
  let zoa ← shuffleShape c ut bs zoa
  let zod ← shuffleShape c ut bs zod
  if aoa = aod ∧ aoa = zoa ∧ aoa = zod then .ok ⟨delays, powers, aoa, xpr⟩ else .error .invalidArgument

/-! ### Coefficients -/

/-- `Topology`, channel_coefficients.py 66-103, and the inputs of the coefficient generator. `high`: the satellite is at 600 km or more;
`doppler`: `doppler_enabled`. -/
structure CoeffShapes where
  velocities : Shape
  movingTx : Bool
  losAngles : Shape
  los : Shape
  distance3d : Shape
  txOri : Shape
  rxOri : Shape
  bsHeight : Shape
  satSpeed : Shape
  txAnt : ℕ
  txDual : Bool
  rxAnt : ℕ
  rxDual : Bool
  high : Bool
  doppler : Bool

/-- `_unit_sphere_vector`, channel_coefficients.py 233-252. -/
def sphereShape (theta phi : Shape) : Except Err Shape := do
  let x ← bcast theta phi
  let r ← stack x [x, theta] (-1)
  expandDims r (-1)

/-- `_forward_rotation_matrix`, channel_coefficients.py 254-283. -/
def rotationShape (ori : Shape) : Except Err Shape := do
  let a ← pick ori (-1) 0
  let b ← pick ori (-1) 1
  let c ← pick ori (-1) 2
  let ab ← bcast a b
  let abc ← bcast ab c
  let bc ← bcast b c
  let row1 ← stack ab [abc, abc] (-1)
  let row2 ← stack ab [abc, abc] (-1)
  let row3 ← stack b [bc, bc] (-1)
  stack row1 [row2, row3] (-2)

/-- `_step_11_get_tx_antenna_positions` and its twin, channel_coefficients.py 442-489: `n` antennas. -/
def positionsShape (ori : Shape) (n : ℕ) : Except Err Shape := do
  let o ← expandDims ori 2
  let p ← reshape [n, 3] [1, 1, n, 3, 1]
  let r ← rotationShape o
  let g ← matmul r p
  reshape g g.dropLast

/-- `_gcs_to_lcs`, channel_coefficients.py 344-367. -/
def toLocalShape (ori theta phi : Shape) : Except Err Shape := do
  let rho ← sphereShape theta phi
  let rot ← rotationShape ori
  let inv ← transposeLast rot
  let r ← matmul inv rho
  let v ← reshape [3] (List.replicate (r.length - 1) 1 ++ [3])
  let z ← matmul v r
  let z ← squeeze z (phi.length + 1 : ℕ)
  squeeze z (phi.length : ℕ)

/-- `_compute_psi` and `_l2g_response`, channel_coefficients.py 392-440. -/
def responseShape (field ori theta phi : Shape) : Except Err Shape := do
  let a ← pick ori (-1) 0
  let b ← pick ori (-1) 1
  let c ← pick ori (-1) 2
  let pa ← bcast phi a
  let ct ← bcast c theta
  let re1 ← bcast ct pa
  let bt ← bcast b theta
  let btp ← bcast bt pa
  let x ← bcast bt btp
  let re2 ← bcast c x
  let re ← bcast re1 re2
  let im1 ← bcast c pa
  let bc ← bcast b c
  let im2 ← bcast bc pa
  let im ← bcast im1 im2
  let psi ← bcast re im
  let row ← stack psi [psi] (-1)
  let mat ← stack row [row] (-2)
  let f ← expandDims field (-1)
  matmul mat f

/-- `_step_11_phase_matrix`, channel_coefficients.py 529-545, with the phases of `_step_10` (lines 506-510). -/
def phaseShape (phi xpr : Shape) : Except Err Shape := do
  let e0 ← pick phi (-1) 0
  let e3 ← pick phi (-1) 3
  let p1 ← pick phi (-1) 1
  let e1 ← bcast xpr p1
  let p2 ← pick phi (-1) 2
  let e2 ← bcast xpr p2
  let s ← stack e0 [e1, e2, e3] (-1)
  reshape s (e0 ++ [2, 2])

/-- `_step_11_faraday_rotation`, channel_coefficients.py 1115-1125. -/
def faradayShape (s : Shape) : Except Err Shape := do
  let x ← stack s [s, s, s] (-1)
  reshape x (s ++ [2, 2])

/-- `_step_11_doppler_matrix`, channel_coefficients.py 575-634; `t` samples. -/
def dopplerShape (k : CoeffShapes) (angles : Shape) (t : ℕ) : Except Err Shape := do
  let v ← expandDims k.velocities (-1)
  let v ← expandDims v (if k.movingTx then 2 else 1)
  let r ← sphereShape angles angles
  let v ← expandDims v (-3)
  let v ← expandDims v (-3)
  let x ← bcast r v
  let e ← reduce x (-2)
  let e ← bcast e [t]
  truth k.bsHeight
  if k.high && k.doppler then do
    let s ← expandDims k.satSpeed 1
    let tt ← expandDims [t] 0
    let r ← matmul s tt
    let r ← expandDims r 1
    let r ← expandDims r 1
    let r ← expandDims r 1
    let r ← expandDims r 1
    let r ← broadcastTo r e
    bcast e r
  else .ok e

/-- `_step_11_array_offsets`, channel_coefficients.py 664-724. -/
def offsetsShape (k : CoeffShapes) (angles : Shape) : Except Err Shape := do
  let r ← sphereShape angles angles
  let r ← squeeze r (r.length - 1 : ℤ)
  let dRx ← positionsShape k.rxOri k.rxAnt
  let dTx ← positionsShape k.txOri k.txAnt
  let r ← expandDims r (-2)
  let dTx ← reshape dTx (dTx.take 2 ++ [1, 1, 1] ++ dTx.drop 2)
  let s0 ← size dRx 0
  let s1 ← size dRx 1
  let dRx ← reshape dRx ([s0] ++ [1, s1, 1, 1] ++ dRx.drop 2)
  let s0 ← size dRx 0
  let r1 ← size r 1
  let dRx ← broadcastTo dRx ([s0] ++ [r1] ++ dRx.drop 2)
  let x ← bcast r dRx
  let eRx ← reduceKeep x (-1)
  let y ← bcast r dTx
  let eTx ← reduce y (-1)
  let eTx ← expandDims eTx (-2)
  bcast eRx eTx

/-- The antennas of one end in `_step_11_field_matrix`, channel_coefficients.py 794-833: tiling of the response of the only polarisation, or selection
of the response by the polarisation of the antenna. -/
def antennaShape (pol : Shape) (n : ℕ) (dual : Bool) : Except Err Shape :=
  if dual then do
    let p ← stack pol [pol] 0
    gather p [n] 0
  else do
    let p ← expandDims pol 0
    tile p (n :: List.replicate pol.length 1)

/-- `_step_11_field_matrix`, channel_coefficients.py 752-842. The fields of the antenna elements have the shape of their arguments. -/
def fieldShape (k : CoeffShapes) (angles hPhase : Shape) : Except Err Shape := do
  let s2 ← size k.txOri ((k.txOri.length : ℕ) - 1)
  let txOri ← reshape k.txOri (k.txOri.take 2 ++ [1, 1, 1, s2])
  let txPrime ← toLocalShape txOri angles angles
  let s0 ← size k.rxOri 0
  let s1 ← size k.rxOri 1
  let s2 ← size k.rxOri ((k.rxOri.length : ℕ) - 1)
  let rxOri ← reshape k.rxOri [s0, 1, s1, 1, 1, s2]
  let rxPrime ← toLocalShape rxOri angles angles
  let fTx ← stack txPrime [txPrime] (-1)
  let fRx ← stack rxPrime [rxPrime] (-1)
  let fTx ← responseShape fTx txOri angles angles
  let fRx ← responseShape fRx rxOri angles angles
  let pTx ← matmul hPhase fTx
  let tx ← antennaShape pTx k.txAnt k.txDual
  let rx ← antennaShape fRx k.rxAnt k.rxDual
  let rx1 ← expandDims rx 1
  let tx0 ← expandDims tx 0
  let x ← bcast rx1 tx0
  let x ← reduce x (-1)
  let x ← reduce x (-1)
  transpose x ((List.range x.length).rotate 2)

/-- `_step_11_nlos`, channel_coefficients.py 870-899. -/
def nlosShape (k : CoeffShapes) (r : RayShapes) (t : ℕ) : Except Err Shape := do
  let hPhase ← phaseShape (r.angles ++ [4]) r.xpr
  truth k.bsHeight
  let hPhase ← if k.high then do
      let f ← faradayShape r.angles
      matmul hPhase f
    else pure hPhase
  let hField ← fieldShape k r.angles hPhase
  let hArray ← offsetsShape k r.angles
  let hDoppler ← dopplerShape k r.angles t
  let x ← bcast hField hArray
  let x ← expandDims x (-1)
  let y ← expandDims hDoppler (-2)
  let y ← expandDims y (-2)
  let h ← bcast x y
  let _ ← size h 4
  let p ← reshape r.powers (r.powers ++ List.replicate (h.length - r.powers.length) 1)
  bcast h p

/-- `_step_11_reduce_nlos`, channel_coefficients.py 927-1000, with sub-clusters: coefficients and delays. `cDs` is the cluster delay spread. -/
def reduceNlosShapes (h : Shape) (r : RayShapes) (cDs : Shape) : Except Err (Shape × Shape) := do
  let sorted ← gatherBatch r.delays r.powers 3
  let strong ← upTo sorted (-1) 2
  let weak ← fromOn sorted (-1) 2
  let off ← reshape [3] (List.replicate (strong.length - 1) 1 ++ [3] ++ [1])
  let s ← expandDims strong (-2)
  let c ← expandDims cDs (-1)
  let c ← expandDims c (-1)
  let x ← bcast off c
  let sub ← bcast s x
  let sub ← reshapeLast sub (sub.take (sub.length - 2))
  let strongInd ← upTo r.powers (-1) 2
  let hStrong ← gatherBatch h strongInd 3
  let weakInd ← fromOn r.powers (-1) 2
  let hWeak ← gatherBatch h weakInd 3
  let h1 ← gather hStrong [10] 4
  let h1 ← reduce h1 4
  let h2 ← gather hStrong [6] 4
  let h2 ← reduce h2 4
  let h3 ← gather hStrong [4] 4
  let h3 ← reduce h3 4
  let hWeak ← reduce hWeak 4
  let hn ← concat h1 h2 3
  let hn ← concat hn h3 3
  let hn ← concat hn hWeak 3
  let dn ← concat sub weak 3
  let ds ← gatherBatch dn dn 3
  let hs ← gatherBatch hn dn 3
  .ok (hs, ds)

/-- `_step_11_los`, channel_coefficients.py 1002-1054. -/
def losCoeffShape (k : CoeffShapes) (t : ℕ) : Except Err Shape := do
  let a ← expandDims k.losAngles 3
  let a ← expandDims a 4
  let hPhase ← reshape [2, 2] [1, 1, 1, 1, 1, 2, 2]
  truth k.bsHeight
  let hPhase ← if k.high then do
      let f ← faradayShape a
      matmul hPhase f
    else pure hPhase
  let hField ← fieldShape k a hPhase
  let hArray ← offsetsShape k a
  let hDoppler ← dopplerShape k a t
  let hField ← squeeze hField 4
  let hField ← expandDims hField (-1)
  let hArray ← squeeze hArray 4
  let hArray ← expandDims hArray (-1)
  let hDoppler ← expandDims hDoppler 4
  let d ← expandDims k.distance3d 3
  let d ← expandDims d 4
  let d ← expandDims d 5
  let d ← expandDims d 6
  let x ← bcast hField hArray
  let x ← bcast x hDoppler
  bcast x d

/-- `_step_11`, channel_coefficients.py 1080-1113. -/
def step11Shapes (k : CoeffShapes) (kFactor cDs : Shape) (r : RayShapes) (t : ℕ) : Except Err (Shape × Shape) := do
  let h ← nlosShape k r t
  let (hn, dn) ← reduceNlosShapes h r cDs
  let hl ← losCoeffShape k t
  let kf ← reshape kFactor (kFactor ++ List.replicate (hl.length - kFactor.length) 1)
  let hl ← bcast hl kf
  let hln ← bcast hn kf
  let first ← pick hln 3 0
  let first ← expandDims first 3
  let cl ← bcast hl first
  let rest ← fromOn hln 3 1
  let hl ← concat cl rest 3
  let ind ← reshape k.los (k.los ++ [1, 1, 1, 1])
  let h ← choose ind hl hn
  .ok (h, dn)

/-- The large-scale parameters of a call, system_level_channel.py 174-178. -/
def callLspShape (always : Bool) (st : ShapeState) (ut bs cross spatial : Shape) (d : DerivedShapes) : Except Err Shape :=
  if always then lspShape ut bs cross spatial d.lspMean d.lspStd else
    match st.lsp with
    | some l => .ok l
    | none => .error .attributeError

/-- The inputs of the coefficient generator, system_level_channel.py 184-253: topology, K-factor, shadow fading, rays, cluster delay spread. -/
def inputShapes (c : ShapeConfig) (high doppler : Bool) (d : DerivedShapes) (lsp : Shape) (r : RayShapes) (bs utOri bsOri vel : Shape) :
    Except Err (CoeffShapes × Shape × Shape × RayShapes × Shape) := do
  let heights ← pick bs 2 2
  let bsHeight ← pick heights 0 0
  let b ← size d.aoa 0
  let satSpeed ← bcast [b] bsHeight
  -- the angles of azimuth and zenith have one shape, since `CoeffShapes` says so
  if d.aoa ≠ d.zoa then .error .invalidArgument else
  if c.uplink then do
    let angles ← transpose r.angles [0, 2, 1, 3, 4]
    let powers ← transpose r.powers [0, 2, 1, 3]
    let delays ← transpose r.delays [0, 2, 1, 3]
    let xpr ← transpose r.xpr [0, 2, 1, 3, 4]
    let la ← transpose d.aoa [0, 2, 1]
    let los ← transpose d.los [0, 2, 1]
    let cDs ← transpose d.los [0, 2, 1]
    let d3 ← transpose d.distance3d [0, 2, 1]
    let kf ← transpose lsp [0, 2, 1]
    let sf ← transpose lsp [0, 2, 1]
    .ok (⟨vel, true, la, los, d3, utOri, bsOri, bsHeight, satSpeed, c.utAnt, c.utDual, c.bsAnt, c.bsDual, high, doppler⟩, kf, sf,
      ⟨delays, powers, angles, xpr⟩, cDs)
  else
    .ok (⟨vel, false, d.aoa, d.los, d.distance3d, bsOri, utOri, bsHeight, satSpeed, c.bsAnt, c.bsDual, c.utAnt, c.utDual, high, doppler⟩, lsp, lsp, r,
      d.los)

/-- `_step_12`, system_level_channel.py 403-431, with `sample_pathloss` of lsp.py 170-194. `pathloss`: path loss is enabled. -/
def step12Shape (c : ShapeConfig) (pathloss : Bool) (d : DerivedShapes) (h sf : Shape) : Except Err Shape := do
  let pl ← if pathloss then do
      let p ← bcast d.plBasic d.plGas
      let p ← bcast p d.plScint
      let p ← bcast p d.plEntry
      if c.uplink then transpose p [0, 2, 1] else pure p
    else pure []
  let gain ← bcast pl sf
  let gain ← reshape gain (gain ++ List.replicate (h.length - gain.length) 1)
  bcast h gain

/-- `SystemLevelChannel.__call__`, system_level_channel.py 155-264: the shapes of the returned coefficients and delays. -/
def callShapes (c : ShapeConfig) (always pathloss high doppler : Bool) (st : ShapeState) (t : ℕ) : Except Err (Shape × Shape) :=
  match st.scene.utLoc, st.scene.bsLoc, st.scene.utOri, st.scene.bsOri, st.scene.utVel, st.scene.inState, st.derived, st.cross, st.spatial, st.mask with
  | some ut, some bs, some utOri, some bsOri, some vel, some indoor, some d, some cross, some spatial, some mask => do
    let lsp ← callLspShape always st ut bs cross spatial d
    let r ← raysShapes c ut bs indoor d mask lsp
    let (k, kf, sf, r, cDs) ← inputShapes c high doppler d lsp r bs utOri bsOri vel
    let (h, delays) ← step11Shapes k kf cDs r t
    let h ← step12Shape c pathloss d h sf
    let h ← transpose h [0, 2, 4, 1, 5, 3, 6]
    let delays ← transpose delays [0, 2, 1, 3]
    .ok (h, delays)
  | _, _, _, _, _, _, _, _, _, _ => .error .attributeError

end OpenNTN
