import Verif.Model.Antenna
import Verif.Model.Scenario

/-
Element types of the tensors that the code creates. The other files model the numbers and leave the element type out; this file models only
the element type. Every class and function takes `precision`, "single" or "double", which selects `rdtype`
(e.g. utils.py 575-578). TensorFlow never converts the element type of a tensor silently. A Python float takes the type of the floating-point
tensor it is combined with and becomes float32 when it is the argument of a TensorFlow function; a Python integer takes the type of any tensor
it is combined with and becomes int32 as an argument. Complex tensors are left out.
-/
namespace OpenNTN

/-- The argument `precision`. -/
inductive Precision where
  | single
  | double
deriving DecidableEq

/-- Element types. -/
inductive DType where
  | f32
  | f64
  | i32
deriving DecidableEq

/-- `dtypes[precision]["tf"]["rdtype"]`, used e.g. at utils.py 578 and by `Object.rdtype`. -/
def Precision.rdtype : Precision → DType
  | .single => .f32
  | .double => .f64

/-- A Python float, a Python integer, or a tensor with an element type. -/
inductive Kind where
  | py
  | pyInt
  | tensor (d : DType)
deriving DecidableEq

/-- The result of a TensorFlow function of one argument, such as `tf.math.square` or `tf.fill`. Functions that reject integers, such as
`tf.math.sin`, are only applied to floating-point values here. -/
def Kind.tf : Kind → Kind
  | .py => .tensor .f32
  | .pyInt => .tensor .i32
  | .tensor d => .tensor d

/-- An operation of two operands (arithmetic, comparison, `tf.where`, `tf.stack`, `tf.atan2`). The exception (`InvalidArgumentError` or `TypeError`) is not
distinguished. Two Python integers are combined as by addition. -/
def Kind.op : Kind → Kind → Except Err Kind
  | .pyInt, k => .ok k
  | k, .pyInt => .ok k
  | .py, .py => .ok .py
  | .py, .tensor d => if d = .i32 then .error .invalidArgument else .ok (.tensor d)
  | .tensor d, .py => if d = .i32 then .error .invalidArgument else .ok (.tensor d)
  | .tensor d, .tensor e => if d = e then .ok (.tensor d) else .error .invalidArgument

/-- An arithmetic expression with several operands: it is rejected exactly if two tensors differ in type or an integer tensor meets a Python float,
wherever they stand. -/
def combine : List Kind → Except Err Kind
  | [] => .ok .pyInt
  | k :: ks => do
    let r ← combine ks
    k.op r

/-- `tf.convert_to_tensor(value, dtype)`, applied to the parameters of `tf.random.uniform` and `tf.random.normal`; float32 if the call
names no type. -/
def Kind.convert (k : Kind) (d : DType) : Except Err Unit :=
  match k with
  | .py => if d = .i32 then .error .invalidArgument else .ok ()
  | .pyInt => .ok ()
  | .tensor e => if e = d then .ok () else .error .invalidArgument

/-- `tf.random.uniform` / `tf.random.normal` with parameters `a`, `b` and the given type. -/
def randomOf (a b : Kind) (d : DType := .f32) : Except Err Kind := do
  a.convert d
  b.convert d
  .ok (.tensor d)

/-- `tf.zeros(shape)` without a type. -/
def zerosDefault : Kind := .tensor .f32

/-- The element type of a result. -/
def Kind.dtype : Kind → DType
  | .py => .f32
  | .pyInt => .i32
  | .tensor d => d

/-! ### Parameter files -/

/-- The cells of the parameter files written as integers, `/repo/OpenNTN/models/*Urban*.json`: all numbers of clusters, two standard deviations and
most correlation entries of one file. -/
def jsonInt (file : String) (q : Param) (angle : ℤ) : Bool :=
  q = .pnumClusters ||
  ((file = "Sub_Urban_LOS_S_band_DL.json" || file = "Sub_Urban_LOS_S_band_UL.json") && q = .psigmaXPR && angle = 90) ||
  (file = "Urban_LOS_Ka_band_UL.json" &&
    q ∈ [.pcorrDistASD, .pcorrDistASA, .pcorrDistSF, .pcorrDistK, .pcorrDistZSA, .pcorrDistZSD, .pcorrASDvsASA, .pcorrASDvsK, .pcorrSFvsK,
      .pcorrZSDvsSF, .pcorrZSDvsK, .pcorrZSAvsK, .pcorrZSAvsDS, .pcorrZSAvsASD, .pcorrZSDvsZSA])

/-- `_load_params`, system_level_scenario.py 894-903, 910-919: integers become int32 tensors, decimals and strings tensors of type `rdtype`. -/
def entryKind (p : Precision) (file : String) (q : Param) (angle : ℤ) : Kind :=
  if jsonInt file q angle then .tensor .i32 else .tensor p.rdtype

/-- `tf.cast(value, rdtype)` -/
def Kind.cast (_ : Kind) (p : Precision) : Kind := .tensor p.rdtype

/-- `get_param`, system_level_scenario.py 752-773: the entries of the two files are cast and one of them is chosen with `tf.where`. -/
def getParamType (p : Precision) (losFile nlosFile : String) (q : Param) (angle : ℤ) : Except Err Kind :=
  ((entryKind p losFile q angle).cast p).op ((entryKind p nlosFile q angle).cast p)

/-- `num_clusters_max`, system_level_scenario.py 377-385: `tf.reduce_max` of the two entries, without a cast. -/
def numClustersType (p : Precision) (losFile nlosFile : String) (angle : ℤ) : Except Err Kind :=
  (entryKind p losFile .pnumClusters angle).op (entryKind p nlosFile .pnumClusters angle)

/-! ### utils.py, topology generation -/

/-- `drop_uts_in_sector`, utils.py 575-610. `side` (lines 591-595) is computed from `rdtype` only. -/
def dropTypes (p : Precision) (bsHeight isd : Kind) : Except Err Kind := do
  let rd := Kind.tensor p.rdtype
  -- 585: both operands are cast
  let actual ← rd.op rd
  -- 586
  let dist ← actual.op bsHeight.tf
  -- 587: no type given
  let xBase ← randomOf .py dist
  -- 588
  let yBase ← combine [actual, bsHeight.tf, xBase]
  -- 598-605
  let half ← combine [isd, .py]
  let dis ← randomOf half half p.rdtype
  -- 607
  combine [xBase, dis, yBase, dis]

/-- The arguments of `gen_single_sector_topology` that matter here, utils.py 990-1002; `none` is Python's `None`. -/
structure GenKinds where
  isd : Option Kind
  bsHeight : Option Kind
  /-- cast to `rdtype` wherever it is used, at lines 982, 983 after the addition of a Python float -/
  elevation : Option Kind
  minUtHeight : Option Kind
  maxUtHeight : Option Kind
  minUtVelocity : Option Kind
  maxUtVelocity : Option Kind

/-- `gen_single_sector_topology`, utils.py 1134-1191 with 698-768 (defaults are constants of type `rdtype`) and 931-988. Returned types: `ut_loc`,
`bs_loc`, `ut_orientations`, `bs_orientations`, `ut_velocities`. -/
def genTypes (p : Precision) (a : GenKinds) : Except Err (List DType) := do
  let rd := Kind.tensor p.rdtype
  let isd := a.isd.getD rd
  let bsHeight := a.bsHeight.getD rd
  let minUtHeight := a.minUtHeight.getD rd
  let maxUtHeight := a.maxUtHeight.getD rd
  let minUtVelocity := a.minUtVelocity.getD rd
  let maxUtVelocity := a.maxUtVelocity.getD rd
  -- 1162-1164; `tf.fill` of a Python number is float32
  let bsLoc ← combine [rd, rd, bsHeight.tf]
  -- 1167-1172
  let bsOri ← combine [rd, rd, rd]
  -- 937-942
  let xy ← dropTypes p bsHeight isd
  -- 950, with 815-839: everything is cast to the type of `ut_loc`
  let xy ← xy.op xy
  -- 954-959
  let z ← randomOf minUtHeight maxUtHeight p.rdtype
  let loc ← combine [xy, z]
  -- 964, with 533-534
  let _ ← rd.op .py
  -- 968-979
  let velAngle ← randomOf .py .py p.rdtype
  let velNorm ← randomOf minUtVelocity maxUtVelocity p.rdtype
  let vel ← combine [velNorm, velAngle, rd]
  -- 982, 983: zeros without a type, plus a tensor of type `rdtype`
  let _ ← (a.elevation.getD rd).op .py
  let downtilt ← zerosDefault.op rd
  let slant ← zerosDefault.op rd
  -- 985, 986
  let bearing ← xy.op xy
  let ori ← combine [bearing, downtilt, slant]
  .ok [loc.dtype, bsLoc.dtype, ori.dtype, bsOri.dtype, vel.dtype]

/-! ### system_level_scenario.py, `set_topology` -/

/-- `_compute_distance_2d_3d_and_angles`, system_level_scenario.py 779-844, for locations of type `loc`: 2D distance, 3D distance, angles. -/
def distanceTypes (loc : DType) : Except Err (Kind × Kind × Kind) := do
  let loc := Kind.tensor loc
  let delta ← loc.op loc
  -- 804: `math.radians` returns a Python float
  let elevation := Kind.py
  -- 811
  let root ← combine [.py, elevation.tf, loc, .py, loc]
  let d3 ← combine [root, .py, elevation.tf]
  -- 822-830, 834-844
  let angles ← combine [delta, delta, .py]
  .ok (delta, d3, angles)

/-- `_sample_indoor_distance`, system_level_scenario.py 864-884. -/
def indoorTypes (p : Precision) (d2 d3 : Kind) : Except Err (List Kind) := do
  let rd := Kind.tensor p.rdtype
  let mask ← rd.op rd
  let r ← randomOf rd rd p.rdtype
  let in2 ← r.op mask
  let out2 ← d2.op in2
  let in3 ← combine [in2, d2, d3]
  let out3 ← d3.op in3
  .ok [in2, out2, in3, out3]

/-- `_sample_los`, system_level_scenario.py 846-861, with `los_probability`, dense_urban_scenario.py 124-135 (urban_scenario.py 123-136,
sub_urban_scenario.py 123-136), and `sample_bernoulli`, utils.py 525-535. `entry` is the kind of the table entry, `requested` says that
`los` was given. -/
def losTypes (p : Precision) (requested : Bool) (entry : Kind) : Except Err Unit :=
  if requested then .ok () else do
  let rd := Kind.tensor p.rdtype
  let prob ← zerosDefault.op entry
  let _ ← rd.op prob
  .ok ()

/-- `_compute_lsp_log_mean_std`, dense_urban_scenario.py 177-260 (the other scenarios alike): mean, standard deviation, ZoD offset. `get_param` casts to
`rdtype` (system_level_scenario.py 763-768). -/
def lspTypes (p : Precision) (loc : DType) (d2 : Kind) : Except Err (List Kind) := do
  let rd := Kind.tensor p.rdtype
  let mean ← combine [rd, rd, rd, rd, rd, .py, rd, rd]
  let breakpoint ← combine [.py, .tensor loc, .tensor loc, rd, .py]
  let _ ← d2.op breakpoint
  let std ← combine [rd, rd, rd, rd, .py, rd, .py, rd, rd]
  let offset ← combine [.py, d2]
  let zod ← rd.op offset
  .ok [mean, std, zod]

/-- `compute_pathloss_basic`, utils.py 1765-1785: free space loss, basic loss. The two normal draws name no type. The clutter loss `cl` and the standard
deviations are the table entries, not cast. -/
def basicTypes (p : Precision) (d3 cl sigmaLos sigmaNlos : Kind) : Except Err (List Kind) := do
  let rd := Kind.tensor p.rdtype
  let fspl ← combine [.py, rd, d3]
  let sfLos ← randomOf .py sigmaLos
  let sfNlos ← randomOf .py sigmaNlos
  let los ← fspl.op sfLos
  let nlos ← combine [fspl, sfNlos, cl]
  let basic ← los.op nlos
  .ok [fspl, basic]

/-- `compute_pathloss_gas`, utils.py 1593-1705: temperature, pressure and vapour density are Python numbers, so `tf.math.exp` and `tf.math.sin` of
them are float32; `f` has type `rdtype`. -/
def gasTypes (p : Precision) : Except Err Kind := do
  let f := Kind.tensor p.rdtype
  let number := Kind.py.tf
  let yw ← combine [number, f]
  let hw ← combine [.py, number, f]
  let aw ← yw.op hw
  let yo ← combine [.py, f, number]
  let ho ← combine [.py, f, number]
  let ao ← yo.op ho
  let total ← combine [ao, aw, number]
  zerosDefault.op total

/-- `compute_pathloss_scintilation`, utils.py 1708-1757, and `compute_pathloss_entry`, utils.py 1761-1764; `ka` says that the frequency is at least 6 GHz. -/
def scintTypes (p : Precision) (ka : Bool) : Except Err (List Kind) := do
  let f := Kind.tensor p.rdtype
  let s ← if ka then do
      let length ← combine [.py, Kind.py.tf]
      let x ← combine [.py, f, length]
      combine [.py, f, x]
    else combine [.py, f]
  let s ← zerosDefault.op s
  .ok [s, zerosDefault]

/-- `set_topology`, system_level_scenario.py 501-664, when an update is needed and the locations have type `loc`. `ka` says that the frequency is at least 6 GHz,
`los`, `nlos` are the names of the parameter files and `angle` is the column read. Types of the attributes computed. -/
def setTopologyTypes (p : Precision) (loc : DType) (ka requested : Bool) (los nlos : String) (angle : ℤ) : Except Err (List DType) := do
  let (d2, d3, angles) ← distanceTypes loc
  let indoor ← indoorTypes p d2 d3
  losTypes p requested (entryKind p los .pLoSp angle)
  let lsp ← lspTypes p loc d2
  let basic ← basicTypes p d3 (entryKind p nlos .pCL angle) (entryKind p los .psigmaSF angle) (entryKind p nlos .psigmaSF angle)
  let gas ← gasTypes p
  let scint ← scintTypes p ka
  .ok (([d2, d3, angles] ++ indoor ++ lsp ++ basic ++ [gas] ++ scint).map Kind.dtype)

/-! ### tdl.py -/

/-- `_compute_doppler`, tdl.py 572-584: height, elevation and the constants are Python numbers; speed and carrier frequency have type `rdtype`. A numpy
number behaves like a Python number here. -/
def tdlDopplerTypes (p : Precision) : Except Err Kind := do
  let rd := Kind.tensor p.rdtype
  let vSat := Kind.py.tf
  let additional ← combine [vSat, .py, .py, rd]
  combine [.py, rd, .py, rd, additional]

/-- `TDL.__init__`, tdl.py 295-327 with 622-649: types of the two Doppler shifts, of the angles of arrival and of the delays. -/
def tdlTypes (p : Precision) : Except Err (List DType) := do
  let rd := Kind.tensor p.rdtype
  let minDoppler ← tdlDopplerTypes p
  let maxDoppler ← tdlDopplerTypes p
  let alpha ← combine [.py, rd]
  .ok [minDoppler.dtype, maxDoppler.dtype, alpha.dtype, rd.dtype]

/-! ### antenna.py -/

/-- The radiation patterns, antenna.py 137-222, for angles of type `rdtype`. The circular aperture (lines 190, 191) uses constants that are cast to float32. -/
def patternTypes (p : Precision) : Pattern → Except Err Kind
  | .omni => .ok (.tensor p.rdtype)
  | .p38901 => combine [.py, .tensor p.rdtype, .py, .tensor p.rdtype]
  | .aperture => do
    let r ← (Kind.tensor p.rdtype).op (.tensor p.rdtype)
    let amplitude ← combine [.tensor .f32, r]
    combine [.tensor .f32, amplitude]
  | .dlp => combine [.py, .tensor p.rdtype, .py, .tensor p.rdtype]

/-- `AntennaElement.field`, antenna.py 65-81: both components. -/
def fieldTypes (p : Precision) (pattern : Pattern) : Except Err (List DType) := do
  let a ← patternTypes p pattern
  let theta ← a.op (.tensor p.rdtype)
  let phi ← a.op (.tensor p.rdtype)
  .ok [theta.dtype, phi.dtype]

end OpenNTN
