import Verif.Model.ShapeOps
import Verif.Model.Shapes
import Verif.Model.Ofdm

/-
Shapes of the tensors in the functions around the system level models: the generator of topologies, the TDL model and the conversions of impulse
responses. Values are in Model/Topology, Model/Tdl and Model/Ofdm.
-/
namespace OpenNTN

namespace Shape

/-- `insert_dims(x, num_dims, axis)` of Sionna (sionna.phy.utils). -/
def insertDims (s : Shape) (num axis : ℕ) : Except Err Shape :=
  if axis ≤ s.length then .ok (s.take axis ++ List.replicate num 1 ++ s.drop axis) else .error .invalidArgument

/-- `expand_to_rank(x, target_rank, axis)` of Sionna: tensors of the rank or a larger one are returned as they are. -/
def expandToRank (s : Shape) (rank axis : ℕ) : Except Err Shape := insertDims s (rank - s.length) axis

/-- `flatten_last_dims(x, 2)` of Sionna. -/
def flattenLast2 (s : Shape) : Except Err Shape :=
  match s.reverse with
  | a :: b :: r => .ok (r.reverse ++ [b * a])
  | _ => .error .invalidArgument

/-- `split_dim(x, shape, axis)` of Sionna for the last axis. -/
def splitLast (s : Shape) (shape : Shape) : Except Err Shape :=
  match s.reverse with
  | a :: r => if a = shape.prod then .ok (r.reverse ++ shape) else .error .invalidArgument
  | _ => .error .invalidArgument

/-- Reduction over several axes with `keepdims=True`. -/
def reduceKeepAll (s : Shape) : List ℤ → Except Err Shape
  | [] => .ok s
  | axis :: rest => do
    let s ← reduceKeep s axis
    reduceKeepAll s rest

/-- `x[..., start:stop:step, ...]` at an axis. -/
def strided (s : Shape) (axis : ℤ) (start stop step : ℕ) : Except Err Shape := do
  let j ← axisOf s.length axis
  let d ← size s j
  if step = 0 then .error .invalidArgument else .ok (s.set j (sliceLength d start stop step))

/-- `tf.range(l_min, l_max + 1)`: a start beyond the limit raises. -/
def lagRange (lMin lMax : ℤ) : Except Err Shape := if lMin ≤ lMax + 1 then .ok [(lMax + 1 - lMin).toNat] else .error .invalidArgument

end Shape

open Shape

/-! ### Conversions -/

/-- The delays as operand of the products with the coefficients, utils.py 220-232 and 306-323. -/
def delayOperandShape (a tau : Shape) : Except Err Shape := do
  let tau ← if tau.length = 4 then do
      let e ← expandDims tau 2
      let e ← expandDims e 4
      let n ← size a 4
      tile e [1, 1, 1, 1, n, 1]
    else .ok tau
  let tau ← expandDims tau 6
  expandDims tau (-1)

/-- `cir_to_ofdm_channel`, utils.py 218-255. -/
def toOfdmShape (frequencies a tau : Shape) (normalize : Bool) : Except Err Shape := do
  let tau ← delayOperandShape a tau
  let h ← expandDims a (-1)
  let frequencies ← expandToRank frequencies tau.length 0
  let e ← bcast frequencies tau
  let h ← bcast h e
  let h ← reduce h (-3)
  if normalize then do
    let c ← reduceKeepAll h [2, 4, 5, 6]
    bcast h c
  else .ok h

/-- `cir_to_time_channel`, utils.py 304-345; the bandwidth is a number. -/
def toTimeShape (a tau : Shape) (lMin lMax : ℤ) (normalize : Bool) : Except Err Shape := do
  let l ← lagRange lMin lMax
  let tau ← delayOperandShape a tau
  let l ← expandToRank l tau.length 0
  let g ← bcast l tau
  let a ← expandDims a (-1)
  let h ← bcast a g
  let h ← reduce h (-3)
  if normalize then do
    let c ← reduceKeep h 6
    let c ← reduceKeepAll c [2, 4, 5]
    bcast h c
  else .ok h

/-- `time_to_ofdm_channel`, utils.py 430-451. Rolling, transforming and shifting keep the shape. A negative amount of padding raises. -/
def timeToOfdmShape (h : Shape) (g : ResourceGrid) : Except Err Shape := do
  let h ← strided h (-2) g.cyclicPrefix g.numTimeSamples (g.fftSize + g.cyclicPrefix)
  let i ← axisOf h.length (-1)
  let l ← size h i
  if g.fftSize < l then .error .invalidArgument
  else concat h (h.dropLast ++ [g.fftSize - l]) (-1)

/-! ### Topologies -/

/-- `drop_uts_in_sector`, utils.py 584-610; heights, angles and distances are numbers. -/
def dropShape (b u : ℕ) : Except Err Shape := do
  let xBase : Shape := [1]
  let yBase ← bcast [] xBase
  let x ← bcast xBase [b, u]
  let y ← bcast yBase [b, u]
  stack x [y] (-1)

/-- `relocate_uts`, utils.py 813-841. -/
def relocateShape (utLoc sector cell : Shape) : Except Err Shape := do
  let sector ← expandToRank sector 2 0
  let cell ← expandToRank cell utLoc.length 0
  let m ← stack sector [sector, sector, sector] (-1)
  let m ← reshape m (sector ++ [2, 2])
  let v ← expandDims utLoc (-1)
  let r ← matmul m v
  let r ← squeeze r (-1)
  bcast r cell

/-- `generate_uts_topology`, utils.py 928-988: locations, orientations, velocities, indoor states. -/
def utsShapes (b u : ℕ) (cellArea : Bool) (cell : Shape) : Except Err (Shape × Shape × Shape × Shape) := do
  let xy ← dropShape b u
  let xy ← relocateShape xy (if cellArea then [b, u] else []) cell
  let loc ← concat xy [b, u, 1] (-1)
  let vx ← bcast [b, u] [b, u]
  let vel ← stack vx [vx, [b, u]] (-1)
  let tilt ← bcast [b, u] []
  let y ← pick xy 2 1
  let x ← pick xy 2 0
  let bearing ← bcast y x
  let ori ← stack bearing [tilt, tilt] (-1)
  .ok (loc, ori, vel, [b, u])

/-- `gen_single_sector_topology`, utils.py 1128-1191; the scene in the order of the arguments of `set_topology`. -/
def sectorShapes (b u : ℕ) : Except Err SceneShapes := do
  let height ← fill [b, 1] []
  let bsLoc ← stack [b, 1] [[b, 1], height] (-1)
  let angle ← fill [b, 1] []
  let bsOri ← stack angle [angle, [b, 1]] (-1)
  let (loc, ori, vel, ind) ← utsShapes b u false [2]
  .ok ⟨some loc, some bsLoc, some ori, some bsOri, some vel, some ind⟩

/-! ### TDL -/

/-- Sizes of a TDL model: numbers of clusters, entries of the powers and of the delays, sinusoids, antennas; shapes of the correlation matrices. -/
structure TdlSizes where
  los : Bool
  clusters : ℕ
  powers : ℕ
  delays : ℕ
  sinusoids : ℕ
  rxAnt : ℕ
  txAnt : ℕ
  spatial : Option Shape := none
  rxCorr : Option Shape := none
  txCorr : Option Shape := none

/-- The root of a correlation matrix, tdl.py 328-350. -/
def rootShape (m : Shape) : Except Err Shape := do
  let r ← cholesky m
  expandToRank r 7 0

/-- The root of the matrix of one side, tdl.py 336-350: `None` stays. -/
def rootOptShape : Option Shape → Except Err (Option Shape)
  | some m => do
    let r ← rootShape m
    .ok (some r)
  | none => .ok none

/-- The end of `__init__`, tdl.py 316-350: the angles of the sinusoids, the roots of the joint matrix, and of the matrices of the receiver and the
transmitter, which are not looked at if there is a joint matrix. -/
def tdlInitShapes (c : TdlSizes) : Except Err (Shape × Option Shape × Option Shape × Option Shape) := do
  let alpha ← reshape [c.sinusoids] [1, 1, 1, 1, 1, 1, 1, c.sinusoids]
  match c.spatial with
  | some m => do
    let r ← rootShape m
    .ok (alpha, some r, none, none)
  | none => do
    let rx ← rootOptShape c.rxCorr
    let tx ← rootOptShape c.txCorr
    .ok (alpha, none, rx, tx)

/-- The scattered part of the coefficients, tdl.py 417-478. -/
def tdlScatterShape (c : TdlSizes) (alphaConst : Shape) (b t : ℕ) : Except Err Shape := do
  let times ← insertDims [t] 6 0
  let times ← expandDims times (-1)
  let doppler : Shape := [b, 1, 1, 1, 1, 1, 1, 1]
  let theta : Shape := [b, 1, 1, 1, 1, c.clusters, 1, c.sinusoids]
  let alpha ← bcast alphaConst theta
  let phi : Shape := [b, 1, c.rxAnt, 1, c.txAnt, c.clusters, 1, c.sinusoids]
  let arg ← bcast doppler times
  let arg ← bcast arg alpha
  let arg ← bcast arg phi
  let h ← reduce arg (-1)
  let powers ← insertDims [c.powers] 5 0
  let powers ← expandDims powers (-1)
  bcast powers h

/-- The line of sight added to the first tap, tdl.py 480-506. -/
def tdlSpecularShape (h : Shape) (b t : ℕ) : Except Err Shape := do
  let times ← insertDims [t] 6 0
  let times ← expandDims times (-1)
  let doppler ← squeeze [b, 1, 1, 1, 1, 1, 1, 1] (-1)
  let times ← squeeze times (-1)
  let arg ← bcast doppler times
  let spec ← bcast arg [b, 1, 1, 1, 1, 1, 1]
  let first ← upTo h 5 1
  let first ← bcast spec first
  let rest ← fromOn h 5 1
  concat first rest 5

/-- The correlation of the antennas, tdl.py 516-535. -/
def tdlCorrelateShape (c : TdlSizes) (h : Shape) (spatial rx tx : Option Shape) : Except Err Shape :=
  match spatial with
  | some m => do
    let h ← transpose h [0, 1, 3, 5, 6, 2, 4]
    let h ← flattenLast2 h
    let h ← expandDims h (-1)
    let h ← matmul m h
    let h ← squeeze h (-1)
    let h ← splitLast h [c.rxAnt, c.txAnt]
    transpose h [0, 1, 5, 2, 6, 3, 4]
  | none =>
    if rx.isSome || tx.isSome then do
      let h ← transpose h [0, 1, 3, 5, 6, 2, 4]
      let h ← match rx with
        | some m => matmul m h
        | none => .ok h
      let h ← match tx with
        | some m => matmul h m
        | none => .ok h
      transpose h [0, 1, 5, 2, 6, 3, 4]
    else .ok h

/-- The constructor and `__call__`, tdl.py 415-541: coefficients and delays. -/
def tdlCallShapes (c : TdlSizes) (b t : ℕ) : Except Err (Shape × Shape) := do
  let (alpha, spatial, rx, tx) ← tdlInitShapes c
  let h ← tdlScatterShape c alpha b t
  let h ← if c.los then tdlSpecularShape h b t else .ok h
  let d ← insertDims [c.delays] 3 0
  let d ← tile d [b, 1, 1, 1]
  let h ← tdlCorrelateShape c h spatial rx tx
  .ok (h, d)

end OpenNTN
