import Verif.Model.Coeff

/-
Model of `SystemLevelChannel.__call__` (system_level_channel.py 156-269) on tensors: the topology object, the exchange of the axes for
uplink, channel coefficients of all links, path loss and shadow fading, and the order of the output axes. `X` is the number of
transmitters and `Y` the number of receivers. A link with a value that is not a number does not affect the others, so values of links
are of type `Except Err`.
-/
namespace OpenNTN

open Classical

variable {B N U X Y M : ℕ}

/-- `tf.transpose(x, [0, 2, 1])`, also with further axes that stay in place. -/
def swapAxes {α : Type} (t : PerLink B X Y α) : PerLink B Y X α := fun b y x => t b x y

/-- Class `Rays`, rays.py 22-60. -/
structure RaysT (B X Y M : ℕ) where
  delays : PerLink B X Y (Except Err (Fin M → ℝ))
  powers : PerLink B X Y (Except Err (Fin M → ℝ))
  aoa : PerLink B X Y (Except Err (Fin M → Fin raysPerCluster → ℝ))
  aod : PerLink B X Y (Except Err (Fin M → Fin raysPerCluster → ℝ))
  zoa : PerLink B X Y (Except Err (Fin M → Fin raysPerCluster → ℝ))
  zod : PerLink B X Y (Except Err (Fin M → Fin raysPerCluster → ℝ))
  xpr : PerLink B X Y (Except Err (Fin M → Fin raysPerCluster → ℝ))

/-- The tensors of the generated rays. -/
def RaysT.ofLinks (r : PerLink B X Y (Except Err (LinkRays M))) : RaysT B X Y M where
  delays := fun b x y => (r b x y).map (·.delays)
  powers := fun b x y => (r b x y).map (·.powers)
  aoa := fun b x y => (r b x y).map (·.aoa)
  aod := fun b x y => (r b x y).map (·.aod)
  zoa := fun b x y => (r b x y).map (·.zoa)
  zod := fun b x y => (r b x y).map (·.zod)
  xpr := fun b x y => (r b x y).map (·.xpr)

/-- Velocities of the UTs together with `moving_end`, which tells whether they belong to the receiver or to the transmitter axis,
channel_coefficients.py 586-597. -/
inductive Velocities (B X Y : ℕ)
  | rx (v : PerUt B Y Vec3)
  | tx (v : PerUt B X Vec3)

/-- Class `Topology`, channel_coefficients.py 22-103. -/
structure TopologyT (B X Y : ℕ) where
  velocities : Velocities B X Y
  losAoa : PerLink B X Y ℝ
  losAod : PerLink B X Y ℝ
  losZoa : PerLink B X Y ℝ
  losZod : PerLink B X Y ℝ
  los : PerLink B X Y Bool
  distance3d : PerLink B X Y ℝ
  txOri : PerUt B X Vec3
  rxOri : PerUt B Y Vec3
  bsHeight : ℝ
  satSpeed : Fin B → ℝ
  doppler : Bool

/-- A vector as used by the rotation formulas. -/
def Vec3.coords (v : Vec3) : Fin 3 → ℝ := ![v.x, v.y, v.z]

/-- The topology as seen by a link: channel_coefficients.py 546-845 and 987-1051 broadcast the entries of the link. -/
def TopologyT.link (t : TopologyT B X Y) (b : Fin B) (x : Fin X) (y : Fin Y) : LinkTopo where
  velocity := match t.velocities with
    | .rx v => (v b y).coords
    | .tx v => (v b x).coords
  movingRx := match t.velocities with
    | .rx _ => true
    | .tx _ => false
  losAoa := t.losAoa b x y
  losAod := t.losAod b x y
  losZoa := t.losZoa b x y
  losZod := t.losZod b x y
  los := t.los b x y
  distance3d := t.distance3d b x y
  txOri := (t.txOri b x).coords
  rxOri := (t.rxOri b y).coords
  bsHeight := t.bsHeight
  satSpeed := t.satSpeed b
  doppler := t.doppler

/-- `ChannelCoefficientsGenerator.__call__`, channel_coefficients.py 204-221, for all links. `phi` are the phases of `_step_10`, drawn
in the shape of the ray tensors. -/
noncomputable def cirSampler {n : ℕ} (g : CoeffGen) (k : PerLink B X Y ℝ) (r : RaysT B X Y (n + 2)) (t : TopologyT B X Y)
    (cDs : PerLink B X Y (Except Err ℝ)) (phi : Fin B → ℕ → ℕ → Fin (n + 2) → Fin raysPerCluster → Fin 4 → ℝ) :
    PerLink B X Y (Except Err ((Fin (n + 6) → Coeff) × (Fin (n + 6) → ℝ))) := fun b x y => do
  let delays ← r.delays b x y
  let powers ← r.powers b x y
  let aoa ← r.aoa b x y
  let aod ← r.aod b x y
  let zoa ← r.zoa b x y
  let zod ← r.zod b x y
  let xpr ← r.xpr b x y
  let cDs ← cDs b x y
  .ok (coeffCall g (t.link b x y) (k b x y) ⟨delays, powers, aoa, aod, zoa, zod, xpr⟩ cDs (phi b x y))

/-- `_step_12`, system_level_channel.py 403-431: `pl` are the path losses in the order of the axes of `h`, if they are enabled. -/
noncomputable def step12 {P : ℕ} (c : Config) (pl : PerLink B X Y (Except Err ℝ)) (sf : PerLink B X Y ℝ)
    (h : PerLink B X Y (Except Err (Fin P → Coeff))) : PerLink B X Y (Except Err (Fin P → Coeff)) := fun b x y => do
  let h ← h b x y
  let pl ← if c.enablePathloss then pl b x y else .ok 0
  let gain := step12Gain c.enablePathloss c.enableShadowFading pl (sf b x y)
  .ok fun q u s t => h q u s t * (gain : ℂ)

/-- The returned tensors: `h` has the axes batch example, receiver, receiver antenna, transmitter, transmitter antenna, path and time
sample, `delays` the axes batch example, receiver, transmitter and path. -/
structure CirOut (B X Y P : ℕ) where
  h : Fin B → Fin Y → ℕ → Fin X → ℕ → Fin P → ℕ → Except Err ℂ
  delays : Fin B → Fin Y → Fin X → Fin P → Except Err ℝ

/-- system_level_channel.py 255-264: coefficients, step 12 and the final transpositions `[0,2,4,1,5,3,6]` and `[0,2,1,3]`; time sample
`i` is taken at `i/fs` (channel_coefficients.py 207-208). -/
noncomputable def cirFinish {n : ℕ} (c : Config) (fs : ℝ) (g : CoeffGen) (k sf : PerLink B X Y ℝ) (pl : PerLink B X Y (Except Err ℝ))
    (r : RaysT B X Y (n + 2)) (t : TopologyT B X Y) (cDs : PerLink B X Y (Except Err ℝ))
    (phi : Fin B → ℕ → ℕ → Fin (n + 2) → Fin raysPerCluster → Fin 4 → ℝ) : CirOut B X Y (n + 6) :=
  let out := cirSampler g k r t cDs phi
  let h := step12 c pl sf fun b x y => (out b x y).map (·.1)
  let delays : PerLink B X Y (Except Err (Fin (n + 6) → ℝ)) := fun b x y => (out b x y).map (·.2)
  { h := fun b y ua x sa q i => (h b x y).map fun h => h q ua sa (i / fs)
    delays := fun b y x q => (delays b x y).map fun d => d q }

/-- Random draws of a call, in the order of use. -/
structure CirDraws (B N U M : ℕ) where
  lsp : PerLink B N U (Fin 7 → ℝ)
  rays : RayDraws B N U M
  satDirection : Fin B → ℝ
  phase : Fin B → ℕ → ℕ → Fin M → Fin raysPerCluster → Fin 4 → ℝ

/-- system_level_channel.py 190-215, downlink. `bsHeight` is line 212; the satellite speed is that of channel_coefficients.py 99-103. -/
noncomputable def topologyDown (c : Config) (i : CallInputs B N U) (bsHeight : ℝ) (dir : Fin B → ℝ) : TopologyT B N U where
  velocities := .rx i.utVel
  losAoa := fun b n u => deg2rad (i.angles b n u).aoa
  losAod := fun b n u => deg2rad (i.angles b n u).aod
  losZoa := fun b n u => deg2rad (i.angles b n u).zoa
  losZod := fun b n u => deg2rad (i.angles b n u).zod
  los := i.los
  distance3d := i.distance3d
  txOri := i.bsOri
  rxOri := i.utOri
  bsHeight := bsHeight
  satSpeed := fun b => topologySatSpeed bsHeight c.elevationAngle (dir b)
  doppler := i.doppler

/-- system_level_channel.py 190-215 and 236-246, uplink: the topology is created with the axes of the scenario, then the angles, the
state and the distance are transposed. -/
noncomputable def topologyUp (c : Config) (i : CallInputs B N U) (bsHeight : ℝ) (dir : Fin B → ℝ) : TopologyT B U N :=
  let losAoa : PerLink B N U ℝ := fun b n u => deg2rad (i.angles b n u).aoa
  let losAod : PerLink B N U ℝ := fun b n u => deg2rad (i.angles b n u).aod
  let losZoa : PerLink B N U ℝ := fun b n u => deg2rad (i.angles b n u).zoa
  let losZod : PerLink B N U ℝ := fun b n u => deg2rad (i.angles b n u).zod
  { velocities := .tx i.utVel
    losAoa := swapAxes losAod
    losAod := swapAxes losAoa
    losZoa := swapAxes losZod
    losZod := swapAxes losZoa
    los := swapAxes i.los
    distance3d := swapAxes i.distance3d
    txOri := i.utOri
    rxOri := i.bsOri
    bsHeight := bsHeight
    satSpeed := fun b => topologySatSpeed bsHeight c.elevationAngle (dir b)
    doppler := i.doppler }

/-- system_level_channel.py 225-235. -/
def raysUp (r : RaysT B N U M) : RaysT B U N M where
  aod := swapAxes r.aoa
  zod := swapAxes r.zoa
  aoa := swapAxes r.aod
  zoa := swapAxes r.zod
  powers := swapAxes r.powers
  delays := swapAxes r.delays
  xpr := swapAxes r.xpr

/-- `sample_pathloss`, lsp.py 94-118. -/
noncomputable def samplePathloss (s : TopoState B N U) : Except Err (PerLink B N U (Except Err ℝ)) :=
  match s.plBasic, s.plGas, s.plScint, s.plEntry with
  | some pb, some pg, some ps, some pe =>
    .ok fun b n u => match totalLoss (pb b n u) (pg b n u) (ps b n u) (pe b n u) with
      | some v => .ok v
      | none => .error .notANumber
  | _, _, _, _ => .error .attributeError

/-- system_level_channel.py 415-420: path losses, if they are enabled. -/
noncomputable def stepPathloss (c : Config) (s : TopoState B N U) : Except Err (PerLink B N U (Except Err ℝ)) :=
  if c.enablePathloss then samplePathloss s else .ok fun _ _ _ => .ok 0

/-- What `RaysGenerator.__call__` reads. -/
def rayInputs (s : TopoState B N U) (i : CallInputs B N U) : Except Err (RayInputs B N U) :=
  match s.inState, s.lspMean, s.zodOff with
  | some indoor, some mean, some zod =>
    .ok {
      lsp := i.lsp
      mask := i.mask
      los := i.los
      indoor := indoor
      angles := i.angles
      bsHeight := fun b n => (i.bsLoc b n).z
      meanZsd := fun b n u => mean b n u 6
      zodOff := zod }
  | _, _, _ => .error .attributeError

/-- `SystemLevelChannel.__call__`, system_level_channel.py 156-269. `n + 2` is the number of clusters. The conditions on the BS height
(channel_coefficients.py 609, 875, 1023) are tensors with one element per BS, so they raise unless there is one BS. The optional first
argument (batch size) is ignored (lines 164-167). The arrays are those given to the constructor. A direction other than the two is
excluded by the constructor. -/
noncomputable def cirCall {n : ℕ} [NeZero B] [NeZero N] (c : Config) (always : Bool) (utArray bsArray : PanelArray) (fs : ℝ)
    (s : ChanState B N U) (w : CirDraws B N U (n + 2)) : Except Err (CirOut B N U (n + 6) ⊕ CirOut B U N (n + 6)) := do
  let i ← callInputs always s w.lsp
  let ri ← rayInputs s.topo i
  let rays := RaysT.ofLinks (raysCall c ri w.rays)
  let bsHeight := (i.bsLoc 0 0).z
  if N ≠ 1 then .error .invalidArgument else
  let cDs : PerLink B N U (Except Err ℝ) := fun b n u => (c.getReal .pcDS (i.los b n u)).map (· * 1e-9)
  let pl ← stepPathloss c s.topo
  let k : PerLink B N U ℝ := fun b n u => (i.lsp b n u).kFactor
  let sf : PerLink B N U ℝ := fun b n u => (i.lsp b n u).sf
  if c.direction = "uplink" then
    .ok (.inr (cirFinish c fs ⟨c.carrierFrequency, utArray, bsArray⟩ (swapAxes k) (swapAxes sf) (swapAxes pl) (raysUp rays)
      (topologyUp c i bsHeight w.satDirection) (swapAxes cDs) w.phase))
  else
    .ok (.inl (cirFinish c fs ⟨c.carrierFrequency, bsArray, utArray⟩ k sf pl rays
      (topologyDown c i bsHeight w.satDirection) cDs w.phase))

end OpenNTN
