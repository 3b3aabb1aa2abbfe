import Verif.Model.Tdl

/-
Clustered delay line model: /repo/OpenNTN/cdl.py.
-/
namespace OpenNTN

open Classical

/-- Basis vector of cdl.py 596-605. -/
noncomputable def cdlBasis : List ℝ := [0.0447, -0.0447, 0.1413, -0.1413, 0.2492, -0.2492, 0.3715, -0.3715, 0.5129, -0.5129,
  0.6797, -0.6797, 0.8844, -0.8844, 1.1481, -1.1481, 1.5195, -1.5195, 2.1551, -2.1551]

/-- `_generate_rays`, cdl.py 574-619, followed by the conversion to radian of lines 520-527. -/
noncomputable def cdlRays (angles : List ℝ) (c : ℝ) : List (List ℝ) := angles.map fun a => cdlBasis.map fun o => deg2rad (a + c * o)

/-- The four angles of a path or of the LoS. -/
structure Angles (α : Type) where
  aoa : α
  aod : α
  zoa : α
  zod : α

/-- Parameters of a loaded CDL model, cdl.py 440-572. -/
structure CdlParams where
  los : Bool
  numClusters : ℕ
  delays : List ℝ
  powers : List ℝ
  kFactor : ℝ
  losPower : Option ℝ
  losAngles : Angles ℝ
  rays : Angles (List (List ℝ))
  xpr : List (List ℝ)

/-- cdl.py 546-565: in the uplink, departure and arrival change roles. -/
def cdlDirect {α : Type} (downlink : Bool) (a : Angles α) : Angles α := if downlink then a else ⟨a.aod, a.aoa, a.zod, a.zoa⟩

/-- `_load_parameters`, cdl.py 402-572, after reading the file. -/
noncomputable def cdlLoad (t : CdlTable) (downlink : Bool) : Except Err CdlParams :=
  let delays := t.delays.map tableVal
  let powers := t.powers.map fun p => pow10 (tableVal p / 10)
  let powers := powers.map (· / powers.sum)
  let aod := t.aod.map tableVal
  let aoa := t.aoa.map tableVal
  let zod := t.zod.map tableVal
  let zoa := t.zoa.map tableVal
  let rays := fun (a : Angles (List ℝ)) => Angles.mk (cdlRays a.aoa (tableVal t.cASA)) (cdlRays a.aod (tableVal t.cASD))
    (cdlRays a.zoa (tableVal t.cZSA)) (cdlRays a.zod (tableVal t.cZSD))
  let xpr := List.replicate t.numClusters (List.replicate 20 (pow10 (tableVal t.xpr / 10)))
  if t.los then
    match powers, aoa, aod, zoa, zod with
    | losPower :: rest, a :: aoa, d :: aod, za :: zoa, zd :: zod =>
      let norm := rest.sum
      .ok ⟨t.los, t.numClusters, delays.tail, rest.map (· / norm), losPower / norm, some losPower,
        cdlDirect downlink ⟨deg2rad a, deg2rad d, deg2rad za, deg2rad zd⟩, cdlDirect downlink (rays ⟨aoa, aod, zoa, zod⟩), xpr⟩
    | _, _, _, _, _ => .error .indexError
  else
    .ok ⟨t.los, t.numClusters, delays, powers, 1, none, cdlDirect downlink ⟨0, 0, 0, 0⟩, cdlDirect downlink (rays ⟨aoa, aod, zoa, zod⟩), xpr⟩

/-- cdl.py 254-262. -/
def cdlFile (model : String) : Except Err CdlTable :=
  if model = "A" then .ok cdlA
  else if model = "B" then .ok cdlB
  else if model = "C" then .ok cdlC
  else if model = "D" then .ok cdlD
  else .error .assertion

/-- Arguments of the constructor, cdl.py 203-214, that can lead to an error or matter for the parameters. Antenna arrays and orientations are
left out. -/
structure CdlArgs where
  model : String
  delaySpread : ℝ
  direction : String
  minSpeed : ℝ := 0
  maxSpeed : Option ℝ := none

/-- The constructed object. -/
structure Cdl where
  params : CdlParams
  delaySpread : ℝ
  movingRx : Bool

/-- `__init__`, cdl.py 216-270. The construction of the coefficient generator is left out. -/
noncomputable def cdlInit (a : CdlArgs) : Except Err Cdl :=
  if a.direction ≠ "uplink" ∧ a.direction ≠ "downlink" then .error .assertion
  else if ¬ a.minSpeed ≤ a.maxSpeed.getD a.minSpeed then .error .assertion
  else do
    let t ← cdlFile a.model
    let p ← cdlLoad t (decide (a.direction = "downlink"))
    .ok ⟨p, a.delaySpread, decide (a.direction = "downlink")⟩

/-- Property `k_factor`, cdl.py 359-365. -/
noncomputable def Cdl.kFactor (t : Cdl) : Except Err ℝ :=
  if t.params.los then
    match t.params.powers with
    | [] => .error .indexError
    | p :: _ => .ok (t.params.kFactor / p)
  else .error .assertion

/-- Property `delays`, cdl.py 368-371. -/
noncomputable def Cdl.delays (t : Cdl) : List ℝ := t.params.delays.map (· * t.delaySpread)

/-- Property `powers`, cdl.py 373-386. -/
noncomputable def Cdl.powers (t : Cdl) : Except Err (List ℝ) :=
  if t.params.los then
    match t.params.powers with
    | [] => .error .indexError
    | p :: ps => .ok (((t.params.kFactor + p) :: ps).map (· / (t.params.kFactor + 1)))
  else .ok t.params.powers

/-- Calling a Python function with keyword arguments: every parameter without default must be given and every given name must be a parameter. -/
def keywordCall (required given : List String) : Except Err Unit :=
  if (∀ p ∈ required, p ∈ given) ∧ ∀ p ∈ given, p ∈ required then .ok () else .error .typeError

/-- Parameters of `Topology.__init__`, channel_coefficients.py 68-80; none has a default. -/
def topologyParameters : List String := ["velocities", "moving_end", "los_aoa", "los_aod", "los_zoa", "los_zod", "los", "distance_3d",
  "tx_orientations", "rx_orientations", "bs_height", "elevation_angle", "doppler_enabled"]

/-- Keyword arguments given by `CDL.__call__`, cdl.py 302-311. -/
def cdlTopologyArguments : List String := ["velocities", "moving_end", "los_aoa", "los_zoa", "los_aod", "los_zod", "los", "distance_3d",
  "tx_orientations", "rx_orientations"]

/-- `_shuffle_angles`, cdl.py 648-674: `tf.random` has `normal` but no `laplace`. -/
def cdlShuffle (distribution : String) : Except Err Unit :=
  if distribution = "gaussian" then .ok ()
  else if distribution = "laplacian" then .error .attributeError
  else .error .nameError

/-- `__call__`, cdl.py 272-347, up to the first error: construction of the topology (302-311) and the random coupling (324, 713-718). The type
of the result is immaterial. -/
def cdlCall (_ : Cdl) : Except Err Unit := do
  let _ ← keywordCall topologyParameters cdlTopologyArguments
  let _ ← cdlShuffle "gaussian"
  let _ ← cdlShuffle "gaussian"
  let _ ← cdlShuffle "laplacian"
  let _ ← cdlShuffle "laplacian"
  .ok ()

end OpenNTN
