import Verif.Model.Topology

/-
Model of the mutable state of a channel model: `SystemLevelChannel.set_topology` and the acquisition of large scale parameters in
`__call__` (system_level_channel.py 57-178), with the caches of `LSPGenerator` (lsp.py 169-189, 295-299, 396-400) and of
`RaysGenerator` (rays.py 185-255).
-/
namespace OpenNTN

open Classical

variable {B N U : ℕ}

/-- Arguments of the channel model's `set_topology`, system_level_channel.py 81-82. -/
structure ChanArgs (B N U : ℕ) where
  utLoc : Option (PerUt B U Vec3) := none
  bsLoc : Option (PerBs B N Vec3) := none
  utOri : Option (PerUt B U Vec3) := none
  bsOri : Option (PerBs B N Vec3) := none
  utVel : Option (PerUt B U Vec3) := none
  inState : Option (PerUt B U Bool) := none
  los : Option Bool := none

/-- system_level_channel.py 134-140: what is handed on to the scenario. -/
def ChanArgs.toTopo (a : ChanArgs B N U) : TopoArgs B N U :=
  { utLoc := a.utLoc, bsLoc := a.bsLoc, utOri := a.utOri, bsOri := a.bsOri, utVel := a.utVel, inState := a.inState, los := a.los }

/-- The scenario together with what the samplers cache; `none` is an attribute that does not exist yet. -/
structure ChanState (B N U : ℕ) where
  topo : TopoState B N U
  crossSqrt : Option (PerLink B N U (Fin 7 → Fin 7 → ℝ))
  spatialSqrt : Option (PerBs B N (Fin 7 → Fin U → Fin U → ℝ))
  mask : Option (PerLink B N U (ℕ → ℝ))
  lsp : Option (PerLink B N U LspValues)
  called : Bool

/-- system_level_channel.py 57-79. -/
def ChanState.init (c : Config) : ChanState B N U where
  topo := TopoState.init c
  crossSqrt := none
  spatialSqrt := none
  mask := none
  lsp := none
  called := false

/-- `_cluster_mask`, rays.py 201-255, of a link: 1 for discarded clusters. -/
def clusterMask (nLos nNlos : ℕ) (los indoor : Bool) (k : ℕ) : ℝ :=
  let nO2i := nNlos - nNlos
  let ones (n : ℕ) : ℝ := if k < n then 0 else 1
  let cast (b : Bool) : ℝ := if b then 1 else 0
  cast indoor * ones nO2i + cast los * ones nLos + cast (!los && !indoor) * ones nNlos

/-- `tf.linalg.cholesky` of the cross-LSP correlation matrices of all links, lsp.py 215-299. TensorFlow raises an exception if one
of the matrices has no factor. -/
noncomputable def crossFactors (c : Config) (los : PerLink B N U Bool) : Except Err (PerLink B N U (Fin 7 → Fin 7 → ℝ)) :=
  if h : ∃ F : PerLink B N U (Fin 7 → Fin 7 → ℝ), ∀ b n u, ∃ R, crossLspCorrelation c (los b n u) = .ok R ∧ IsCholesky R (F b n u)
  then .ok h.choose
  else .error .invalidArgument

/-- The same for the spatial correlation matrices, lsp.py 301-400. -/
noncomputable def spatialFactors (c : Config) (los : PerLink B N U Bool) (indoor : PerUt B U Bool) (ut : PerUt B U Vec3) :
    Except Err (PerBs B N (Fin 7 → Fin U → Fin U → ℝ)) :=
  if h : ∃ F : PerBs B N (Fin 7 → Fin U → Fin U → ℝ), ∀ b n i, ∃ C,
      spatialCorrelationOf c (los b n) (indoor b) (fun u => (ut b u).x) (fun u => (ut b u).y) i = .ok C ∧ IsCholesky C (F b n i)
  then .ok h.choose
  else .error .invalidArgument

/-- `LSPGenerator.topology_updated_callback`, lsp.py 169-189: the cross factors are stored before the spatial ones are computed. -/
noncomputable def lspCallback (c : Config) (s : ChanState B N U) : ChanState B N U × Option Err :=
  match s.topo.los, s.topo.inState, s.topo.utLoc with
  | some los, some indoor, some ut =>
    match crossFactors c los with
    | .error e => (s, some e)
    | .ok F =>
      let s1 := { s with crossSqrt := some F }
      match spatialFactors c los indoor ut with
      | .error e => (s1, some e)
      | .ok G => ({ s1 with spatialSqrt := some G }, none)
  | _, _, _ => (s, some .attributeError)

/-- `RaysGenerator.topology_updated_callback`, rays.py 165-178. -/
noncomputable def rayCallback (c : Config) (s : ChanState B N U) : ChanState B N U × Option Err :=
  match s.topo.los, s.topo.inState with
  | some los, some indoor =>
    match c.numClustersLos, c.numClustersNlos with
    | .ok nl, .ok nn => ({ s with mask := some fun b n u => clusterMask nl.toNat nn.toNat (los b n u) (indoor b u) }, none)
    | .error e, _ => (s, some e)
    | _, .error e => (s, some e)
  | _, _ => (s, some .attributeError)

/-- `LSPGenerator.__call__`, lsp.py 120-167, from the normal draws `z`. -/
noncomputable def sampleLsp (s : ChanState B N U) (z : PerLink B N U (Fin 7 → ℝ)) : Except Err (PerLink B N U LspValues) :=
  match s.crossSqrt, s.spatialSqrt, s.topo.lspMean, s.topo.lspStd with
  | some F, some G, some mean, some std =>
    .ok fun b n u => lspOf (mean b n u) (std b n u) (correlateDraws (F b n) (G b n) (z b n) u)
  | _, _, _, _ => .error .attributeError

/-- system_level_channel.py 142-151, after the scenario reported an update. -/
noncomputable def chanUpdate (c : Config) (always : Bool) (s : ChanState B N U) (z : PerLink B N U (Fin 7 → ℝ)) :
    ChanState B N U × Option Err :=
  match lspCallback c s with
  | (s1, some e) => (s1, some e)
  | (s1, none) =>
    match rayCallback c s1 with
    | (s2, some e) => (s2, some e)
    | (s2, none) =>
      if always then (s2, none)
      else
        match sampleLsp s2 z with
        | .error e => (s2, some e)
        | .ok l => ({ s2 with lsp := some l }, none)

/-- `SystemLevelChannel.set_topology`, system_level_channel.py 81-154. -/
noncomputable def chanSetTopology [NeZero B] (c : Config) (always : Bool) (s : ChanState B N U) (a : ChanArgs B N U)
    (d : TopoDraws B N U) (z : PerLink B N U (Fin 7 → ℝ)) : ChanState B N U × Except Err Unit :=
  let r := setTopology c s.topo a.toTopo d
  let s1 := { s with topo := r.1 }
  match r.2 with
  | .error e => (s1, .error e)
  | .ok false => ({ s1 with called := true }, .ok ())
  | .ok true =>
    let r2 := chanUpdate c always s1 z
    match r2.2 with
    | some e => (r2.1, .error e)
    | none => ({ r2.1 with called := true }, .ok ())

/-- What the rest of `__call__` (system_level_channel.py 180-269) works on. -/
structure CallInputs (B N U : ℕ) where
  lsp : PerLink B N U LspValues
  mask : PerLink B N U (ℕ → ℝ)
  los : PerLink B N U Bool
  angles : PerLink B N U LosAngles
  distance3d : PerLink B N U ℝ
  utVel : PerUt B U Vec3
  utOri : PerUt B U Vec3
  bsOri : PerBs B N Vec3
  bsLoc : PerBs B N Vec3
  doppler : Bool

/-- `__call__`, system_level_channel.py 174-214: the large scale parameters and the topology it uses; `z` are the normal draws made
for the large scale parameters, if any. Attributes that do not exist raise an exception when they are read. -/
noncomputable def callInputs (always : Bool) (s : ChanState B N U) (z : PerLink B N U (Fin 7 → ℝ)) : Except Err (CallInputs B N U) :=
  match (if always then sampleLsp s z else match s.lsp with | some l => .ok l | none => .error .attributeError) with
  | .error e => .error e
  | .ok lsp =>
    match s.mask, s.topo.los, s.topo.angles, s.topo.distance3d, s.topo.utVel, s.topo.utOri, s.topo.bsOri, s.topo.bsLoc with
    | some mask, some los, some angles, some d3, some uv, some uo, some bo, some bl =>
      .ok ⟨lsp, mask, los, angles, d3, uv, uo, bo, bl, s.topo.doppler⟩
    | _, _, _, _, _, _, _, _ => .error .attributeError

/-- An operation on a channel model with its outcome. -/
inductive ChanEvent (B N U : ℕ)
  | topology (a : ChanArgs B N U) (d : TopoDraws B N U) (z : PerLink B N U (Fin 7 → ℝ)) (r : Except Err Unit)
  | generate (z : PerLink B N U (Fin 7 → ℝ)) (r : Except Err (CallInputs B N U))

/-- The states of a channel model with the log of the operations so far, most recent first. -/
inductive ChanReach [NeZero B] (c : Config) (always : Bool) : List (ChanEvent B N U) → ChanState B N U → Prop
  | init : ChanReach c always [] (ChanState.init c)
  | topology {log : List (ChanEvent B N U)} {s : ChanState B N U} (a : ChanArgs B N U) (d : TopoDraws B N U)
      (z : PerLink B N U (Fin 7 → ℝ)) (h : ChanReach c always log s) :
      ChanReach c always (.topology a d z (chanSetTopology c always s a d z).2 :: log) (chanSetTopology c always s a d z).1
  | generate {log : List (ChanEvent B N U)} {s : ChanState B N U} (z : PerLink B N U (Fin 7 → ℝ)) (h : ChanReach c always log s) :
      ChanReach c always (.generate z (callInputs always s z) :: log) s

end OpenNTN
