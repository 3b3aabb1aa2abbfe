import Verif.Model.Pathloss

/-
Model of the mutable state of a scenario: `SystemLevelScenario.set_topology` (system_level_scenario.py 501-664) and the
methods it calls. Batch size `B`, number of BSs `N` and number of UTs `U` are fixed: histories in which the shapes of the
arguments change are in `Shapes`, without values.
-/
namespace OpenNTN

open Classical

/-- Tensors of shape [batch size, number of UTs], [batch size, number of BSs], [batch size, number of BSs, number of UTs]. -/
abbrev PerUt (B U : ℕ) (α : Type) := Fin B → Fin U → α
abbrev PerBs (B N : ℕ) (α : Type) := Fin B → Fin N → α
abbrev PerLink (B N U : ℕ) (α : Type) := Fin B → Fin N → Fin U → α

/-- Arguments of `set_topology`, system_level_scenario.py 501-505; `none` is an omitted argument. -/
structure TopoArgs (B N U : ℕ) where
  utLoc : Option (PerUt B U Vec3) := none
  bsLoc : Option (PerBs B N Vec3) := none
  utOri : Option (PerUt B U Vec3) := none
  bsOri : Option (PerBs B N Vec3) := none
  utVel : Option (PerUt B U Vec3) := none
  inState : Option (PerUt B U Bool) := none
  los : Option Bool := none
  latitude : Option ℝ := none
  lwc : Option ℝ := none
  rainRate : Option ℝ := none
  pressure : Option ℝ := none
  temperature : Option ℝ := none
  vaporDensity : Option ℝ := none
  humidity : Option ℝ := none
  diameter : Option ℝ := none
  efficiency : Option ℝ := none
  doppler : Option Bool := none

/-- Random numbers consumed by one call: the uniform draws of system_level_scenario.py 875 (indoor distances) and utils.py 533
(Bernoulli), and the standard normal numbers behind utils.py 1777-1778. -/
structure TopoDraws (B N U : ℕ) where
  indoor : PerLink B N U ℝ
  losU : PerLink B N U ℝ
  zLos : PerLink B N U ℝ
  zNlos : PerLink B N U ℝ

/-- The attributes of a scenario that `set_topology` writes; `none` is an attribute that is `None` or does not exist yet. -/
structure TopoState (B N U : ℕ) where
  utLoc : Option (PerUt B U Vec3)
  bsLoc : Option (PerBs B N Vec3)
  utOri : Option (PerUt B U Vec3)
  bsOri : Option (PerBs B N Vec3)
  utVel : Option (PerUt B U Vec3)
  inState : Option (PerUt B U Bool)
  requestedLos : Option Bool
  doppler : Bool
  atmosphere : Option Atmosphere
  distance2d : Option (PerLink B N U ℝ)
  distance3d : Option (PerLink B N U ℝ)
  angles : Option (PerLink B N U LosAngles)
  utDistance : Option (Fin B → Fin U → Fin U → ℝ)
  indoorDist : Option (PerLink B N U IndoorSplit)
  los : Option (PerLink B N U Bool)
  lspMean : Option (PerLink B N U (Fin 7 → WithBot ℝ))
  lspStd : Option (PerLink B N U (Fin 7 → ℝ))
  zodOff : Option (PerLink B N U ℝ)
  plBasic : Option (PerLink B N U ℝ)
  plGas : Option (PerLink B N U ℝ)
  plEntry : Option (PerLink B N U ℝ)
  plScint : Option (PerLink B N U (Option ℝ))
  plFree : Option (PerLink B N U ℝ)

variable {B N U : ℕ}

/-- system_level_scenario.py 113-123: the state after construction. -/
def TopoState.init (c : Config) : TopoState B N U where
  utLoc := none
  bsLoc := none
  utOri := none
  bsOri := none
  utVel := none
  inState := none
  requestedLos := none
  doppler := c.dopplerInit
  atmosphere := none
  distance2d := none
  distance3d := none
  angles := none
  utDistance := none
  indoorDist := none
  los := none
  lspMean := none
  lspStd := none
  zodOff := none
  plBasic := none
  plGas := none
  plEntry := none
  plScint := none
  plFree := none

/-- Result of a statement that writes attributes: the new state, and an exception if one was raised (what was written before
stays written). -/
abbrev Step (B N U : ℕ) := TopoState B N U × Option Err

/-- Sequential execution. -/
def Step.andThen (r : Step B N U) (f : TopoState B N U → Step B N U) : Step B N U :=
  match r.2 with
  | some e => (r.1, some e)
  | none => f r.1

/-- system_level_scenario.py 545-564: the six assertions. -/
def assertsHold (s : TopoState B N U) (a : TopoArgs B N U) : Bool :=
  (a.utLoc.isSome || s.utLoc.isSome) && (a.bsLoc.isSome || s.bsLoc.isSome) && (a.inState.isSome || s.inState.isSome) &&
  (a.utOri.isSome || s.utOri.isSome) && (a.bsOri.isSome || s.bsOri.isSome) && (a.utVel.isSome || s.utVel.isSome)

/-- system_level_scenario.py 572-616: given values or standard values. -/
noncomputable def atmosphereOf (a : TopoArgs B N U) : Atmosphere where
  latitude := match a.latitude with | some v => v | none => 47
  lwc := match a.lwc with | some v => v | none => 0.41
  rainRate := match a.rainRate with | some v => v | none => 40
  pressure := match a.pressure with | some v => v | none => 1020
  temperature := match a.temperature with | some v => v | none => 273
  vaporDensity := match a.vaporDensity with | some v => v | none => 7.5
  humidity := match a.humidity with | some v => v | none => 50
  diameter := match a.diameter with | some v => v | none => 3.6
  efficiency := match a.efficiency with | some v => v | none => 0.5

/-- `if x is not None: self._x = x`. -/
def assign {α : Type} (new old : Option α) : Option α :=
  match new with
  | some v => some v
  | none => old

/-- system_level_scenario.py 572-644: the assignments. -/
noncomputable def storeArgs (s : TopoState B N U) (a : TopoArgs B N U) : TopoState B N U :=
  { s with
    atmosphere := some (atmosphereOf a)
    utLoc := assign a.utLoc s.utLoc
    bsLoc := assign a.bsLoc s.bsLoc
    bsOri := assign a.bsOri s.bsOri
    utOri := assign a.utOri s.utOri
    utVel := assign a.utVel s.utVel
    inState := assign a.inState s.inState
    requestedLos := assign a.los s.requestedLos
    doppler := match a.doppler with | some v => v | none => s.doppler }

/-- `need_for_update`, system_level_scenario.py 570, 618-641. -/
def needForUpdate (a : TopoArgs B N U) : Bool := a.utLoc.isSome || a.bsLoc.isSome || a.inState.isSome || a.los.isSome

/-- `_compute_distance_2d_3d_and_angles`, system_level_scenario.py 779-844. `tf.fill` needs a scalar, so line 820 raises unless
the squeezed height tensor is one, i.e. unless there is exactly one BS; the height is that of batch example 0 (line 811). Reading
a tensor that is `None` raises as well (this never happens after the assertions). -/
noncomputable def computeDistances [NeZero B] (c : Config) (s : TopoState B N U) : Step B N U :=
  match s.utLoc, s.bsLoc with
  | some ut, some bs =>
    let s1 := { s with distance2d := some fun b n u => distance2d (ut b u) (bs b n) }
    if h : N = 1 then
      let d3 := distance3d c.elevationAngle (bs 0 ⟨0, by omega⟩).z
      ({ s1 with
          distance3d := some fun _ _ _ => d3
          angles := some fun b n u => losAngles (ut b u) (bs b n)
          utDistance := some fun b => utDistance2d (fun u => (ut b u).x) (fun u => (ut b u).y) }, none)
    else (s1, some .invalidArgument)
  | _, _ => (s, some .typeError)

/-- `_sample_indoor_distance`, system_level_scenario.py 864-884. -/
noncomputable def sampleIndoorDistance (d : TopoDraws B N U) (s : TopoState B N U) : Step B N U :=
  match s.inState, s.distance2d, s.distance3d with
  | some i, some d2, some d3 =>
    ({ s with indoorDist := some fun b n u => indoorSplit (i b u) (d.indoor b n u) (d2 b n u) (d3 b n u) }, none)
  | _, _, _ => (s, some .typeError)

/-- `_sample_los`, system_level_scenario.py 846-862. -/
noncomputable def sampleLos (c : Config) (d : TopoDraws B N U) (s : TopoState B N U) : Step B N U :=
  match s.inState with
  | none => (s, some .typeError)
  | some i =>
    match s.requestedLos with
    | some r => ({ s with los := some fun b _ u => r && !i b u }, none)
    | none =>
      match c.losProbability with
      | .error e => (s, some e)
      | .ok ⊥ => (s, some .notANumber)
      | .ok (p : ℝ) => ({ s with los := some fun b n u => sampleBernoulli (d.losU b n u) p && !i b u }, none)

/-- dense_urban_scenario.py 227-233: whether the planar distance is below the breakpoint distance. -/
noncomputable def nearBreakpoint (c : Config) (ut bs : Vec3) (d2 : ℝ) : Bool :=
  decide (d2 < 2 * Real.pi * bs.z * ut.z * c.carrierFrequency / speedOfLight)

/-- Both values of a table-based quantity; `get_param` always looks both tables up. -/
def bothStates {α : Type} (f : Bool → Except Err α) : Except Err (Bool → α) :=
  match f true, f false with
  | .ok t, .ok n => .ok fun l => if l then t else n
  | .error e, _ => .error e
  | _, .error e => .error e

/-- `_compute_lsp_log_mean_std`, dense_urban_scenario.py 176-260 (identical in the sibling classes). -/
noncomputable def computeLspLogMeanStd (c : Config) (s : TopoState B N U) : Step B N U :=
  match s.utLoc, s.bsLoc, s.los, s.distance2d with
  | some ut, some bs, some los, some d2 =>
    match bothStates (lspLogMean c) with
    | .error e => (s, some e)
    | .ok mean =>
    match bothStates (fun near => bothStates fun l => lspLogStd c l near) with
    | .error e => (s, some e)
    | .ok std =>
      ({ s with
          lspMean := some fun b n u => mean (los b n u)
          lspStd := some fun b n u => std (nearBreakpoint c (ut b u) (bs b n) (d2 b n u)) (los b n u)
          zodOff := some fun b n u => zodOffset (los b n u) (d2 b n u) }, none)
  | _, _, _, _ => (s, some .typeError)

/-- `compute_pathloss_basic`, utils.py 1765-1784; the free space loss is stored first (line 1772). -/
noncomputable def computePathlossBasic (c : Config) (d : TopoDraws B N U) (s : TopoState B N U) : Step B N U :=
  match s.distance3d, s.los with
  | some d3, some los =>
    let s := { s with plFree := some fun b n u => freeSpaceLoss c.carrierFrequency (d3 b n u) }
    match c.rowReal c.paramsNlos .pCL, c.rowReal c.paramsLos .psigmaSF, c.rowReal c.paramsNlos .psigmaSF with
    | .ok cl, .ok sl, .ok sn =>
      ({ s with plBasic := some fun b n u => basicLossWith c cl sl sn (los b n u) (d3 b n u) (d.zLos b n u) (d.zNlos b n u) }, none)
    | .error e, _, _ => (s, some e)
    | _, .error e, _ => (s, some e)
    | _, _, .error e => (s, some e)
  | _, _ => (s, some .typeError)

/-- `compute_pathloss_gas`, utils.py 1593-1692. -/
noncomputable def computePathlossGas (c : Config) (s : TopoState B N U) : Step B N U :=
  match s.atmosphere, s.los with
  | some a, some _ =>
    match gasLoss (c.carrierFrequency / 10 ^ 9) c.elevationAngle a with
    | .error e => (s, some e)
    | .ok g => ({ s with plGas := some fun _ _ _ => g }, none)
  | _, _ => (s, some .attributeError)

/-- `compute_pathloss_entry`, utils.py 1759-1762. -/
noncomputable def computePathlossEntry (s : TopoState B N U) : Step B N U :=
  match s.los with
  | some _ => ({ s with plEntry := some fun _ _ _ => entryLoss }, none)
  | none => (s, some .attributeError)

/-- `compute_pathloss_scintilation`, utils.py 1695-1755. -/
noncomputable def computePathlossScint (c : Config) (s : TopoState B N U) : Step B N U :=
  match s.atmosphere, s.los with
  | some a, some _ =>
    match scintLoss (c.carrierFrequency / 10 ^ 9) c.elevationAngle a with
    | .error e => (s, some e)
    | .ok v => ({ s with plScint := some fun _ _ _ => v }, none)
  | _, _ => (s, some .attributeError)

/-- system_level_scenario.py 646-660: the update of the derived attributes. -/
noncomputable def updateTopology [NeZero B] (c : Config) (d : TopoDraws B N U) (s : TopoState B N U) : Step B N U :=
  (((((((computeDistances c s).andThen (sampleIndoorDistance d)).andThen (sampleLos c d)).andThen (computeLspLogMeanStd c)).andThen
    (computePathlossBasic c d)).andThen (computePathlossGas c)).andThen computePathlossEntry).andThen (computePathlossScint c)

/-- `set_topology`, system_level_scenario.py 501-664: the new state, and the returned `need_for_update` or the exception. -/
noncomputable def setTopology [NeZero B] (c : Config) (s : TopoState B N U) (a : TopoArgs B N U) (d : TopoDraws B N U) :
    TopoState B N U × Except Err Bool :=
  if assertsHold s a then
    let s1 := storeArgs s a
    if needForUpdate a then
      match updateTopology c d s1 with
      | (s2, none) => (s2, .ok true)
      | (s2, some e) => (s2, .error e)
    else (s1, .ok false)
  else (s, .error .assertion)

/-- The states of a scenario object, with the log of the calls made so far (most recent first): arguments, draws and outcome. -/
inductive TopoReach [NeZero B] (c : Config) : List (TopoArgs B N U × TopoDraws B N U × Except Err Bool) → TopoState B N U → Prop
  | init : TopoReach c [] (TopoState.init c)
  | call {log : List (TopoArgs B N U × TopoDraws B N U × Except Err Bool)} {s : TopoState B N U} (a : TopoArgs B N U)
      (d : TopoDraws B N U) (h : TopoReach c log s) :
      TopoReach c ((a, d, (setTopology c s a d).2) :: log) (setTopology c s a d).1

end OpenNTN
