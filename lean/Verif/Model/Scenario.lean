import Verif.Model.Num
import Verif.Model.Tables

/-
Model of scenario construction and parameter lookup:
system_level_scenario.py (`__init__`, `_load_params`, `get_param`, `num_clusters_*`),
dense_urban_scenario.py, urban_scenario.py, sub_urban_scenario.py (`los_parameter_filepath`,
`nlos_parameter_filepath`, `los_probability`).
-/
namespace OpenNTN

open Classical

/-- The three concrete scenario classes. -/
inductive ScenarioClass where
  | denseUrban
  | urban
  | subUrban
deriving DecidableEq, Repr

/-- An argument given as `ut_array`/`bs_array`: a `PanelArray` (only its wavelength `_lambda_0` matters here) or anything
else. -/
inductive ArrayArg where
  | panel (lambda0 : ℝ)
  | other

/-- antenna.py 513 (`PanelArray.__init__`): `self._lambda_0 = SPEED_OF_LIGHT/carrier_frequency`. -/
noncomputable def panelFor (carrierFrequency : ℝ) : ArrayArg := .panel (speedOfLight / carrierFrequency)

/-- Constructor arguments of the scenario classes (dense_urban_scenario.py 68-71). The street width and building height
are stored but never used, so they are left out, as is `precision`. -/
structure ScenarioArgs where
  carrierFrequency : ℝ
  utArray : ArrayArg
  bsArray : ArrayArg
  direction : String
  elevationAngle : ℝ
  enablePathloss : Bool := true
  enableShadowFading : Bool := true
  dopplerEnabled : Bool := true

/-- The immutable part of a scenario object after `__init__` (system_level_scenario.py 63-126). -/
structure Config where
  cls : ScenarioClass
  carrierFrequency : ℝ
  lambda0 : ℝ
  direction : String
  elevationAngle : ℝ
  enablePathloss : Bool
  enableShadowFading : Bool
  dopplerInit : Bool
  paramsLos : ParamFile
  paramsNlos : ParamFile

/-- The carrier frequency assertion, system_level_scenario.py 74 (also dense_urban_scenario.py 145, 161). -/
def carrierOk (fc : ℝ) : Prop :=
  (fc ≥ 19e9 ∧ fc ≤ 40e9) ∨ (fc ≥ 1.9e9 ∧ fc ≤ 4e9)

/-- dense_urban_scenario.py 143-155 `DenseUrbanScenario.los_parameter_filepath`. -/
noncomputable def denseUrbanLosFile (direction : String) (fc : ℝ) : Except Err String :=
  if ¬ carrierOk fc then .error .assertion else
  if direction = "uplink" then
    if fc ≥ 1.5e9 ∧ fc ≤ 4e9 then .ok "Dense_Urban_LOS_S_band_UL.json" else .ok "Dense_Urban_LOS_Ka_band_UL.json"
  else
    if fc ≥ 1.5e9 ∧ fc ≤ 4e9 then .ok "Dense_Urban_LOS_S_band_DL.json" else .ok "Dense_Urban_LOS_Ka_band_DL.json"

/-- dense_urban_scenario.py 159-171 `DenseUrbanScenario.nlos_parameter_filepath`. -/
noncomputable def denseUrbanNlosFile (direction : String) (fc : ℝ) : Except Err String :=
  if ¬ carrierOk fc then .error .assertion else
  if direction = "uplink" then
    if fc ≥ 1.5e9 ∧ fc ≤ 4e9 then .ok "Dense_Urban_NLOS_S_band_UL.json" else .ok "Dense_Urban_NLOS_Ka_band_UL.json"
  else
    if fc ≥ 1.5e9 ∧ fc ≤ 4e9 then .ok "Dense_Urban_NLOS_S_band_DL.json" else .ok "Dense_Urban_NLOS_Ka_band_DL.json"

/-- urban_scenario.py 144-156 `UrbanScenario.los_parameter_filepath`. -/
noncomputable def urbanLosFile (direction : String) (fc : ℝ) : Except Err String :=
  if ¬ carrierOk fc then .error .assertion else
  if direction = "uplink" then
    if fc ≥ 1.5e9 ∧ fc ≤ 4e9 then .ok "Urban_LOS_S_band_UL.json" else .ok "Urban_LOS_Ka_band_UL.json"
  else
    if fc ≥ 1.5e9 ∧ fc ≤ 4e9 then .ok "Urban_LOS_S_band_DL.json" else .ok "Urban_LOS_Ka_band_DL.json"

/-- urban_scenario.py 160-172 `UrbanScenario.nlos_parameter_filepath`. -/
noncomputable def urbanNlosFile (direction : String) (fc : ℝ) : Except Err String :=
  if ¬ carrierOk fc then .error .assertion else
  if direction = "uplink" then
    if fc ≥ 1.5e9 ∧ fc ≤ 4e9 then .ok "Urban_NLOS_S_band_UL.json" else .ok "Urban_NLOS_Ka_band_UL.json"
  else
    if fc ≥ 1.5e9 ∧ fc ≤ 4e9 then .ok "Urban_NLOS_S_band_DL.json" else .ok "Urban_NLOS_Ka_band_DL.json"

/-- sub_urban_scenario.py 144-156 `SubUrbanScenario.los_parameter_filepath`. -/
noncomputable def subUrbanLosFile (direction : String) (fc : ℝ) : Except Err String :=
  if ¬ carrierOk fc then .error .assertion else
  if direction = "uplink" then
    if fc ≥ 1.5e9 ∧ fc ≤ 4e9 then .ok "Sub_Urban_LOS_S_band_UL.json" else .ok "Sub_Urban_LOS_Ka_band_UL.json"
  else
    if fc ≥ 1.5e9 ∧ fc ≤ 4e9 then .ok "Sub_Urban_LOS_S_band_DL.json" else .ok "Sub_Urban_LOS_Ka_band_DL.json"

/-- sub_urban_scenario.py 160-172 `SubUrbanScenario.nlos_parameter_filepath`. -/
noncomputable def subUrbanNlosFile (direction : String) (fc : ℝ) : Except Err String :=
  if ¬ carrierOk fc then .error .assertion else
  if direction = "uplink" then
    if fc ≥ 1.5e9 ∧ fc ≤ 4e9 then .ok "Sub_Urban_NLOS_S_band_UL.json" else .ok "Sub_Urban_NLOS_Ka_band_UL.json"
  else
    if fc ≥ 1.5e9 ∧ fc ≤ 4e9 then .ok "Sub_Urban_NLOS_S_band_DL.json" else .ok "Sub_Urban_NLOS_Ka_band_DL.json"

/-- Dynamic dispatch of the property `los_parameter_filepath` (system_level_scenario.py 693-697, 890). -/
noncomputable def losFile : ScenarioClass → String → ℝ → Except Err String
  | .denseUrban => denseUrbanLosFile
  | .urban => urbanLosFile
  | .subUrban => subUrbanLosFile

/-- Dynamic dispatch of the property `nlos_parameter_filepath` (system_level_scenario.py 699-703, 905). -/
noncomputable def nlosFile : ScenarioClass → String → ℝ → Except Err String
  | .denseUrban => denseUrbanNlosFile
  | .urban => urbanNlosFile
  | .subUrban => subUrbanNlosFile

/-- system_level_scenario.py 886-919 `_load_params`, one of the two files. -/
def openParamFile (name : Except Err String) : Except Err ParamFile :=
  match name with
  | .error e => .error e
  | .ok n => match readParamFile n with
    | none => .error .fileNotFound
    | some f => .ok f

/-- system_level_scenario.py 63-126 `SystemLevelScenario.__init__` for the concrete class `cls`
(dense_urban_scenario.py 68-82 and the two siblings only forward the arguments). The assertions are checked in code
order. -/
noncomputable def mkScenario (cls : ScenarioClass) (a : ScenarioArgs) : Except Err Config :=
  -- 68
  if ¬ (a.direction = "uplink" ∨ a.direction = "downlink") then .error .assertion else
  -- 74
  if ¬ carrierOk a.carrierFrequency then .error .assertion else
  -- 88
  let lambda0 := speedOfLight / a.carrierFrequency
  -- 92-101
  match a.utArray with
  | .other => .error .assertion
  | .panel ul =>
  match a.bsArray with
  | .other => .error .assertion
  | .panel bl =>
  if ¬ (ul = bl ∧ bl = lambda0) then .error .assertion else
  -- 107
  if ¬ (a.elevationAngle ≥ 10 ∧ a.elevationAngle ≤ 90) then .error .assertion else
  -- 126, 886-919
  match openParamFile (losFile cls a.direction a.carrierFrequency) with
  | .error e => .error e
  | .ok pl =>
  match openParamFile (nlosFile cls a.direction a.carrierFrequency) with
  | .error e => .error e
  | .ok pn =>
  .ok { cls := cls
        carrierFrequency := a.carrierFrequency
        lambda0 := lambda0
        direction := a.direction
        elevationAngle := a.elevationAngle
        enablePathloss := a.enablePathloss
        enableShadowFading := a.enableShadowFading
        dopplerInit := a.dopplerEnabled
        paramsLos := pl
        paramsNlos := pn }

/-- The integer in `angle_str = str(round(self._elevation_angle/10.0)*10)` (system_level_scenario.py 368, 374, 381, 754). -/
noncomputable def Config.angleKey (c : Config) : ℤ := pyRound (c.elevationAngle / 10) * 10

/-- Dictionary lookup of key `name_angle`, raising `KeyError` if there is no such key
(system_level_scenario.py 755-756). -/
def lookupAngle (f : ParamFile) (p : Param) (angle : ℤ) : Except Err Cell :=
  match f p with
  | .byAngle c10 c20 c30 c40 c50 c60 c70 c80 c90 =>
    if angle = 10 then .ok c10 else if angle = 20 then .ok c20 else if angle = 30 then .ok c30
    else if angle = 40 then .ok c40 else if angle = 50 then .ok c50 else if angle = 60 then .ok c60
    else if angle = 70 then .ok c70 else if angle = 80 then .ok c80 else if angle = 90 then .ok c90
    else .error .keyError
  | _ => .error .keyError

/-- Dictionary lookup of key `name` without angle (system_level_scenario.py 758-759). -/
def lookupScalar (f : ParamFile) (p : Param) : Except Err Cell :=
  match f p with
  | .scalar c => .ok c
  | _ => .error .keyError

/-- The lookup part of `get_param`, system_level_scenario.py 752-759, in one of the two tables. -/
noncomputable def Config.lookupParam (c : Config) (f : ParamFile) (p : Param) : Except Err Cell :=
  if ¬ (p = .pCPhiNLoS ∨ p = .pCThetaNLoS) then lookupAngle f p c.angleKey else lookupScalar f p

/-- Value of a cell as a real or `-inf` (`_load_params`, system_level_scenario.py 894-903). -/
noncomputable def Cell.val : Cell → WithBot ℝ
  | .m n => (((n : ℝ) / 1000 : ℝ) : WithBot ℝ)
  | .ninf => ⊥

/-- system_level_scenario.py 727-773 `get_param`, for one BS-UT link whose LoS state is `los` (the code looks both values
up and selects with `tf.where(self.los, ...)`; the indoor state is not used). -/
noncomputable def Config.getParam (c : Config) (p : Param) (los : Bool) : Except Err (WithBot ℝ) :=
  match c.lookupParam c.paramsLos p with
  | .error e => .error e
  | .ok vl =>
  match c.lookupParam c.paramsNlos p with
  | .error e => .error e
  | .ok vn => .ok (if los then vl.val else vn.val)

/-- An integer-valued cell (`numClusters_*` are JSON integers, stored as `tf.int32`, system_level_scenario.py 899-901). -/
def Cell.toInt : Cell → Int
  | .m n => n / 1000
  | .ninf => 0

/-- system_level_scenario.py 366-369 `num_clusters_los`. -/
noncomputable def Config.numClustersLos (c : Config) : Except Err Int :=
  match lookupAngle c.paramsLos .pnumClusters c.angleKey with
  | .error e => .error e
  | .ok v => .ok v.toInt

/-- system_level_scenario.py 371-375 `num_clusters_nlos`. -/
noncomputable def Config.numClustersNlos (c : Config) : Except Err Int :=
  match lookupAngle c.paramsNlos .pnumClusters c.angleKey with
  | .error e => .error e
  | .ok v => .ok v.toInt

/-- system_level_scenario.py 377-385 `num_clusters_max`. -/
noncomputable def Config.numClustersMax (c : Config) : Except Err Int :=
  match lookupAngle c.paramsLos .pnumClusters c.angleKey with
  | .error e => .error e
  | .ok vl =>
  match lookupAngle c.paramsNlos .pnumClusters c.angleKey with
  | .error e => .error e
  | .ok vn => .ok (max vl.toInt vn.toInt)

/-- dense_urban_scenario.py 123-135 `los_probability` (same text in urban_scenario.py and sub_urban_scenario.py); every
link gets the same value. -/
noncomputable def Config.losProbability (c : Config) : Except Err (WithBot ℝ) :=
  match lookupAngle c.paramsLos .pLoSp c.angleKey with
  | .error e => .error e
  | .ok v => .ok v.val

/-- The parameter names that the code passes to `get_param`
(dense_urban_scenario.py 190-242, lsp.py 254-294 and 358-359, rays.py 289, 355, 356, 432, 439, 448, 602, 612, 822, 823,
system_level_channel.py 218). -/
def requestedParams : List Param :=
  [.pmuDS, .pmuASD, .pmuASA, .pmuK, .pmuZSA, .pmuZSD,
   .psigmaDS, .psigmaASD, .psigmaASA, .psigmaSF, .psigmaK, .psigmaZSA, .psigmaZSD,
   .pcorrASDvsDS, .pcorrASAvsDS, .pcorrASAvsSF, .pcorrASDvsSF, .pcorrDSvsSF, .pcorrASDvsASA, .pcorrASDvsK, .pcorrASAvsK,
   .pcorrDSvsK, .pcorrSFvsK, .pcorrZSDvsSF, .pcorrZSAvsSF, .pcorrZSDvsK, .pcorrZSAvsK, .pcorrZSDvsDS, .pcorrZSAvsDS,
   .pcorrZSDvsASD, .pcorrZSAvsASD, .pcorrZSDvsASA, .pcorrZSAvsASA, .pcorrZSDvsZSA,
   .pcorrDistDS, .pcorrDistASD, .pcorrDistASA, .pcorrDistSF, .pcorrDistK, .pcorrDistZSA, .pcorrDistZSD,
   .prTau, .pzeta, .pcASD, .pcASA, .pcZSA, .pCPhiNLoS, .pCThetaNLoS, .pmuXPR, .psigmaXPR, .pcDS]

end OpenNTN
