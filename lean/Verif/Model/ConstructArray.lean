import Verif.Model.Construct
import Verif.Model.Antenna
import Verif.Model.Tdl
import Verif.Model.TopoGen

/-
Model of the construction of antenna arrays and of TDL models, and of the call of the topology generator, from Python arguments: antenna.py 446-574,
755-767 and 813-831, tdl.py 237-350, utils.py 990-1124.
-/
namespace OpenNTN

open Classical

/-- antenna.py 446-458: `PanelArray.__init__`. -/
noncomputable def arraySignature : Signature :=
  [("num_rows_per_panel", none), ("num_cols_per_panel", none), ("polarization", none), ("polarization_type", none), ("antenna_pattern", none),
   ("carrier_frequency", none), ("num_rows", some (.num 1)), ("num_cols", some (.num 1)), ("panel_vertical_spacing", some .none),
   ("panel_horizontal_spacing", some .none), ("element_vertical_spacing", some .none), ("element_horizontal_spacing", some .none),
   ("precision", some .none)]

/-- antenna.py 755-759: `Antenna.__init__`. -/
def antennaSignature : Signature :=
  [("polarization", none), ("polarization_type", none), ("antenna_pattern", none), ("carrier_frequency", none), ("precision", some .none)]

/-- antenna.py 813-821: `AntennaArray.__init__`. -/
def antennaArraySignature : Signature :=
  [("num_rows", none), ("num_cols", none), ("polarization", none), ("polarization_type", none), ("antenna_pattern", none), ("carrier_frequency", none),
   ("vertical_spacing", some .none), ("horizontal_spacing", some .none), ("precision", some .none)]

/-- A number of rows, columns, antennas, UTs or examples, used in `range` and in shapes: an integer (booleans are integers). Simplification: negative
integers are taken as an error. -/
noncomputable def PyArg.toSize : PyArg → Except Err ℕ
  | .num x => if x = (⌊x⌋₊ : ℝ) then .ok ⌊x⌋₊ else .error .typeError
  | .bool b => .ok (if b then 1 else 0)
  | _ => .error .typeError

/-- A number or `None`. -/
noncomputable def PyArg.toOption : PyArg → Except Err (Option ℝ)
  | .none => .ok Option.none
  | v => match v.toNum with
    | .error e => .error e
    | .ok x => .ok (some x)

/-- A string that is compared with fixed strings; what is not a string is equal to none of them, as the empty string. -/
def PyArg.toText : PyArg → String
  | .str s => s
  | _ => ""

/-- A constructed array: the attributes of antenna.py 488-514 that the properties return (576-627), and what the channel models use. -/
structure ArrayObject where
  numRows : ℕ
  numCols : ℕ
  numRowsPerPanel : ℕ
  numColsPerPanel : ℕ
  polarization : String
  polarizationType : String
  panelVertical : ℝ
  panelHorizontal : ℝ
  elementVertical : ℝ
  elementHorizontal : ℝ
  lambda0 : ℝ
  array : PanelArray
  /-- what was passed to Sionna's `Object` as precision (antenna.py 460) -/
  precision : PyArg

/-- antenna.py 446-574, given the values of the parameters. Simplification: if several arguments have the wrong type, the exception need not be the one
that is raised first. -/
noncomputable def arrayInit (e : NamedArgs) : Except Err ArrayObject := do
  let rowsPerPanel ← (e.value "num_rows_per_panel").toSize
  let colsPerPanel ← (e.value "num_cols_per_panel").toSize
  let fc ← (e.value "carrier_frequency").toNum
  let rows ← (e.value "num_rows").toSize
  let cols ← (e.value "num_cols").toSize
  let panelV ← (e.value "panel_vertical_spacing").toOption
  let panelH ← (e.value "panel_horizontal_spacing").toOption
  let elementV ← (e.value "element_vertical_spacing").toOption
  let elementH ← (e.value "element_horizontal_spacing").toOption
  let a : ArrayArgs :=
    { numRowsPerPanel := rowsPerPanel
      numColsPerPanel := colsPerPanel
      polarization := (e.value "polarization").toText
      polarizationType := (e.value "polarization_type").toText
      pattern := (e.value "antenna_pattern").toText
      carrierFrequency := fc
      numRows := rows
      numCols := cols
      panelVertical := panelV
      panelHorizontal := panelH
      elementVertical := elementV
      elementHorizontal := elementH }
  let array ← mkArray a
  .ok { numRows := rows
        numCols := cols
        numRowsPerPanel := rowsPerPanel
        numColsPerPanel := colsPerPanel
        polarization := a.polarization
        polarizationType := a.polarizationType
        panelVertical := a.panelV
        panelHorizontal := a.panelH
        elementVertical := a.elementV
        elementHorizontal := a.elementH
        lambda0 := speedOfLight / fc
        array := array
        precision := e.value "precision" }

/-- `PanelArray(…)`. -/
noncomputable def arrayCall (pos : List PyArg) (kw : NamedArgs) : Except Err ArrayObject :=
  match pyCall arraySignature pos kw with
  | .error x => .error x
  | .ok e => arrayInit e

/-- `Antenna(…)`, antenna.py 755-767. -/
noncomputable def antennaCall (pos : List PyArg) (kw : NamedArgs) : Except Err ArrayObject :=
  match pyCall antennaSignature pos kw with
  | .error x => .error x
  | .ok e => arrayCall []
      [("num_rows_per_panel", .num 1), ("num_cols_per_panel", .num 1), ("polarization", e.value "polarization"),
       ("polarization_type", e.value "polarization_type"), ("antenna_pattern", e.value "antenna_pattern"),
       ("carrier_frequency", e.value "carrier_frequency"), ("precision", e.value "precision")]

/-- `AntennaArray(…)`, antenna.py 813-831. -/
noncomputable def antennaArrayCall (pos : List PyArg) (kw : NamedArgs) : Except Err ArrayObject :=
  match pyCall antennaArraySignature pos kw with
  | .error x => .error x
  | .ok e => arrayCall []
      [("num_rows_per_panel", e.value "num_rows"), ("num_cols_per_panel", e.value "num_cols"), ("polarization", e.value "polarization"),
       ("polarization_type", e.value "polarization_type"), ("antenna_pattern", e.value "antenna_pattern"),
       ("carrier_frequency", e.value "carrier_frequency"), ("element_vertical_spacing", e.value "vertical_spacing"),
       ("element_horizontal_spacing", e.value "horizontal_spacing"), ("precision", e.value "precision")]

/-- tdl.py 237-252: `TDL.__init__`. -/
noncomputable def tdlSignature : Signature :=
  [("model", none), ("delay_spread", none), ("carrier_frequency", none), ("num_sinusoids", some (.num 20)),
   ("los_angle_of_arrival", some (.num (Real.pi / 4))), ("min_speed", some (.num 0)), ("max_speed", some .none), ("num_rx_ant", some (.num 1)),
   ("num_tx_ant", some (.num 1)), ("spatial_corr_mat", some .none), ("rx_corr_mat", some .none), ("tx_corr_mat", some .none),
   ("basestation_height", some (.num 600000)), ("elevation_angle", some (.num 80)), ("precision", some .none)]

/-- A constructed TDL model: the attributes of tdl.py 288-311 and the loaded tables. -/
structure TdlObject where
  tdl : Tdl
  numRxAnt : ℕ
  numTxAnt : ℕ
  carrierFrequency : ℝ
  minSpeed : ℝ
  maxSpeed : ℝ
  height : ℝ
  elevation : ℝ
  /-- what was passed to Sionna's `ChannelModel` as precision (tdl.py 253) -/
  precision : PyArg

/-- `TDL(…)`, tdl.py 237-327. Simplifications: the correlation matrices are left out, and if several arguments have the wrong type, the exception need
not be the one that is raised first. -/
noncomputable def tdlConstruct (pos : List PyArg) (kw : NamedArgs) : Except Err TdlObject := do
  let e ← pyCall tdlSignature pos kw
  let delaySpread ← (e.value "delay_spread").toNum
  let fc ← (e.value "carrier_frequency").toNum
  let sinusoids ← (e.value "num_sinusoids").toSize
  let angle ← (e.value "los_angle_of_arrival").toNum
  let minSpeed ← (e.value "min_speed").toNum
  let maxSpeed ← (e.value "max_speed").toOption
  let rx ← (e.value "num_rx_ant").toSize
  let tx ← (e.value "num_tx_ant").toSize
  let height ← (e.value "basestation_height").toNum
  let elevation ← (e.value "elevation_angle").toNum
  let tdl ← tdlInit
    { model := (e.value "model").toText
      delaySpread := delaySpread
      carrierFrequency := fc
      numSinusoids := sinusoids
      losAngle := angle
      minSpeed := minSpeed
      maxSpeed := maxSpeed
      basestationHeight := height
      elevationAngle := elevation }
  .ok { tdl := tdl
        numRxAnt := rx
        numTxAnt := tx
        carrierFrequency := fc
        minSpeed := minSpeed
        maxSpeed := maxSpeed.getD minSpeed
        height := height
        elevation := elevation
        precision := e.value "precision" }

/-- utils.py 990-1001: `gen_single_sector_topology`. -/
def sectorSignature : Signature :=
  [("batch_size", none), ("num_ut", none), ("scenario", none), ("bs_height", some .none), ("elevation_angle", some .none), ("isd", some .none),
   ("min_ut_height", some .none), ("max_ut_height", some .none), ("indoor_probability", some .none), ("min_ut_velocity", some .none),
   ("max_ut_velocity", some .none), ("precision", some .none)]

/-- utils.py 612-621: `set_3gpp_scenario_parameters`. -/
def paramsSignature : Signature :=
  [("scenario", none), ("isd", some .none), ("bs_height", some .none), ("elevation_angle", some .none), ("min_ut_height", some .none),
   ("max_ut_height", some .none), ("indoor_probability", some .none), ("min_ut_velocity", some .none), ("max_ut_velocity", some .none),
   ("precision", some .none)]

/-- The call of `set_3gpp_scenario_parameters` at utils.py 1128-1137, given the values of the parameters of `gen_single_sector_topology`. -/
def sectorParamsCall (e : NamedArgs) : Except Err NamedArgs :=
  pyCall paramsSignature [e.value "scenario", e.value "isd", e.value "bs_height", e.value "elevation_angle", e.value "min_ut_height",
    e.value "max_ut_height", e.value "indoor_probability", e.value "min_ut_velocity", e.value "max_ut_velocity"] [("precision", e.value "precision")]

/-- The arguments of `set_3gpp_scenario_parameters` as numbers. -/
noncomputable def genArgsOf (e : NamedArgs) : Except Err GenArgs := do
  let isd ← (e.value "isd").toOption
  let bsHeight ← (e.value "bs_height").toOption
  let elevation ← (e.value "elevation_angle").toOption
  let minUtHeight ← (e.value "min_ut_height").toOption
  let maxUtHeight ← (e.value "max_ut_height").toOption
  let indoorProbability ← (e.value "indoor_probability").toOption
  let minUtVelocity ← (e.value "min_ut_velocity").toOption
  let maxUtVelocity ← (e.value "max_ut_velocity").toOption
  .ok ⟨isd, bsHeight, elevation, minUtHeight, maxUtHeight, indoorProbability, minUtVelocity, maxUtVelocity⟩

/-- `gen_single_sector_topology(…)`, utils.py 990-1191: the sizes and the topology. The random draws are those for the sizes. -/
noncomputable def sectorCall (pos : List PyArg) (kw : NamedArgs) (draws : ∀ B U : ℕ, DropDraws B U) : Except Err (Σ B U : ℕ, GenTopology B U) := do
  let e ← pyCall sectorSignature pos kw
  let p ← sectorParamsCall e
  let args ← genArgsOf p
  let B ← (e.value "batch_size").toSize
  let U ← (e.value "num_ut").toSize
  let t ← genSingleSector (p.value "scenario").toText args (draws B U)
  .ok ⟨B, U, t⟩

end OpenNTN
