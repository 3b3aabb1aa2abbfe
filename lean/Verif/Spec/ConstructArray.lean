import Verif.Model.ConstructArray
import Verif.Spec.Construct

/-
Specification for the construction of antenna arrays and TDL models and for the call of the topology generator: what the user passes, and where it has to
arrive.
-/
namespace OpenNTN.Spec

/-- The user passes `v` for a parameter of a function with the parameters `params`, by position or by keyword. -/
def Given (params : List String) (pos : List PyArg) (kw : NamedArgs) (name : String) (v : PyArg) : Prop :=
  (∃ i : ℕ, params[i]? = some name ∧ pos[i]? = some v) ∨ (name, v) ∈ kw

/-- The value a parameter takes: the one given, else the documented default. -/
def Takes (params : List String) (dflt : String → PyArg → Prop) (pos : List PyArg) (kw : NamedArgs) (name : String) (v : PyArg) : Prop :=
  Given params pos kw name v ∨ ((∀ w, ¬ Given params pos kw name w) ∧ dflt name v)

/-- A number, or `None` for an open one. -/
def IsOpt (v : PyArg) (x : Option ℝ) : Prop := (v = .none ∧ x = none) ∨ ∃ y, IsNum v y ∧ x = some y

/-- Parameters of `PanelArray` in the order of the documentation (antenna.py 394-443). -/
def arrayParameters : List String :=
  ["num_rows_per_panel", "num_cols_per_panel", "polarization", "polarization_type", "antenna_pattern", "carrier_frequency", "num_rows", "num_cols",
   "panel_vertical_spacing", "panel_horizontal_spacing", "element_vertical_spacing", "element_horizontal_spacing", "precision"]

/-- Documented defaults of `PanelArray`. -/
def ArrayDefault (n : String) (v : PyArg) : Prop :=
  (n = "num_rows" ∧ v = .num 1) ∨ (n = "num_cols" ∧ v = .num 1) ∨ (n = "panel_vertical_spacing" ∧ v = .none) ∨
  (n = "panel_horizontal_spacing" ∧ v = .none) ∨ (n = "element_vertical_spacing" ∧ v = .none) ∨
  (n = "element_horizontal_spacing" ∧ v = .none) ∨ (n = "precision" ∧ v = .none)

/-- A spacing in wavelengths is the one passed, or the given one if `None` was passed. -/
def IsSpacing (v : PyArg) (open' x : ℝ) : Prop := (v = .none ∧ x = open') ∨ IsNum v x

/-- The name of a radiation pattern. -/
def IsPattern (v : PyArg) (p : Pattern) : Prop :=
  (v = .str "omni" ∧ p = .omni) ∨ (v = .str "38.901" ∧ p = .p38901) ∨ (v = .str "aperture" ∧ p = .aperture) ∨ (v = .str "dlp" ∧ p = .dlp)

/-- The attribute of an array that belongs to a parameter has the value `v`. Open element spacings are half a wavelength, open panel spacings leave half a
wavelength between the outer elements of neighbouring panels. -/
def ArrayHolds (a : ArrayObject) (name : String) (v : PyArg) : Prop :=
  (name = "num_rows_per_panel" → IsNum v a.numRowsPerPanel) ∧
  (name = "num_cols_per_panel" → IsNum v a.numColsPerPanel) ∧
  (name = "polarization" → v = .str a.polarization) ∧
  (name = "polarization_type" → v = .str a.polarizationType) ∧
  (name = "antenna_pattern" → IsPattern v a.array.pol1.pattern ∧ ∀ e ∈ a.array.pol2, IsPattern v e.pattern) ∧
  (name = "carrier_frequency" → ∃ fc, IsNum v fc ∧ a.lambda0 = 299792458 / fc) ∧
  (name = "num_rows" → IsNum v a.numRows) ∧
  (name = "num_cols" → IsNum v a.numCols) ∧
  (name = "panel_vertical_spacing" → IsSpacing v ((a.numRowsPerPanel - 1) * a.elementVertical + 1 / 2) a.panelVertical) ∧
  (name = "panel_horizontal_spacing" → IsSpacing v ((a.numColsPerPanel - 1) * a.elementHorizontal + 1 / 2) a.panelHorizontal) ∧
  (name = "element_vertical_spacing" → IsSpacing v (1 / 2) a.elementVertical) ∧
  (name = "element_horizontal_spacing" → IsSpacing v (1 / 2) a.elementHorizontal) ∧
  (name = "precision" → v = a.precision)

/-- Parameters of `Antenna` (antenna.py 729-747) with the parameters of `PanelArray` they stand for. -/
def antennaParameters : List (String × String) :=
  [("polarization", "polarization"), ("polarization_type", "polarization_type"), ("antenna_pattern", "antenna_pattern"),
   ("carrier_frequency", "carrier_frequency"), ("precision", "precision")]

/-- Parameters of `AntennaArray` (antenna.py 776-810) with the parameters of `PanelArray` they stand for. -/
def antennaArrayParameters : List (String × String) :=
  [("num_rows", "num_rows_per_panel"), ("num_cols", "num_cols_per_panel"), ("polarization", "polarization"),
   ("polarization_type", "polarization_type"), ("antenna_pattern", "antenna_pattern"), ("carrier_frequency", "carrier_frequency"),
   ("vertical_spacing", "element_vertical_spacing"), ("horizontal_spacing", "element_horizontal_spacing"), ("precision", "precision")]

/-- Documented defaults of `Antenna` and `AntennaArray`. -/
def AntennaDefault (n : String) (v : PyArg) : Prop :=
  (n = "vertical_spacing" ∧ v = .none) ∨ (n = "horizontal_spacing" ∧ v = .none) ∨ (n = "precision" ∧ v = .none)

/-- Parameters of `TDL` in order (tdl.py 237-252). -/
def tdlParameters : List String :=
  ["model", "delay_spread", "carrier_frequency", "num_sinusoids", "los_angle_of_arrival", "min_speed", "max_speed", "num_rx_ant", "num_tx_ant",
   "spatial_corr_mat", "rx_corr_mat", "tx_corr_mat", "basestation_height", "elevation_angle", "precision"]

/-- Defaults of `TDL`: those of the documentation (tdl.py 152-215); for height and elevation, which it does not mention, those of the satellite of the other
models. -/
def TdlDefault (n : String) (v : PyArg) : Prop :=
  (n = "num_sinusoids" ∧ v = .num 20) ∨ (n = "los_angle_of_arrival" ∧ v = .num (Real.pi / 4)) ∨ (n = "min_speed" ∧ v = .num 0) ∨
  (n = "max_speed" ∧ v = .none) ∨ (n = "num_rx_ant" ∧ v = .num 1) ∨ (n = "num_tx_ant" ∧ v = .num 1) ∨ (n = "spatial_corr_mat" ∧ v = .none) ∨
  (n = "rx_corr_mat" ∧ v = .none) ∨ (n = "tx_corr_mat" ∧ v = .none) ∨ (n = "basestation_height" ∧ v = .num 600000) ∨
  (n = "elevation_angle" ∧ v = .num 80) ∨ (n = "precision" ∧ v = .none)

/-- The attribute of a TDL model, or the argument `a` its tables and Doppler shifts are made from, that belongs to a parameter has the value `v`. An open
maximum speed is the minimum speed. -/
def TdlHolds (a : TdlArgs) (t : TdlObject) (name : String) (v : PyArg) : Prop :=
  (name = "model" → v = .str a.model) ∧
  (name = "delay_spread" → IsNum v a.delaySpread ∧ (a.model ∈ ["A", "B", "C", "D"] → IsNum v t.tdl.delaySpread)) ∧
  (name = "carrier_frequency" → IsNum v a.carrierFrequency ∧ IsNum v t.carrierFrequency) ∧
  (name = "num_sinusoids" → IsNum v a.numSinusoids ∧ IsNum v t.tdl.numSinusoids) ∧
  (name = "los_angle_of_arrival" → IsNum v a.losAngle ∧ IsNum v t.tdl.losAngle) ∧
  (name = "min_speed" → IsNum v a.minSpeed ∧ IsNum v t.minSpeed) ∧
  (name = "max_speed" → IsOpt v a.maxSpeed ∧ ((v = .none ∧ t.maxSpeed = t.minSpeed) ∨ IsNum v t.maxSpeed)) ∧
  (name = "num_rx_ant" → IsNum v t.numRxAnt) ∧
  (name = "num_tx_ant" → IsNum v t.numTxAnt) ∧
  (name = "basestation_height" → IsNum v a.basestationHeight ∧ IsNum v t.height) ∧
  (name = "elevation_angle" → IsNum v a.elevationAngle ∧ IsNum v t.elevation) ∧
  (name = "precision" → v = t.precision)

/-- Parameters of `gen_single_sector_topology` in order (utils.py 990-1001). -/
def sectorParameters : List String :=
  ["batch_size", "num_ut", "scenario", "bs_height", "elevation_angle", "isd", "min_ut_height", "max_ut_height", "indoor_probability",
   "min_ut_velocity", "max_ut_velocity", "precision"]

/-- Defaults of `gen_single_sector_topology`: everything but the sizes and the scenario is open. -/
def SectorDefault (n : String) (v : PyArg) : Prop :=
  n ∈ ["bs_height", "elevation_angle", "isd", "min_ut_height", "max_ut_height", "indoor_probability", "min_ut_velocity", "max_ut_velocity",
    "precision"] ∧ v = .none

/-- The argument of the generator that belongs to a parameter has the value `v`. -/
def SectorHolds (B U : ℕ) (scenario : String) (a : GenArgs) (name : String) (v : PyArg) : Prop :=
  (name = "batch_size" → IsNum v B) ∧
  (name = "num_ut" → IsNum v U) ∧
  (name = "scenario" → v = .str scenario) ∧
  (name = "bs_height" → IsOpt v a.bsHeight) ∧
  (name = "elevation_angle" → IsOpt v a.elevation) ∧
  (name = "isd" → IsOpt v a.isd) ∧
  (name = "min_ut_height" → IsOpt v a.minUtHeight) ∧
  (name = "max_ut_height" → IsOpt v a.maxUtHeight) ∧
  (name = "indoor_probability" → IsOpt v a.indoorProbability) ∧
  (name = "min_ut_velocity" → IsOpt v a.minUtVelocity) ∧
  (name = "max_ut_velocity" → IsOpt v a.maxUtVelocity)

end OpenNTN.Spec
