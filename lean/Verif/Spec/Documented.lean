import Verif.Spec.ConstructArray

/-
Specification: what the documentation says can be called, with which parameters and in which examples.
-/
namespace OpenNTN.Spec

/-- What a user calls. -/
inductive Callable where
  | panelArray
  | antenna
  | antennaArray
  | tdl
  | channel (cls : ScenarioClass)
  | sector

/-- A call by keyword succeeds. -/
def Succeeds (draws : ∀ B U : ℕ, DropDraws B U) (f : Callable) (kw : NamedArgs) : Prop :=
  match f with
  | .panelArray => ∃ o, arrayCall [] kw = .ok o
  | .antenna => ∃ o, antennaCall [] kw = .ok o
  | .antennaArray => ∃ o, antennaArrayCall [] kw = .ok o
  | .tdl => ∃ o, tdlConstruct [] kw = .ok o
  | .channel cls => ∃ o, channelCall cls [] kw = .ok o
  | .sector => ∃ o, sectorCall [] kw draws = .ok o

/-- The documented parameters: antenna.py 394-443, 729-747 and 776-810, tdl.py 152-215, dense_urban.py 67-108 (the same in urban.py and sub_urban.py),
utils.py 1063-1105. -/
def documentedParameters : Callable → List String
  | .panelArray => ["num_rows_per_panel", "num_cols_per_panel", "polarization", "polarization_type", "antenna_pattern", "carrier_frequency", "num_rows",
      "num_cols", "panel_vertical_spacing", "panel_horizontal_spacing", "element_vertical_spacing", "element_horizontal_spacing", "precision"]
  | .antenna => ["polarization", "polarization_type", "antenna_pattern", "carrier_frequency", "precision"]
  | .antennaArray => ["num_rows", "num_cols", "polarization", "polarization_type", "antenna_pattern", "carrier_frequency", "vertical_spacing",
      "horizontal_spacing", "precision"]
  | .tdl => ["model", "delay_spread", "carrier_frequency", "num_sinusoids", "los_angle_of_arrival", "min_speed", "max_speed", "num_rx_ant", "num_tx_ant",
      "spatial_corr_mat", "rx_corr_mat", "tx_corr_mat", "precision"]
  | .channel _ => ["carrier_frequency", "rx_array", "tx_array", "direction", "elevation_angle", "enable_pathloss", "enable_shadow_fading",
      "average_street_width", "average_building_height", "always_generate_lsp", "precision"]
  | .sector => ["batch_size", "num_ut", "scenario", "min_bs_ut_dist", "isd", "bs_height", "elevation_angle", "min_ut_height", "max_ut_height",
      "indoor_probability", "min_ut_velocity", "max_ut_velocity", "precision"]

/-- The array of the documentation of `PanelArray`, antenna.py 382-389. -/
noncomputable def exampleArray : NamedArgs :=
  [("num_rows_per_panel", .num 4), ("num_cols_per_panel", .num 4), ("polarization", .str "dual"), ("polarization_type", .str "VH"),
   ("antenna_pattern", .str "38.901"), ("carrier_frequency", .num 3.5e9), ("num_cols", .num 2), ("panel_horizontal_spacing", .num 3)]

/-- The satellite array of dense_urban.py 32-37 (also urban.py, sub_urban.py and cdl.py) with type "cross", of utils.py 1028-1033 with type "VH". -/
noncomputable def exampleBs (type : String) : NamedArgs :=
  [("num_rows_per_panel", .num 4), ("num_cols_per_panel", .num 4), ("polarization", .str "dual"), ("polarization_type", .str type),
   ("antenna_pattern", .str "38.901"), ("carrier_frequency", .num 3.5e9)]

/-- The UT array of the same examples. -/
noncomputable def exampleUt : NamedArgs :=
  [("num_rows_per_panel", .num 1), ("num_cols_per_panel", .num 1), ("polarization", .str "single"), ("polarization_type", .str "V"),
   ("antenna_pattern", .str "omni"), ("carrier_frequency", .num 3.5e9)]

/-- The TDL model of tdl.py 87-91. -/
noncomputable def exampleTdl : NamedArgs :=
  [("model", .str "A"), ("delay_spread", .num 300e-9), ("carrier_frequency", .num 3.5e9), ("min_speed", .num 0), ("max_speed", .num 3)]

/-- The topology of utils.py 1048-1050. -/
noncomputable def exampleSector : NamedArgs := [("batch_size", .num 100), ("num_ut", .num 4), ("scenario", .str "urb")]

/-- The channel model of utils.py 1042-1046 and 1254-1258. -/
noncomputable def exampleUrban : NamedArgs :=
  [("carrier_frequency", .num 3.5e9), ("o2i_model", .str "low"), ("ut_array", .array (panelFor 3.5e9)), ("bs_array", .array (panelFor 3.5e9)),
   ("direction", .str "uplink")]

/-- The calls in the examples of the documentation. -/
inductive Example : Callable → NamedArgs → Prop where
  | array : Example .panelArray exampleArray
  | bsCross : Example .panelArray (exampleBs "cross")
  | bsVh : Example .panelArray (exampleBs "VH")
  | ut : Example .panelArray exampleUt
  | tdl : Example .tdl exampleTdl
  | channel (cls : ScenarioClass) : Example (.channel cls) documentedCall
  | sector : Example .sector exampleSector
  | urban : Example (.channel .urban) exampleUrban

end OpenNTN.Spec
