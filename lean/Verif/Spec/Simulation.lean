import Verif.Model.Simulation

/-
Specification: the simulations of the example notebooks, and what it means that one runs.
-/
namespace OpenNTN.Spec

/-- The class and the name of a scenario in the notebooks. -/
def Scenario (cls : ScenarioClass) (name : String) : Prop :=
  (cls = .denseUrban ∧ name = "dur") ∨ (cls = .subUrban ∧ name = "sur") ∨ (cls = .urban ∧ name = "urb")

/-- One vertically polarised element. -/
noncomputable def singleElement (pattern : String) (fc : ℝ) : NamedArgs :=
  [("polarization", .str "single"), ("polarization_type", .str "V"), ("antenna_pattern", .str pattern), ("carrier_frequency", .num fc)]

/-- A row of dually polarised elements. -/
noncomputable def dualRow (type : String) (fc : ℝ) : NamedArgs :=
  [("num_rows", .num 1), ("num_cols", .num 4), ("polarization", .str "dual"), ("polarization_type", .str type), ("antenna_pattern", .str "38.901"),
   ("carrier_frequency", .num fc)]

/-- One element as an array with one row and one column. -/
noncomputable def oneByOne (pattern : String) (fc : ℝ) : NamedArgs := ("num_rows", .num 1) :: ("num_cols", .num 1) :: singleElement pattern fc

/-- BER_sims.ipynb, cells 3 and 5. -/
noncomputable def berFirst : Notebook where
  utKind := .antennaArray
  ut := oneByOne "omni" 3.5e9
  bsKind := .antennaArray
  bs := oneByOne "aperture" 3.5e9
  cls := .denseUrban
  options := [("carrier_frequency", .num 3.5e9), ("direction", .str "downlink"), ("elevation_angle", .num 50), ("doppler_enabled", .bool true)]
  sector := [("batch_size", .num (128 : ℕ)), ("num_ut", .num (1 : ℕ)), ("scenario", .str "dur")]

/-- BER_sims.ipynb, cells 8 and 12. -/
noncomputable def berModel (cls : ScenarioClass) (name : String) : Notebook where
  utKind := .antennaArray
  ut := oneByOne "omni" 3.5e9
  bsKind := .antennaArray
  bs := oneByOne "aperture" 3.5e9
  cls := cls
  options := [("carrier_frequency", .num 3.5e9), ("direction", .str "downlink"), ("elevation_angle", .num 50), ("doppler_enabled", .bool true),
    ("enable_pathloss", .bool true)]
  sector := [("batch_size", .num (16 : ℕ)), ("num_ut", .num (1 : ℕ)), ("scenario", .str name), ("bs_height", .num 600000)]

/-- channel_response.ipynb, cells 4 to 10 (2 GHz, topology at 90°) and cell 23 (40 GHz, no elevation for the topology). -/
noncomputable def freqResponse (fc : ℝ) (elevation : NamedArgs) : Notebook where
  utKind := .antenna
  ut := singleElement "omni" fc
  bsKind := .antennaArray
  bs := dualRow "VH" fc
  cls := .denseUrban
  options := [("carrier_frequency", .num fc), ("direction", .str "uplink"), ("elevation_angle", .num 80)]
  sector := [("batch_size", .num (32 : ℕ)), ("num_ut", .num (4 : ℕ)), ("scenario", .str "dur"), ("bs_height", .num 600000)] ++ elevation

/-- `cond_hist` of channel_response.ipynb, cell 31. -/
noncomputable def condHist (cls : ScenarioClass) (name : String) (elevation height : ℝ) (doppler : Bool) (numUt batch : ℕ) (fc : ℝ) : Notebook where
  utKind := .antenna
  ut := singleElement "omni" fc
  bsKind := .antennaArray
  bs := dualRow "VH" fc
  cls := cls
  options := [("carrier_frequency", .num fc), ("direction", .str "uplink"), ("elevation_angle", .num elevation), ("enable_pathloss", .bool false),
    ("enable_shadow_fading", .bool false), ("doppler_enabled", .bool doppler)]
  sector := [("batch_size", .num batch), ("num_ut", .num numUt), ("scenario", .str name), ("bs_height", .num height)]

/-- ML_based_SIMO_receiver.ipynb, cells 8, 10 and 12. -/
noncomputable def neural (cls : ScenarioClass) (name : String) (batch : ℕ) : Notebook where
  utKind := .antennaArray
  ut := oneByOne "omni" 30e9
  bsKind := .antennaArray
  bs := dualRow "cross" 30e9
  cls := cls
  options := [("carrier_frequency", .num 30e9), ("direction", .str "uplink"), ("elevation_angle", .num 80), ("doppler_enabled", .bool false)]
  sector := [("batch_size", .num batch), ("num_ut", .num (1 : ℕ)), ("scenario", .str name)]

/-- The simulations of the notebooks, with their numbers of examples and UTs. -/
inductive InNotebook : Notebook → ℕ → ℕ → Prop where
  | berFirst : InNotebook berFirst 128 1
  | berModel {cls name} (h : Scenario cls name) : InNotebook (berModel cls name) 16 1
  | zenith : InNotebook (freqResponse 2e9 [("elevation_angle", .num 90)]) 32 4
  | large : InNotebook (freqResponse 40e9 []) 32 4
  | scenarios {cls name} (h : Scenario cls name) : InNotebook (condHist cls name 80 600000 false 2 4096 2e9) 4096 2
  | heights {height} (h : height ∈ [600000, 1200000, 36000000]) : InNotebook (condHist .denseUrban "dur" 80 height false 2 4096 2e9) 4096 2
  | elevations {el} (h : el ∈ [10, 30, 50, 70, 90]) : InNotebook (condHist .denseUrban "dur" el 600000 false 2 4096 2e9) 4096 2
  | doppler (b : Bool) : InNotebook (condHist .denseUrban "dur" 80 600000 b 2 4096 2e9) 4096 2
  | uts {numUt : ℕ} (h : numUt ∈ [2, 3, 4]) : InNotebook (condHist .denseUrban "dur" 80 600000 false numUt 1024 2e9) 1024 numUt
  | frequencies {fc} (h : fc ∈ [2e9, 4e9, 20e9, 40e9]) : InNotebook (condHist .denseUrban "dur" 80 600000 false 2 4096 fc) 4096 2
  | training : InNotebook (neural .denseUrban "dur" 128) 128 1
  | first : InNotebook (neural .denseUrban "dur" 1) 1 1

/-- All coefficients and delays of an impulse response are numbers. -/
def Numbers {B U n : ℕ} : CirOut B 1 U n ⊕ CirOut B U 1 n → Prop
  | .inl o => ∀ b u, (∀ ra ta q k, ∃ z : ℂ, o.h b u ra 0 ta q k = .ok z) ∧ ∀ q, ∃ d : ℝ, o.delays b u 0 q = .ok d
  | .inr o => ∀ b u, (∀ ra ta q k, ∃ z : ℂ, o.h b 0 ra u ta q k = .ok z) ∧ ∀ q, ∃ d : ℝ, o.delays b 0 u q = .ok d

/-- The impulse response is that of a downlink or of an uplink. -/
def Directed {B U n : ℕ} (direction : String) : CirOut B 1 U n ⊕ CirOut B U 1 n → Prop
  | .inl _ => direction = "downlink"
  | .inr _ => direction = "uplink"

end OpenNTN.Spec
