import Verif.Model.Construct
import Verif.Spec.Config

/-
Specification for the construction of channel models: what the user passes, and where it has to arrive.
-/
namespace OpenNTN.Spec

/-- The parameters of the three channel models, in the order of positional arguments. -/
def parameters : List String :=
  ["carrier_frequency", "ut_array", "bs_array", "direction", "elevation_angle", "enable_pathloss", "enable_shadow_fading", "average_street_width",
   "average_building_height", "always_generate_lsp", "doppler_enabled", "precision"]

/-- The user passes value `v` for a parameter, by position or by keyword. -/
def Passes (pos : List PyArg) (kw : NamedArgs) (name : String) (v : PyArg) : Prop :=
  (∃ i : ℕ, parameters[i]? = some name ∧ pos[i]? = some v) ∨ (name, v) ∈ kw

/-- The value of a parameter the user does not pass. -/
inductive Default : String → PyArg → Prop where
  | pathloss : Default "enable_pathloss" (.bool true)
  | shadow : Default "enable_shadow_fading" (.bool true)
  | width : Default "average_street_width" (.num 20)
  | height : Default "average_building_height" (.num 5)
  | lsp : Default "always_generate_lsp" (.bool false)
  | doppler : Default "doppler_enabled" (.bool true)
  | precision : Default "precision" .none

/-- The value a parameter receives: the one passed, else the default. -/
def Receives (pos : List PyArg) (kw : NamedArgs) (name : String) (v : PyArg) : Prop :=
  Passes pos kw name v ∨ ((∀ w, ¬ Passes pos kw name w) ∧ Default name v)

/-- A number; booleans count as 0 and 1. -/
def IsNum (v : PyArg) (x : ℝ) : Prop := v = .num x ∨ (v = .bool true ∧ x = 1) ∨ (v = .bool false ∧ x = 0)

/-- A switch is on unless given as zero, the empty string, `False` or `None`. -/
def IsOn (v : PyArg) : Prop := v ≠ .num 0 ∧ v ≠ .str "" ∧ v ≠ .bool false ∧ v ≠ .none

/-- The attribute of a channel model, or of its scenario, that belongs to a parameter has the value `v`. -/
def Holds (m : ChannelObject) (name : String) (v : PyArg) : Prop :=
  let s := m.scenario
  (name = "carrier_frequency" → IsNum v s.config.carrierFrequency) ∧
  (name = "ut_array" → v = .array s.utArray) ∧
  (name = "bs_array" → v = .array s.bsArray) ∧
  (name = "direction" → v = .str s.config.direction) ∧
  (name = "elevation_angle" → IsNum v s.config.elevationAngle) ∧
  (name = "enable_pathloss" → (s.config.enablePathloss = true ↔ IsOn v)) ∧
  (name = "enable_shadow_fading" → (s.config.enableShadowFading = true ↔ IsOn v)) ∧
  (name = "average_street_width" → IsNum v s.streetWidth) ∧
  (name = "average_building_height" → IsNum v s.buildingHeight) ∧
  (name = "always_generate_lsp" → (m.alwaysGenerateLsp = true ↔ IsOn v)) ∧
  (name = "doppler_enabled" → (s.config.dopplerInit = true ↔ IsOn v)) ∧
  (name = "precision" → v = s.precision)

/-- A call that Python can carry out: at most twelve positional arguments, known keywords, no parameter given twice. -/
def WellFormed (pos : List PyArg) (kw : NamedArgs) : Prop :=
  pos.length ≤ 12 ∧ (∀ a ∈ kw, a.1 ∈ parameters) ∧ ∀ (i : ℕ) (n : String), parameters[i]? = some n → i < pos.length → ∀ v, (n, v) ∉ kw

/-- The defaults in the documentation of the channel models (dense_urban.py 87-108, urban.py 87-108, sub_urban.py 87-108). -/
inductive DocumentedDefault : String → PyArg → Prop where
  | pathloss : DocumentedDefault "enable_pathloss" (.bool true)
  | shadow : DocumentedDefault "enable_shadow_fading" (.bool true)
  | width : DocumentedDefault "average_street_width" (.num 5)
  | height : DocumentedDefault "average_building_height" (.num 20)
  | lsp : DocumentedDefault "always_generate_lsp" (.bool false)
  | precision : DocumentedDefault "precision" .none

/-- The arguments of the call shown in the documentation (dense_urban.py 44-47, urban.py 44-47, sub_urban.py 44-47), with arrays for its carrier
frequency. -/
noncomputable def documentedCall : NamedArgs :=
  [("carrier_frequency", .num 3.5e9), ("ut_array", .array (panelFor 3.5e9)), ("bs_array", .array (panelFor 3.5e9)), ("direction", .str "uplink")]

/-- What a call must pass so that a channel model can be made: the five required arguments, with an allowed carrier frequency, direction and elevation
and arrays for this carrier frequency; and numbers for street width and building height, if at all. -/
def Suitable (pos : List PyArg) (kw : NamedArgs) : Prop :=
  (∃ fc f d el e, Passes pos kw "carrier_frequency" f ∧ IsNum f fc ∧ (SBand fc ∨ KaBand fc) ∧
    Passes pos kw "ut_array" (.array (panelFor fc)) ∧ Passes pos kw "bs_array" (.array (panelFor fc)) ∧
    Passes pos kw "direction" (.str d) ∧ (d = "uplink" ∨ d = "downlink") ∧
    Passes pos kw "elevation_angle" e ∧ IsNum e el ∧ 10 ≤ el ∧ el ≤ 90) ∧
  ∀ n v, n = "average_street_width" ∨ n = "average_building_height" → Passes pos kw n v → ∃ x, IsNum v x

end OpenNTN.Spec
