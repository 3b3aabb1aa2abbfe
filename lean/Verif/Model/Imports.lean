import Verif.Model.Num


/-
The import statements of the package, executed as Python executes them, and the class identities that result: /repo/OpenNTN/*.py (import,
class and def statements at top level), the line that post_install.py adds to the init file of Sionna's channel package, and the link that install.sh 19 makes.
-/
namespace OpenNTN

/-- The two names under which the package can be imported after installation: `OpenNTN` (setup.py 4, 12) and `sionna.phy.channel.tr38811`
(install.sh 19, a link to the same directory). Python keeps one copy of the modules per name. -/
inductive Root where
  | openNTN
  | tr38811
deriving DecidableEq, Repr

/-- Files of the package: /repo/OpenNTN/*.py and /repo/OpenNTN/models/__init__.py. -/
inductive PyFile where
  | init | antenna | lsp | rays | systemLevelScenario | utils | channelCoefficients | systemLevelChannel | denseUrbanScenario | denseUrban
  | urbanScenario | urban | subUrbanScenario | subUrban | tdl | cdl | models
deriving DecidableEq, Repr

/-- Name of the submodule, as attribute of the package. -/
def PyFile.name : PyFile → String
  | .init => "__init__" | .antenna => "antenna" | .lsp => "lsp" | .rays => "rays" | .systemLevelScenario => "system_level_scenario"
  | .utils => "utils" | .channelCoefficients => "channel_coefficients" | .systemLevelChannel => "system_level_channel"
  | .denseUrbanScenario => "dense_urban_scenario" | .denseUrban => "dense_urban" | .urbanScenario => "urban_scenario" | .urban => "urban"
  | .subUrbanScenario => "sub_urban_scenario" | .subUrban => "sub_urban" | .tdl => "tdl" | .cdl => "cdl" | .models => "models"

/-- All files but the init file of the package. -/
def PyFile.submodules : List PyFile :=
  [.antenna, .lsp, .rays, .systemLevelScenario, .utils, .channelCoefficients, .systemLevelChannel, .denseUrbanScenario, .denseUrban,
    .urbanScenario, .urban, .subUrbanScenario, .subUrban, .tdl, .cdl, .models]

/-- Modules of Sionna from which the package imports: `sionna.phy`, `sionna.phy.constants`, `sionna.phy.utils`, `sionna.phy.utils.tensors`,
`sionna.phy.block`, `sionna.phy.channel`, `sionna.phy.channel.utils`. -/
inductive SionnaModule where
  | phy | constants | utils | tensors | block | channel | channelUtils
deriving DecidableEq, Repr

abbrev PyModule := Root × PyFile

/-- What a name can refer to. Classes and functions are identified by the module that defined them. -/
inductive PyObject where
  | defined (m : PyModule) (name : String)
  | module (m : PyModule)
  | sionna (e : SionnaModule) (name : String)
deriving DecidableEq, Repr

/-- Statements at the top level of a file. -/
inductive PyStmt where
  /-- `from sionna... import names` -/
  | fromSionna (e : SionnaModule) (names : List String)
  /-- `from .file import names`, or `from sionna.phy.channel.tr38811.file import names` if `absolute` -/
  | fromModule (absolute : Bool) (f : PyFile) (names : List String)
  /-- `from . import name` -/
  | fromPackage (name : String)
  /-- `class name(bases)` or `def name`, which evaluates the names `uses` in default values -/
  | define (name : String) (bases uses : List String)
deriving DecidableEq, Repr

/-- Top-level statements of each file. Simplification: imports of the standard library, TensorFlow, NumPy, Matplotlib and importlib_resources are left out:
they are taken to succeed. -/
def PyFile.program : PyFile → List PyStmt
  /- __init__.py 12-27 -/
  | .init => [.fromModule false .antenna ["AntennaElement", "AntennaPanel", "PanelArray", "Antenna", "AntennaArray"],
      .fromModule false .lsp ["LSP", "LSPGenerator"], .fromModule false .rays ["Rays", "RaysGenerator"],
      .fromModule false .systemLevelScenario ["SystemLevelScenario"],
      .fromModule false .channelCoefficients ["Topology", "ChannelCoefficientsGenerator"],
      .fromModule false .systemLevelChannel ["SystemLevelChannel"],
      .fromModule false .denseUrbanScenario ["DenseUrbanScenario"], .fromModule false .denseUrban ["DenseUrban"],
      .fromModule false .urbanScenario ["UrbanScenario"], .fromModule false .urban ["Urban"],
      .fromModule false .subUrbanScenario ["SubUrbanScenario"], .fromModule false .subUrban ["SubUrban"],
      .fromModule false .tdl ["TDL"], .fromModule false .cdl ["CDL"]]
  /- antenna.py 22-26, 253, 368, 725, 769 -/
  | .antenna => [.fromSionna .constants ["SPEED_OF_LIGHT", "PI"], .fromSionna .utils ["log10"], .fromSionna .block ["Object"],
      .define "AntennaElement" ["Object"] [], .define "AntennaPanel" ["Object"] [], .define "PanelArray" ["Object"] [],
      .define "Antenna" ["PanelArray"] [], .define "AntennaArray" ["PanelArray"] []]
  /- lsp.py 17-21, 60 -/
  | .lsp => [.fromSionna .utils ["log10"], .fromSionna .phy ["config"], .fromSionna .block ["Object"], .define "LSP" ["Object"] [],
      .define "LSPGenerator" ["Object"] []]
  /- rays.py 17-23, 63 -/
  | .rays => [.fromSionna .phy ["config"], .fromSionna .block ["Object"], .fromSionna .utils ["log10"],
      .fromSionna .channelUtils ["deg_2_rad", "wrap_angle_0_360"], .define "Rays" ["Object"] [], .define "RaysGenerator" ["Object"] []]
  /- system_level_scenario.py 14-25 -/
  | .systemLevelScenario => [.fromSionna .block ["Object"], .fromSionna .constants ["SPEED_OF_LIGHT", "PI"], .fromSionna .utils ["log10"],
      .fromModule true .utils ["sample_bernoulli"], .fromSionna .channelUtils ["rad_2_deg", "wrap_angle_0_360"],
      .fromModule false .antenna ["PanelArray"], .fromPackage "models", .define "SystemLevelScenario" ["Object"] []]
  /- utils.py 13-18 and the functions at 21-1964 -/
  | .utils => [.fromSionna .constants ["PI"], .fromSionna .utils ["expand_to_rank"], .fromSionna .utils ["log10"],
      .fromSionna .phy ["PI", "config", "dtypes"],
      .define "subcarrier_frequencies" [] [], .define "time_frequency_vector" [] [], .define "time_lag_discrete_time_channel" [] [],
      .define "cir_to_ofdm_channel" [] [], .define "cir_to_time_channel" [] [], .define "time_to_ofdm_channel" [] [],
      .define "deg_2_rad" [] [], .define "rad_2_deg" [] [], .define "wrap_angle_0_360" [] [], .define "sample_bernoulli" [] [],
      .define "drop_uts_in_sector" [] [], .define "set_3gpp_scenario_parameters" [] [], .define "relocate_uts" [] [],
      .define "generate_uts_topology" [] [], .define "gen_single_sector_topology" [] [], .define "gen_single_sector_topology_interferers" [] [],
      .define "exp_corr_mat" [] [], .define "one_ring_corr_mat" [] [], .define "compute_pathloss_gas" [] [],
      .define "compute_pathloss_scintilation" [] [], .define "compute_pathloss_entry" [] [], .define "compute_pathloss_basic" [] [],
      .define "compute_pathloss_additional" [] [], .define "compute_satellite_speed" [] [], .define "compute_stallite_doppler" [] []]
  /- channel_coefficients.py 18-22, 106 -/
  | .channelCoefficients => [.fromSionna .constants ["PI", "SPEED_OF_LIGHT"], .fromSionna .block ["Object"],
      .fromModule true .utils ["compute_satellite_speed"], .define "Topology" ["Object"] [], .define "ChannelCoefficientsGenerator" ["Object"] []]
  /- system_level_channel.py 19-25 -/
  | .systemLevelChannel => [.fromPackage "LSPGenerator", .fromPackage "RaysGenerator", .fromPackage "Topology",
      .fromPackage "ChannelCoefficientsGenerator", .fromSionna .channel ["ChannelModel"], .fromSionna .channelUtils ["deg_2_rad"],
      .define "SystemLevelChannel" ["ChannelModel"] []]
  /- dense_urban_scenario.py 13-19 -/
  | .denseUrbanScenario => [.fromSionna .constants ["SPEED_OF_LIGHT", "PI"], .fromSionna .utils ["log10"], .fromPackage "SystemLevelScenario",
      .fromPackage "utils", .define "DenseUrbanScenario" ["SystemLevelScenario"] []]
  /- dense_urban.py 12-16 -/
  | .denseUrban => [.fromPackage "SystemLevelChannel", .fromPackage "DenseUrbanScenario", .define "DenseUrban" ["SystemLevelChannel"] []]
  /- urban_scenario.py 13-18 -/
  | .urbanScenario => [.fromSionna .constants ["SPEED_OF_LIGHT", "PI"], .fromSionna .utils ["log10"], .fromPackage "SystemLevelScenario",
      .fromPackage "utils", .define "UrbanScenario" ["SystemLevelScenario"] []]
  /- urban.py 12-16 -/
  | .urban => [.fromPackage "SystemLevelChannel", .fromPackage "UrbanScenario", .define "Urban" ["SystemLevelChannel"] []]
  /- sub_urban_scenario.py 13-18 -/
  | .subUrbanScenario => [.fromSionna .constants ["SPEED_OF_LIGHT", "PI"], .fromSionna .utils ["log10"], .fromPackage "SystemLevelScenario",
      .fromPackage "utils", .define "SubUrbanScenario" ["SystemLevelScenario"] []]
  /- sub_urban.py 12-16 -/
  | .subUrban => [.fromPackage "SystemLevelChannel", .fromPackage "SubUrbanScenario", .define "SubUrban" ["SystemLevelChannel"] []]
  /- tdl.py 23-29; the default value at 242 uses `PI` -/
  | .tdl => [.fromSionna .constants ["PI", "SPEED_OF_LIGHT"],
      .fromSionna .utils ["insert_dims", "expand_to_rank", "split_dim", "flatten_last_dims"], .fromSionna .channel ["ChannelModel"],
      .fromPackage "models", .define "TDL" ["ChannelModel"] ["PI"]]
  /- cdl.py 23-32 -/
  | .cdl => [.fromSionna .channelUtils ["deg_2_rad"], .fromSionna .channel ["ChannelModel"], .fromSionna .constants ["PI"],
      .fromSionna .tensors ["insert_dims"], .fromPackage "Topology", .fromPackage "ChannelCoefficientsGenerator", .fromPackage "Rays",
      .fromPackage "models", .define "CDL" ["ChannelModel"] []]
  /- models/__init__.py has comments only -/
  | .models => []

/-- How far Sionna has been imported. -/
inductive SionnaState where
  | absent | loading | loaded
deriving DecidableEq, Repr

/-- What the interpreter still has to do. -/
inductive PyJob where
  /-- import a module unless it is in `sys.modules` -/
  | load (m : PyModule)
  /-- execute a statement of a module -/
  | exec (m : PyModule) (s : PyStmt)
  /-- bind names in the first module to the attributes of the second -/
  | take (m src : PyModule) (names : List String)
  /-- a module has been executed and becomes an attribute of its package -/
  | finish (m : PyModule)
  /-- import Sionna unless it has been imported -/
  | loadSionna
  /-- Sionna has been executed -/
  | finishSionna
deriving DecidableEq, Repr

/-- State of the interpreter: modules in `sys.modules`, attributes of modules, base classes, what is left to do. -/
structure PyState where
  sionna : SionnaState
  started : List PyModule
  bound : List ((PyModule × String) × PyObject)
  bases : List (PyObject × List PyObject)
  jobs : List PyJob
deriving DecidableEq, Repr

/-- A fresh interpreter with something to do. -/
def PyState.fresh (jobs : List PyJob) : PyState := ⟨.absent, [], [], [], jobs⟩

def PyState.get (s : PyState) (m : PyModule) (x : String) : Option PyObject := s.bound.lookup (m, x)

/-- Installation in which Python runs. `linked`: install.sh 19 has made the link. `hooked`: the line `from . import tr38811` is in the init file of
Sionna's channel package (post_install.py 36-39). `early`: names that Sionna's modules have when Python reaches that line. -/
structure PyInstall where
  linked : Bool
  hooked : Bool
  early : SionnaModule → String → Bool

/-- One step of the interpreter. Importing a module that is in `sys.modules` does nothing, even when that module has not been executed to
the end. A module of a package is imported after the package. `from . import x` takes the attribute of the package and, when there is none, imports
the submodule of that name. Importing anything of Sionna imports the channel package of Sionna, and with it the inserted line.
Simplification: Sionna is loaded as a whole, and has all names when it has been loaded. -/
def PyInstall.step (i : PyInstall) (s : PyState) : Except Err PyState :=
  match s.jobs with
  | [] => .ok s
  | .loadSionna :: rest =>
    if s.sionna = .absent then
      .ok { s with sionna := .loading, jobs := (if i.hooked then [.load (.tr38811, .init)] else []) ++ .finishSionna :: rest }
    else .ok { s with jobs := rest }
  | .finishSionna :: rest => .ok { s with sionna := .loaded, jobs := rest }
  | .load m :: rest =>
    if m.1 = .tr38811 ∧ s.sionna = .absent then .ok { s with jobs := .loadSionna :: .load m :: rest }
    else if m ∈ s.started then .ok { s with jobs := rest }
    else if m.1 = .tr38811 ∧ i.linked = false then .error .fileNotFound
    else if m.2 ≠ .init ∧ (m.1, PyFile.init) ∉ s.started then .ok { s with jobs := .load (m.1, .init) :: .load m :: rest }
    else .ok { s with started := m :: s.started, jobs := m.2.program.map (.exec m) ++ .finish m :: rest }
  | .finish m :: rest =>
    .ok { s with bound := if m.2 = .init then s.bound else (((m.1, PyFile.init), m.2.name), .module m) :: s.bound, jobs := rest }
  | .take m src names :: rest =>
    match names with
    | [] => .ok { s with jobs := rest }
    | x :: xs =>
      match s.get src x with
      | some o => .ok { s with bound := ((m, x), o) :: s.bound, jobs := .take m src xs :: rest }
      | none => .error .nameError
  | .exec m (.fromSionna e names) :: rest =>
    if s.sionna = .absent then .ok { s with jobs := .loadSionna :: s.jobs }
    else match names with
    | [] => .ok { s with jobs := rest }
    | x :: xs =>
      if s.sionna = .loading ∧ i.early e x = false then .error .nameError
      else .ok { s with bound := ((m, x), .sionna e x) :: s.bound, jobs := .exec m (.fromSionna e xs) :: rest }
  | .exec m (.fromModule absolute f names) :: rest =>
    let src := (if absolute then Root.tr38811 else m.1, f)
    .ok { s with jobs := .load src :: .take m src names :: rest }
  | .exec m (.fromPackage x) :: rest =>
    match s.get (m.1, .init) x with
    | some o => .ok { s with bound := ((m, x), o) :: s.bound, jobs := rest }
    | none =>
      match PyFile.submodules.find? (·.name = x) with
      | some f => .ok { s with jobs := .load (m.1, f) :: .take m (m.1, .init) [x] :: rest }
      | none => .error .nameError
  | .exec m (.define x bs uses) :: rest =>
    match bs.mapM (s.get m), uses.mapM (s.get m) with
    | some os, some _ =>
      .ok { s with bound := ((m, x), .defined m x) :: s.bound, bases := (.defined m x, os) :: s.bases, jobs := rest }
    | _, _ => .error .nameError

/-- Execution of `n` steps. -/
def PyInstall.run (i : PyInstall) : ℕ → PyState → Except Err PyState
  | 0, s => .ok s
  | n + 1, s => i.step s >>= i.run n

/-- `isinstance(x, C)` for an object `x` whose class is given: the class or one of its bases, and so on. The depth of the hierarchy is at most the
number of classes. -/
def PyState.isinstance (s : PyState) (cls target : PyObject) : Bool :=
  go (s.bases.length + 1) cls
where
  go : ℕ → PyObject → Bool
    | 0, _ => false
    | n + 1, c => c = target || ((s.bases.lookup c).getD []).any (go n)

/-- system_level_scenario.py 92-95: the constructor of a scenario of the given copy of the package accepts arrays of the given classes. -/
def PyState.acceptsArrays (s : PyState) (r : Root) (ut bs : PyObject) : Bool :=
  match s.get (r, .systemLevelScenario) "PanelArray" with
  | some p => s.isinstance ut p && s.isinstance bs p
  | none => false

end OpenNTN
