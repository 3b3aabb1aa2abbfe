import Verif.Model.Scenario

/-
Model of the construction of a channel model by the user: how Python assigns the arguments of a call to parameters, and how
`DenseUrban`, `Urban` and `SubUrban` (dense_urban.py, urban.py, sub_urban.py) pass them on to the scenario
(dense_urban_scenario.py, urban_scenario.py, sub_urban_scenario.py, system_level_scenario.py) and to
`SystemLevelChannel.__init__` (system_level_channel.py).
-/
namespace OpenNTN

/-- A value passed as an argument. -/
inductive PyArg where
  | num (x : ℝ)
  | str (s : String)
  | bool (b : Bool)
  | array (a : ArrayArg)
  | none

/-- The parameters of a function in order, with their defaults (the part of a `def` line in parentheses, without `self`). -/
abbrev Signature := List (String × Option PyArg)

/-- Arguments given by keyword, or the values of the parameters inside a function. -/
abbrev NamedArgs := List (String × PyArg)

/-- How Python fills parameters in order: with the positional arguments first, then with keyword arguments, then with defaults. A parameter given twice or
not at all is a `TypeError`, as are more positional arguments than parameters. -/
def fillParams : Signature → List PyArg → NamedArgs → Except Err NamedArgs
  | [], [], _ => .ok []
  | [], _ :: _, _ => .error .typeError
  | (n, _) :: ps, v :: vs, kw =>
    if kw.any (fun a => a.1 == n) then .error .typeError else
    match fillParams ps vs kw with
    | .error e => .error e
    | .ok r => .ok ((n, v) :: r)
  | (n, d) :: ps, [], kw =>
    match kw.lookup n with
    | some v => match fillParams ps [] kw with
      | .error e => .error e
      | .ok r => .ok ((n, v) :: r)
    | none => match d with
      | none => .error .typeError
      | some v => match fillParams ps [] kw with
        | .error e => .error e
        | .ok r => .ok ((n, v) :: r)

/-- A Python call of a function with this signature: the values of its parameters. Unknown keywords are a `TypeError`. -/
def pyCall (sig : Signature) (pos : List PyArg) (kw : NamedArgs) : Except Err NamedArgs :=
  if kw.any (fun a => !(sig.any fun p => p.1 == a.1)) then .error .typeError else fillParams sig pos kw

/-- Value of a parameter inside a function. -/
def NamedArgs.value (e : NamedArgs) (n : String) : PyArg := (e.lookup n).getD .none

/-- dense_urban.py 129-132, urban.py 129-132, sub_urban.py 129-132: `__init__` of the channel models, the same text in all three. -/
noncomputable def channelSignature : Signature :=
  [("carrier_frequency", none), ("ut_array", none), ("bs_array", none), ("direction", none), ("elevation_angle", none),
   ("enable_pathloss", some (.bool true)), ("enable_shadow_fading", some (.bool true)), ("average_street_width", some (.num 20)),
   ("average_building_height", some (.num 5)), ("always_generate_lsp", some (.bool false)), ("doppler_enabled", some (.bool true)),
   ("precision", some .none)]

/-- dense_urban_scenario.py 68-71, urban_scenario.py 67-70, sub_urban_scenario.py 67-70. -/
noncomputable def scenarioSignature : Signature :=
  [("carrier_frequency", none), ("ut_array", none), ("bs_array", none), ("direction", none), ("elevation_angle", none),
   ("enable_pathloss", some (.bool true)), ("enable_shadow_fading", some (.bool true)), ("average_street_width", some (.num 20)),
   ("average_building_height", some (.num 5)), ("doppler_enabled", some (.bool true)), ("precision", some .none)]

/-- system_level_scenario.py 63-65. -/
def baseSignature : Signature :=
  [("carrier_frequency", none), ("ut_array", none), ("bs_array", none), ("direction", none), ("elevation_angle", none),
   ("enable_pathloss", some (.bool true)), ("enable_shadow_fading", some (.bool true)), ("doppler_enabled", some (.bool true)),
   ("precision", some .none)]

/-- system_level_channel.py 59, without the scenario object. -/
def superSignature : Signature := [("always_generate_lsp", some (.bool false)), ("precision", some .none)]

/-- A number used in a comparison: booleans are numbers in Python, and comparing a string, an array or `None` with a number is a `TypeError`. -/
noncomputable def PyArg.toNum : PyArg → Except Err ℝ
  | .num x => .ok x
  | .bool b => .ok (if b then 1 else 0)
  | _ => .error .typeError

/-- A direction: anything but the two strings fails the assertion (system_level_scenario.py 68), as the empty string does in `mkScenario`. -/
def PyArg.toDirection : PyArg → String
  | .str s => s
  | _ => ""

/-- An argument that should be an array (system_level_scenario.py 92-95). -/
def PyArg.toArray : PyArg → ArrayArg
  | .array a => a
  | _ => .other

open Classical in
/-- The truth value of an argument, as in `if` (the three switches are only used in conditions). -/
noncomputable def PyArg.truth : PyArg → Bool
  | .num x => decide (x ≠ 0)
  | .str s => s ≠ ""
  | .bool b => b
  | .array _ => true
  | .none => false

/-- Attributes of a scenario object after construction, as far as they are taken from arguments. -/
structure ScenarioObject where
  config : Config
  utArray : ArrayArg
  bsArray : ArrayArg
  streetWidth : ℝ
  buildingHeight : ℝ
  /-- what was passed to Sionna's `Object` as precision (system_level_scenario.py 66) -/
  precision : PyArg

/-- system_level_scenario.py 63-126, given the values of the parameters. Simplification: if several arguments have the wrong type, the exception need
not be the one that is raised first. -/
noncomputable def baseInit (cls : ScenarioClass) (e : NamedArgs) : Except Err Config :=
  match (e.value "carrier_frequency").toNum with
  | .error x => .error x
  | .ok fc =>
  match (e.value "elevation_angle").toNum with
  | .error x => .error x
  | .ok el =>
  mkScenario cls
    { carrierFrequency := fc
      utArray := (e.value "ut_array").toArray
      bsArray := (e.value "bs_array").toArray
      direction := (e.value "direction").toDirection
      elevationAngle := el
      enablePathloss := (e.value "enable_pathloss").truth
      enableShadowFading := (e.value "enable_shadow_fading").truth
      dopplerEnabled := (e.value "doppler_enabled").truth }

/-- dense_urban_scenario.py 68-82, urban_scenario.py 67-81, sub_urban_scenario.py 67-81, given the values of the parameters. -/
noncomputable def scenarioInit (cls : ScenarioClass) (e : NamedArgs) : Except Err ScenarioObject :=
  -- 73-74
  match pyCall baseSignature [e.value "carrier_frequency", e.value "ut_array", e.value "bs_array", e.value "direction", e.value "elevation_angle",
      e.value "enable_pathloss", e.value "enable_shadow_fading", e.value "doppler_enabled", e.value "precision"] [] with
  | .error x => .error x
  | .ok b =>
  match baseInit cls b with
  | .error x => .error x
  | .ok config =>
  -- 77-82
  match (e.value "average_street_width").toNum with
  | .error x => .error x
  | .ok width =>
  match (e.value "average_building_height").toNum with
  | .error x => .error x
  | .ok height =>
  .ok { config := config
        utArray := (b.value "ut_array").toArray
        bsArray := (b.value "bs_array").toArray
        streetWidth := width
        buildingHeight := height
        precision := b.value "precision" }

/-- A channel model after construction: its scenario and the switch of `SystemLevelChannel` (system_level_channel.py 61, 79). -/
structure ChannelObject where
  scenario : ScenarioObject
  alwaysGenerateLsp : Bool

/-- The call of the scenario class: dense_urban.py 135-137 and sub_urban.py 135-137 pass `precision` by keyword, urban.py 135-137 by position. -/
noncomputable def scenarioCall (cls : ScenarioClass) (e : NamedArgs) : Except Err NamedArgs :=
  let first := [e.value "carrier_frequency", e.value "ut_array", e.value "bs_array", e.value "direction", e.value "elevation_angle", e.value "enable_pathloss",
    e.value "enable_shadow_fading", e.value "average_street_width", e.value "average_building_height", e.value "doppler_enabled"]
  match cls with
  | .denseUrban => pyCall scenarioSignature first [("precision", e.value "precision")]
  | .urban => pyCall scenarioSignature (first ++ [e.value "precision"]) []
  | .subUrban => pyCall scenarioSignature first [("precision", e.value "precision")]

/-- `DenseUrban(…)`, `Urban(…)` or `SubUrban(…)` with positional and keyword arguments: dense_urban.py 129-139, urban.py 129-139, sub_urban.py 129-139 with
system_level_channel.py 59-79. The samplers made there take all they need from the scenario. -/
noncomputable def channelCall (cls : ScenarioClass) (pos : List PyArg) (kw : NamedArgs) : Except Err ChannelObject :=
  match pyCall channelSignature pos kw with
  | .error x => .error x
  | .ok e =>
  match scenarioCall cls e with
  | .error x => .error x
  | .ok se =>
  match scenarioInit cls se with
  | .error x => .error x
  | .ok scenario =>
  -- 139
  match pyCall superSignature [e.value "always_generate_lsp"] [] with
  | .error x => .error x
  | .ok ch => .ok { scenario := scenario, alwaysGenerateLsp := (ch.value "always_generate_lsp").truth }

end OpenNTN
