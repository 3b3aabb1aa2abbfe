import Verif.Model.ConstructArray
import Verif.Model.Cir

/-
Model of a simulation as the example notebooks run it (example/BER_sims.ipynb, channel_response.ipynb, ML_based_SIMO_receiver.ipynb): two arrays and a channel
model are made, a topology is generated and set, and an impulse response is drawn.
-/
namespace OpenNTN

open Classical

/-- The three classes of antenna.py that make an array. -/
inductive ArrayKind where
  | panelArray
  | antenna
  | antennaArray

/-- The call of the class with keyword arguments. -/
noncomputable def ArrayKind.make (k : ArrayKind) (kw : NamedArgs) : Except Err ArrayObject :=
  match k with
  | .panelArray => arrayCall [] kw
  | .antenna => antennaCall [] kw
  | .antennaArray => antennaArrayCall [] kw

/-- An array as argument of a channel model, which looks at its class and at its wavelength (system_level_scenario.py 92-106). -/
def ArrayObject.arg (a : ArrayObject) : PyArg := .array (.panel a.lambda0)

/-- What a notebook chooses: arguments of the arrays, of the channel model (besides the arrays) and of the topology generator, all by keyword. -/
structure Notebook where
  utKind : ArrayKind
  ut : NamedArgs
  bsKind : ArrayKind
  bs : NamedArgs
  cls : ScenarioClass
  options : NamedArgs
  sector : NamedArgs

/-- The objects a notebook makes. -/
structure MadeObjects where
  ut : ArrayObject
  bs : ArrayObject
  model : ChannelObject

/-- BER_sims.ipynb cells 3 and 8, channel_response.ipynb cells 6, 8, 23 and 31, ML_based_SIMO_receiver.ipynb cell 8. -/
noncomputable def Notebook.build (n : Notebook) : Except Err MadeObjects :=
  match n.utKind.make n.ut with
  | .error x => .error x
  | .ok ut =>
  match n.bsKind.make n.bs with
  | .error x => .error x
  | .ok bs =>
  match channelCall n.cls [] (("ut_array", ut.arg) :: ("bs_array", bs.arg) :: n.options) with
  | .error x => .error x
  | .ok model => .ok ⟨ut, bs, model⟩

/-- The orientations of a topology as numbers. An orientation that is not a number is taken as an error. -/
noncomputable def GenTopology.orientations {B U : ℕ} (t : GenTopology B U) : Except Err (PerUt B U Vec3) :=
  if h : ∀ b u, ∃ o, t.utOri b u = .ok o then .ok fun b u => Classical.choose (h b u) else .error .notANumber

/-- `channel_model.set_topology(*topology)` and `channel_model(num_time_steps, sampling_frequency)` on a new channel model (BER_sims.ipynb cell 5,
channel_response.ipynb cells 10, 15, 23 and 31, ML_based_SIMO_receiver.ipynb cell 8; in the first and the last the model is called by Sionna's `OFDMChannel`).
`d` and `z` are the draws of `set_topology`, `w` those of the call. -/
noncomputable def MadeObjects.simulate {B U n : ℕ} [NeZero B] (v : MadeObjects) (fs : ℝ) (t : GenTopology B U) (d : TopoDraws B 1 U) (z : PerLink B 1 U (Fin 7 → ℝ))
    (w : CirDraws B 1 U (n + 2)) : Except Err (CirOut B 1 U (n + 6) ⊕ CirOut B U 1 (n + 6)) :=
  match t.orientations with
  | .error x => .error x
  | .ok ori =>
  let c := v.model.scenario.config
  let r := chanSetTopology c v.model.alwaysGenerateLsp (ChanState.init c) (t.args ori) d z
  match r.2 with
  | .error x => .error x
  | .ok () => cirCall c v.model.alwaysGenerateLsp v.ut.array v.bs.array fs r.1 w

end OpenNTN
