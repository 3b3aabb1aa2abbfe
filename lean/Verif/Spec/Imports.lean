import Verif.Model.Imports

/-
What importing the package should do, independently of how the interpreter of `Model/Imports` proceeds.
-/
namespace OpenNTN

/-- What a user can import: a module of the package under one of its two names, or Sionna. -/
def Spec.userImports : List PyJob :=
  .loadSionna :: (PyFile.init :: PyFile.submodules).flatMap fun f => [.load (.openNTN, f), .load (.tr38811, f)]

/-- An import that comes to its end without an exception. -/
def Spec.Import (i : PyInstall) (s : PyState) (e : PyJob) (t : PyState) : Prop :=
  ∃ n, i.run n { s with jobs := [e] } = .ok t ∧ t.jobs = []

/-- A session: imports, one after the other, none of which fails. The last one is at the head of the list. -/
inductive Spec.Session (i : PyInstall) : List PyJob → PyState → Prop
  | start : Spec.Session i [] (.fresh [])
  | next {l : List PyJob} {s t : PyState} {e : PyJob} : Spec.Session i l s → e ∈ Spec.userImports → Spec.Import i s e t → Spec.Session i (e :: l) t

/-- Names of Sionna that the package imports. -/
def Spec.sionnaNames : List (SionnaModule × String) :=
  [(.phy, "PI"), (.phy, "config"), (.phy, "dtypes"), (.constants, "PI"), (.constants, "SPEED_OF_LIGHT"), (.utils, "log10"),
    (.utils, "expand_to_rank"), (.utils, "insert_dims"), (.utils, "split_dim"), (.utils, "flatten_last_dims"), (.tensors, "insert_dims"),
    (.block, "Object"), (.channel, "ChannelModel"), (.channelUtils, "deg_2_rad"), (.channelUtils, "rad_2_deg"),
    (.channelUtils, "wrap_angle_0_360")]

/-- Classes that the package offers, with the files in which they are written. -/
def Spec.offered : List (PyFile × String) :=
  [(.antenna, "AntennaElement"), (.antenna, "AntennaPanel"), (.antenna, "PanelArray"), (.antenna, "Antenna"), (.antenna, "AntennaArray"),
    (.lsp, "LSP"), (.lsp, "LSPGenerator"), (.rays, "Rays"), (.rays, "RaysGenerator"), (.systemLevelScenario, "SystemLevelScenario"),
    (.channelCoefficients, "Topology"), (.channelCoefficients, "ChannelCoefficientsGenerator"), (.systemLevelChannel, "SystemLevelChannel"),
    (.denseUrbanScenario, "DenseUrbanScenario"), (.denseUrban, "DenseUrban"), (.urbanScenario, "UrbanScenario"), (.urban, "Urban"),
    (.subUrbanScenario, "SubUrbanScenario"), (.subUrban, "SubUrban"), (.tdl, "TDL"), (.cdl, "CDL")]

/-- The package is complete under a name: every class it offers is an attribute of the package and is the class written in its file, and every file is
an attribute of the package. -/
def Spec.complete (s : PyState) (r : Root) : Prop :=
  (∀ p ∈ Spec.offered, s.get (r, .init) p.2 = some (.defined (r, p.1) p.2)) ∧
    ∀ f ∈ PyFile.submodules, s.get (r, .init) f.name = some (.module (r, f))

instance (s : PyState) (r : Root) : Decidable (Spec.complete s r) := by unfold Spec.complete; infer_instance

/-- Classes of arrays. -/
def Spec.arrayClasses : List String := ["PanelArray", "Antenna", "AntennaArray"]

end OpenNTN
