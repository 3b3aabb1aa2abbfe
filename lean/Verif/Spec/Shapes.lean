import Verif.Model.Shapes

/-
Specification of C150 and C151: sizes of scenes and the shapes of the results.
-/
namespace OpenNTN.Spec

/-- A complete scene for `b` examples with one satellite and `u` UTs, in the shapes that the documentation of `set_topology` asks for
(system_level_channel.py 94-113). -/
def scene (b u : ℕ) : SceneShapes where
  utLoc := some [b, u, 3]
  bsLoc := some [b, 1, 3]
  utOri := some [b, u, 3]
  bsOri := some [b, 1, 3]
  utVel := some [b, u, 3]
  inState := some [b, u]

/-- The documented shape of the coefficients, system_level_channel.py 52-53: batch, receivers, their antennas, transmitters, their antennas, paths, samples. -/
def coefficients (uplink : Bool) (b u utAnt bsAnt paths t : ℕ) : List ℕ :=
  if uplink then [b, 1, bsAnt, u, utAnt, paths, t] else [b, u, utAnt, 1, bsAnt, paths, t]

/-- The documented shape of the delays, system_level_channel.py 55-56: batch, receivers, transmitters, paths. -/
def pathDelays (uplink : Bool) (b u paths : ℕ) : List ℕ := if uplink then [b, 1, u, paths] else [b, u, 1, paths]

/-- Arguments that are left out, or have the sizes `b` and `u`. -/
def PartOf (a : SceneShapes) (b u : ℕ) : Prop :=
  (a.utLoc = none ∨ a.utLoc = some [b, u, 3]) ∧ (a.bsLoc = none ∨ a.bsLoc = some [b, 1, 3]) ∧ (a.utOri = none ∨ a.utOri = some [b, u, 3]) ∧
  (a.bsOri = none ∨ a.bsOri = some [b, 1, 3]) ∧ (a.utVel = none ∨ a.utVel = some [b, u, 3]) ∧ (a.inState = none ∨ a.inState = some [b, u])

/-- All arguments of a scene are about the same numbers of examples and UTs. -/
def SameSizes (s : SceneShapes) : Prop := ∃ b u, s = scene b u

/-- `a` can be used where `b` is needed: it is `b`, or the single entry is repeated. -/
def Stands (a b : ℕ) : Prop := a = b ∨ a = 1

end OpenNTN.Spec
