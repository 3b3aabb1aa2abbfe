import Verif.Model.ShapesConvert

/-
Specification of C154: the documented shapes of the results of the conversions and of the TDL model.
-/
namespace OpenNTN.Spec

/-- The documented shape of a response, utils.py 213 and 300: batch, receivers, their antennas, transmitters, their antennas, samples, entries. -/
def response (uplink : Bool) (b u utAnt bsAnt t entries : ℕ) : List ℕ :=
  if uplink then [b, 1, bsAnt, u, utAnt, t, entries] else [b, u, utAnt, 1, bsAnt, t, entries]

/-- A matrix whose shape is given is left out, or is square with `n` rows. -/
def Square (m : Option (List ℕ)) (n : ℕ) : Prop := ∀ s, m = some s → s = [n, n]

end OpenNTN.Spec
