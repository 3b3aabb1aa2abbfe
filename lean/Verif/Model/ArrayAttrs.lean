import Verif.Model.Antenna

/-
Model of the public properties of `PanelArray`, antenna.py 576-687, that are more than a constructor argument.
-/
namespace OpenNTN

/-- `num_ant`, antenna.py 639-642. -/
def PanelArray.getNumAnt (arr : PanelArray) : ℕ := arr.numAnt

/-- `ant_pol1`, antenna.py 644-647. -/
def PanelArray.getAntPol1 (arr : PanelArray) : Element := arr.pol1

/-- `ant_pol2`, antenna.py 649-655. -/
def PanelArray.getAntPol2 (arr : PanelArray) : Except Err Element :=
  if ¬ arr.polarization = "dual" then .error .assertion
  else match arr.pol2 with
    | some e => .ok e
    | none => .error .attributeError

/-- `ant_pos`, antenna.py 657-660: one row for each antenna. -/
def PanelArray.getAntPos (arr : PanelArray) : List (Fin 3 → ℝ) := (List.range arr.numAnt).map arr.antPos

/-- `ant_ind_pol1`, antenna.py 662-665. -/
def PanelArray.getIndPol1 (arr : PanelArray) : List ℕ := arr.indPol1

/-- `ant_ind_pol2`, antenna.py 667-673. -/
def PanelArray.getIndPol2 (arr : PanelArray) : Except Err (List ℕ) :=
  if ¬ arr.polarization = "dual" then .error .assertion else .ok arr.indPol2

/-- `ant_pos_pol1`, antenna.py 571-572, 675-679. -/
def PanelArray.getPosPol1 (arr : PanelArray) : List (Fin 3 → ℝ) := arr.indPol1.map arr.antPos

/-- `ant_pos_pol2`, antenna.py 573-574, 681-687. -/
def PanelArray.getPosPol2 (arr : PanelArray) : Except Err (List (Fin 3 → ℝ)) :=
  if ¬ arr.polarization = "dual" then .error .assertion else .ok (arr.indPol2.map arr.antPos)

end OpenNTN
