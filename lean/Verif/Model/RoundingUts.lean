import Verif.Model.RoundingDrop

/-
Places of the dropped UTs and their distances, evaluated operation by operation in the order of the code.
-/
namespace OpenNTN

/-- `drop_uts_in_sector`, utils.py 598-608, one coordinate of a UT: the centre plus a uniform displacement. `relocate_uts` with sector 0 and a cell at
the origin (utils.py 943-953, 1177) multiplies by one, adds products with zero and the zero of the cell, which is exact and left out. -/
noncomputable def Arith.dropCoord (A : Arith) (base isd u : ℝ) : ℝ :=
  A.rnd (base + A.uniformIn (A.rnd (-A.rnd isd / 2)) (A.rnd (A.rnd isd / 2)) u)

/-- `drop_uts_in_sector`, utils.py 598-608, a UT with unit draws `u`. -/
noncomputable def Arith.dropUt (A : Arith) (centre : ℝ × ℝ) (isd : ℝ) (u : ℝ × ℝ) : ℝ × ℝ :=
  (A.dropCoord centre.1 isd u.1, A.dropCoord centre.2 isd u.2)

/-- system_level_scenario.py 834-844: planar distance of two UTs. A square is taken as a product. -/
noncomputable def Arith.utDistance (A : Arith) (p q : ℝ × ℝ) : ℝ :=
  let dx := A.rnd (q.1 - p.1)
  let dy := A.rnd (q.2 - p.2)
  A.rnd (Real.sqrt (A.rnd (A.rnd (dx * dx) + A.rnd (dy * dy))))

end OpenNTN
