import Verif.Model.RoundingRays

/-
Division of clusters into paths and their order, evaluated operation by operation in the order of the code.
-/
namespace OpenNTN

/-- system_level_channel.py 218: `get_param("cDS")*1e-9`, from the table value in nanoseconds. -/
noncomputable def Arith.clusterDelaySpread (A : Arith) (ns : ℝ) : ℝ := A.rnd (ns * A.rnd (A.py 1e-9))

/-- `_step_11_reduce_nlos`, channel_coefficients.py 923-946 and 970: delays of the paths before they are sorted. The offsets are constants of the element type
of the model (lines 201-202). -/
noncomputable def Arith.pathDelays (A : Arith) {n : ℕ} (powers delays : Fin (n + 2) → ℝ) (cDs : ℝ) : Fin (n + 6) → ℝ := fun k =>
  let strongest := Tuple.sort fun k => -powers k
  if h : k.1 < 6 then A.rnd (delays (strongest ⟨k.1 % 2, by omega⟩) + A.rnd (A.rnd (A.py (subClDelayOffsets ⟨k.1 / 2, by omega⟩)) * cDs))
  else delays (strongest ⟨k.1 - 6 + 2, by omega⟩)

/-- Cluster and rays of a path, channel_coefficients.py 948-969. -/
noncomputable def pathRays {n : ℕ} (powers : Fin (n + 2) → ℝ) : Fin (n + 6) → Fin (n + 2) × List (Fin raysPerCluster) := fun k =>
  let strongest := Tuple.sort fun k => -powers k
  if h : k.1 < 2 then (strongest ⟨k.1, by omega⟩, subCl1Ind)
  else if h : k.1 < 4 then (strongest ⟨k.1 - 2, by omega⟩, subCl2Ind)
  else if h : k.1 < 6 then (strongest ⟨k.1 - 4, by omega⟩, subCl3Ind)
  else (strongest ⟨k.1 - 6 + 2, by omega⟩, List.finRange raysPerCluster)

/-- `_step_11_reduce_nlos`, channel_coefficients.py 923-985, with subclustering, for one pair of antennas and one time: `h` and `d` are coefficients and delays that
the code may return. The powers are compared as they are, so that the order of the clusters has no error. -/
def Arith.IsReduced (A : Arith) {n : ℕ} (powers delays : Fin (n + 2) → ℝ) (hFull : Fin (n + 2) → Fin raysPerCluster → ℂ) (cDs : ℝ) (h : Fin (n + 6) → ℂ) (d : Fin (n + 6) → ℝ) : Prop :=
  ∀ k, let i := Tuple.sort (A.pathDelays powers delays cDs) k
    d k = A.pathDelays powers delays cDs i ∧ A.IsRaySum ((pathRays powers i).2.map (hFull (pathRays powers i).1)) (h k)

end OpenNTN
