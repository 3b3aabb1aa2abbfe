import Mathlib.Analysis.SpecialFunctions.Trigonometric.Basic
import Mathlib.Data.Fin.VecNotation

/- Vocabulary for the channel coefficient properties. -/
namespace OpenNTN.Spec

/-- Direction with zenith `theta` and azimuth `phi`. -/
noncomputable def sphereDirection (theta phi : ℝ) : Fin 3 → ℝ :=
  ![Real.sin theta * Real.cos phi, Real.sin theta * Real.sin phi, Real.cos theta]

/-- Unit vector of increasing zenith. -/
noncomputable def zenithVec (theta phi : ℝ) : Fin 3 → ℝ :=
  ![Real.cos theta * Real.cos phi, Real.cos theta * Real.sin phi, -Real.sin theta]

/-- Unit vector of increasing azimuth. -/
noncomputable def azimuthVec (phi : ℝ) : Fin 3 → ℝ := ![-Real.sin phi, Real.cos phi, 0]

/-- The field vector with zenith component `f 0` and azimuth component `f 1`. -/
noncomputable def fieldAt (theta phi : ℝ) (f : Fin 2 → ℝ) : Fin 3 → ℝ := f 0 • zenithVec theta phi + f 1 • azimuthVec phi

/-- Sub-cluster of a ray, 3GPP TR 38.901 Table 7.5-5 (rays are numbered from 1 there): rays 1-8, 19, 20 are in the first, rays
9-12, 17, 18 in the second and rays 13-16 in the third one. -/
def subCluster (m : ℕ) : Fin 3 :=
  if m + 1 ≤ 8 ∨ 19 ≤ m + 1 then 0 else if m + 1 ≤ 12 ∨ 17 ≤ m + 1 then 1 else 2

/-- Delay of the sub-clusters, in cluster delay spreads, 3GPP TR 38.901 equation (7.5-26). -/
noncomputable def subClusterDelay (j : Fin 3) : ℝ := if j = 0 then 0 else if j = 1 then 1.28 else 2.56

end OpenNTN.Spec
