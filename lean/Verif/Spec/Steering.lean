import Verif.Spec.Coeff
import Mathlib.Analysis.Complex.Exponential
import Mathlib.Analysis.Real.Sqrt
import Mathlib.LinearAlgebra.Matrix.Notation

/-
Equations (7.5-22) and (7.5-29) of TR 38.901 in vector form: orientation as a product of elementary rotations, field of a mounted antenna, plane
waves.
-/
namespace OpenNTN.Spec

open Matrix

/-- Rotation by `a` about the z axis. -/
noncomputable def turnZ (a : ℝ) : Matrix (Fin 3) (Fin 3) ℝ := !![Real.cos a, -Real.sin a, 0; Real.sin a, Real.cos a, 0; 0, 0, 1]

/-- Rotation by `b` about the y axis. -/
noncomputable def turnY (b : ℝ) : Matrix (Fin 3) (Fin 3) ℝ := !![Real.cos b, 0, Real.sin b; 0, 1, 0; -Real.sin b, 0, Real.cos b]

/-- Rotation by `c` about the x axis. -/
noncomputable def turnX (c : ℝ) : Matrix (Fin 3) (Fin 3) ℝ := !![1, 0, 0; 0, Real.cos c, -Real.sin c; 0, Real.sin c, Real.cos c]

/-- Orientation of an array with bearing `o 0`, downtilt `o 1` and slant `o 2`, TR 38.901 (7.1-2). -/
noncomputable def attitude (o : Fin 3 → ℝ) : Matrix (Fin 3) (Fin 3) ℝ := turnZ (o 0) * turnY (o 1) * turnX (o 2)

/-- One antenna: its place in the coordinates of the array, the power pattern over local zenith and azimuth, and the polarization slant. -/
structure Antenna where
  position : Fin 3 → ℝ
  power : ℝ → ℝ → ℝ
  slant : ℝ

/-- `F` are zenith and azimuth component of the field of antenna `a`, mounted with orientation `o`, in direction `theta`, `phi`: the field in the
coordinates of the array, turned with the array. -/
def IsField (a : Antenna) (o : Fin 3 → ℝ) (theta phi : ℝ) (F : Fin 2 → ℝ) : Prop :=
  ∃ theta' phi', 0 ≤ theta' ∧ theta' ≤ Real.pi ∧ -Real.pi < phi' ∧ phi' ≤ Real.pi ∧
    attitude o *ᵥ sphereDirection theta' phi' = sphereDirection theta phi ∧
    fieldAt theta phi F = attitude o *ᵥ fieldAt theta' phi'
      ![Real.sqrt (a.power theta' phi') * Real.cos a.slant, Real.sqrt (a.power theta' phi') * Real.sin a.slant]

/-- The direction is not that of the vertical axis of the array, where zenith and azimuth components do not make sense. -/
def OffAxis (o : Fin 3 → ℝ) (theta phi : ℝ) : Prop :=
  sphereDirection theta phi ≠ attitude o *ᵥ ![0, 0, 1] ∧ sphereDirection theta phi ≠ -(attitude o *ᵥ ![0, 0, 1])

/-- Phase of `x` wavelengths. -/
noncomputable def cycles (x : ℝ) : ℂ := Complex.exp ((2 * Real.pi * x : ℝ) * Complex.I)

end OpenNTN.Spec
