import Verif.Model.Topology

/- Specification of call histories, independent of how the code keeps its state. -/
namespace OpenNTN.Spec

/-- The most recent value among the counted calls of a log (most recent call first); `none` if no counted call passed one. -/
def latest {C α : Type} (counted : C → Prop) [DecidablePred counted] (value : C → Option α) : List C → Option α
  | [] => none
  | e :: log => if counted e then (match value e with | some v => some v | none => latest counted value log)
    else latest counted value log

variable {B N U : ℕ}

/-- An entry of the log of `set_topology` calls: arguments, random draws, outcome. -/
abbrev TopoCall (B N U : ℕ) := TopoArgs B N U × TopoDraws B N U × Except Err Bool

/-- The call returned. -/
def TopoCall.succeeded (e : TopoCall B N U) : Prop := ∃ b, e.2.2 = .ok b

/-- The call raised nothing or something other than an assertion error. -/
def TopoCall.accepted (e : TopoCall B N U) : Prop := e.2.2 ≠ .error .assertion

/-- The call passed UT locations, BS locations, indoor states or a LoS request. -/
def TopoCall.relocates (e : TopoCall B N U) : Prop :=
  e.1.utLoc ≠ none ∨ e.1.bsLoc ≠ none ∨ e.1.inState ≠ none ∨ e.1.los ≠ none

/-- The derived attributes of a scenario are those of the positions `ut`, `bs`, indoor states `indoor`, LoS request `req` and random
draws `d` (`p` is the LoS probability). -/
structure UpToDate [NeZero B] (c : Config) (s : TopoState B N U) (ut : PerUt B U Vec3) (bs : PerBs B N Vec3)
    (indoor : PerUt B U Bool) (req : Option Bool) (d : TopoDraws B N U) : Prop where
  distance2d : s.distance2d = some fun b n u => distance2d (ut b u) (bs b n)
  distance3d : ∃ d3, s.distance3d = some d3 ∧ ∀ b n u, d3 b n u = distance3d c.elevationAngle (bs 0 n).z
  angles : s.angles = some fun b n u => losAngles (ut b u) (bs b n)
  utDistance : ∃ D, s.utDistance = some D ∧
    ∀ b u v, D b u v = Real.sqrt (((ut b u).x - (ut b v).x) ^ 2 + ((ut b u).y - (ut b v).y) ^ 2)
  indoorDist : ∃ D, s.indoorDist = some D ∧
    ∀ b n u, D b n u = indoorSplit (indoor b u) (d.indoor b n u) (OpenNTN.distance2d (ut b u) (bs b n))
      (OpenNTN.distance3d c.elevationAngle (bs 0 n).z)
  freeSpace : ∃ F, s.plFree = some F ∧
    ∀ b n u, F b n u = freeSpaceLoss c.carrierFrequency (OpenNTN.distance3d c.elevationAngle (bs 0 n).z)
  statistics : ∃ (p : ℝ) (los : PerLink B N U Bool) (mean : PerLink B N U (Fin 7 → WithBot ℝ)) (std : PerLink B N U (Fin 7 → ℝ))
      (pl : PerLink B N U ℝ),
    c.losProbability = .ok (p : WithBot ℝ) ∧ s.los = some los ∧ s.lspMean = some mean ∧ s.lspStd = some std ∧ s.plBasic = some pl ∧
    s.zodOff = some (fun b n u => zodOffset (los b n u) (OpenNTN.distance2d (ut b u) (bs b n))) ∧
    ∀ b n u,
      (los b n u = true ↔ indoor b u = false ∧ (req = some true ∨ req = none ∧ d.losU b n u < p)) ∧
      lspLogMean c (los b n u) = .ok (mean b n u) ∧
      (∃ near : Bool, (near = true ↔ OpenNTN.distance2d (ut b u) (bs b n) <
          2 * Real.pi * (bs b n).z * (ut b u).z * c.carrierFrequency / speedOfLight) ∧
        lspLogStd c (los b n u) near = .ok (std b n u)) ∧
      basicLoss c (los b n u) (OpenNTN.distance3d c.elevationAngle (bs 0 n).z) (d.zLos b n u) (d.zNlos b n u) = .ok (pl b n u)

end OpenNTN.Spec
