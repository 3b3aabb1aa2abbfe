import Verif.Model.Cir

/- A link between a BS and a UT, independent of the tensor axes. -/
namespace OpenNTN

variable {B N U : ℕ}

/-- The ends of a link between BS `n` and UT `u`, as values. -/
structure Spec.Ends where
  bsOri : Fin 3 → ℝ
  utOri : Fin 3 → ℝ
  utVel : Fin 3 → ℝ
  /-- azimuth and zenith of the LoS direction at the BS and at the UT, radian -/
  bsAzimuth : ℝ
  bsZenith : ℝ
  utAzimuth : ℝ
  utZenith : ℝ
  los : Bool
  distance : ℝ
  bsHeight : ℝ
  satSpeed : ℝ
  doppler : Bool

/-- The link from the BS to the UT. -/
def Spec.Ends.toUt (e : Spec.Ends) : LinkTopo where
  velocity := e.utVel
  movingRx := true
  losAoa := e.utAzimuth
  losAod := e.bsAzimuth
  losZoa := e.utZenith
  losZod := e.bsZenith
  los := e.los
  distance3d := e.distance
  txOri := e.bsOri
  rxOri := e.utOri
  bsHeight := e.bsHeight
  satSpeed := e.satSpeed
  doppler := e.doppler

/-- The link from the UT to the BS. -/
def Spec.Ends.toBs (e : Spec.Ends) : LinkTopo where
  velocity := e.utVel
  movingRx := false
  losAoa := e.bsAzimuth
  losAod := e.utAzimuth
  losZoa := e.bsZenith
  losZod := e.utZenith
  los := e.los
  distance3d := e.distance
  txOri := e.utOri
  rxOri := e.bsOri
  bsHeight := e.bsHeight
  satSpeed := e.satSpeed
  doppler := e.doppler

/-- Rays of a link seen from the other side: departure and arrival are exchanged. -/
def Spec.backwards {M : ℕ} (r : LinkRays M) : LinkRays M where
  delays := r.delays
  powers := r.powers
  aoa := r.aod
  aod := r.aoa
  zoa := r.zod
  zod := r.zoa
  xpr := r.xpr

/-- The ends of link `b`, `n`, `u` in a topology. -/
noncomputable def Spec.endsOf [NeZero B] [NeZero N] (c : Config) (i : CallInputs B N U) (dir : Fin B → ℝ) (b : Fin B) (n : Fin N)
    (u : Fin U) : Spec.Ends where
  bsOri := ![(i.bsOri b n).x, (i.bsOri b n).y, (i.bsOri b n).z]
  utOri := ![(i.utOri b u).x, (i.utOri b u).y, (i.utOri b u).z]
  utVel := ![(i.utVel b u).x, (i.utVel b u).y, (i.utVel b u).z]
  bsAzimuth := (i.angles b n u).aod * Real.pi / 180
  bsZenith := (i.angles b n u).zod * Real.pi / 180
  utAzimuth := (i.angles b n u).aoa * Real.pi / 180
  utZenith := (i.angles b n u).zoa * Real.pi / 180
  los := i.los b n u
  distance := i.distance3d b n u
  bsHeight := (i.bsLoc 0 0).z
  satSpeed := topologySatSpeed (i.bsLoc 0 0).z c.elevationAngle (dir b)
  doppler := i.doppler

end OpenNTN
