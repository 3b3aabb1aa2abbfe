import Verif.Model.Cir

/-
Changes of a whole simulation that must not matter: selecting (and reordering, repeating) examples of a batch, and displacing the
scene horizontally or turning it about a vertical axis. `ι b` is the example of the original batch that becomes example `b`, `v b` its displacement, `ψ b` the angle by which it is turned. The definitions only
say what the inputs, attributes and outputs become; they mention no formula of the code.
-/
namespace OpenNTN.Spec

variable {B B' N U M X Y P : ℕ}

/-- A point displaced horizontally. -/
def displaced (p : Vec3) (v : ℝ × ℝ) : Vec3 := ⟨p.x + v.1, p.y + v.2, p.z⟩

section

variable (ι : Fin B' → Fin B) (v : Fin B' → ℝ × ℝ)

/-- A tensor of positions. -/
def places {K : ℕ} (p : Fin B → Fin K → Vec3) : Fin B' → Fin K → Vec3 := fun b k => displaced (p (ι b) k) (v b)

/-- Arguments of `set_topology` of the scenario. -/
def topoArgs (a : TopoArgs B N U) : TopoArgs B' N U where
  utLoc := a.utLoc.map (places ι v)
  bsLoc := a.bsLoc.map (places ι v)
  utOri := a.utOri.map (· ∘ ι)
  bsOri := a.bsOri.map (· ∘ ι)
  utVel := a.utVel.map (· ∘ ι)
  inState := a.inState.map (· ∘ ι)
  los := a.los
  latitude := a.latitude
  lwc := a.lwc
  rainRate := a.rainRate
  pressure := a.pressure
  temperature := a.temperature
  vaporDensity := a.vaporDensity
  humidity := a.humidity
  diameter := a.diameter
  efficiency := a.efficiency
  doppler := a.doppler

/-- Arguments of `set_topology` of the channel model. -/
def chanArgs (a : ChanArgs B N U) : ChanArgs B' N U where
  utLoc := a.utLoc.map (places ι v)
  bsLoc := a.bsLoc.map (places ι v)
  utOri := a.utOri.map (· ∘ ι)
  bsOri := a.bsOri.map (· ∘ ι)
  utVel := a.utVel.map (· ∘ ι)
  inState := a.inState.map (· ∘ ι)
  los := a.los

/-- The draws of `set_topology`. -/
def topoDraws (d : TopoDraws B N U) : TopoDraws B' N U := ⟨d.indoor ∘ ι, d.losU ∘ ι, d.zLos ∘ ι, d.zNlos ∘ ι⟩

/-- The attributes of a scenario: positions are displaced, everything else is only selected. -/
def topoState (s : TopoState B N U) : TopoState B' N U where
  utLoc := s.utLoc.map (places ι v)
  bsLoc := s.bsLoc.map (places ι v)
  utOri := s.utOri.map (· ∘ ι)
  bsOri := s.bsOri.map (· ∘ ι)
  utVel := s.utVel.map (· ∘ ι)
  inState := s.inState.map (· ∘ ι)
  requestedLos := s.requestedLos
  doppler := s.doppler
  atmosphere := s.atmosphere
  distance2d := s.distance2d.map (· ∘ ι)
  distance3d := s.distance3d.map (· ∘ ι)
  angles := s.angles.map (· ∘ ι)
  utDistance := s.utDistance.map (· ∘ ι)
  indoorDist := s.indoorDist.map (· ∘ ι)
  los := s.los.map (· ∘ ι)
  lspMean := s.lspMean.map (· ∘ ι)
  lspStd := s.lspStd.map (· ∘ ι)
  zodOff := s.zodOff.map (· ∘ ι)
  plBasic := s.plBasic.map (· ∘ ι)
  plGas := s.plGas.map (· ∘ ι)
  plEntry := s.plEntry.map (· ∘ ι)
  plScint := s.plScint.map (· ∘ ι)
  plFree := s.plFree.map (· ∘ ι)

/-- The attributes of a channel model. -/
def chanState (s : ChanState B N U) : ChanState B' N U where
  topo := topoState ι v s.topo
  crossSqrt := s.crossSqrt.map (· ∘ ι)
  spatialSqrt := s.spatialSqrt.map (· ∘ ι)
  mask := s.mask.map (· ∘ ι)
  lsp := s.lsp.map (· ∘ ι)
  called := s.called

/-- What a call works on. -/
def callValues (i : CallInputs B N U) : CallInputs B' N U where
  lsp := i.lsp ∘ ι
  mask := i.mask ∘ ι
  los := i.los ∘ ι
  angles := i.angles ∘ ι
  distance3d := i.distance3d ∘ ι
  utVel := i.utVel ∘ ι
  utOri := i.utOri ∘ ι
  bsOri := i.bsOri ∘ ι
  bsLoc := places ι v i.bsLoc
  doppler := i.doppler

/-- An operation on a channel model and its outcome. -/
def chanEvent : ChanEvent B N U → ChanEvent B' N U
  | .topology a d z r => .topology (chanArgs ι v a) (topoDraws ι d) (z ∘ ι) r
  | .generate z r => .generate (z ∘ ι) (r.map (callValues ι v))

/-- The draws of the ray generator. -/
def rayDraws (w : RayDraws B N U M) : RayDraws B' N U M where
  delay := w.delay ∘ ι
  shadow := w.shadow ∘ ι
  signAoa := w.signAoa ∘ ι
  signAod := w.signAod ∘ ι
  signZoa := w.signZoa ∘ ι
  signZod := w.signZod ∘ ι
  aoa := w.aoa ∘ ι
  aod := w.aod ∘ ι
  zoa := w.zoa ∘ ι
  zod := w.zod ∘ ι
  xpr := w.xpr ∘ ι
  couplingAoa := w.couplingAoa ∘ ι
  couplingAod := w.couplingAod ∘ ι
  couplingZoa := w.couplingZoa ∘ ι
  couplingZod := w.couplingZod ∘ ι

/-- The draws of a call. -/
def cirDraws (w : CirDraws B N U M) : CirDraws B' N U M := ⟨w.lsp ∘ ι, rayDraws ι w.rays, w.satDirection ∘ ι, w.phase ∘ ι⟩

/-- The output of a call. -/
def cirOut (o : CirOut B X Y P) : CirOut B' X Y P := ⟨o.h ∘ ι, o.delays ∘ ι⟩

end

/-- A point or velocity turned about the vertical axis. -/
noncomputable def turned (ψ : ℝ) (p : Vec3) : Vec3 := ⟨p.x * Real.cos ψ - p.y * Real.sin ψ, p.x * Real.sin ψ + p.y * Real.cos ψ, p.z⟩

/-- An orientation (bearing, downtilt, slant) turned about the vertical axis. -/
def turnedOri (ψ : ℝ) (o : Vec3) : Vec3 := ⟨o.x + ψ, o.y, o.z⟩

/-- LoS angles in degrees, azimuths in `[0, 360)`, as seen in a turned scene. -/
noncomputable def turnedAngles (ψ : ℝ) (a : LosAngles) : LosAngles where
  aod := wrapAngle0_360 (a.aod + rad2deg ψ)
  aoa := wrapAngle0_360 (a.aoa + rad2deg ψ)
  zod := a.zod
  zoa := a.zoa

section

variable (ψ : Fin B → ℝ)

/-- Arguments of `set_topology` of the scenario, example `b` turned by `ψ b`. -/
noncomputable def turnTopoArgs (a : TopoArgs B N U) : TopoArgs B N U :=
  { a with
    utLoc := a.utLoc.map fun p b u => turned (ψ b) (p b u)
    bsLoc := a.bsLoc.map fun p b n => turned (ψ b) (p b n)
    utOri := a.utOri.map fun o b u => turnedOri (ψ b) (o b u)
    bsOri := a.bsOri.map fun o b n => turnedOri (ψ b) (o b n)
    utVel := a.utVel.map fun p b u => turned (ψ b) (p b u) }

/-- Arguments of `set_topology` of the channel model. -/
noncomputable def turnChanArgs (a : ChanArgs B N U) : ChanArgs B N U :=
  { a with
    utLoc := a.utLoc.map fun p b u => turned (ψ b) (p b u)
    bsLoc := a.bsLoc.map fun p b n => turned (ψ b) (p b n)
    utOri := a.utOri.map fun o b u => turnedOri (ψ b) (o b u)
    bsOri := a.bsOri.map fun o b n => turnedOri (ψ b) (o b n)
    utVel := a.utVel.map fun p b u => turned (ψ b) (p b u) }

/-- The attributes of a scenario. -/
noncomputable def turnTopo (s : TopoState B N U) : TopoState B N U :=
  { s with
    utLoc := s.utLoc.map fun p b u => turned (ψ b) (p b u)
    bsLoc := s.bsLoc.map fun p b n => turned (ψ b) (p b n)
    utOri := s.utOri.map fun o b u => turnedOri (ψ b) (o b u)
    bsOri := s.bsOri.map fun o b n => turnedOri (ψ b) (o b n)
    utVel := s.utVel.map fun p b u => turned (ψ b) (p b u)
    angles := s.angles.map fun a b n u => turnedAngles (ψ b) (a b n u) }

/-- The attributes of a channel model. -/
noncomputable def turnChan (s : ChanState B N U) : ChanState B N U := { s with topo := turnTopo ψ s.topo }

/-- What a call works on. -/
noncomputable def turnCall (i : CallInputs B N U) : CallInputs B N U :=
  { i with
    angles := fun b n u => turnedAngles (ψ b) (i.angles b n u)
    utVel := fun b u => turned (ψ b) (i.utVel b u)
    utOri := fun b u => turnedOri (ψ b) (i.utOri b u)
    bsOri := fun b n => turnedOri (ψ b) (i.bsOri b n)
    bsLoc := fun b n => turned (ψ b) (i.bsLoc b n) }

/-- An operation on a channel model and its outcome. -/
noncomputable def turnEvent : ChanEvent B N U → ChanEvent B N U
  | .topology a d z r => .topology (turnChanArgs ψ a) d z r
  | .generate z r => .generate z (r.map (turnCall ψ))

end

end OpenNTN.Spec
