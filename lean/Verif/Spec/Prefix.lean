import Verif.Model.Cir

/-
A simulation with fewer UTs: `κ u` is the UT of the original scene that becomes UT `u`. The definitions only say what the inputs, attributes and
outputs become; they mention no formula of the code.
-/
namespace OpenNTN.Spec

variable {B N U U' M P : ℕ}

section

variable (κ : Fin U' → Fin U)

/-- A tensor with the axes batch and UT. -/
def utsOf {α : Type} (x : PerUt B U α) : PerUt B U' α := fun b u => x b (κ u)

/-- A tensor with the axes batch, BS and UT. -/
def linksOf {α : Type} (x : PerLink B N U α) : PerLink B N U' α := fun b n u => x b n (κ u)

/-- Arguments of `set_topology` of the scenario. -/
def fewerTopoArgs (a : TopoArgs B N U) : TopoArgs B N U' where
  utLoc := a.utLoc.map (utsOf κ)
  bsLoc := a.bsLoc
  utOri := a.utOri.map (utsOf κ)
  bsOri := a.bsOri
  utVel := a.utVel.map (utsOf κ)
  inState := a.inState.map (utsOf κ)
  los := a.los
  latitude := a.latitude
  lwc := a.lwc
  rainRate := a.rainRate
  pressure := a.pressure
  temperature := a.temperature
  vaporDensity := a.vaporDensity
  humidity := a.humidity
  diameter := a.diameter
  efficiency := a.efficiency
  doppler := a.doppler

/-- Arguments of `set_topology` of the channel model. -/
def fewerChanArgs (a : ChanArgs B N U) : ChanArgs B N U' where
  utLoc := a.utLoc.map (utsOf κ)
  bsLoc := a.bsLoc
  utOri := a.utOri.map (utsOf κ)
  bsOri := a.bsOri
  utVel := a.utVel.map (utsOf κ)
  inState := a.inState.map (utsOf κ)
  los := a.los

/-- The draws of `set_topology`. -/
def fewerTopoDraws (d : TopoDraws B N U) : TopoDraws B N U' := ⟨linksOf κ d.indoor, linksOf κ d.losU, linksOf κ d.zLos, linksOf κ d.zNlos⟩

/-- The attributes of a scenario. -/
def fewerTopo (s : TopoState B N U) : TopoState B N U' where
  utLoc := s.utLoc.map (utsOf κ)
  bsLoc := s.bsLoc
  utOri := s.utOri.map (utsOf κ)
  bsOri := s.bsOri
  utVel := s.utVel.map (utsOf κ)
  inState := s.inState.map (utsOf κ)
  requestedLos := s.requestedLos
  doppler := s.doppler
  atmosphere := s.atmosphere
  distance2d := s.distance2d.map (linksOf κ)
  distance3d := s.distance3d.map (linksOf κ)
  angles := s.angles.map (linksOf κ)
  utDistance := s.utDistance.map fun d b u v => d b (κ u) (κ v)
  indoorDist := s.indoorDist.map (linksOf κ)
  los := s.los.map (linksOf κ)
  lspMean := s.lspMean.map (linksOf κ)
  lspStd := s.lspStd.map (linksOf κ)
  zodOff := s.zodOff.map (linksOf κ)
  plBasic := s.plBasic.map (linksOf κ)
  plGas := s.plGas.map (linksOf κ)
  plEntry := s.plEntry.map (linksOf κ)
  plScint := s.plScint.map (linksOf κ)
  plFree := s.plFree.map (linksOf κ)

/-- The attributes of a channel model. -/
def fewerChan (s : ChanState B N U) : ChanState B N U' where
  topo := fewerTopo κ s.topo
  crossSqrt := s.crossSqrt.map (linksOf κ)
  spatialSqrt := s.spatialSqrt.map fun G b n i u v => G b n i (κ u) (κ v)
  mask := s.mask.map (linksOf κ)
  lsp := s.lsp.map (linksOf κ)
  called := s.called

/-- What a call works on. -/
def fewerValues (i : CallInputs B N U) : CallInputs B N U' where
  lsp := linksOf κ i.lsp
  mask := linksOf κ i.mask
  los := linksOf κ i.los
  angles := linksOf κ i.angles
  distance3d := linksOf κ i.distance3d
  utVel := utsOf κ i.utVel
  utOri := utsOf κ i.utOri
  bsOri := i.bsOri
  bsLoc := i.bsLoc
  doppler := i.doppler

/-- An operation on a channel model and its outcome. -/
def fewerEvent : ChanEvent B N U → ChanEvent B N U'
  | .topology a d z r => .topology (fewerChanArgs κ a) (fewerTopoDraws κ d) (linksOf κ z) r
  | .generate z r => .generate (linksOf κ z) (r.map (fewerValues κ))

/-- The draws of the ray generator. -/
def fewerRayDraws (w : RayDraws B N U M) : RayDraws B N U' M where
  delay := linksOf κ w.delay
  shadow := linksOf κ w.shadow
  signAoa := w.signAoa
  signAod := w.signAod
  signZoa := w.signZoa
  signZod := w.signZod
  aoa := linksOf κ w.aoa
  aod := linksOf κ w.aod
  zoa := linksOf κ w.zoa
  zod := linksOf κ w.zod
  xpr := linksOf κ w.xpr
  couplingAoa := w.couplingAoa
  couplingAod := w.couplingAod
  couplingZoa := w.couplingZoa
  couplingZod := w.couplingZod

/-- The draws of a call; the initial phases are numbered like the UTs. -/
def fewerDraws (w : CirDraws B N U M) : CirDraws B N U' M := ⟨linksOf κ w.lsp, fewerRayDraws κ w.rays, w.satDirection, w.phase⟩

/-- The output of a downlink call. -/
def fewerDown (o : CirOut B N U P) : CirOut B N U' P := ⟨fun b u => o.h b (κ u), fun b u => o.delays b (κ u)⟩

/-- The output of an uplink call. -/
def fewerUp (o : CirOut B U N P) : CirOut B U' N P := ⟨fun b n ra u => o.h b n ra (κ u), fun b n u => o.delays b n (κ u)⟩

end

end OpenNTN.Spec
