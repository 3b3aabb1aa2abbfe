import Verif.Model.Topology

/-
Model of the public properties of a scenario, system_level_scenario.py 128-497 and 666-690, dense_urban_scenario.py 102-138 (the same in
the sibling classes). `none` in `TopoState` stands for `None` in the attributes that the constructor initialises (lines 117-123) and for an
attribute that does not exist in all others: reading the former returns `None`, reading the latter raises. Left out: `ut_array`,
`bs_array`, `rays_per_cluster` (`raysPerCluster` in Rays.lean), `num_clusters_*` (Scenario.lean), `average_street_width`, `average_building_height`, `clip_carrier_frequency_lsp`.
-/
namespace OpenNTN

variable {B N U : ℕ}

/-- Reading an attribute that does not exist before it is assigned. -/
def readAttr {α : Type} : Option α → Except Err α
  | some v => .ok v
  | none => .error .attributeError

/-- Using an attribute that is `None` before it is assigned as a tensor (`tf.shape`, indexing). -/
def readTensor {α : Type} : Option α → Except Err α
  | some v => .ok v
  | none => .error .typeError

/-- system_level_scenario.py 128-156: the properties that return constructor arguments. -/
def Config.getCarrierFrequency (c : Config) : ℝ := c.carrierFrequency
def Config.getDirection (c : Config) : String := c.direction
def Config.getPathlossEnabled (c : Config) : Bool := c.enablePathloss
def Config.getShadowFadingEnabled (c : Config) : Bool := c.enableShadowFading
def Config.getLambda0 (c : Config) : ℝ := c.lambda0
def Config.getElevationAngle (c : Config) : ℝ := c.elevationAngle

/-- `batch_size`, system_level_scenario.py 159-162. -/
def TopoState.getBatchSize (s : TopoState B N U) : Except Err ℕ := (readTensor s.utLoc).map fun _ => B
/-- `num_ut`, system_level_scenario.py 164-167. -/
def TopoState.getNumUt (s : TopoState B N U) : Except Err ℕ := (readTensor s.utLoc).map fun _ => U
/-- `num_bs`, system_level_scenario.py 169-174. -/
def TopoState.getNumBs (s : TopoState B N U) : Except Err ℕ := (readTensor s.bsLoc).map fun _ => N
/-- `h_ut`, system_level_scenario.py 176-179. -/
def TopoState.getHUt (s : TopoState B N U) : Except Err (PerUt B U ℝ) := (readTensor s.utLoc).map fun p b u => (p b u).z
/-- `h_bs`, system_level_scenario.py 181-184. -/
def TopoState.getHBs (s : TopoState B N U) : Except Err (PerBs B N ℝ) := (readTensor s.bsLoc).map fun p b n => (p b n).z
/-- `ut_loc`, system_level_scenario.py 186-189. -/
def TopoState.getUtLoc (s : TopoState B N U) : Option (PerUt B U Vec3) := s.utLoc
/-- `bs_loc`, system_level_scenario.py 191-194. -/
def TopoState.getBsLoc (s : TopoState B N U) : Option (PerBs B N Vec3) := s.bsLoc
/-- `ut_orientations`, system_level_scenario.py 196-199. -/
def TopoState.getUtOrientations (s : TopoState B N U) : Option (PerUt B U Vec3) := s.utOri
/-- `bs_orientations`, system_level_scenario.py 201-204. -/
def TopoState.getBsOrientations (s : TopoState B N U) : Option (PerBs B N Vec3) := s.bsOri
/-- `ut_velocities`, system_level_scenario.py 206-209. -/
def TopoState.getUtVelocities (s : TopoState B N U) : Option (PerUt B U Vec3) := s.utVel
/-- `indoor`, system_level_scenario.py 221-226. -/
def TopoState.getIndoor (s : TopoState B N U) : Option (PerUt B U Bool) := s.inState
/-- `los`, system_level_scenario.py 228-232. -/
def TopoState.getLos (s : TopoState B N U) : Except Err (PerLink B N U Bool) := readAttr s.los
/-- `distance_2d`, system_level_scenario.py 234-239. -/
def TopoState.getDistance2d (s : TopoState B N U) : Except Err (PerLink B N U ℝ) := readAttr s.distance2d
/-- `distance_2d_in`, system_level_scenario.py 241-248. -/
def TopoState.getDistance2dIn (s : TopoState B N U) : Except Err (PerLink B N U ℝ) :=
  (readAttr s.indoorDist).map fun f b n u => (f b n u).d2In
/-- `distance_2d_out`, system_level_scenario.py 250-257. -/
def TopoState.getDistance2dOut (s : TopoState B N U) : Except Err (PerLink B N U ℝ) :=
  (readAttr s.indoorDist).map fun f b n u => (f b n u).d2Out
/-- `distance_3d`, system_level_scenario.py 259-264. -/
def TopoState.getDistance3d (s : TopoState B N U) : Except Err (PerLink B N U ℝ) := readAttr s.distance3d
/-- `distance_3d_in`, system_level_scenario.py 266-272. -/
def TopoState.getDistance3dIn (s : TopoState B N U) : Except Err (PerLink B N U (Option ℝ)) :=
  (readAttr s.indoorDist).map fun f b n u => (f b n u).d3In
/-- `distance_3d_out`, system_level_scenario.py 274-280. -/
def TopoState.getDistance3dOut (s : TopoState B N U) : Except Err (PerLink B N U (Option ℝ)) :=
  (readAttr s.indoorDist).map fun f b n u => (f b n u).d3Out
/-- `matrix_ut_distance_2d`, system_level_scenario.py 282-286. -/
def TopoState.getUtDistance (s : TopoState B N U) : Except Err (Fin B → Fin U → Fin U → ℝ) := readAttr s.utDistance
/-- `los_aod`, system_level_scenario.py 293-297. -/
def TopoState.getLosAod (s : TopoState B N U) : Except Err (PerLink B N U ℝ) := (readAttr s.angles).map fun f b n u => (f b n u).aod
/-- `los_aoa`, system_level_scenario.py 300-304. -/
def TopoState.getLosAoa (s : TopoState B N U) : Except Err (PerLink B N U ℝ) := (readAttr s.angles).map fun f b n u => (f b n u).aoa
/-- `los_zod`, system_level_scenario.py 307-311. -/
def TopoState.getLosZod (s : TopoState B N U) : Except Err (PerLink B N U ℝ) := (readAttr s.angles).map fun f b n u => (f b n u).zod
/-- `los_zoa`, system_level_scenario.py 313-316. -/
def TopoState.getLosZoa (s : TopoState B N U) : Except Err (PerLink B N U ℝ) := (readAttr s.angles).map fun f b n u => (f b n u).zoa
/-- `los_probability`, dense_urban_scenario.py 123-136: the shape is that of the outdoor distances. -/
noncomputable def TopoState.getLosProbability (c : Config) (s : TopoState B N U) : Except Err (PerLink B N U (WithBot ℝ)) :=
  match readAttr s.indoorDist, c.losProbability with
  | .ok _, .ok p => .ok fun _ _ _ => p
  | .error e, _ => .error e
  | _, .error e => .error e
/-- `lsp_log_mean`, system_level_scenario.py 337-344. -/
def TopoState.getLspLogMean (s : TopoState B N U) : Except Err (PerLink B N U (Fin 7 → WithBot ℝ)) := readAttr s.lspMean
/-- `lsp_log_std`, system_level_scenario.py 346-353. -/
def TopoState.getLspLogStd (s : TopoState B N U) : Except Err (PerLink B N U (Fin 7 → ℝ)) := readAttr s.lspStd
/-- `zod_offset`, system_level_scenario.py 361-364. -/
def TopoState.getZodOffset (s : TopoState B N U) : Except Err (PerLink B N U ℝ) := readAttr s.zodOff
/-- `basic_pathloss`, system_level_scenario.py 387-392. -/
def TopoState.getBasicPathloss (s : TopoState B N U) : Except Err (PerLink B N U ℝ) := readAttr s.plBasic
/-- `gas_pathloss`, system_level_scenario.py 394-399. -/
def TopoState.getGasPathloss (s : TopoState B N U) : Except Err (PerLink B N U ℝ) := readAttr s.plGas
/-- `scintillation_pathloss`, system_level_scenario.py 401-406. -/
def TopoState.getScintPathloss (s : TopoState B N U) : Except Err (PerLink B N U (Option ℝ)) := readAttr s.plScint
/-- `entry_pathloss`, system_level_scenario.py 408-413. -/
def TopoState.getEntryPathloss (s : TopoState B N U) : Except Err (PerLink B N U ℝ) := readAttr s.plEntry
/-- `additional_pathloss`, system_level_scenario.py 415-420. The attribute `_pl_a` is only assigned at utils.py 1952, in a function whose
only call is commented out (system_level_scenario.py 663), so it never exists. -/
def TopoState.getAdditionalPathloss (_ : TopoState B N U) : Except Err (PerLink B N U ℝ) := readAttr none
/-- `free_space_pathloss`, system_level_scenario.py 422-427. -/
def TopoState.getFreeSpacePathloss (s : TopoState B N U) : Except Err (PerLink B N U ℝ) := readAttr s.plFree
/-- `latitude`, `lwc`, `rain_rate`, `atmospheric_pressure`, `temperature`, `water_vapor_density`, `relative_humidity`,
`diameter_earth_antenna`, `antenna_efficiency`, system_level_scenario.py 429-490. -/
def TopoState.getLatitude (s : TopoState B N U) : Except Err ℝ := (readAttr s.atmosphere).map (·.latitude)
def TopoState.getLwc (s : TopoState B N U) : Except Err ℝ := (readAttr s.atmosphere).map (·.lwc)
def TopoState.getRainRate (s : TopoState B N U) : Except Err ℝ := (readAttr s.atmosphere).map (·.rainRate)
def TopoState.getPressure (s : TopoState B N U) : Except Err ℝ := (readAttr s.atmosphere).map (·.pressure)
def TopoState.getTemperature (s : TopoState B N U) : Except Err ℝ := (readAttr s.atmosphere).map (·.temperature)
def TopoState.getVaporDensity (s : TopoState B N U) : Except Err ℝ := (readAttr s.atmosphere).map (·.vaporDensity)
def TopoState.getHumidity (s : TopoState B N U) : Except Err ℝ := (readAttr s.atmosphere).map (·.humidity)
def TopoState.getDiameter (s : TopoState B N U) : Except Err ℝ := (readAttr s.atmosphere).map (·.diameter)
def TopoState.getEfficiency (s : TopoState B N U) : Except Err ℝ := (readAttr s.atmosphere).map (·.efficiency)
/-- `doppler_enabled`, system_level_scenario.py 492-497. -/
def TopoState.getDoppler (s : TopoState B N U) : Bool := s.doppler

/-- `spatial_correlation_matrix`, system_level_scenario.py 666-689; a division by zero is not modelled (callers pass a positive
distance). -/
noncomputable def TopoState.spatialCorrelationMatrix (s : TopoState B N U) (distance : ℝ) : Except Err (Fin B → Fin U → Fin U → ℝ) :=
  s.getUtDistance.map fun d b u v => Real.exp (-d b u v / distance)

end OpenNTN
