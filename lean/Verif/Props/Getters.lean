import Verif.Model.Getters
import Verif.Props.Doppler
import Verif.Props.Geometry
import Verif.Props.Topology

/-
C127: the public attributes of a scenario can be read after a topology was set and report the current scene.
-/
namespace OpenNTN

open Classical Spec

variable {B N U : ℕ} [NeZero B] {cls : ScenarioClass} {sa : ScenarioArgs} {c : Config} {log : List (TopoCall B N U)} {s : TopoState B N U}

/-- A value can be read. -/
def Spec.Readable {α : Type} (x : Except Err α) : Prop := ∃ v, x = .ok v

/-- Every public attribute that depends on the topology can be read (and is not `None`). -/
structure Spec.AllReadable (c : Config) (s : TopoState B N U) : Prop where
  batchSize : Readable s.getBatchSize
  numUt : Readable s.getNumUt
  numBs : Readable s.getNumBs
  hUt : Readable s.getHUt
  hBs : Readable s.getHBs
  utLoc : s.getUtLoc ≠ none
  bsLoc : s.getBsLoc ≠ none
  utOri : s.getUtOrientations ≠ none
  bsOri : s.getBsOrientations ≠ none
  utVel : s.getUtVelocities ≠ none
  indoor : s.getIndoor ≠ none
  los : Readable s.getLos
  distance2d : Readable s.getDistance2d
  distance2dIn : Readable s.getDistance2dIn
  distance2dOut : Readable s.getDistance2dOut
  distance3d : Readable s.getDistance3d
  distance3dIn : Readable s.getDistance3dIn
  distance3dOut : Readable s.getDistance3dOut
  utDistance : Readable s.getUtDistance
  aod : Readable s.getLosAod
  aoa : Readable s.getLosAoa
  zod : Readable s.getLosZod
  zoa : Readable s.getLosZoa
  losProbability : Readable (s.getLosProbability c)
  mean : Readable s.getLspLogMean
  std : Readable s.getLspLogStd
  zodOffset : Readable s.getZodOffset
  basic : Readable s.getBasicPathloss
  gas : Readable s.getGasPathloss
  scint : Readable s.getScintPathloss
  entry : Readable s.getEntryPathloss
  freeSpace : Readable s.getFreeSpacePathloss
  latitude : Readable s.getLatitude
  lwc : Readable s.getLwc
  rainRate : Readable s.getRainRate
  pressure : Readable s.getPressure
  temperature : Readable s.getTemperature
  vaporDensity : Readable s.getVaporDensity
  humidity : Readable s.getHumidity
  diameter : Readable s.getDiameter
  efficiency : Readable s.getEfficiency

/-- A call that recomputed the scene succeeded. -/
def Spec.Relocated (log : List (TopoCall B N U)) : Prop := ∃ e ∈ log, e.2.2 = .ok true

/-- The full claim of C127: after a topology was set, every public attribute of the scenario can be read. -/
def C127_statement : Prop :=
  ∀ (B N U : ℕ) [NeZero B] (cls : ScenarioClass) (sa : ScenarioArgs) (c : Config), mkScenario cls sa = .ok c →
    ∀ (log : List (TopoCall B N U)) (s : TopoState B N U), TopoReach c log s → Relocated log →
      AllReadable c s ∧ Readable s.getAdditionalPathloss

/-- The losses that a successful update leaves. -/
def HasLosses (s : TopoState B N U) : Prop := s.plGas ≠ none ∧ s.plEntry ≠ none ∧ s.plScint ≠ none

omit [NeZero B] in
theorem andThen_losses {s : TopoState B N U} {r : Step B N U} {f : TopoState B N U → Step B N U} (h : HasLosses s → HasLosses r.1)
    (hf : ∀ t, HasLosses t → HasLosses (f t).1) : HasLosses s → HasLosses (r.andThen f).1 := by
  intro hs
  unfold Step.andThen
  split
  · exact h hs
  · exact hf _ (h hs)

theorem updateTopology_losses (d : TopoDraws B N U) (s : TopoState B N U) : HasLosses s → HasLosses (updateTopology c d s).1 := by
  unfold updateTopology
  refine andThen_losses (andThen_losses (andThen_losses (andThen_losses (andThen_losses (andThen_losses (andThen_losses
    ?_ ?_) ?_) ?_) ?_) ?_) ?_) ?_
  · unfold computeDistances
    split
    · dsimp only
      split <;> exact id
    · exact id
  · intro t; unfold sampleIndoorDistance; split <;> exact id
  · intro t; unfold sampleLos
    split
    · exact id
    · split
      · exact id
      · split <;> exact id
  · intro t; unfold computeLspLogMeanStd
    split
    · split
      · exact id
      · split <;> exact id
    · exact id
  · intro t; unfold computePathlossBasic
    split
    · dsimp only; split <;> exact id
    · exact id
  · intro t; unfold computePathlossGas
    split
    · split
      · exact id
      · exact fun h => ⟨by simp, h.2⟩
    · exact id
  · intro t; unfold computePathlossEntry
    split
    · exact fun h => ⟨h.1, by simp, h.2.2⟩
    · exact id
  · intro t; unfold computePathlossScint
    split
    · split
      · exact id
      · exact fun h => ⟨h.1, h.2.1, by simp⟩
    · exact id

/-- After a successful recomputation there is one BS, and all losses exist from then on. -/
theorem relocated_losses (h : mkScenario cls sa = .ok c) (r : TopoReach c log s) (hr : Relocated log) : N = 1 ∧ HasLosses s := by
  induction r with
  | init => obtain ⟨e, he, -⟩ := hr; cases he
  | @call log s a d r ih =>
    by_cases ho : Relocated log
    · obtain ⟨hN, hl⟩ := ih ho
      refine ⟨hN, ?_⟩
      rcases setTopology_cases h s a d with ⟨-, e⟩ | ⟨-, -, e⟩ | ⟨-, -, -, e, -⟩
      · rw [e]; exact hl
      · rw [e]; exact hl
      · rw [e]; exact updateTopology_losses d _ hl
    · obtain ⟨e, he, ht⟩ := hr
      rcases List.mem_cons.1 he with rfl | he
      · change (setTopology c s a d).2 = .ok true at ht
        rcases setTopology_cases h s a d with ⟨-, e⟩ | ⟨-, -, e⟩ | ⟨-, -, -, e2, e3, -, ut, bs, i, h1, h2, h3⟩
        · rw [e] at ht; cases ht
        · rw [e] at ht; cases ht
        · rw [e3] at ht
          have hu : (updateTopology c d (storeArgs s a)).2 = none := by
            rcases hu : (updateTopology c d (storeArgs s a)).2 with _ | er
            · rfl
            · rw [hu] at ht; cases ht
          have hN : N = 1 := by
            by_contra hN
            rw [updateTopology_multi hN d h1 h2] at hu
            cases hu
          obtain ⟨-, -, q, q'⟩ := updateTopology_one h hN d h1 h2 h3 rfl
          obtain ⟨g, v, hg, hv⟩ := q' hu
          obtain ⟨-, p1, p2, p3⟩ := q g v hg hv
          refine ⟨hN, ?_⟩
          rw [e2]
          exact ⟨by rw [p1]; simp, by rw [p2]; simp, by rw [p3]; simp⟩
      · exact absurd ⟨e, he, ht⟩ ho

/-- The atmosphere is that of the latest accepted call. -/
theorem atmosphere_latest (h : mkScenario cls sa = .ok c) (r : TopoReach c log s) :
    s.atmosphere = latest TopoCall.accepted (fun e => some (atmosphereOf e.1)) log := by
  induction r with
  | init => rfl
  | @call log s a d r ih =>
    rcases setTopology_cases h s a d with ⟨-, e⟩ | ⟨-, -, e⟩ | ⟨-, -, b, -, -, e, -⟩
    · rw [e, latest_cons_not (e := ((a, d, .error .assertion) : TopoCall B N U)) fun hh => absurd rfl hh]
      exact ih
    · rw [e, latest_cons_counted (e := ((a, d, .ok false) : TopoCall B N U)) fun hh => by cases hh]
      rfl
    · rw [latest_cons_counted (e := ((a, d, (setTopology c s a d).2) : TopoCall B N U)) e, b.atmosphere]
      rfl

/-- As soon as a call was accepted, all required arguments are stored. -/
theorem accepted_stored (h : mkScenario cls sa = .ok c) (r : TopoReach c log s) (ha : ∃ e ∈ log, TopoCall.accepted e) :
    s.utOri ≠ none ∧ s.bsOri ≠ none ∧ s.utVel ≠ none ∧ s.atmosphere ≠ none := by
  have key : ∀ (t : TopoState B N U) (a : TopoArgs B N U), assertsHold t a = true → (storeArgs t a).utOri ≠ none ∧
      (storeArgs t a).bsOri ≠ none ∧ (storeArgs t a).utVel ≠ none ∧ (storeArgs t a).atmosphere ≠ none := by
    intro t a hh
    have has : ∀ {α : Type} (x y : Option α), (x.isSome || y.isSome) = true → assign x y ≠ none := by
      rintro α (_ | x) (_ | y) hxy <;> simp_all [assign]
    simp only [assertsHold, Bool.and_eq_true] at hh
    exact ⟨has _ _ hh.1.1.2, has _ _ hh.1.2, has _ _ hh.2, by simp [storeArgs]⟩
  induction r with
  | init => obtain ⟨e, he, -⟩ := ha; cases he
  | @call log s a d r ih =>
    rcases setTopology_cases h s a d with ⟨-, e⟩ | ⟨e0, -, e⟩ | ⟨e0, -, b, -⟩
    · rw [e] at ha ⊢
      refine ih ?_
      obtain ⟨x, hx, hx'⟩ := ha
      rcases List.mem_cons.1 hx with rfl | hx
      · exact absurd rfl hx'
      · exact ⟨x, hx, hx'⟩
    · rw [e]; exact key _ _ e0
    · rw [b.utOri, b.bsOri, b.utVel, b.atmosphere]
      exact key _ _ e0

/-- C127, what holds: after a successful recomputation every public attribute but `additional_pathloss` can be read; the sizes are those
of the scene, the stored values those passed last, heights are the third coordinates, distances and angles those of the
positions (arrival angles with the horizontal part reversed, see C24), and the free space loss that of the reported distance. After a recomputing call gas and scintillation losses are those of its
atmosphere (for what they are see C96, C97), the entry loss is zero. Missing: `additional_pathloss`, see `C127_violated`. -/
theorem C127_attributes_partial (h : mkScenario cls sa = .ok c) (r : TopoReach c log s) (hr : Relocated log) :
    AllReadable c s ∧
    s.getBatchSize = .ok B ∧ s.getNumUt = .ok U ∧ s.getNumBs = .ok N ∧ N = 1 ∧
    s.getUtLoc = latest TopoCall.accepted (·.1.utLoc) log ∧ s.getBsLoc = latest TopoCall.accepted (·.1.bsLoc) log ∧
    s.getUtOrientations = latest TopoCall.accepted (·.1.utOri) log ∧ s.getBsOrientations = latest TopoCall.accepted (·.1.bsOri) log ∧
    s.getUtVelocities = latest TopoCall.accepted (·.1.utVel) log ∧ s.getIndoor = latest TopoCall.accepted (·.1.inState) log ∧
    s.getDoppler = (latest TopoCall.accepted (·.1.doppler) log).getD sa.dopplerEnabled ∧
    (∀ ut bs ind, s.getUtLoc = some ut → s.getBsLoc = some bs → s.getIndoor = some ind →
      s.getHUt = .ok (fun b u => (ut b u).z) ∧ s.getHBs = .ok (fun b n => (bs b n).z) ∧
      (∀ d2, s.getDistance2d = .ok d2 → ∀ b n u, 0 ≤ d2 b n u ∧
        d2 b n u ^ 2 = ((ut b u).x - (bs b n).x) ^ 2 + ((ut b u).y - (bs b n).y) ^ 2) ∧
      (∀ D, s.getUtDistance = .ok D → ∀ b u v, 0 ≤ D b u v ∧
        D b u v ^ 2 = ((ut b u).x - (ut b v).x) ^ 2 + ((ut b u).y - (ut b v).y) ^ 2) ∧
      (∀ aod zod, s.getLosAod = .ok aod → s.getLosZod = .ok zod → ∀ b n u, ut b u ≠ bs b n →
        PointsFromTo (bs b n).point (ut b u).point (direction (zod b n u) (aod b n u))) ∧
      (∀ aoa zoa, s.getLosAoa = .ok aoa → s.getLosZoa = .ok zoa → ∀ b n u, ut b u ≠ bs b n → ∃ D : ℝ, 0 < D ∧
        direction (zoa b n u) (aoa b n u) = (-((bs b n).x - (ut b u).x) / D, -((bs b n).y - (ut b u).y) / D, ((bs b n).z - (ut b u).z) / D)) ∧
      (∀ d2 i o, s.getDistance2d = .ok d2 → s.getDistance2dIn = .ok i → s.getDistance2dOut = .ok o → ∀ b n u,
        i b n u + o b n u = d2 b n u ∧ (ind b u = false → i b n u = 0)) ∧
      (∀ l, s.getLos = .ok l → ∀ b n u, ind b u = true → l b n u = false)) ∧
    (∀ f d3, s.getFreeSpacePathloss = .ok f → s.getDistance3d = .ok d3 → ∀ b n u,
      f b n u = 32.45 + 20 * Real.logb 10 (sa.carrierFrequency / 10 ^ 9) + 20 * Real.logb 10 (d3 b n u)) ∧
    (∀ a d e, (a, d, e) ∈ log.head? → e ≠ .error .assertion →
      s.getTemperature = .ok (a.temperature.getD 273) ∧ s.getPressure = .ok (a.pressure.getD 1020) ∧
      s.getVaporDensity = .ok (a.vaporDensity.getD 7.5) ∧ s.getHumidity = .ok (a.humidity.getD 50) ∧
      s.getLatitude = .ok (a.latitude.getD 47) ∧ s.getLwc = .ok (a.lwc.getD 0.41) ∧ s.getRainRate = .ok (a.rainRate.getD 40) ∧
      s.getDiameter = .ok (a.diameter.getD 3.6) ∧ s.getEfficiency = .ok (a.efficiency.getD 0.5)) ∧
    (∀ a d, (a, d, .ok true) ∈ log.head? → ∃ g v, gasLoss (sa.carrierFrequency / 10 ^ 9) sa.elevationAngle (atmosphereOf a) = .ok g ∧
      scintLoss (sa.carrierFrequency / 10 ^ 9) sa.elevationAngle (atmosphereOf a) = .ok v ∧ s.getGasPathloss = .ok (fun _ _ _ => g) ∧
      s.getScintPathloss = .ok (fun _ _ _ => v) ∧ s.getEntryPathloss = .ok (fun _ _ _ => 0)) := by
  obtain ⟨hN, l1, l2, l3⟩ := relocated_losses h r hr
  obtain ⟨g, e1⟩ := Option.ne_none_iff_exists'.1 l1
  obtain ⟨en, e2⟩ := Option.ne_none_iff_exists'.1 l2
  obtain ⟨sc, e3⟩ := Option.ne_none_iff_exists'.1 l3
  obtain ⟨⟨p1, p2, p3, p4, p5, p6⟩, p7⟩ := persisted_accepted h r
  have hat := atmosphere_latest h r
  have hacc : ∃ e ∈ log, TopoCall.accepted e := by
    obtain ⟨e, he, ht⟩ := hr
    exact ⟨e, he, fun hh => by rw [ht] at hh; cases hh⟩
  have hvel := accepted_stored h r hacc
  rcases fresh_invariant h hN r with ⟨hh, -⟩ | ⟨_, ev, _, P, Q, ind, -, -, -, -, q5, q6, q7, q8⟩
  · obtain ⟨e, he, ha⟩ := hacc; exact absurd ha (hh e he)
  obtain ⟨p, los, mean, std, pb, hp, s1, s2, s3, s4, s5, s6⟩ := q8.statistics
  obtain ⟨d3, hd3, hd3'⟩ := q8.distance3d
  obtain ⟨D, hD, hD'⟩ := q8.utDistance
  obtain ⟨I, hI, hI'⟩ := q8.indoorDist
  obtain ⟨F, hF, hF'⟩ := q8.freeSpace
  obtain ⟨v1, v2, v3, v4⟩ := hvel
  obtain ⟨at', hat'⟩ := Option.ne_none_iff_exists'.1 v4
  have hb := mkScenario_built h
  refine ⟨?_, ?_, ?_, ?_, hN, p1, p2, p3, p4, p5, p6, doppler_latest h r, ?_, ?_, ?_, ?_⟩
  · constructor
    case losProbability => exact ⟨fun _ _ _ => (p : WithBot ℝ), by simp [TopoState.getLosProbability, hI, readAttr, hp]⟩
    case utLoc => show s.utLoc ≠ none; rw [q5]; simp
    case bsLoc => show s.bsLoc ≠ none; rw [q6]; simp
    case utOri => exact v1
    case bsOri => exact v2
    case utVel => exact v3
    case indoor => show s.inState ≠ none; rw [q7]; simp
    case batchSize => exact ⟨_, by rw [TopoState.getBatchSize, q5]; rfl⟩
    case numUt => exact ⟨_, by rw [TopoState.getNumUt, q5]; rfl⟩
    case numBs => exact ⟨_, by rw [TopoState.getNumBs, q6]; rfl⟩
    case hUt => exact ⟨_, by rw [TopoState.getHUt, q5]; rfl⟩
    case hBs => exact ⟨_, by rw [TopoState.getHBs, q6]; rfl⟩
    case los => exact ⟨_, by rw [TopoState.getLos, s1]; rfl⟩
    case distance2d => exact ⟨_, by rw [TopoState.getDistance2d, q8.distance2d]; rfl⟩
    case distance2dIn => exact ⟨_, by rw [TopoState.getDistance2dIn, hI]; rfl⟩
    case distance2dOut => exact ⟨_, by rw [TopoState.getDistance2dOut, hI]; rfl⟩
    case distance3d => exact ⟨_, by rw [TopoState.getDistance3d, hd3]; rfl⟩
    case distance3dIn => exact ⟨_, by rw [TopoState.getDistance3dIn, hI]; rfl⟩
    case distance3dOut => exact ⟨_, by rw [TopoState.getDistance3dOut, hI]; rfl⟩
    case utDistance => exact ⟨_, by rw [TopoState.getUtDistance, hD]; rfl⟩
    case aod => exact ⟨_, by rw [TopoState.getLosAod, q8.angles]; rfl⟩
    case aoa => exact ⟨_, by rw [TopoState.getLosAoa, q8.angles]; rfl⟩
    case zod => exact ⟨_, by rw [TopoState.getLosZod, q8.angles]; rfl⟩
    case zoa => exact ⟨_, by rw [TopoState.getLosZoa, q8.angles]; rfl⟩
    case mean => exact ⟨_, by rw [TopoState.getLspLogMean, s2]; rfl⟩
    case std => exact ⟨_, by rw [TopoState.getLspLogStd, s3]; rfl⟩
    case zodOffset => exact ⟨_, by rw [TopoState.getZodOffset, s5]; rfl⟩
    case basic => exact ⟨_, by rw [TopoState.getBasicPathloss, s4]; rfl⟩
    case gas => exact ⟨_, by rw [TopoState.getGasPathloss, e1]; rfl⟩
    case scint => exact ⟨_, by rw [TopoState.getScintPathloss, e3]; rfl⟩
    case entry => exact ⟨_, by rw [TopoState.getEntryPathloss, e2]; rfl⟩
    case freeSpace => exact ⟨_, by rw [TopoState.getFreeSpacePathloss, hF]; rfl⟩
    case latitude => exact ⟨_, by rw [TopoState.getLatitude, hat']; rfl⟩
    case lwc => exact ⟨_, by rw [TopoState.getLwc, hat']; rfl⟩
    case rainRate => exact ⟨_, by rw [TopoState.getRainRate, hat']; rfl⟩
    case pressure => exact ⟨_, by rw [TopoState.getPressure, hat']; rfl⟩
    case temperature => exact ⟨_, by rw [TopoState.getTemperature, hat']; rfl⟩
    case vaporDensity => exact ⟨_, by rw [TopoState.getVaporDensity, hat']; rfl⟩
    case humidity => exact ⟨_, by rw [TopoState.getHumidity, hat']; rfl⟩
    case diameter => exact ⟨_, by rw [TopoState.getDiameter, hat']; rfl⟩
    case efficiency => exact ⟨_, by rw [TopoState.getEfficiency, hat']; rfl⟩
  · rw [TopoState.getBatchSize, q5]; rfl
  · rw [TopoState.getNumUt, q5]; rfl
  · rw [TopoState.getNumBs, q6]; rfl
  · intro ut bs ind' w1 w2 w3
    rw [TopoState.getUtLoc, q5] at w1
    rw [TopoState.getBsLoc, q6] at w2
    rw [TopoState.getIndoor, q7] at w3
    cases w1; cases w2; cases w3
    refine ⟨by rw [TopoState.getHUt, q5]; rfl, by rw [TopoState.getHBs, q6]; rfl, ?_, ?_, ?_, ?_, ?_, ?_⟩
    · intro d2 w b n u
      rw [TopoState.getDistance2d, q8.distance2d] at w
      cases w
      unfold distance2d
      exact ⟨Real.sqrt_nonneg _, Real.sq_sqrt (by positivity)⟩
    · intro D' w b u v
      rw [TopoState.getUtDistance, hD] at w
      cases w
      rw [hD']
      exact ⟨Real.sqrt_nonneg _, Real.sq_sqrt (by positivity)⟩
    · intro aod zod w1 w2 b n u hne
      rw [TopoState.getLosAod, q8.angles] at w1
      rw [TopoState.getLosZod, q8.angles] at w2
      cases w1; cases w2
      exact (C23_departure_direction _ _).1 hne
    · intro aoa zoa w1 w2 b n u hne
      rw [TopoState.getLosAoa, q8.angles] at w1
      rw [TopoState.getLosZoa, q8.angles] at w2
      cases w1; cases w2
      exact (C24_arrival_direction_partial _ _ hne).1
    · intro d2 i o w1 w2 w3 b n u
      rw [TopoState.getDistance2d, q8.distance2d] at w1
      rw [TopoState.getDistance2dIn, hI] at w2
      rw [TopoState.getDistance2dOut, hI] at w3
      cases w1; cases w2; cases w3
      dsimp only
      rw [hI']
      refine ⟨by simp [indoorSplit], fun hi => by simp [indoorSplit, hi]⟩
    · intro l w b n u hi
      rw [TopoState.getLos, s1] at w
      cases w
      cases hl : los b n u
      · rfl
      · have := ((s6 b n u).1.1 hl).1
        rw [hi] at this; cases this
  · intro f d3' w1 w2 b n u
    rw [TopoState.getFreeSpacePathloss, hF] at w1
    rw [TopoState.getDistance3d, hd3] at w2
    cases w1; cases w2
    rw [hF', hd3', freeSpaceLoss, hb.fc_eq]
    rfl
  · intro a d e hm he
    cases log with
    | nil => cases hm
    | cons x log =>
      cases hm
      rw [latest_cons_counted (e := ((a, d, e) : TopoCall B N U)) he] at hat
      have hat : s.atmosphere = some (atmosphereOf a) := hat
      simp only [TopoState.getTemperature, TopoState.getPressure, TopoState.getVaporDensity, TopoState.getHumidity,
        TopoState.getLatitude, TopoState.getLwc, TopoState.getRainRate, TopoState.getDiameter, TopoState.getEfficiency, hat,
        readAttr, Except.map, atmosphereOf]
      refine ⟨?_, ?_, ?_, ?_, ?_, ?_, ?_, ?_, ?_⟩ <;> congr 1 <;> split <;> simp_all
  · intro a d hm
    cases r with
    | init => cases hm
    | @call log s a' d' r' =>
      obtain ⟨rfl, rfl, ht⟩ : a' = a ∧ d' = d ∧ (setTopology c s a' d').2 = .ok true := by
        simpa using hm
      rcases setTopology_cases h s a' d' with ⟨-, e⟩ | ⟨-, -, e⟩ | ⟨-, -, -, f1, f2, -, ut, bs, i, h1, h2, h3⟩
      · rw [e] at ht; cases ht
      · rw [e] at ht; cases ht
      · rw [f2] at ht
        have hu : (updateTopology c d' (storeArgs s a')).2 = none := by
          rcases hu : (updateTopology c d' (storeArgs s a')).2 with _ | er
          · rfl
          · rw [hu] at ht; cases ht
        obtain ⟨-, -, q, q'⟩ := updateTopology_one h hN d' h1 h2 h3 rfl
        obtain ⟨g, v, hg, hv⟩ := q' hu
        obtain ⟨-, z1, z2, z3⟩ := q g v hg hv
        rw [hb.fc_eq, hb.el_eq] at hg hv
        refine ⟨g, v, hg, hv, ?_, ?_, ?_⟩
        · rw [f1, TopoState.getGasPathloss, z1]; rfl
        · rw [f1, TopoState.getScintPathloss, z3]; rfl
        · rw [f1, TopoState.getEntryPathloss, z2]; simp [readAttr, entryLoss]

/-- C127, the correlation matrix over the UTs: for a positive correlation distance it is symmetric, positive semi-definite, and
holds the exponential of minus the distance in the plane over the correlation distance. -/
theorem C127_spatial_correlation (h : mkScenario cls sa = .ok c) (r : TopoReach c log s) (hr : Relocated log) {D : ℝ} (hD : 0 < D) :
    ∃ ut C, s.getUtLoc = some ut ∧ s.spatialCorrelationMatrix D = .ok C ∧ ∀ b,
      (∀ u v, C b u v = Real.exp (-(dist (!₂[(ut b u).x, (ut b u).y] : EuclideanSpace ℝ (Fin 2)) !₂[(ut b v).x, (ut b v).y]) / D)) ∧
      (∀ u v, C b u v = C b v u) ∧ (∀ u, C b u u = 1) ∧ (∀ w : Fin U → ℝ, 0 ≤ ∑ u, ∑ v, C b u v * w u * w v) := by
  obtain ⟨hN, -⟩ := relocated_losses h r hr
  rcases fresh_invariant h hN r with ⟨hh, -⟩ | ⟨_, ev, _, P, Q, ind, -, -, -, -, q5, q6, q7, q8⟩
  · obtain ⟨e, he, ht⟩ := hr
    exact absurd (fun hh => by rw [ht] at hh; cases hh) (hh e he)
  obtain ⟨E, hE, hE'⟩ := q8.utDistance
  have key : ∀ b u v, E b u v = dist (!₂[(P b u).x, (P b u).y] : EuclideanSpace ℝ (Fin 2)) !₂[(P b v).x, (P b v).y] := by
    intro b u v
    rw [hE', EuclideanSpace.dist_eq]
    simp [Fin.sum_univ_two, Real.dist_eq, sq_abs]
  refine ⟨P, _, q5, by rw [TopoState.spatialCorrelationMatrix, TopoState.getUtDistance, hE]; rfl, fun b => ⟨fun u v => ?_, fun u v => ?_,
    fun u => ?_, fun w => ?_⟩⟩
  · dsimp only; rw [key]
  · dsimp only; rw [key, key, dist_comm]
  · dsimp only; rw [key, dist_self]; simp
  · have := (exp_dist_kernel (fun u => (P b u).x) (fun u => (P b u).y) hD w).1
    unfold kq at this
    refine le_of_le_of_eq this (Finset.sum_congr rfl fun u _ => Finset.sum_congr rfl fun v _ => ?_)
    dsimp only
    rw [hE', nrm, neg_div]
    ring

omit [NeZero B] in
/-- C127, the attributes that do not depend on the topology: they are the arguments of the constructor, and the wavelength is the one that both
arrays were made for. -/
theorem C127_arguments (h : mkScenario cls sa = .ok c) :
    c.getCarrierFrequency = sa.carrierFrequency ∧ c.getDirection = sa.direction ∧ c.getPathlossEnabled = sa.enablePathloss ∧
    c.getShadowFadingEnabled = sa.enableShadowFading ∧ c.getElevationAngle = sa.elevationAngle ∧
    c.getLambda0 * sa.carrierFrequency = 299792458 ∧ sa.utArray = .panel c.getLambda0 ∧ sa.bsArray = .panel c.getLambda0 := by
  have b := mkScenario_built h
  have hf : sa.carrierFrequency ≠ 0 := by
    rcases b.fc_ok with h | h <;> exact (lt_of_lt_of_le (by norm_num) h.1).ne'
  refine ⟨b.fc_eq, b.dir_eq, b.pl_eq, b.sf_eq, b.el_eq, ?_, ?_, ?_⟩
  · rw [Config.getLambda0, b.lambda_eq, speedOfLight, div_mul_cancel₀ _ hf]
  · rw [Config.getLambda0, b.lambda_eq, b.ut_ok]
  · rw [Config.getLambda0, b.lambda_eq, b.bs_ok]

/-- A history that meets the hypotheses of the C127 theorems. -/
theorem exRelocated : ∃ (c : Config) (log : List (TopoCall 2 1 3)) (s : TopoState 2 1 3),
    mkScenario .urban (exArgs 2000000000 "uplink" 50) = .ok c ∧ TopoReach c log s ∧ Relocated log := by
  obtain ⟨c, hc⟩ := exConfig
  exact ⟨c, _, _, hc, TopoReach.call (exTopo 2 1 3) (exDraws 2 1 3) .init, _, List.mem_cons_self, exTopo_single hc 2 3⟩

/-- C127 is violated: the additional path loss is never computed. -/
theorem C127_violated : ¬ C127_statement := by
  intro H
  obtain ⟨c, log, s, hc, r, hr⟩ := exRelocated
  obtain ⟨-, v, hv⟩ := H 2 1 3 _ _ c hc log s r hr
  cases hv

/-- The C127 theorems apply to that history: two examples, three UTs, one BS. -/
example : ∃ (c : Config) (log : List (TopoCall 2 1 3)) (s : TopoState 2 1 3), TopoReach c log s ∧ AllReadable c s ∧
    s.getBatchSize = .ok 2 ∧ s.getNumUt = .ok 3 := by
  obtain ⟨c, log, s, hc, r, hr⟩ := exRelocated
  obtain ⟨h1, h2, h3, -⟩ := C127_attributes_partial hc r hr
  exact ⟨c, log, s, r, h1, h2, h3⟩

theorem slant_parts (indoor : Bool) (draw : ℝ) {d2 : ℝ} (z : d2 ≠ 0) (d3 : ℝ) : ∃ x y, (indoorSplit indoor draw d2 d3).d3In = some x ∧ (indoorSplit indoor draw d2 d3).d3Out = some y ∧ x + y = d3 ∧
    x * d2 = (indoorSplit indoor draw d2 d3).d2In * d3 := by
  refine ⟨(indoorSplit indoor draw d2 d3).d2In / d2 * d3, d3 - (indoorSplit indoor draw d2 d3).d2In / d2 * d3, ?_, ?_, by ring, by field_simp⟩
  · simp only [indoorSplit, if_neg z]
  · simp only [indoorSplit, if_neg z, Option.map_some]

/-- C127, the slant distance: its indoor and outdoor parts add up to it and divide it as the planar distance is divided; both are not a number if the planar distance is zero. -/
theorem C127_slant (h : mkScenario cls sa = .ok c) (r : TopoReach c log s) (hr : Relocated log) (d2 d3 i2 : PerLink B N U ℝ) (i3 o3 : PerLink B N U (Option ℝ))
    (e1 : s.getDistance2d = .ok d2) (e2 : s.getDistance3d = .ok d3) (e3 : s.getDistance2dIn = .ok i2) (e4 : s.getDistance3dIn = .ok i3) (e5 : s.getDistance3dOut = .ok o3) (b : Fin B) (n : Fin N) (u : Fin U) :
    (d2 b n u = 0 → i3 b n u = none ∧ o3 b n u = none) ∧
    (d2 b n u ≠ 0 → ∃ x y, i3 b n u = some x ∧ o3 b n u = some y ∧ x + y = d3 b n u ∧ x * d2 b n u = i2 b n u * d3 b n u) := by
  obtain ⟨hN, -⟩ := relocated_losses h r hr
  have hacc : ∃ e ∈ log, TopoCall.accepted e := by
    obtain ⟨e, he, ht⟩ := hr
    exact ⟨e, he, fun hh => by rw [ht] at hh; cases hh⟩
  rcases fresh_invariant h hN r with ⟨hh, -⟩ | ⟨_, ev, _, P, Q, ind, -, -, -, -, q5, q6, q7, q8⟩
  · obtain ⟨e, he, ha⟩ := hacc; exact absurd ha (hh e he)
  obtain ⟨d3', hd3, hd3'⟩ := q8.distance3d
  obtain ⟨I, hI, hI'⟩ := q8.indoorDist
  rw [TopoState.getDistance2d, q8.distance2d] at e1
  rw [TopoState.getDistance3d, hd3] at e2
  rw [TopoState.getDistance2dIn, hI] at e3
  rw [TopoState.getDistance3dIn, hI] at e4
  rw [TopoState.getDistance3dOut, hI] at e5
  cases e1; cases e2; cases e3; cases e4; cases e5
  dsimp only
  rw [hI', hd3']
  constructor
  · intro z
    simp [indoorSplit, z]
  · intro z
    exact slant_parts _ _ z _

/-- It applies to that history, at every link. -/
example : ∃ (c : Config) (log : List (TopoCall 2 1 3)) (s : TopoState 2 1 3), TopoReach c log s ∧ Relocated log ∧ ∃ (d3 : PerLink 2 1 3 ℝ) (i3 o3 : PerLink 2 1 3 (Option ℝ)),
    s.getDistance3d = .ok d3 ∧ s.getDistance3dIn = .ok i3 ∧ s.getDistance3dOut = .ok o3 ∧ ∀ b n u, (i3 b n u = none ∧ o3 b n u = none) ∨ ∃ x y, i3 b n u = some x ∧ o3 b n u = some y ∧ x + y = d3 b n u := by
  obtain ⟨c, log, s, hc, r, hr⟩ := exRelocated
  obtain ⟨a, -⟩ := C127_attributes_partial hc r hr
  obtain ⟨d2, e1⟩ := a.distance2d
  obtain ⟨d3, e2⟩ := a.distance3d
  obtain ⟨i2, e3⟩ := a.distance2dIn
  obtain ⟨i3, e4⟩ := a.distance3dIn
  obtain ⟨o3, e5⟩ := a.distance3dOut
  refine ⟨c, log, s, r, hr, d3, i3, o3, e2, e4, e5, fun b n u => ?_⟩
  have k := C127_slant hc r hr d2 d3 i2 i3 o3 e1 e2 e3 e4 e5 b n u
  by_cases z : d2 b n u = 0
  · exact .inl (k.1 z)
  · obtain ⟨x, y, f1, f2, f3, -⟩ := k.2 z
    exact .inr ⟨x, y, f1, f2, f3⟩

end OpenNTN
