import Verif.Model.PrecisionCir
import Verif.Props.Precision

/-
C179, C180: element types of a call of the channel model.
-/
namespace OpenNTN

/-- The real element type that belongs to a precision. -/
def Spec.realType : Precision → DType
  | .single => .f32
  | .double => .f64

/-- The complex element type that belongs to a precision. -/
def Spec.complexType : Precision → CType
  | .single => .c64
  | .double => .c128

/-- A Python number or a tensor of the given type. -/
def Spec.NumberOf (d : DType) (k : Kind) : Prop := k = .py ∨ k = .pyInt ∨ k = .tensor d

/-- All tensors of the scene have the given type. -/
structure Spec.SceneOf (d : DType) (s : SceneKinds) : Prop where
  utDistance : s.utDistance = .tensor d
  mean : s.mean = .tensor d
  std : s.std = .tensor d
  angles : s.angles = .tensor d
  zodOffset : s.zodOffset = .tensor d
  d3 : s.d3 = .tensor d
  losses : s.losses = [.tensor d, .tensor d, .tensor d, .tensor d]
  height : s.height = .tensor d
  txOri : s.txOri = .tensor d
  rxOri : s.rxOri = .tensor d
  velocities : s.velocities = .tensor d

/-- C179. If all tensors of the scene have the element type of the precision and the sampling frequency is a Python number or such a tensor, a call of the
channel model returns coefficients and delays of the element types of the precision. -/
def C179_statement : Prop :=
  ∀ (p : Precision) (w : CirSwitches) (pathloss : Bool) (s : SceneKinds) (fs : Kind), Spec.SceneOf (Spec.realType p) s →
    Spec.NumberOf (Spec.realType p) fs → callTypes p w pathloss s fs = .ok (Spec.complexType p, Spec.realType p)

/-- The scene after `set_topology` in single precision. -/
theorem scene_single (txOri rxOri vel : DType) (ka requested : Bool) (los nlos : String) (angle : ℤ) :
    sceneKinds .single .f32 txOri rxOri vel ka requested los nlos angle =
      .ok ⟨.tensor .f32, .tensor .f32, .tensor .f32, .tensor .f32, .tensor .f32, .tensor .f32, [.tensor .f32, .tensor .f32, .tensor .f32, .tensor .f32],
        .tensor .f32, .tensor txOri, .tensor rxOri, .tensor vel⟩ := by
  obtain ⟨-, hs, hl⟩ := entryKind_direct .single los angle
  obtain ⟨hc', hs', -⟩ := entryKind_direct .single nlos angle
  unfold sceneKinds
  rw [hl, hs, hc', hs']
  cases ka <;> cases requested <;> rfl

/-- C179 for single precision, after a topology was set with float32 locations in any scenario, with the exact condition on the tensors that `set_topology` does
not look at: the call works if and only if orientations and velocities are float32 and the sampling frequency is a Python number or float32; otherwise it raises.
Missing: double precision, see `C179_double`. -/
theorem C179_single_partial (w : CirSwitches) (pathloss ka requested : Bool) (los nlos : String) (angle : ℤ) (_hf : Spec.FilesOf los nlos)
    (txOri rxOri vel : DType) (fs : Kind) :
    ∃ s, sceneKinds .single .f32 txOri rxOri vel ka requested los nlos angle = .ok s ∧
      (txOri = .f32 ∧ rxOri = .f32 ∧ vel = .f32 ∧ Spec.NumberOf .f32 fs → callTypes .single w pathloss s fs = .ok (.c64, .f32)) ∧
      (¬ (txOri = .f32 ∧ rxOri = .f32 ∧ vel = .f32 ∧ Spec.NumberOf .f32 fs) → ∃ e, callTypes .single w pathloss s fs = .error e) := by
  refine ⟨_, scene_single txOri rxOri vel ka requested los nlos angle, ?_, ?_⟩
  · rintro ⟨rfl, rfl, rfl, hfs⟩
    obtain ⟨tx, rx, high, doppler⟩ := w
    rcases hfs with rfl | rfl | rfl <;> cases tx <;> cases rx <;> cases high <;> cases doppler <;> cases pathloss <;> rfl
  · intro hn
    obtain ⟨tx, rx, high, doppler⟩ := w
    have hfs : Spec.NumberOf .f32 fs ∨ fs = .tensor .f64 ∨ fs = .tensor .i32 := by
      rcases fs with _ | _ | d
      · exact .inl (.inl rfl)
      · exact .inl (.inr (.inl rfl))
      · cases d
        · exact .inl (.inr (.inr rfl))
        · exact .inr (.inl rfl)
        · exact .inr (.inr rfl)
    rcases hfs with hfs | rfl | rfl
    · cases txOri
      · cases rxOri
        · cases vel
          · exact absurd ⟨rfl, rfl, rfl, hfs⟩ hn
          · rcases hfs with rfl | rfl | rfl <;> cases tx <;> cases rx <;> cases high <;> exact ⟨_, rfl⟩
          · rcases hfs with rfl | rfl | rfl <;> cases tx <;> cases rx <;> cases high <;> exact ⟨_, rfl⟩
        · rcases hfs with rfl | rfl | rfl <;> cases tx <;> cases rx <;> cases high <;> exact ⟨_, rfl⟩
        · rcases hfs with rfl | rfl | rfl <;> cases tx <;> cases rx <;> cases high <;> exact ⟨_, rfl⟩
      · rcases hfs with rfl | rfl | rfl <;> cases tx <;> cases rx <;> cases high <;> exact ⟨_, rfl⟩
      · rcases hfs with rfl | rfl | rfl <;> cases tx <;> cases rx <;> cases high <;> exact ⟨_, rfl⟩
    · exact ⟨_, rfl⟩
    · exact ⟨_, rfl⟩

theorem SceneOf.eq {d : DType} {s : SceneKinds} (h : Spec.SceneOf d s) :
    s = ⟨.tensor d, .tensor d, .tensor d, .tensor d, .tensor d, .tensor d, [.tensor d, .tensor d, .tensor d, .tensor d], .tensor d, .tensor d, .tensor d, .tensor d⟩ := by
  obtain ⟨⟩ := s
  obtain ⟨h1, h2, h3, h4, h5, h6, h7, h8, h9, h10, h11⟩ := h
  simp only at h1 h2 h3 h4 h5 h6 h7 h8 h9 h10 h11
  subst h1 h2 h3 h4 h5 h6 h7 h8 h9 h10 h11
  rfl

/-- Double precision, for a scene of double precision: LSPs and rays are sampled, but the constructor of `Topology` raises, so every call raises. Were the satellite
speed of double precision, the coefficients could be computed exactly for altitudes below 600 km and without circular apertures: the Faraday
rotation raises too. -/
theorem C179_double (w : CirSwitches) (pathloss : Bool) (s : SceneKinds) (hs : Spec.SceneOf .f64 s) (fs : Kind) :
    lspSampleTypes .double s = .ok (.tensor .f64) ∧
    raysTypes .double s (.tensor .f64) = .ok ⟨.tensor .f64, .tensor .f64, .tensor .f64, .tensor .f64, .tensor .f64, .tensor .f64, .tensor .f64⟩ ∧
    satSpeedTypes s.height = .error .invalidArgument ∧ callTypes .double w pathloss s fs = .error .invalidArgument ∧
    faradayTypes .double = .error .typeError ∧
    ((∃ r, coeffTypes .double w s ⟨.tensor .f64, .tensor .f64, .tensor .f64, .tensor .f64, .tensor .f64, .tensor .f64, .tensor .f64⟩ (.tensor .f64) (.tensor .f64)
      (.tensor .f64) .py = .ok r) ↔ w.high = false ∧ w.tx ≠ .aperture ∧ w.rx ≠ .aperture) := by
  rw [SceneOf.eq hs]
  refine ⟨rfl, rfl, rfl, rfl, rfl, ?_⟩
  obtain ⟨tx, rx, high, doppler⟩ := w
  constructor
  · rintro ⟨r, h⟩
    cases high
    · refine ⟨rfl, ?_, ?_⟩
      · rintro rfl
        cases h
      · rintro rfl
        cases tx <;> cases h
    · cases h
  · rintro ⟨rfl, h1, h2⟩
    cases tx <;> cases rx <;> first | exact absurd rfl h1 | exact absurd rfl h2 | (cases doppler <;> exact ⟨_, rfl⟩)

/-- The code violates C179. -/
theorem C179_violated : ¬ C179_statement := by
  intro H
  have hs : Spec.SceneOf .f64 ⟨.tensor .f64, .tensor .f64, .tensor .f64, .tensor .f64, .tensor .f64, .tensor .f64,
      [.tensor .f64, .tensor .f64, .tensor .f64, .tensor .f64], .tensor .f64, .tensor .f64, .tensor .f64, .tensor .f64⟩ :=
    ⟨rfl, rfl, rfl, rfl, rfl, rfl, rfl, rfl, rfl, rfl, rfl⟩
  have := H .double ⟨.omni, .omni, false, false⟩ true _ .py hs (.inl rfl)
  rw [(C179_double _ _ _ hs _).2.2.2.1] at this
  cases this

/-- The names of the files are those of some scenario, and float32 tensors are accepted. -/
example : Spec.FilesOf "Urban_LOS_S_band_UL.json" "Urban_NLOS_S_band_UL.json" := by
  refine ⟨.urban, "uplink", 2000000000, ?_, ?_⟩ <;> (simp [losFile, nlosFile, urbanLosFile, urbanNlosFile, carrierOk]; norm_num)

/-- C180. A scenario accepts arrays of its own precision only; the comparison of wavelengths raises otherwise. -/
theorem C180_array_precision (ut bs p : Precision) :
    (ut = p ∧ bs = p → wavelengthTypes ut bs p = .ok ()) ∧ (¬ (ut = p ∧ bs = p) → ∃ e, wavelengthTypes ut bs p = .error e) := by
  cases ut <;> cases bs <;> cases p <;> refine ⟨fun h => ?_, fun h => ?_⟩ <;>
    first | exact ⟨_, rfl⟩ | rfl | (cases h.1; done) | cases h.2 | exact absurd ⟨rfl, rfl⟩ h

example : (Precision.single = .single ∧ Precision.single = .single) ∧ ¬ (Precision.double = .single ∧ Precision.single = .single) := by decide

/-! ### C181 -/

/-- C181. An impulse response of either precision can be converted to frequency and time, and the result has its precision, exactly if the frequencies were computed in
the same precision (with a spacing that is a Python number or a tensor of that type), and the bandwidth is a Python number or a tensor of that type. -/
theorem C181_conversions (p q : Precision) (spacing bandwidth : Kind) (normalize : Bool) :
    ((∃ f, subcarrierTypes q spacing = .ok f) ↔ Spec.NumberOf (Spec.realType q) spacing) ∧
    (∀ f, subcarrierTypes q spacing = .ok f → f = .tensor (Spec.realType q) ∧
      (q = p → cirToOfdmTypes f (Spec.complexType p) (Spec.realType p) normalize = .ok (Spec.complexType p)) ∧
      (q ≠ p → ∃ e, cirToOfdmTypes f (Spec.complexType p) (Spec.realType p) normalize = .error e)) ∧
    (Spec.NumberOf (Spec.realType p) bandwidth → cirToTimeTypes bandwidth (Spec.complexType p) (Spec.realType p) normalize = .ok (Spec.complexType p)) ∧
    (¬ Spec.NumberOf (Spec.realType p) bandwidth → ∃ e, cirToTimeTypes bandwidth (Spec.complexType p) (Spec.realType p) normalize = .error e) := by
  have hk : ∀ (q : Precision) (k : Kind), (∃ f, (Kind.tensor q.rdtype).op k = .ok f) ↔ Spec.NumberOf (Spec.realType q) k := by
    intro q k
    unfold Spec.NumberOf
    rcases k with _ | _ | d
    · exact ⟨fun _ => .inl rfl, fun _ => by cases q <;> exact ⟨_, rfl⟩⟩
    · exact ⟨fun _ => .inr (.inl rfl), fun _ => by cases q <;> exact ⟨_, rfl⟩⟩
    · constructor
      · rintro ⟨f, hf⟩
        cases q <;> cases d <;> first | exact .inr (.inr rfl) | cases hf
      · rintro (h | h | h)
        · cases h
        · cases h
        · cases h; cases q <;> exact ⟨_, rfl⟩
  refine ⟨hk q spacing, fun f hf => ?_, fun h => ?_, fun h => ?_⟩
  · have hf' : f = .tensor (Spec.realType q) := by
      rcases (hk q spacing).1 ⟨f, hf⟩ with rfl | rfl | rfl <;> cases q <;> cases hf <;> rfl
    subst hf'
    refine ⟨rfl, fun h => ?_, fun h => ?_⟩
    · subst h; cases q <;> cases normalize <;> rfl
    · cases q <;> cases p <;> first | exact absurd rfl h | (cases normalize <;> exact ⟨_, rfl⟩)
  · rcases h with rfl | rfl | rfl <;> cases p <;> cases normalize <;> rfl
  · rcases bandwidth with _ | _ | d
    · exact absurd (.inl rfl) h
    · exact absurd (.inr (.inl rfl)) h
    · cases p <;> cases d <;> first | exact absurd (.inr (.inr rfl)) h | exact ⟨_, rfl⟩

example : Spec.NumberOf (Spec.realType .double) .py ∧ Spec.NumberOf .f32 (.tensor .f32) ∧ ¬ Spec.NumberOf .f32 (.tensor .f64) := by
  simp [Spec.NumberOf]

/-! ### C182 -/

/-- C182. In either precision a TDL model can be created and called, with coefficients and delays of that precision, if delay spread and sampling frequency are Python numbers or
tensors of the precision. -/
def C182_statement : Prop :=
  ∀ (p : Precision) (fs spread : Kind) (scaleDelays los correlated : Bool), Spec.NumberOf (Spec.realType p) fs → Spec.NumberOf (Spec.realType p) spread →
    ∃ lo hi, tdlDopplerTypes p = .ok lo ∧ tdlDopplerTypes p = .ok hi ∧
      tdlCallTypes p lo hi fs spread scaleDelays los correlated = .ok (Spec.complexType p, Spec.realType p)

/-- C182 for single precision, with the exact condition. In double precision the constructor raises; the call itself works for Doppler shifts of double precision. -/
theorem C182_tdl_partial (fs spread : Kind) (scaleDelays los correlated : Bool) :
    tdlDopplerTypes .single = .ok (.tensor .f32) ∧
    (Spec.NumberOf .f32 fs ∧ (scaleDelays = true → Spec.NumberOf .f32 spread) →
      tdlCallTypes .single (.tensor .f32) (.tensor .f32) fs spread scaleDelays los correlated = .ok (.c64, .f32)) ∧
    (¬ (Spec.NumberOf .f32 fs ∧ (scaleDelays = true → Spec.NumberOf .f32 spread)) →
      ∃ e, tdlCallTypes .single (.tensor .f32) (.tensor .f32) fs spread scaleDelays los correlated = .error e) ∧
    tdlDopplerTypes .double = .error .invalidArgument ∧
    (Spec.NumberOf .f64 fs ∧ (scaleDelays = true → Spec.NumberOf .f64 spread) →
      tdlCallTypes .double (.tensor .f64) (.tensor .f64) fs spread scaleDelays los correlated = .ok (.c128, .f64)) := by
  refine ⟨rfl, fun ⟨h1, h2⟩ => ?_, fun h => ?_, rfl, fun ⟨h1, h2⟩ => ?_⟩
  · cases scaleDelays
    · rcases h1 with rfl | rfl | rfl <;> cases los <;> cases correlated <;> rfl
    · rcases h1 with rfl | rfl | rfl <;> rcases h2 rfl with rfl | rfl | rfl <;> cases los <;> cases correlated <;> rfl
  · have hk : ∀ k : Kind, Spec.NumberOf .f32 k ∨ k = .tensor .f64 ∨ k = .tensor .i32 := by
      rintro (_ | _ | d)
      · exact .inl (.inl rfl)
      · exact .inl (.inr (.inl rfl))
      · cases d
        · exact .inl (.inr (.inr rfl))
        · exact .inr (.inl rfl)
        · exact .inr (.inr rfl)
    rcases hk fs with h1 | rfl | rfl
    · have hs : scaleDelays = true ∧ ¬ Spec.NumberOf .f32 spread := by
        by_contra hn
        exact h ⟨h1, fun hs => by_contra fun hs' => hn ⟨hs, hs'⟩⟩
      obtain ⟨rfl, hs⟩ := hs
      rcases hk spread with h2 | rfl | rfl
      · exact absurd h2 hs
      · rcases h1 with rfl | rfl | rfl <;> cases los <;> exact ⟨_, rfl⟩
      · rcases h1 with rfl | rfl | rfl <;> cases los <;> exact ⟨_, rfl⟩
    · exact ⟨_, rfl⟩
    · exact ⟨_, rfl⟩
  · cases scaleDelays
    · rcases h1 with rfl | rfl | rfl <;> cases los <;> cases correlated <;> rfl
    · rcases h1 with rfl | rfl | rfl <;> rcases h2 rfl with rfl | rfl | rfl <;> cases los <;> cases correlated <;> rfl

/-- The code violates C182. -/
theorem C182_violated : ¬ C182_statement := by
  intro H
  obtain ⟨lo, -, h, -⟩ := H .double .py .py true true true (.inl rfl) (.inl rfl)
  cases h

end OpenNTN
