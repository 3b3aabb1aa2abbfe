import Verif.Model.Precision

/-
C137: both documented precisions work.
-/
namespace OpenNTN

/-- A computation that succeeds and only creates tensors of the element type that belongs to the precision. -/
def Spec.WorksIn (p : Precision) (r : Except Err (List DType)) : Prop :=
  ∃ l, r = .ok l ∧ ∀ d ∈ l, d = match p with | .single => DType.f32 | .double => DType.f64

/-- An argument that is left out, a Python number, or a tensor of the element type of the precision. -/
def Spec.Acceptable (p : Precision) (k : Option Kind) : Prop :=
  k = none ∨ k = some .py ∨ k = some (.tensor (match p with | .single => .f32 | .double => .f64))

/-- All arguments of the topology generation are of these kinds. -/
def Spec.AcceptableArgs (p : Precision) (a : GenKinds) : Prop :=
  Spec.Acceptable p a.isd ∧ Spec.Acceptable p a.bsHeight ∧ Spec.Acceptable p a.elevation ∧ Spec.Acceptable p a.minUtHeight ∧
    Spec.Acceptable p a.maxUtHeight ∧ Spec.Acceptable p a.minUtVelocity ∧ Spec.Acceptable p a.maxUtVelocity

/-- The names of the two parameter files of a scenario, and the column read. -/
def Spec.FilesOf (los nlos : String) : Prop :=
  ∃ (cls : ScenarioClass) (direction : String) (fc : ℝ), losFile cls direction fc = .ok los ∧ nlosFile cls direction fc = .ok nlos

/-- C137: in single and in double precision a topology can be generated from acceptable arguments, a topology can be set in either band with
drawn and with requested LoS states and the parameter files of any scenario, a TDL model can be created and every antenna pattern evaluated, and
all results have the element type of the precision. -/
def C137_statement : Prop := ∀ p : Precision,
  (∀ a : GenKinds, Spec.AcceptableArgs p a → Spec.WorksIn p (genTypes p a)) ∧
  (∀ ka requested los nlos angle, Spec.FilesOf los nlos →
    Spec.WorksIn p (setTopologyTypes p (match p with | .single => .f32 | .double => .f64) ka requested los nlos angle)) ∧
  Spec.WorksIn p (tdlTypes p) ∧
  ∀ pattern, Spec.WorksIn p (fieldTypes p pattern)

/-- Clutter loss, shadow fading deviation and LoS probability are never written as integers. -/
theorem entryKind_direct (p : Precision) (file : String) (angle : ℤ) :
    entryKind p file .pCL angle = .tensor p.rdtype ∧ entryKind p file .psigmaSF angle = .tensor p.rdtype ∧
      entryKind p file .pLoSp angle = .tensor p.rdtype := by
  refine ⟨?_, ?_, ?_⟩ <;> simp [entryKind, jsonInt]

/-- C137 for single precision. Missing: double precision, which fails, see `C137_double`. -/
theorem C137_single_partial :
    (∀ a : GenKinds, Spec.AcceptableArgs .single a → Spec.WorksIn .single (genTypes .single a)) ∧
    (∀ ka requested los nlos angle, Spec.FilesOf los nlos → Spec.WorksIn .single (setTopologyTypes .single .f32 ka requested los nlos angle)) ∧
    Spec.WorksIn .single (tdlTypes .single) ∧
    ∀ pattern, Spec.WorksIn .single (fieldTypes .single pattern) := by
  refine ⟨?_, ?_, ⟨_, rfl, by decide⟩, ?_⟩
  · rintro ⟨i, h, e, z0, z1, v0, v1⟩ ⟨hi, hh, he, hz0, hz1, hv0, hv1⟩
    refine ⟨[.f32, .f32, .f32, .f32, .f32], ?_, by decide⟩
    rcases hi with rfl | rfl | rfl <;> rcases hh with rfl | rfl | rfl <;> rcases hz0 with rfl | rfl | rfl <;>
      rcases hz1 with rfl | rfl | rfl <;> rcases hv0 with rfl | rfl | rfl <;> rcases hv1 with rfl | rfl | rfl <;>
      rcases he with rfl | rfl | rfl <;> rfl
  · intro ka req los nlos angle _
    obtain ⟨hc, hs, hl⟩ := entryKind_direct .single los angle
    obtain ⟨hc', hs', -⟩ := entryKind_direct .single nlos angle
    unfold setTopologyTypes
    rw [hl, hs, hc', hs']
    cases ka <;> cases req <;> exact ⟨_, rfl, by decide⟩
  · intro q
    cases q <;> exact ⟨_, rfl, by decide⟩

/-- What happens in double precision: no topology can be generated, whatever the arguments; no topology can be set, whatever the
element type of the locations; no TDL model can be created; of
the patterns only the circular aperture fails. -/
theorem C137_double :
    (∀ a : GenKinds, genTypes .double a = .error .invalidArgument) ∧
    (∀ loc ka requested los nlos angle, setTopologyTypes .double loc ka requested los nlos angle = .error .invalidArgument) ∧
    tdlTypes .double = .error .invalidArgument ∧
    ∀ pattern, Spec.WorksIn .double (fieldTypes .double pattern) ↔ pattern ≠ .aperture := by
  refine ⟨?_, fun loc _ _ _ _ _ => by cases loc <;> rfl, rfl, ?_⟩
  · rintro ⟨i, h, e, z0, z1, v0, v1⟩
    rcases h with _ | _ | _ | _ | _ | _ <;> rcases i with _ | _ | _ | _ | _ | _ <;> rfl
  · intro q
    cases q
    · exact ⟨fun _ => by decide, fun _ => ⟨_, rfl, by decide⟩⟩
    · exact ⟨fun _ => by decide, fun _ => ⟨_, rfl, by decide⟩⟩
    · refine ⟨?_, fun h => absurd rfl h⟩
      rintro ⟨l, h, -⟩
      cases h
    · exact ⟨fun _ => by decide, fun _ => ⟨_, rfl, by decide⟩⟩

/-- The code violates C137. -/
theorem C137_violated : ¬ C137_statement := by
  intro h
  obtain ⟨l, hl, -⟩ := (h .double).2.2.1
  rw [C137_double.2.2.1] at hl
  cases hl

/-- Acceptable arguments exist for both precisions: some left out, some Python numbers, some tensors. -/
example (p : Precision) : Spec.AcceptableArgs p ⟨none, some .py, some .py, some (.tensor p.rdtype), none, none, some .py⟩ := by
  refine ⟨.inl rfl, .inr (.inl rfl), .inr (.inl rfl), .inr (.inr ?_), .inl rfl, .inl rfl, .inr (.inl rfl)⟩
  cases p <;> rfl

end OpenNTN
