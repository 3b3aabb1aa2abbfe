import Verif.Lemmas.Topology

/-
C10-C15, C22: the state kept by a scenario across `set_topology` calls.
-/
namespace OpenNTN

open Classical Spec

variable {B N U : ℕ} [NeZero B] {cls : ScenarioClass} {sa : ScenarioArgs} {c : Config}
  {log : List (TopoCall B N U)} {s : TopoState B N U}

/-! ### C10 -/

/-- The six required attributes are the latest values passed by the counted calls. -/
structure Spec.Persisted (counted : TopoCall B N U → Prop) (log : List (TopoCall B N U)) (s : TopoState B N U) : Prop where
  utLoc : s.utLoc = latest counted (·.1.utLoc) log
  bsLoc : s.bsLoc = latest counted (·.1.bsLoc) log
  utOri : s.utOri = latest counted (·.1.utOri) log
  bsOri : s.bsOri = latest counted (·.1.bsOri) log
  utVel : s.utVel = latest counted (·.1.utVel) log
  inState : s.inState = latest counted (·.1.inState) log

/-- The full claim of C10. -/
def C10_statement : Prop :=
  ∀ (B N U : ℕ) [NeZero B] (cls : ScenarioClass) (sa : ScenarioArgs) (c : Config), mkScenario cls sa = .ok c →
    ∀ (log : List (TopoCall B N U)) (s : TopoState B N U), TopoReach c log s → Persisted TopoCall.succeeded log s

theorem latest_cons_counted {C α : Type} {counted : C → Prop} [DecidablePred counted] {value : C → Option α} {e : C} {log : List C}
    (h : counted e) : latest counted value (e :: log) = assign (value e) (latest counted value log) := by
  rw [latest, if_pos h]
  unfold assign
  cases value e <;> rfl

theorem latest_cons_not {C α : Type} {counted : C → Prop} [DecidablePred counted] {value : C → Option α} {e : C} {log : List C}
    (h : ¬ counted e) : latest counted value (e :: log) = latest counted value log := by
  rw [latest, if_neg h]

theorem latest_congr {C α : Type} {p q : C → Prop} [DecidablePred p] [DecidablePred q] {value : C → Option α} {log : List C}
    (h : ∀ e ∈ log, (p e ↔ q e)) : latest p value log = latest q value log := by
  induction log with
  | nil => rfl
  | cons e l ih =>
    have ih := ih fun e' he => h e' (List.mem_cons_of_mem _ he)
    have he := h e List.mem_cons_self
    unfold latest
    by_cases hp : p e
    · rw [if_pos hp, if_pos (he.1 hp), ih]
    · rw [if_neg hp, if_neg (fun hq => hp (he.2 hq)), ih]

/-- State and log agree on the calls that got past the assertions, whatever happened afterwards. -/
theorem persisted_accepted (h : mkScenario cls sa = .ok c) (r : TopoReach c log s) :
    Persisted TopoCall.accepted log s ∧ s.requestedLos = latest TopoCall.accepted (·.1.los) log := by
  induction r with
  | init => exact ⟨⟨rfl, rfl, rfl, rfl, rfl, rfl⟩, rfl⟩
  | @call log s a d r ih =>
    obtain ⟨⟨p1, p2, p3, p4, p5, p6⟩, p7⟩ := ih
    rcases setTopology_cases h s a d with ⟨-, e⟩ | ⟨-, -, e⟩ | ⟨-, -, b, -, -, e, -⟩
    · rw [e]
      have hn : ¬ TopoCall.accepted ((a, d, (.error .assertion : Except Err Bool)) : TopoCall B N U) := fun hh => hh rfl
      refine ⟨⟨?_, ?_, ?_, ?_, ?_, ?_⟩, ?_⟩ <;> rw [latest_cons_not hn] <;> assumption
    · rw [e]
      have hn : TopoCall.accepted ((a, d, .ok false) : TopoCall B N U) := by simp [TopoCall.accepted]
      refine ⟨⟨?_, ?_, ?_, ?_, ?_, ?_⟩, ?_⟩ <;> rw [latest_cons_counted hn] <;> dsimp only [storeArgs] <;> congr 1
    · have hn : TopoCall.accepted ((a, d, (setTopology c s a d).2) : TopoCall B N U) := e
      refine ⟨⟨?_, ?_, ?_, ?_, ?_, ?_⟩, ?_⟩ <;> rw [latest_cons_counted hn]
      · rw [b.utLoc, ← p1]; rfl
      · rw [b.bsLoc, ← p2]; rfl
      · rw [b.utOri, ← p3]; rfl
      · rw [b.bsOri, ← p4]; rfl
      · rw [b.utVel, ← p5]; rfl
      · rw [b.inState, ← p6]; rfl
      · rw [b.requestedLos, ← p7]; rfl

/-- A call with one BS and a physical atmosphere either fails an assertion or succeeds. -/
theorem accepted_succeeds (h : mkScenario cls sa = .ok c) (hN : N = 1) (a : TopoArgs B N U) (d : TopoDraws B N U)
    (hp : (atmosphereOf a).Physical) (hacc : (setTopology c s a d).2 ≠ .error .assertion) :
    ∃ b, (setTopology c s a d).2 = .ok b := by
  rcases setTopology_cases h s a d with ⟨-, e⟩ | ⟨-, -, e⟩ | ⟨-, -, b, -, e2, -, ut, bs, i, h1, h2, h3⟩
  · rw [e] at hacc; exact absurd rfl hacc
  · rw [e]; exact ⟨_, rfl⟩
  · obtain ⟨g, hg⟩ : ∃ g, gasLoss (c.carrierFrequency / 10 ^ 9) c.elevationAngle (atmosphereOf a) = .ok g := by
      obtain ⟨f1, f2⟩ := built_freq h
      exact ⟨_, (gasLoss_ok (by linarith) f2 (by linarith [hp.temperature]) hp.pressure hp.vapor (built_sin h)).2.2⟩
    obtain ⟨v, hv⟩ : ∃ v, scintLoss (c.carrierFrequency / 10 ^ 9) c.elevationAngle (atmosphereOf a) = .ok v := by
      unfold scintLoss
      split
      · dsimp only
        rw [if_neg]
        · split <;> exact ⟨_, rfl⟩
        · have := hp.temperature
          push Not
          refine ⟨by intro hh; linarith, by intro hh; linarith, hp.efficiency.1⟩
      · exact ⟨_, rfl⟩
    have := ((updateTopology_one h hN d h1 h2 h3 rfl).2.2.1 g v hg hv).1
    rw [e2, this]
    exact ⟨_, rfl⟩

theorem log_succeeds (h : mkScenario cls sa = .ok c) (hN : N = 1) (r : TopoReach c log s)
    (hp : ∀ e ∈ log, (atmosphereOf e.1).Physical) : ∀ e ∈ log, (TopoCall.accepted e ↔ TopoCall.succeeded e) := by
  induction r with
  | init => intro e he; cases he
  | @call log s a d r ih =>
    intro e he
    rcases List.mem_cons.1 he with rfl | he
    · exact ⟨fun hh => accepted_succeeds h hN a d (hp _ List.mem_cons_self) hh,
        fun ⟨b, hb⟩ => by intro hh; rw [hb] at hh; cases hh⟩
    · exact ih (fun e' he' => hp e' (List.mem_cons_of_mem _ he')) e he

/-- C10, what holds: each attribute equals the most recent value passed in a call that raised no assertion error, for any number of
BSs; with one BS and physical atmospheres these are exactly the successful calls. Missing: calls that fail later on keep what they
stored, see `C10_violated`. -/
theorem C10_arguments_persist_partial (h : mkScenario cls sa = .ok c) (r : TopoReach c log s) :
    Persisted TopoCall.accepted log s ∧
    (N = 1 → (∀ e ∈ log, (atmosphereOf e.1).Physical) → Persisted TopoCall.succeeded log s) := by
  have p := (persisted_accepted h r).1
  refine ⟨p, fun hN hp => ?_⟩
  have hl := log_succeeds h hN r hp
  obtain ⟨p1, p2, p3, p4, p5, p6⟩ := p
  exact ⟨by rw [p1, latest_congr hl], by rw [p2, latest_congr hl], by rw [p3, latest_congr hl], by rw [p4, latest_congr hl],
    by rw [p5, latest_congr hl], by rw [p6, latest_congr hl]⟩

/-- A complete set of arguments: UTs at the origin, BSs at 600 km, everybody outdoor. -/
noncomputable def exTopo (B N U : ℕ) : TopoArgs B N U where
  utLoc := some fun _ _ => ⟨0, 0, 1.5⟩
  bsLoc := some fun _ _ => ⟨0, 0, 600000⟩
  utOri := some fun _ _ => ⟨0, 0, 0⟩
  bsOri := some fun _ _ => ⟨0, 0, 0⟩
  utVel := some fun _ _ => ⟨0, 0, 0⟩
  inState := some fun _ _ => false

/-- Some draws. -/
noncomputable def exDraws (B N U : ℕ) : TopoDraws B N U := ⟨fun _ _ _ => 0, fun _ _ _ => 0, fun _ _ _ => 0, fun _ _ _ => 0⟩

theorem exTopo_atmosphere (B N U : ℕ) : (atmosphereOf (exTopo B N U)).Physical := by
  constructor <;> norm_num [atmosphereOf, exTopo]

/-- The first call with two BSs. -/
theorem exTopo_multi (c : Config) : ∃ t : TopoState 1 2 1,
    setTopology c (TopoState.init c) (exTopo 1 2 1) (exDraws 1 2 1) = (t, .error .invalidArgument) ∧
    t.utLoc = (exTopo 1 2 1).utLoc ∧ t.bsLoc = (exTopo 1 2 1).bsLoc ∧ t.inState = (exTopo 1 2 1).inState ∧
    t.utOri = (exTopo 1 2 1).utOri ∧ t.bsOri = (exTopo 1 2 1).bsOri ∧ t.utVel = (exTopo 1 2 1).utVel ∧ t.distance3d = none := by
  have hu := updateTopology_multi (c := c) (N := 2) (by norm_num) (exDraws 1 2 1)
    (s := storeArgs (TopoState.init c) (exTopo 1 2 1)) (ut := fun _ _ => ⟨0, 0, 1.5⟩) (bs := fun _ _ => ⟨0, 0, 600000⟩) rfl rfl
  unfold setTopology
  rw [if_pos (by rfl)]
  dsimp only
  rw [if_pos (by rfl), hu]
  exact ⟨_, rfl, rfl, rfl, rfl, rfl, rfl, rfl, rfl⟩

/-- A scenario to instantiate the theorems with. -/
theorem exConfig : ∃ c, mkScenario .urban (exArgs 2000000000 "uplink" 50) = .ok c := by
  simpa using exArgs_ok .urban true false 50 (by norm_num) (by norm_num)

/-- C10 fails for two BSs: the only call raised, and its UT locations are kept. -/
theorem C10_violated : ¬ C10_statement := by
  intro H
  obtain ⟨c, hc⟩ := exConfig
  obtain ⟨t, e, e1, -⟩ := exTopo_multi c
  have r := TopoReach.call (exTopo 1 2 1) (exDraws 1 2 1) (TopoReach.init (c := c))
  have p := (H 1 2 1 _ _ c hc _ _ r).utLoc
  rw [e] at p
  dsimp only at p
  rw [e1, latest_cons_not] at p
  · cases p
  · rintro ⟨b, hb⟩; cases hb

/-- The hypotheses of the C10 theorem are met after two calls, the second passing velocities only. -/
example : ∃ (c : Config) (log : List (TopoCall 1 1 3)) (s : TopoState 1 1 3), mkScenario .urban (exArgs 2000000000 "uplink" 50) = .ok c ∧
    TopoReach c log s ∧ log.length = 2 ∧ (∀ e ∈ log, (atmosphereOf e.1).Physical) := by
  obtain ⟨c, hc⟩ := exConfig
  refine ⟨c, _, _, hc, TopoReach.call { utVel := some fun _ _ => ⟨1, 2, 3⟩ } (exDraws 1 1 3)
    (TopoReach.call (exTopo 1 1 3) (exDraws 1 1 3) .init), rfl, fun e he => ?_⟩
  simp only [List.mem_cons, List.not_mem_nil, or_false] at he
  rcases he with rfl | rfl
  · constructor <;> norm_num [atmosphereOf]
  · exact exTopo_atmosphere 1 1 3

/-! ### C11 -/

/-- One of the required arguments is omitted and was never passed in a counted call. -/
def Spec.Missing (counted : TopoCall B N U → Prop) (log : List (TopoCall B N U)) (a : TopoArgs B N U) : Prop :=
  (a.utLoc = none ∧ ∀ e ∈ log, counted e → e.1.utLoc = none) ∨ (a.bsLoc = none ∧ ∀ e ∈ log, counted e → e.1.bsLoc = none) ∨
  (a.utOri = none ∧ ∀ e ∈ log, counted e → e.1.utOri = none) ∨ (a.bsOri = none ∧ ∀ e ∈ log, counted e → e.1.bsOri = none) ∨
  (a.utVel = none ∧ ∀ e ∈ log, counted e → e.1.utVel = none) ∨ (a.inState = none ∧ ∀ e ∈ log, counted e → e.1.inState = none)

/-- The full claim of C11. -/
def C11_statement : Prop :=
  ∀ (B N U : ℕ) [NeZero B] (cls : ScenarioClass) (sa : ScenarioArgs) (c : Config), mkScenario cls sa = .ok c →
    ∀ (log : List (TopoCall B N U)) (s : TopoState B N U), TopoReach c log s → ∀ a d,
      ((setTopology c s a d).2 = .error .assertion ↔ Missing TopoCall.succeeded log a) ∧
      ((setTopology c s a d).2 = .error .assertion → (setTopology c s a d).1 = s)

theorem latest_none_iff {C α : Type} {counted : C → Prop} [DecidablePred counted] {value : C → Option α} {log : List C} :
    latest counted value log = none ↔ ∀ e ∈ log, counted e → value e = none := by
  induction log with
  | nil => simp [latest]
  | cons e l ih =>
    by_cases hc : counted e
    · rw [latest_cons_counted hc]
      cases hv : value e with
      | none => simp [assign, ih, hc, hv]
      | some v => simp [assign, hc, hv]
    · rw [latest_cons_not hc, ih]; simp [hc]

theorem missing_congr {p q : TopoCall B N U → Prop} {log : List (TopoCall B N U)} {a : TopoArgs B N U} (h : ∀ e ∈ log, (p e ↔ q e)) :
    Missing p log a ↔ Missing q log a := by
  have hh : ∀ (f : TopoCall B N U → Prop), (∀ e ∈ log, p e → f e) ↔ ∀ e ∈ log, q e → f e := fun f =>
    forall₂_congr fun e he => by rw [h e he]
  unfold Missing
  simp only [hh]

/-- C11, what holds: an assertion error is raised exactly if a required argument was never passed in a call that got past the
assertions, and the object is left unchanged; with one BS and physical atmospheres these are exactly the successful calls.
Missing: calls that fail later on, see `C11_violated`. -/
theorem C11_assertion_partial (h : mkScenario cls sa = .ok c) (r : TopoReach c log s) (a : TopoArgs B N U) (d : TopoDraws B N U) :
    ((setTopology c s a d).2 = .error .assertion ↔ Missing TopoCall.accepted log a) ∧
    ((setTopology c s a d).2 = .error .assertion → (setTopology c s a d).1 = s) ∧
    (N = 1 → (∀ e ∈ log, (atmosphereOf e.1).Physical) →
      ((setTopology c s a d).2 = .error .assertion ↔ Missing TopoCall.succeeded log a)) := by
  obtain ⟨p1, p2, p3, p4, p5, p6⟩ := (persisted_accepted h r).1
  have key : assertsHold s a = false ↔ Missing TopoCall.accepted log a := by
    unfold Missing
    simp only [← latest_none_iff, ← p1, ← p2, ← p3, ← p4, ← p5, ← p6]
    simp only [assertsHold, Bool.and_eq_false_iff, Bool.or_eq_false_iff, Option.isSome_eq_false_iff, Option.isNone_iff_eq_none]
    tauto
  have main : ((setTopology c s a d).2 = .error .assertion ↔ Missing TopoCall.accepted log a) ∧
      ((setTopology c s a d).2 = .error .assertion → (setTopology c s a d).1 = s) := by
    rw [← key]
    rcases setTopology_cases h s a d with ⟨e0, e⟩ | ⟨e0, -, e⟩ | ⟨e0, -, b, -, -, e, -⟩
    · rw [e, e0]; simp
    · rw [e, e0]; simp
    · exact ⟨⟨fun hh => absurd hh e, fun hh => by rw [e0] at hh; cases hh⟩, fun hh => absurd hh e⟩
  exact ⟨main.1, main.2, fun hN hp => by rw [main.1, missing_congr (log_succeeds h hN r hp)]⟩

/-- C11 fails for two BSs: after a failed complete call, an empty call raises no assertion error. -/
theorem C11_violated : ¬ C11_statement := by
  intro H
  obtain ⟨c, hc⟩ := exConfig
  obtain ⟨t, e, e1, e2, e3, e4, e5, e6, -⟩ := exTopo_multi c
  have r := TopoReach.call (exTopo 1 2 1) (exDraws 1 2 1) (TopoReach.init (c := c))
  have p := (H 1 2 1 _ _ c hc _ _ r {} (exDraws 1 2 1)).1.2 ?_
  · rw [e] at p
    have hn : assertsHold t {} = true := by
      unfold assertsHold; rw [e1, e2, e3, e4, e5, e6]; rfl
    unfold setTopology at p
    rw [if_pos hn] at p
    cases p
  · rw [e]
    refine Or.inl ⟨rfl, fun e' he hs => ?_⟩
    rw [List.mem_singleton] at he
    subst he
    obtain ⟨b, hb⟩ := hs
    cases hb

/-- The empty call on a fresh object is such a failing call. -/
example : Missing TopoCall.accepted ([] : List (TopoCall 1 1 3)) {} := Or.inl ⟨rfl, fun _ h => by cases h⟩

/-! ### C12 -/

/-- The derived attributes C12 is about are the same in both states. -/
structure Spec.SameDerived (s t : TopoState B N U) : Prop where
  distance2d : t.distance2d = s.distance2d
  distance3d : t.distance3d = s.distance3d
  angles : t.angles = s.angles
  utDistance : t.utDistance = s.utDistance
  indoorDist : t.indoorDist = s.indoorDist
  los : t.los = s.los
  lspMean : t.lspMean = s.lspMean
  lspStd : t.lspStd = s.lspStd
  zodOff : t.zodOff = s.zodOff
  plBasic : t.plBasic = s.plBasic
  plFree : t.plFree = s.plFree

/-- The derived attributes are those of the current topology, with the draws of the most recent relocating call. -/
def Spec.Fresh (c : Config) (counted : TopoCall B N U → Prop) (log : List (TopoCall B N U)) (s : TopoState B N U) : Prop :=
  ∃ pre e post ut bs i, log = pre ++ e :: post ∧ counted e ∧ TopoCall.relocates e ∧
    (∀ e' ∈ pre, counted e' → ¬ TopoCall.relocates e') ∧ s.utLoc = some ut ∧ s.bsLoc = some bs ∧ s.inState = some i ∧
    UpToDate c s ut bs i s.requestedLos e.2.1

/-- The full claim of C12: after a successful call the derived attributes are fresh; the call reports whether it relocates, and
otherwise leaves them alone. -/
def C12_statement : Prop :=
  ∀ (B N U : ℕ) [NeZero B] (cls : ScenarioClass) (sa : ScenarioArgs) (c : Config), mkScenario cls sa = .ok c →
    ∀ (log : List (TopoCall B N U)) (s : TopoState B N U), TopoReach c log s → ∀ a d b, (setTopology c s a d).2 = .ok b →
      Fresh c TopoCall.accepted ((a, d, (setTopology c s a d).2) :: log) (setTopology c s a d).1 ∧
      (b = true ↔ TopoCall.relocates ((a, d, .ok b) : TopoCall B N U)) ∧
      (b = false → SameDerived s (setTopology c s a d).1)

theorem needForUpdate_iff (a : TopoArgs B N U) (d : TopoDraws B N U) (x : Except Err Bool) :
    needForUpdate a = true ↔ TopoCall.relocates ((a, d, x) : TopoCall B N U) := by
  unfold needForUpdate TopoCall.relocates
  simp only [Bool.or_eq_true, Option.isSome_iff_ne_none]
  tauto

theorem storeArgs_derived (s : TopoState B N U) (a : TopoArgs B N U) : SameDerived s (storeArgs s a) := by constructor <;> rfl

/-- With one BS, the derived attributes are fresh as soon as a call got past the assertions. -/
theorem fresh_invariant (h : mkScenario cls sa = .ok c) (hN : N = 1) (r : TopoReach c log s) :
    ((∀ e ∈ log, ¬ TopoCall.accepted e) ∧ s = TopoState.init c) ∨ Fresh c TopoCall.accepted log s := by
  induction r with
  | init => exact Or.inl ⟨fun e he => (by cases he), rfl⟩
  | @call log s a d r ih =>
    rcases setTopology_cases h s a d with ⟨-, e⟩ | ⟨e0, e1, e⟩ | ⟨e0, e1, b, e2, e3, e4, ut, bs, i, h1, h2, h3⟩
    · rw [e]
      rcases ih with ⟨i1, i2⟩ | ⟨pre, e', post, ut, bs, i, q1, q2, q3, q4, q5⟩
      · left
        refine ⟨fun e' he => ?_, i2⟩
        rcases List.mem_cons.1 he with rfl | he
        · exact fun hh => hh rfl
        · exact i1 e' he
      · right
        refine ⟨_ :: pre, e', post, ut, bs, i, by rw [q1]; rfl, q2, q3, fun e'' he => ?_, q5⟩
        rcases List.mem_cons.1 he with rfl | he
        · exact fun hh => absurd rfl hh
        · exact q4 e'' he
    · rw [e]
      rcases ih with ⟨i1, i2⟩ | ⟨pre, e', post, ut, bs, i, q1, q2, q3, q4, q5, q6, q7, q8⟩
      · exfalso
        rw [i2] at e0
        simp only [needForUpdate, Bool.or_eq_false_iff] at e1
        simp [assertsHold, TopoState.init, e1.1.1.1] at e0
      · right
        have hno : a.utLoc = none ∧ a.bsLoc = none ∧ a.inState = none ∧ a.los = none := by
          simp only [needForUpdate, Bool.or_eq_false_iff, Option.isSome_eq_false_iff, Option.isNone_iff_eq_none] at e1
          tauto
        obtain ⟨n1, n2, n3, n4⟩ := hno
        refine ⟨_ :: pre, e', post, ut, bs, i, by rw [q1]; rfl, q2, q3, fun e'' he => ?_, ?_, ?_, ?_, ?_⟩
        · rcases List.mem_cons.1 he with rfl | he
          · intro _ hh
            rw [(needForUpdate_iff _ _ _).2 hh] at e1
            cases e1
          · exact q4 e'' he
        · show assign a.utLoc s.utLoc = _
          rw [n1]; exact q5
        · show assign a.bsLoc s.bsLoc = _
          rw [n2]; exact q6
        · show assign a.inState s.inState = _
          rw [n3]; exact q7
        · show UpToDate c _ ut bs i (assign a.los s.requestedLos) _
          rw [n4]
          exact q8.congr rfl rfl rfl rfl rfl rfl rfl rfl rfl rfl rfl
    · right
      refine ⟨[], _, log, ut, bs, i, rfl, e4, (needForUpdate_iff _ _ _).1 e1, fun e' he => (by cases he), ?_, ?_, ?_, ?_⟩
      · rw [b.utLoc, h1]
      · rw [b.bsLoc, h2]
      · rw [b.inState, h3]
      · rw [b.requestedLos, e2]
        exact (updateTopology_one h hN d h1 h2 h3 rfl).1

/-- C12, what holds: with one BS, every successful call leaves fresh derived attributes, reports whether it relocates, and changes
nothing if it does not. With more BSs, no relocating call succeeds. Missing: several BSs, see `C12_violated`. -/
theorem C12_derived_fresh_partial (h : mkScenario cls sa = .ok c) (r : TopoReach c log s) (a : TopoArgs B N U)
    (d : TopoDraws B N U) (b : Bool) (hb : (setTopology c s a d).2 = .ok b) :
    (N = 1 → Fresh c TopoCall.accepted ((a, d, (setTopology c s a d).2) :: log) (setTopology c s a d).1) ∧
    (b = true ↔ TopoCall.relocates ((a, d, .ok b) : TopoCall B N U)) ∧
    (b = false → SameDerived s (setTopology c s a d).1) ∧ (N ≠ 1 → b = false) := by
  refine ⟨fun hN => ?_, ?_⟩
  · rcases fresh_invariant h hN (TopoReach.call a d r) with ⟨hh, -⟩ | hh
    · exact absurd (by rw [TopoCall.accepted, hb]; simp) (hh _ List.mem_cons_self)
    · exact hh
  · rcases setTopology_cases h s a d with ⟨-, e⟩ | ⟨-, e1, e⟩ | ⟨-, e1, -, -, e3, -, ut, bs, i, h1, h2, -⟩
    · rw [e] at hb; cases hb
    · rw [e] at hb ⊢
      cases hb
      refine ⟨?_, fun _ => storeArgs_derived s a, fun _ => rfl⟩
      rw [← needForUpdate_iff, e1]
    · rw [e3] at hb
      rcases hu : (updateTopology c d (storeArgs s a)).2 with _ | er
      · rw [hu] at hb
        cases hb
        refine ⟨by rw [← needForUpdate_iff, e1], fun hh => (by cases hh), fun hN => ?_⟩
        rw [updateTopology_multi hN d h1 h2] at hu
        cases hu
      · rw [hu] at hb; cases hb

/-- C12 fails for two BSs: the failed first call leaves no derived attributes but the planar distance; the empty second call succeeds. -/
theorem C12_violated : ¬ C12_statement := by
  intro H
  obtain ⟨c, hc⟩ := exConfig
  obtain ⟨t, e, e1, e2, e3, e4, e5, e6, e7⟩ := exTopo_multi c
  have r := TopoReach.call (exTopo 1 2 1) (exDraws 1 2 1) (TopoReach.init (c := c))
  rw [e] at r
  have hn : assertsHold t {} = true := by
    unfold assertsHold; rw [e1, e2, e3, e4, e5, e6]; rfl
  have e8 : setTopology c t {} (exDraws 1 2 1) = (storeArgs t {}, .ok false) := by
    unfold setTopology; rw [if_pos hn]; rfl
  obtain ⟨_, _, _, _, _, _, -, -, -, -, -, -, -, hu⟩ := (H 1 2 1 _ _ c hc _ _ r {} (exDraws 1 2 1) false (by rw [e8])).1
  obtain ⟨d3, hd, -⟩ := hu.distance3d
  rw [e8] at hd
  change t.distance3d = _ at hd
  rw [e7] at hd
  cases hd

/-- The first complete call with one BS succeeds. -/
theorem exTopo_single (h : mkScenario cls sa = .ok c) (B U : ℕ) [NeZero B] :
    (setTopology c (TopoState.init c) (exTopo B 1 U) (exDraws B 1 U)).2 = .ok true := by
  rcases setTopology_cases h (TopoState.init c) (exTopo B 1 U) (exDraws B 1 U) with ⟨e, -⟩ | ⟨-, e, -⟩ | ⟨-, -, -, -, e, e', -⟩
  · cases e
  · cases e
  · obtain ⟨b, hb⟩ := accepted_succeeds (s := TopoState.init c) h rfl (exTopo B 1 U) (exDraws B 1 U) (exTopo_atmosphere B 1 U) e'
    rw [e] at hb ⊢
    cases hu : (updateTopology c (exDraws B 1 U) (storeArgs (TopoState.init c) (exTopo B 1 U))).2 with
    | none => rfl
    | some er => rw [hu] at hb; cases hb

/-- The hypothesis of the C12 theorem is met by that call. -/
example (h : mkScenario cls sa = .ok c) : Fresh c TopoCall.accepted
    [(exTopo 2 1 3, exDraws 2 1 3, (setTopology c (TopoState.init c) (exTopo 2 1 3) (exDraws 2 1 3)).2)]
    (setTopology c (TopoState.init c) (exTopo 2 1 3) (exDraws 2 1 3)).1 :=
  (C12_derived_fresh_partial h .init _ _ true (exTopo_single h 2 3)).1 rfl

/-! ### C13 -/

/-- The nine atmospheric parameters: attribute, argument, documented standard value. -/
noncomputable def Spec.atmosphereParams : List ((Atmosphere → ℝ) × (TopoArgs B N U → Option ℝ) × ℝ) :=
  [(Atmosphere.latitude, TopoArgs.latitude, 47), (Atmosphere.lwc, TopoArgs.lwc, 0.41), (Atmosphere.rainRate, TopoArgs.rainRate, 40),
   (Atmosphere.pressure, TopoArgs.pressure, 1020), (Atmosphere.temperature, TopoArgs.temperature, 273),
   (Atmosphere.vaporDensity, TopoArgs.vaporDensity, 7.5), (Atmosphere.humidity, TopoArgs.humidity, 50),
   (Atmosphere.diameter, TopoArgs.diameter, 3.6), (Atmosphere.efficiency, TopoArgs.efficiency, 0.5)]

/-- The full claim of C13. -/
def C13_statement : Prop :=
  ∀ (B N U : ℕ) [NeZero B] (cls : ScenarioClass) (sa : ScenarioArgs) (c : Config), mkScenario cls sa = .ok c →
    ∀ (log : List (TopoCall B N U)) (s : TopoState B N U), TopoReach c log s → (∀ e ∈ log, TopoCall.succeeded e) →
      ∀ q ∈ atmosphereParams (B := B) (N := N) (U := U), ∀ v, latest TopoCall.succeeded (q.2.1 ·.1) log = some v →
        ∃ at', s.atmosphere = some at' ∧ q.1 at' = v

/-- C13, what holds: after a call that got past the assertions, a parameter passed in that call has that value, and an omitted one
has its standard value. Missing: persistence, see `C13_violated`. -/
theorem C13_atmosphere_partial (h : mkScenario cls sa = .ok c) (s : TopoState B N U) (a : TopoArgs B N U) (d : TopoDraws B N U)
    (hacc : (setTopology c s a d).2 ≠ .error .assertion) :
    ∃ at', (setTopology c s a d).1.atmosphere = some at' ∧ ∀ q ∈ atmosphereParams (B := B) (N := N) (U := U),
      (∀ v, q.2.1 a = some v → q.1 at' = v) ∧ (q.2.1 a = none → q.1 at' = q.2.2) := by
  refine ⟨atmosphereOf a, ?_, fun q hq => ?_⟩
  · rcases setTopology_cases h s a d with ⟨-, e⟩ | ⟨-, -, e⟩ | ⟨-, -, b, -⟩
    · rw [e] at hacc; exact absurd rfl hacc
    · rw [e]; rfl
    · rw [b.atmosphere]; rfl
  · simp only [atmosphereParams, List.mem_cons, List.not_mem_nil, or_false] at hq
    rcases hq with rfl | rfl | rfl | rfl | rfl | rfl | rfl | rfl | rfl <;>
      (constructor
       · intro v hv
         dsimp only at hv
         simp only [atmosphereOf, hv]
       · intro hv
         dsimp only at hv
         simp only [atmosphereOf, hv])

/-- A call that passes the UT velocities only. -/
noncomputable def exVelocity (B N U : ℕ) : TopoArgs B N U := { utVel := some fun _ _ => ⟨1, 2, 3⟩ }

/-- A complete call followed by one that passes the velocities only: the second succeeds without an update. -/
theorem velocity_call (s : TopoState B N U) (a : TopoArgs B N U) (d : TopoDraws B N U)
    (h : mkScenario cls sa = .ok c) (r : (setTopology c s a d).2 = .ok true) (d' : TopoDraws B N U) :
    setTopology c (setTopology c s a d).1 (exVelocity B N U) d' =
      (storeArgs (setTopology c s a d).1 (exVelocity B N U), .ok false) := by
  have ha : assertsHold (setTopology c s a d).1 (exVelocity B N U) = true := by
    rcases setTopology_cases h s a d with ⟨-, e⟩ | ⟨-, -, e⟩ | ⟨e0, -, b, -⟩
    · rw [e] at r; cases r
    · rw [e] at r; cases r
    · unfold assertsHold at e0 ⊢
      rw [b.utLoc, b.bsLoc, b.inState, b.utOri, b.bsOri]
      simp only [storeArgs, assign_isSome, Bool.and_eq_true, exVelocity] at e0 ⊢
      obtain ⟨⟨⟨⟨⟨a1, a2⟩, a3⟩, a4⟩, a5⟩, -⟩ := e0
      simp [a1, a2, a3, a4, a5]
  unfold setTopology
  rw [if_pos]
  · rfl
  · exact ha

/-- A complete call with a physical atmosphere succeeds on a fresh object. -/
theorem complete_call (h : mkScenario cls sa = .ok c) (a : TopoArgs B 1 U) (d : TopoDraws B 1 U) (hp : (atmosphereOf a).Physical)
    (ha : assertsHold (TopoState.init c) a = true) (hn : needForUpdate a = true) :
    (setTopology c (TopoState.init c) a d).2 = .ok true := by
  rcases setTopology_cases h (TopoState.init c) a d with ⟨e, -⟩ | ⟨-, e, -⟩ | ⟨-, -, -, -, e, e', -⟩
  · rw [ha] at e; cases e
  · rw [hn] at e; cases e
  · obtain ⟨b, hb⟩ := accepted_succeeds (s := TopoState.init c) h rfl a d hp e'
    rw [e] at hb ⊢
    cases hu : (updateTopology c d (storeArgs (TopoState.init c) a)).2 with
    | none => rfl
    | some er => rw [hu] at hb; cases hb

/-- C13 fails: a temperature of 300 K is forgotten by a later call that passes velocities only. -/
theorem C13_violated : ¬ C13_statement := by
  intro H
  obtain ⟨c, hc⟩ := exConfig
  let a : TopoArgs 1 1 1 := { exTopo 1 1 1 with temperature := some 300 }
  have e := complete_call hc a (exDraws 1 1 1) (by constructor <;> norm_num [atmosphereOf, exTopo, a]) rfl rfl
  have e2 := velocity_call (TopoState.init c) a (exDraws 1 1 1) hc e (exDraws 1 1 1)
  have r := TopoReach.call (exVelocity 1 1 1) (exDraws 1 1 1) (TopoReach.call a (exDraws 1 1 1) (TopoReach.init (c := c)))
  rw [e2, e] at r
  obtain ⟨at', h1, h2⟩ := H 1 1 1 _ _ c hc _ _ r (fun e he => by
    simp only [List.mem_cons, List.not_mem_nil, or_false] at he
    rcases he with rfl | rfl <;> exact ⟨_, rfl⟩) (Atmosphere.temperature, TopoArgs.temperature, 273)
    (by simp [atmosphereParams]) 300 (by
      rw [latest_cons_counted ⟨_, rfl⟩, latest_cons_counted ⟨_, rfl⟩]; rfl)
  cases h1
  norm_num [atmosphereOf, exVelocity] at h2

/-- The hypothesis of the C13 theorem is met by a first complete call. -/
example (h : mkScenario cls sa = .ok c) : (setTopology c (TopoState.init c) (exTopo 1 1 3) (exDraws 1 1 3)).2 ≠ .error .assertion := by
  rw [exTopo_single h 1 3]; simp

/-! ### C14 -/

/-- The gas and scintillation losses are those of the current atmosphere (`C56` is about their values). -/
def Spec.AtmosphereFresh (c : Config) (s : TopoState B N U) : Prop :=
  ∃ at' g v, s.atmosphere = some at' ∧ gasLoss (c.carrierFrequency / 10 ^ 9) c.elevationAngle at' = .ok g ∧
    scintLoss (c.carrierFrequency / 10 ^ 9) c.elevationAngle at' = .ok v ∧
    s.plGas = some (fun _ _ _ => g) ∧ s.plScint = some (fun _ _ _ => v)

/-- The full claim of C14. -/
def C14_statement : Prop :=
  ∀ (B N U : ℕ) [NeZero B] (cls : ScenarioClass) (sa : ScenarioArgs) (c : Config), mkScenario cls sa = .ok c →
    ∀ (log : List (TopoCall B N U)) (s : TopoState B N U), TopoReach c log s → ∀ a d b, (setTopology c s a d).2 = .ok b →
      AtmosphereFresh c (setTopology c s a d).1

/-- C14, what holds: every successful call that relocates (first calls do) leaves losses of the current atmosphere.
Missing: the other calls, see `C14_violated`. -/
theorem C14_atmosphere_fresh_partial (h : mkScenario cls sa = .ok c) (s : TopoState B N U) (a : TopoArgs B N U) (d : TopoDraws B N U)
    (b : Bool) (hb : (setTopology c s a d).2 = .ok b) (hr : TopoCall.relocates ((a, d, .ok b) : TopoCall B N U)) :
    AtmosphereFresh c (setTopology c s a d).1 := by
  rcases setTopology_cases h s a d with ⟨-, e⟩ | ⟨-, e1, e⟩ | ⟨-, e1, bb, e2, e3, -, ut, bs, i, h1, h2, h3⟩
  · rw [e] at hb; cases hb
  · rw [(needForUpdate_iff _ _ _).2 hr] at e1; cases e1
  · by_cases hN : N = 1
    · obtain ⟨-, -, q, q'⟩ := updateTopology_one h hN d h1 h2 h3 rfl
      have hu : (updateTopology c d (storeArgs s a)).2 = none := by
        rw [e3] at hb
        cases hu : (updateTopology c d (storeArgs s a)).2 with
        | none => rfl
        | some er => rw [hu] at hb; cases hb
      obtain ⟨g, v, hg, hv⟩ := q' hu
      obtain ⟨-, p1, -, p3⟩ := q g v hg hv
      exact ⟨_, g, v, by rw [bb.atmosphere]; rfl, hg, hv, by rw [e2, p1], by rw [e2, p3]⟩
    · rw [e3, updateTopology_multi hN d h1 h2] at hb; cases hb

/-- C14 fails: the first call sets a vapour density of zero; the second passes velocities only, which resets the density to
7.5 g/m^3 but keeps the gas loss. -/
theorem C14_violated : ¬ C14_statement := by
  intro H
  obtain ⟨c, hc⟩ := exConfig
  let a : TopoArgs 1 1 1 := { exTopo 1 1 1 with vaporDensity := some 0 }
  have hph : (atmosphereOf a).Physical := by constructor <;> norm_num [atmosphereOf, exTopo, a]
  have e := complete_call hc a (exDraws 1 1 1) hph rfl rfl
  have e2 := velocity_call (TopoState.init c) a (exDraws 1 1 1) hc e (exDraws 1 1 1)
  have r := TopoReach.call a (exDraws 1 1 1) (TopoReach.init (c := c))
  obtain ⟨at1, g1, v1, q1, q2, -, q4, -⟩ := C14_atmosphere_fresh_partial hc (TopoState.init c) a (exDraws 1 1 1) true e
    (Or.inl (by simp [a, exTopo]))
  obtain ⟨at2, g2, v2, w1, w2, -, w4, -⟩ := H 1 1 1 _ _ c hc _ _ r (exVelocity 1 1 1) (exDraws 1 1 1) false (by rw [e2])
  rw [e2] at w1 w4
  cases w1
  change (setTopology c (TopoState.init c) a (exDraws 1 1 1)).1.plGas = _ at w4
  rw [q4] at w4
  have hgg : g1 = g2 := congrFun (congrFun (congrFun (Option.some.inj w4) 0) 0) 0
  have h1 : at1 = atmosphereOf a := by
    rcases setTopology_cases hc (TopoState.init c) a (exDraws 1 1 1) with ⟨e', -⟩ | ⟨-, e', -⟩ | ⟨-, -, bb, -⟩
    · cases e'
    · cases e'
    · rw [bb.atmosphere] at q1; exact (Option.some.inj q1).symm
  subst h1
  obtain ⟨f1, f2⟩ := built_freq hc
  have hs := built_sin hc
  have t1 := (gasLoss_ok (el := c.elevationAngle) (a := atmosphereOf a) (by linarith) f2 (by linarith [hph.temperature]) hph.pressure hph.vapor hs).2.2
  have hph2 : (atmosphereOf (exVelocity 1 1 1)).Physical := by constructor <;> norm_num [atmosphereOf, exVelocity]
  have t2 := (gasLoss_ok (el := c.elevationAngle) (a := atmosphereOf (exVelocity 1 1 1)) (by linarith) f2 (by linarith [hph2.temperature])
    hph2.pressure hph2.vapor hs).2.2
  rw [q2] at t1
  rw [w2] at t2
  have t1 := Except.ok.inj t1
  have t2 := Except.ok.inj t2
  have a1 : (atmosphereOf a).temperature = 273 ∧ (atmosphereOf a).pressure = 1020 ∧ (atmosphereOf a).vaporDensity = 0 := ⟨rfl, rfl, rfl⟩
  have a2 : (atmosphereOf (exVelocity 1 1 1)).temperature = 273 ∧ (atmosphereOf (exVelocity 1 1 1)).pressure = 1020 ∧
    (atmosphereOf (exVelocity 1 1 1)).vaporDensity = 7.5 := ⟨rfl, rfl, rfl⟩
  rw [a1.1, a1.2.1, a1.2.2] at t1
  rw [a2.1, a2.2.1, a2.2.2] at t2
  have z : gasYw (c.carrierFrequency / 10 ^ 9) (288 / 273) (1020 / 1013) 0 = 0 := by unfold gasYw; simp
  have y := gasYw_pos (f := c.carrierFrequency / 10 ^ 9) (rt := 288 / 273) (rp := 1020 / 1013) (pw := 7.5) (by linarith) (by norm_num)
    (by norm_num) (by norm_num)
  have y2 := gasHw_pos (c.carrierFrequency / 10 ^ 9) (1020 / 1013)
  rw [z, zero_mul, add_zero] at t1
  rw [hgg, t2, div_left_inj' hs.ne'] at t1
  have := mul_pos y y2
  linarith

/-- The hypotheses of the C14 theorem are met by a first complete call. -/
example (h : mkScenario cls sa = .ok c) : AtmosphereFresh c (setTopology c (TopoState.init c) (exTopo 2 1 3) (exDraws 2 1 3)).1 :=
  C14_atmosphere_fresh_partial h _ _ _ true (exTopo_single h 2 3) (Or.inl (by simp [exTopo]))

/-! ### C15 -/

/-- With several BSs no LoS state is ever computed. -/
theorem los_multi (h : mkScenario cls sa = .ok c) (hN : N ≠ 1) (r : TopoReach c log s) : s.los = none := by
  induction r with
  | init => rfl
  | @call log s a d r ih =>
    rcases setTopology_cases h s a d with ⟨-, e⟩ | ⟨-, -, e⟩ | ⟨-, -, -, e2, -, -, ut, bs, i, h1, h2, -⟩
    · rw [e]; exact ih
    · rw [e]; exact ih
    · rw [e2, updateTopology_multi hN d h1 h2]; exact ih

/-- C15: in every state reached by any calls, an indoor UT is not in LoS; an outdoor UT has the LoS state passed most recently (by a
call not rejected by an assertion) if any was passed; otherwise it is in LoS exactly if the uniform number drawn in the most
recent relocating call is below the LoS probability. With one BS, LoS states exist as soon as a call was not rejected. -/
theorem C15_los_state (h : mkScenario cls sa = .ok c) (r : TopoReach c log s) :
    (∀ l, s.los = some l → ∃ pre e post i, ∃ p : ℝ, log = pre ++ e :: post ∧ TopoCall.accepted e ∧ TopoCall.relocates e ∧
      (∀ e' ∈ pre, TopoCall.accepted e' → ¬ TopoCall.relocates e') ∧
      s.inState = some i ∧ c.losProbability = .ok (p : WithBot ℝ) ∧ ∀ b n u,
        (i b u = true → l b n u = false) ∧
        (∀ v, latest TopoCall.accepted (·.1.los) log = some v → i b u = false → l b n u = v) ∧
        (latest TopoCall.accepted (·.1.los) log = none → i b u = false → (l b n u = true ↔ e.2.1.losU b n u < p))) ∧
    (N = 1 → (∃ e ∈ log, TopoCall.accepted e) → s.los ≠ none) := by
  constructor
  · intro l hl
    by_cases hN : N = 1
    · rcases fresh_invariant h hN r with ⟨-, e⟩ | ⟨pre, e, post, ut, bs, i, q1, q2, q3, q4, -, -, q7, q8⟩
      · rw [e] at hl; cases hl
      · obtain ⟨p, l', _, _, _, hp, hl', -, -, -, -, hs⟩ := q8.statistics
        have : l' = l := by rw [hl] at hl'; exact (Option.some.inj hl').symm
        subst this
        refine ⟨pre, e, post, i, p, q1, q2, q3, q4, q7, hp, fun b n u => ?_⟩
        have hiff := (hs b n u).1
        rw [(persisted_accepted h r).2] at hiff
        refine ⟨fun hi => ?_, fun v hv hi => ?_, fun hv hi => ?_⟩
        · rw [← Bool.not_eq_true, hiff, hi]; simp
        · rw [hv, hi] at hiff
          cases v
          · rw [← Bool.not_eq_true, hiff]; simp
          · rw [hiff]; simp
        · rw [hv, hi] at hiff
          rw [hiff]; simp
    · rw [los_multi h hN r] at hl; cases hl
  · rintro hN ⟨e, he, hacc⟩
    rcases fresh_invariant h hN r with ⟨hh, -⟩ | ⟨pre, e, post, ut, bs, i, q1, q2, q3, q4, -, -, q7, q8⟩
    · exact absurd hacc (hh e he)
    · obtain ⟨p, l', -, -, -, hp, hl', -⟩ := q8.statistics
      rw [hl']; simp

/-- Such a state: one complete call with a LoS request, one UT indoor and one outdoor. -/
example (h : mkScenario cls sa = .ok c) : ∃ (log : List (TopoCall 1 1 2)) (s : TopoState 1 1 2), TopoReach c log s ∧ s.los ≠ none ∧
    latest TopoCall.accepted (·.1.los) log = some true ∧ s.inState = some fun _ u => decide (u = 0) := by
  let a : TopoArgs 1 1 2 := { exTopo 1 1 2 with los := some true, inState := some fun _ u => decide (u = 0) }
  have e := complete_call h a (exDraws 1 1 2) (by constructor <;> norm_num [atmosphereOf, exTopo, a]) rfl rfl
  have r := TopoReach.call a (exDraws 1 1 2) (TopoReach.init (c := c))
  have hacc : TopoCall.accepted ((a, exDraws 1 1 2, (setTopology c (TopoState.init c) a (exDraws 1 1 2)).2) : TopoCall 1 1 2) := by
    rw [TopoCall.accepted, e]; simp
  refine ⟨_, _, r, (C15_los_state h r).2 rfl ⟨_, List.mem_cons_self, hacc⟩, ?_, ?_⟩
  · rw [latest_cons_counted hacc]; rfl
  · rw [((C10_arguments_persist_partial h r).1).inState, latest_cons_counted hacc]; rfl

/-! ### C22 -/

/-- The full claim of C22. -/
def C22_statement : Prop :=
  ∀ (B N U : ℕ) [NeZero B] (cls : ScenarioClass) (sa : ScenarioArgs) (c : Config), mkScenario cls sa = .ok c →
    ∀ (log : List (TopoCall B N U)) (s : TopoState B N U), TopoReach c log s → ∀ d3 bs, s.distance3d = some d3 → s.bsLoc = some bs →
      ∀ b n u, d3 b n u = distance3d c.elevationAngle (bs b n).z

/-- The distance that is really used. -/
theorem distance3d_first (h : mkScenario cls sa = .ok c) (hN : N = 1) (r : TopoReach c log s) {d3 : PerLink B N U ℝ} {bs : PerBs B N Vec3}
    (hd : s.distance3d = some d3) (hb : s.bsLoc = some bs) (b : Fin B) (n : Fin N) (u : Fin U) :
    d3 b n u = distance3d c.elevationAngle (bs 0 n).z := by
  rcases fresh_invariant h hN r with ⟨-, e⟩ | ⟨-, e, -, ut, bs', i, -, -, -, -, -, q6, -, q8⟩
  · rw [e] at hd; cases hd
  · rw [hb] at q6
    cases q6
    obtain ⟨d3', h1, h2⟩ := q8.distance3d
    rw [hd] at h1
    cases h1
    exact h2 b n u

/-- C22, what holds: the claim is true for the first batch example, and for every example whose satellite has the same altitude as
in the first (one BS; with more no distance is ever computed). Missing: other altitudes, see `C22_violated`. -/
theorem C22_altitude_partial (h : mkScenario cls sa = .ok c) (hN : N = 1) (r : TopoReach c log s) {d3 : PerLink B N U ℝ}
    {bs : PerBs B N Vec3} (hd : s.distance3d = some d3) (hb : s.bsLoc = some bs) (b : Fin B) (n : Fin N) (u : Fin U)
    (hz : b = 0 ∨ (bs b n).z = (bs 0 n).z) : d3 b n u = distance3d c.elevationAngle (bs b n).z := by
  rw [distance3d_first h hN r hd hb]
  rcases hz with rfl | hz
  · rfl
  · rw [hz]

/-- A batch of two topologies with satellites at 600 km and 1200 km. -/
noncomputable def exBatch : TopoArgs 2 1 1 :=
  { exTopo 2 1 1 with bsLoc := some fun b _ => ⟨0, 0, if b = 0 then 600000 else 1200000⟩ }

theorem exBatch_state (h : mkScenario cls sa = .ok c) : ∃ (log : List (TopoCall 2 1 1)) (s : TopoState 2 1 1), TopoReach c log s ∧
    s.bsLoc = exBatch.bsLoc ∧ ∃ d3, s.distance3d = some d3 := by
  have e := complete_call h exBatch (exDraws 2 1 1) (by constructor <;> norm_num [atmosphereOf, exTopo, exBatch]) rfl rfl
  have r := TopoReach.call exBatch (exDraws 2 1 1) (TopoReach.init (c := c))
  have hacc : TopoCall.accepted ((exBatch, exDraws 2 1 1, (setTopology c (TopoState.init c) exBatch (exDraws 2 1 1)).2) : TopoCall 2 1 1) := by
    rw [TopoCall.accepted, e]; simp
  refine ⟨_, _, r, ?_, ?_⟩
  · rw [((C10_arguments_persist_partial h r).1).bsLoc, latest_cons_counted hacc]; rfl
  · rcases fresh_invariant h rfl r with ⟨hh, -⟩ | ⟨-, e, -, ut, bs', i, -, -, -, -, -, q6, -, q8⟩
    · exact absurd hacc (hh _ List.mem_cons_self)
    · obtain ⟨d3', h1, -⟩ := q8.distance3d
      exact ⟨d3', h1⟩

/-- C22 fails: the second example of that batch gets the distance of the first. -/
theorem C22_violated : ¬ C22_statement := by
  intro H
  obtain ⟨c, hc⟩ := exConfig
  obtain ⟨log, s, r, hb, d3, hd⟩ := exBatch_state hc
  have h1 := H 2 1 1 _ _ c hc log s r d3 _ hd hb 1 0 0
  rw [distance3d_first hc rfl r hd hb] at h1
  have hel := (mkScenario_built hc).el_eq
  have := (C21_slant_range (el := c.elevationAngle) (h := 600000) (by rw [hel]; norm_num [exArgs]) (by rw [hel]; norm_num [exArgs]) (by norm_num)).2.2.2.2.2.2.2 1200000 (by norm_num)
  simp at h1
  linarith

/-- The hypotheses of the C22 theorem are met in that batch. -/
example (h : mkScenario cls sa = .ok c) : ∃ (log : List (TopoCall 2 1 1)) (s : TopoState 2 1 1), TopoReach c log s ∧
    s.bsLoc = exBatch.bsLoc ∧ ∃ d3, s.distance3d = some d3 := exBatch_state h

end OpenNTN
