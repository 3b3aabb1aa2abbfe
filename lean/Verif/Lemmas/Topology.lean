import Verif.Model.Topology
import Verif.Spec.Topology
import Verif.Props.Config
import Verif.Props.Pathloss

namespace OpenNTN

variable {B N U : ℕ} {cls : ScenarioClass} {sa : ScenarioArgs} {c : Config}

/-- Two states with the same directly assigned attributes. -/
structure SameBase (s t : TopoState B N U) : Prop where
  utLoc : t.utLoc = s.utLoc
  bsLoc : t.bsLoc = s.bsLoc
  utOri : t.utOri = s.utOri
  bsOri : t.bsOri = s.bsOri
  utVel : t.utVel = s.utVel
  inState : t.inState = s.inState
  requestedLos : t.requestedLos = s.requestedLos
  doppler : t.doppler = s.doppler
  atmosphere : t.atmosphere = s.atmosphere

theorem SameBase.refl (s : TopoState B N U) : SameBase s s := by constructor <;> rfl

theorem SameBase.trans {s t r : TopoState B N U} (h : SameBase s t) (h' : SameBase t r) : SameBase s r := by
  constructor
  · rw [h'.1, h.1]
  · rw [h'.2, h.2]
  · rw [h'.3, h.3]
  · rw [h'.4, h.4]
  · rw [h'.5, h.5]
  · rw [h'.6, h.6]
  · rw [h'.7, h.7]
  · rw [h'.8, h.8]
  · rw [h'.9, h.9]

theorem andThen_base {s : TopoState B N U} {r : Step B N U} {f : TopoState B N U → Step B N U} (h : SameBase s r.1)
    (hf : ∀ t, SameBase t (f t).1) : SameBase s (r.andThen f).1 := by
  unfold Step.andThen
  split
  · exact h
  · exact h.trans (hf _)

theorem computeDistances_base [NeZero B] (s : TopoState B N U) : SameBase s (computeDistances c s).1 := by
  unfold computeDistances
  split
  · dsimp only
    split <;> (constructor <;> rfl)
  · exact .refl _

theorem sampleIndoorDistance_base (d : TopoDraws B N U) (s : TopoState B N U) : SameBase s (sampleIndoorDistance d s).1 := by
  unfold sampleIndoorDistance
  split
  · constructor <;> rfl
  · exact .refl _

theorem sampleLos_base (d : TopoDraws B N U) (s : TopoState B N U) : SameBase s (sampleLos c d s).1 := by
  unfold sampleLos
  split
  · exact .refl _
  · split
    · constructor <;> rfl
    · split
      · exact .refl _
      · exact .refl _
      · constructor <;> rfl

theorem computeLspLogMeanStd_base (s : TopoState B N U) : SameBase s (computeLspLogMeanStd c s).1 := by
  unfold computeLspLogMeanStd
  split
  · split
    · exact .refl _
    · split
      · exact .refl _
      · constructor <;> rfl
  · exact .refl _

theorem computePathlossBasic_base (d : TopoDraws B N U) (s : TopoState B N U) : SameBase s (computePathlossBasic c d s).1 := by
  unfold computePathlossBasic
  split
  · dsimp only
    split <;> constructor <;> rfl
  · exact .refl _

theorem computePathlossGas_base (s : TopoState B N U) : SameBase s (computePathlossGas c s).1 := by
  unfold computePathlossGas
  split
  · split
    · exact .refl _
    · constructor <;> rfl
  · exact .refl _

theorem computePathlossEntry_base (s : TopoState B N U) : SameBase s (computePathlossEntry s).1 := by
  unfold computePathlossEntry
  split
  · constructor <;> rfl
  · exact .refl _

theorem computePathlossScint_base (s : TopoState B N U) : SameBase s (computePathlossScint c s).1 := by
  unfold computePathlossScint
  split
  · split
    · exact .refl _
    · constructor <;> rfl
  · exact .refl _

/-- The update does not touch the directly assigned attributes. -/
theorem updateTopology_base [NeZero B] (d : TopoDraws B N U) (s : TopoState B N U) : SameBase s (updateTopology c d s).1 := by
  unfold updateTopology
  exact andThen_base (andThen_base (andThen_base (andThen_base (andThen_base (andThen_base (andThen_base
    (computeDistances_base s) (sampleIndoorDistance_base d)) (sampleLos_base d)) computeLspLogMeanStd_base)
    (computePathlossBasic_base d)) computePathlossGas_base) computePathlossEntry_base) computePathlossScint_base

/-- What the table of a constructed scenario provides to the update. -/
theorem update_tables (h : mkScenario cls sa = .ok c) :
    (∃ p : ℝ, c.losProbability = .ok (p : WithBot ℝ)) ∧
    (∃ m, bothStates (lspLogMean c) = .ok m ∧ ∀ l, lspLogMean c l = .ok (m l)) ∧
    (∃ st, bothStates (fun near => bothStates fun l => lspLogStd c l near) = .ok st ∧ ∀ near l, lspLogStd c l near = .ok (st near l)) ∧
    (∃ cl sl sn, c.rowReal c.paramsNlos .pCL = .ok cl ∧ c.rowReal c.paramsLos .psigmaSF = .ok sl ∧
      c.rowReal c.paramsNlos .psigmaSF = .ok sn) := by
  refine ⟨?_, ?_, ?_, ?_⟩
  · obtain ⟨⟨p, hp, -⟩, -⟩ := C04_admissible_values h
    exact ⟨p, hp⟩
  · have ex : ∀ l, ∃ m, lspLogMean c l = .ok m := fun l => by
      obtain ⟨m, _, _, _, _, e, -⟩ := lspLogMean_ok h l
      exact ⟨m, e⟩
    obtain ⟨m1, e1⟩ := ex true
    obtain ⟨m2, e2⟩ := ex false
    refine ⟨fun l => if l then m1 else m2, by unfold bothStates; rw [e1, e2], fun l => ?_⟩
    cases l <;> simp [e1, e2]
  · obtain ⟨m1, e1, -⟩ := lspLogStd_ok h true true
    obtain ⟨m2, e2, -⟩ := lspLogStd_ok h true false
    obtain ⟨m3, e3, -⟩ := lspLogStd_ok h false true
    obtain ⟨m4, e4, -⟩ := lspLogStd_ok h false false
    refine ⟨fun near l => if near then (if l then m1 else m3) else (if l then m2 else m4), ?_, fun near l => ?_⟩
    · unfold bothStates; dsimp only; rw [e1, e2, e3, e4]; dsimp only
      congr 1; funext x y; cases x <;> rfl
    · cases l <;> cases near <;> simp [e1, e2, e3, e4]
  · obtain ⟨s, u, hk, -, -, e1, e2⟩ := built_rows h
    obtain ⟨nl, hl, pl⟩ := cellIs_spec (tableAll_spec sf_cells cls true s u hk)
    obtain ⟨nn, hn, pn⟩ := cellIs_spec (tableAll_spec sf_cells cls false s u hk)
    obtain ⟨nc, hc, pc⟩ := cellIs_spec (tableAll_spec cl_cells cls false s u hk)
    rw [← e1] at hl
    rw [← e2] at hn hc
    exact ⟨_, _, _, rowReal_of (by decide) hc, rowReal_of (by decide) hl, rowReal_of (by decide) hn⟩

/-- More than one BS: only the planar distances are written. -/
theorem updateTopology_multi [NeZero B] (hN : N ≠ 1) (d : TopoDraws B N U) {s : TopoState B N U} {ut : PerUt B U Vec3} {bs : PerBs B N Vec3}
    (h1 : s.utLoc = some ut) (h2 : s.bsLoc = some bs) :
    updateTopology c d s = ({ s with distance2d := some fun b n u => distance2d (ut b u) (bs b n) }, some .invalidArgument) := by
  unfold updateTopology computeDistances
  rw [h1, h2]
  dsimp only
  rw [dif_neg hN]
  rfl

/-- One BS: everything up to the basic path loss is computed. -/
theorem updateTopology_single [NeZero B] (h : mkScenario cls sa = .ok c) (hN : N = 1) (d : TopoDraws B N U) {s : TopoState B N U}
    {ut : PerUt B U Vec3} {bs : PerBs B N Vec3} {i : PerUt B U Bool} (h1 : s.utLoc = some ut) (h2 : s.bsLoc = some bs)
    (h3 : s.inState = some i) :
    ∃ t : TopoState B N U, Spec.UpToDate c t ut bs i s.requestedLos d ∧ SameBase s t ∧ t.plGas = s.plGas ∧ t.plEntry = s.plEntry ∧
      t.plScint = s.plScint ∧
      updateTopology c d s = ((computePathlossGas c t).andThen computePathlossEntry).andThen (computePathlossScint c) := by
  subst hN
  obtain ⟨⟨p, hp⟩, ⟨m, em, hm⟩, ⟨st, es, hst⟩, cl, sl, sn, ec, el, en⟩ := update_tables h
  let l : PerLink B 1 U Bool := fun b n u =>
    match s.requestedLos with
    | some r => r && !i b u
    | none => sampleBernoulli (d.losU b n u) p && !i b u
  let d3 := distance3d c.elevationAngle (bs 0 0).z
  let t : TopoState B 1 U := { s with
    distance2d := some fun b n u => distance2d (ut b u) (bs b n)
    distance3d := some fun _ _ _ => d3
    angles := some fun b n u => losAngles (ut b u) (bs b n)
    utDistance := some fun b => utDistance2d (fun u => (ut b u).x) (fun u => (ut b u).y)
    indoorDist := some fun b n u => indoorSplit (i b u) (d.indoor b n u) (distance2d (ut b u) (bs b n)) d3
    los := some l
    lspMean := some fun b n u => m (l b n u)
    lspStd := some fun b n u => st (nearBreakpoint c (ut b u) (bs b n) (distance2d (ut b u) (bs b n))) (l b n u)
    zodOff := some fun b n u => zodOffset (l b n u) (distance2d (ut b u) (bs b n))
    plBasic := some fun b n u => basicLossWith c cl sl sn (l b n u) d3 (d.zLos b n u) (d.zNlos b n u)
    plFree := some fun _ _ _ => freeSpaceLoss c.carrierFrequency d3 }
  refine ⟨t, ?_, by constructor <;> rfl, rfl, rfl, rfl, ?_⟩
  · refine ⟨rfl, ⟨_, rfl, fun b n u => ?_⟩, rfl, ⟨_, rfl, fun b u v => ?_⟩, ⟨_, rfl, fun b n u => ?_⟩,
      ⟨_, rfl, fun b n u => ?_⟩, p, l, _, _, _, hp, rfl, rfl, rfl, rfl, rfl, fun b n u => ⟨?_, hm _, ⟨_, ?_, hst _ _⟩, ?_⟩⟩
    · rw [Subsingleton.elim n 0]
    · unfold utDistance2d
      congr 1
      ring
    · rw [Subsingleton.elim n 0]
    · rw [Subsingleton.elim n 0]
    · show (match s.requestedLos with | some r => r && !i b u | none => sampleBernoulli (d.losU b n u) p && !i b u) = true ↔ _
      rcases s.requestedLos with _ | r
      · simp [sampleBernoulli, and_comm]
      · simp [and_comm]
    · unfold nearBreakpoint; rw [decide_eq_true_eq]
    · unfold basicLoss
      rw [ec, el, en, Subsingleton.elim n 0]
      rfl
  · unfold updateTopology
    have e1 : computeDistances c s = ({ s with
        distance2d := some fun b n u => distance2d (ut b u) (bs b n)
        distance3d := some fun _ _ _ => d3
        angles := some fun b n u => losAngles (ut b u) (bs b n)
        utDistance := some fun b => utDistance2d (fun u => (ut b u).x) (fun u => (ut b u).y) }, none) := by
      unfold computeDistances
      rw [h1, h2]
      rfl
    rw [e1]
    have e2 : ∀ (x : TopoState B 1 U) (f), Step.andThen (x, none) f = f x := fun _ _ => rfl
    rw [e2]
    have e3 : ∀ x : TopoState B 1 U, x.inState = some i → x.distance2d = some (fun b n u => distance2d (ut b u) (bs b n)) →
        x.distance3d = some (fun _ _ _ => d3) → sampleIndoorDistance d x = ({ x with
        indoorDist := some fun b n u => indoorSplit (i b u) (d.indoor b n u) (distance2d (ut b u) (bs b n)) d3 }, none) := by
      intro x q1 q2 q3
      unfold sampleIndoorDistance
      rw [q1, q2, q3]
    have e4 : ∀ x : TopoState B 1 U, x.inState = some i → x.requestedLos = s.requestedLos →
        sampleLos c d x = ({ x with los := some l }, none) := by
      intro x q1 q2
      unfold sampleLos
      rw [q1, q2]
      dsimp only [l]
      rcases s.requestedLos with _ | r
      · dsimp only; rw [hp]
      · rfl
    have e5 : ∀ x : TopoState B 1 U, x.utLoc = some ut → x.bsLoc = some bs → x.los = some l →
        x.distance2d = some (fun b n u => distance2d (ut b u) (bs b n)) →
        computeLspLogMeanStd c x = ({ x with
          lspMean := some fun b n u => m (l b n u)
          lspStd := some fun b n u => st (nearBreakpoint c (ut b u) (bs b n) (distance2d (ut b u) (bs b n))) (l b n u)
          zodOff := some fun b n u => zodOffset (l b n u) (distance2d (ut b u) (bs b n)) }, none) := by
      intro x q1 q2 q3 q4
      unfold computeLspLogMeanStd
      rw [q1, q2, q3, q4]
      dsimp only
      rw [em]
      dsimp only
      rw [es]
    have e6 : ∀ x : TopoState B 1 U, x.distance3d = some (fun _ _ _ => d3) → x.los = some l →
        computePathlossBasic c d x = ({ x with
          plBasic := some fun b n u => basicLossWith c cl sl sn (l b n u) d3 (d.zLos b n u) (d.zNlos b n u)
          plFree := some fun _ _ _ => freeSpaceLoss c.carrierFrequency d3 }, none) := by
      intro x q1 q2
      unfold computePathlossBasic
      rw [q1, q2]
      dsimp only
      rw [ec, el, en]
    rw [e3, e2, e4, e2, e5, e2, e6, e2]
    all_goals first | rfl | exact h1 | exact h2 | exact h3

theorem Spec.UpToDate.congr [NeZero B] {t t' : TopoState B N U} {ut : PerUt B U Vec3} {bs : PerBs B N Vec3} {i : PerUt B U Bool}
    {req : Option Bool} {d : TopoDraws B N U} (h : Spec.UpToDate c t ut bs i req d) (e1 : t'.distance2d = t.distance2d)
    (e2 : t'.distance3d = t.distance3d) (e3 : t'.angles = t.angles) (e4 : t'.utDistance = t.utDistance)
    (e5 : t'.indoorDist = t.indoorDist) (e6 : t'.los = t.los) (e7 : t'.lspMean = t.lspMean) (e8 : t'.lspStd = t.lspStd)
    (e9 : t'.zodOff = t.zodOff) (e10 : t'.plBasic = t.plBasic)
    (e11 : t'.plFree = t.plFree) : Spec.UpToDate c t' ut bs i req d := by
  obtain ⟨h1, h2, h3, h4, h5, h7, h6⟩ := h
  refine ⟨by rw [e1, h1], by rw [e2]; exact h2, by rw [e3, h3], by rw [e4]; exact h4, by rw [e5]; exact h5, by rw [e11]; exact h7, ?_⟩
  rw [e6, e7, e8, e9, e10]
  exact h6

/-- The outcome of the update for one BS. -/
theorem updateTopology_one [NeZero B] (h : mkScenario cls sa = .ok c) (hN : N = 1) (d : TopoDraws B N U) {s : TopoState B N U}
    {ut : PerUt B U Vec3} {bs : PerBs B N Vec3} {i : PerUt B U Bool} {at' : Atmosphere} (h1 : s.utLoc = some ut) (h2 : s.bsLoc = some bs)
    (h3 : s.inState = some i) (h4 : s.atmosphere = some at') :
    Spec.UpToDate c (updateTopology c d s).1 ut bs i s.requestedLos d ∧ (updateTopology c d s).2 ≠ some .assertion ∧
    (∀ g v, gasLoss (c.carrierFrequency / 10 ^ 9) c.elevationAngle at' = .ok g →
      scintLoss (c.carrierFrequency / 10 ^ 9) c.elevationAngle at' = .ok v →
      (updateTopology c d s).2 = none ∧ (updateTopology c d s).1.plGas = some (fun _ _ _ => g) ∧
      (updateTopology c d s).1.plEntry = some (fun _ _ _ => entryLoss) ∧
      (updateTopology c d s).1.plScint = some (fun _ _ _ => v)) ∧
    ((updateTopology c d s).2 = none → ∃ g v, gasLoss (c.carrierFrequency / 10 ^ 9) c.elevationAngle at' = .ok g ∧
      scintLoss (c.carrierFrequency / 10 ^ 9) c.elevationAngle at' = .ok v) := by
  obtain ⟨t, ht, hs, -, -, -, e⟩ := updateTopology_single h hN d h1 h2 h3
  have ha : t.atmosphere = some at' := by rw [hs.atmosphere, h4]
  obtain ⟨p, l, -, -, -, -, hl, -⟩ := ht.statistics
  rw [e]
  have e1 : computePathlossGas c t = (match gasLoss (c.carrierFrequency / 10 ^ 9) c.elevationAngle at' with
      | .error e => (t, some e)
      | .ok g => ({ t with plGas := some fun _ _ _ => g }, none)) := by
    unfold computePathlossGas; rw [ha, hl]; dsimp only; rw [← ha, ← hl]; rfl
  rcases hg : gasLoss (c.carrierFrequency / 10 ^ 9) c.elevationAngle at' with er | g
  · rw [hg] at e1
    dsimp only at e1
    rw [e1]
    refine ⟨ht, ?_, fun g v he => (by cases he), fun he => (by cases he)⟩
    unfold gasLoss at hg
    split at hg
    · cases hg; simp [Step.andThen]
    · cases hg
  · rw [hg] at e1
    dsimp only at e1
    rw [e1]
    have e2 : (Step.andThen ({ t with plGas := some fun _ _ _ => g }, none) computePathlossEntry) =
        ({ t with plGas := some fun _ _ _ => g, plEntry := some fun _ _ _ => entryLoss }, none) := by
      show computePathlossEntry _ = _
      unfold computePathlossEntry; dsimp only; rw [hl]
    rw [e2]
    have e3 : (Step.andThen ({ t with plGas := some fun _ _ _ => g, plEntry := some fun _ _ _ => entryLoss }, none)
        (computePathlossScint c)) = (match scintLoss (c.carrierFrequency / 10 ^ 9) c.elevationAngle at' with
      | .error e => ({ t with plGas := some fun _ _ _ => g, plEntry := some fun _ _ _ => entryLoss }, some e)
      | .ok v => ({ t with plGas := some fun _ _ _ => g, plEntry := some fun _ _ _ => entryLoss, plScint := some fun _ _ _ => v },
          none)) := by
      show computePathlossScint c _ = _
      unfold computePathlossScint; dsimp only; rw [ha, hl]; dsimp only; rw [← ha, ← hl]; rfl
    rw [e3]
    rcases hv : scintLoss (c.carrierFrequency / 10 ^ 9) c.elevationAngle at' with er | v
    · refine ⟨ht.congr rfl rfl rfl rfl rfl rfl rfl rfl rfl rfl rfl, ?_, fun g' v' _ he => (by cases he), fun he => (by cases he)⟩
      unfold scintLoss at hv
      split at hv
      · dsimp only at hv
        split at hv
        · cases hv; simp
        · split at hv <;> cases hv
      · cases hv
    · refine ⟨ht.congr rfl rfl rfl rfl rfl rfl rfl rfl rfl rfl rfl, by simp, ?_, fun _ => ⟨g, v, rfl, rfl⟩⟩
      rintro g' v' ⟨⟩ ⟨⟩
      exact ⟨rfl, rfl, rfl, rfl⟩

theorem assign_isSome {α : Type} (x y : Option α) : (assign x y).isSome = (x.isSome || y.isSome) := by
  cases x <;> simp [assign]

/-- The three outcomes of a call. -/
theorem setTopology_cases [NeZero B] (h : mkScenario cls sa = .ok c) (s : TopoState B N U) (a : TopoArgs B N U) (d : TopoDraws B N U) :
    (assertsHold s a = false ∧ setTopology c s a d = (s, .error .assertion)) ∨
    (assertsHold s a = true ∧ needForUpdate a = false ∧ setTopology c s a d = (storeArgs s a, .ok false)) ∨
    (assertsHold s a = true ∧ needForUpdate a = true ∧ SameBase (storeArgs s a) (setTopology c s a d).1 ∧
      (setTopology c s a d).1 = (updateTopology c d (storeArgs s a)).1 ∧
      (setTopology c s a d).2 = (match (updateTopology c d (storeArgs s a)).2 with | none => .ok true | some e => .error e) ∧
      (setTopology c s a d).2 ≠ .error .assertion ∧
      ∃ ut bs i, (storeArgs s a).utLoc = some ut ∧ (storeArgs s a).bsLoc = some bs ∧ (storeArgs s a).inState = some i) := by
  unfold setTopology
  cases ha : assertsHold s a
  · left; simp
  right
  cases hn : needForUpdate a
  · left; simp
  right
  have hb := updateTopology_base (c := c) d (storeArgs s a)
  simp only [assertsHold, Bool.and_eq_true, ← assign_isSome] at ha
  obtain ⟨⟨⟨⟨⟨a1, a2⟩, a3⟩, -⟩, -⟩, -⟩ := ha
  obtain ⟨ut, h1⟩ := Option.isSome_iff_exists.1 a1
  obtain ⟨bs, h2⟩ := Option.isSome_iff_exists.1 a2
  obtain ⟨i, h3⟩ := Option.isSome_iff_exists.1 a3
  have hne : (updateTopology c d (storeArgs s a)).2 ≠ some .assertion := by
    by_cases hN : N = 1
    · exact (updateTopology_one h hN d (s := storeArgs s a) h1 h2 h3 rfl).2.1
    · rw [updateTopology_multi (s := storeArgs s a) hN d h1 h2]; simp
  simp only [if_true]
  rcases hu : updateTopology c d (storeArgs s a) with ⟨t, _ | e⟩
  · rw [hu] at hb
    exact ⟨trivial, trivial, hb, rfl, rfl, by simp, ut, bs, i, h1, h2, h3⟩
  · rw [hu] at hb hne
    refine ⟨trivial, trivial, hb, rfl, rfl, ?_, ut, bs, i, h1, h2, h3⟩
    simp only [ne_eq, Except.error.injEq]
    intro hh; exact hne (by rw [hh])

end OpenNTN
