import Verif.Props.TopoGen
import Verif.Props.DopplerSpectrum

/-
C203: only heights of satellites are accepted. The check of utils.py 1149-1153 is commented out, and so are its tests
(test/step_1_test.py 286-325); its message names the range.
-/
namespace OpenNTN

open Classical Spec

variable {B U : ℕ}

/-- Heights of satellites: TR 38.811, Table 4.5-1, as quoted in utils.py 1149-1153. -/
def Spec.SatelliteHeight (h : ℝ) : Prop := 600000 ≤ h ∧ h ≤ 36000000

/-- The full claim of C203: a topology is generated for heights of satellites only. -/
def C203_statement : Prop :=
  ∀ (B U : ℕ) (scenario : String) (a : GenArgs) (w : DropDraws B U) (p : GenParams) (t : GenTopology B U), UnitDraws w →
    setScenarioParameters scenario a = .ok p → genSingleSector scenario a w = .ok t → SatelliteHeight p.bsHeight

/-- C203, what holds: the heights used without a request are those of satellites, for a requested height of a satellite there is a topology with the
satellite at this height, and below the range a link has neither Faraday rotation nor a Doppler shift of the satellite. Missing: other heights are not
refused, see `C203_violated`. -/
theorem C203_height_partial {scenario : String} {a : GenArgs} {p : GenParams} (hp : setScenarioParameters scenario a = .ok p) :
    (a.bsHeight = none → SatelliteHeight p.bsHeight) ∧
    (SatelliteHeight p.bsHeight → 0 < p.elevation → p.elevation ≤ 90 → ∀ (B U : ℕ) (w : DropDraws B U), UnitDraws w →
      ∃ t, genSingleSector scenario a w = .ok t ∧ ∀ b n, (t.bsLoc b n).z = p.bsHeight) ∧
    ∀ (g : CoeffGen) (l : LinkTopo), l.bsHeight = p.bsHeight → p.bsHeight < 600000 → ∀ (aoa zoa aod zod t v : ℝ) (P : Matrix (Fin 2) (Fin 2) ℂ),
      dopplerExponent g l aoa zoa aod zod t = dopplerExponent g { l with satSpeed := v } aoa zoa aod zod t ∧ withFaraday g l P = P := by
  refine ⟨fun hn => ?_, fun hh h0 h1 B U w hw => ?_, fun g l hl hlt aoa zoa aod zod t v P => ?_⟩
  · unfold setScenarioParameters at hp
    cases hd : scenarioDefaults scenario with
    | none => rw [hd] at hp; cases hp
    | some d =>
      rw [hd] at hp
      injection hp with hp
      rw [← hp]
      dsimp only
      rw [hn, Option.getD_none]
      unfold scenarioDefaults at hd
      repeat' (split at hd)
      all_goals first | cases hd | skip
      all_goals exact ⟨by norm_num, by norm_num⟩
  · obtain ⟨t, ht⟩ := genSingleSector_ok w hp (by linarith [hh.1]) h0 h1 hw.xBase
    obtain ⟨p', xy, e1, -, e2, -⟩ := genSingleSector_eq ht
    rw [hp] at e1
    cases e1
    exact ⟨t, ht, fun b n => by rw [e2]⟩
  · have hlow : ¬ (600000 ≤ l.bsHeight) := by rw [hl]; linarith
    constructor
    · simp only [dopplerExponent, hlow, false_and, if_false]
    · exact if_neg hlow

/-- The hypotheses of C203 can be met. -/
example : setScenarioParameters "urb" { bsHeight := some 1200000 } = .ok ⟨500, 1200000, 80, 1.5, 1.5, 0, 0, 0⟩ ∧ SatelliteHeight 1200000 ∧ UnitDraws (exDrop 2 3) :=
  ⟨by simp [setScenarioParameters, scenarioDefaults], ⟨by norm_num, by norm_num⟩, by constructor <;> simp [exDrop] <;> norm_num⟩

/-- Every non-negative height is accepted, also 400 km and 37000 km as in the disabled tests. -/
theorem height_accepted (h : ℝ) (hh : 0 ≤ h) : ∃ t, genSingleSector "urb" { bsHeight := some h } (exDrop 1 1) = .ok t := by
  have hp : setScenarioParameters "urb" { bsHeight := some h } = .ok ⟨500, h, 80, 1.5, 1.5, 0, 0, 0⟩ := by simp [setScenarioParameters, scenarioDefaults]
  exact genSingleSector_ok (exDrop 1 1) hp hh (by norm_num) (by norm_num) (by norm_num [exDrop])

/-- C203 fails at 400 km. -/
theorem C203_violated : ¬ C203_statement := by
  intro H
  have hw : UnitDraws (exDrop 1 1) := by constructor <;> simp [exDrop] <;> norm_num
  have hp : setScenarioParameters "urb" { bsHeight := some 400000 } = .ok ⟨500, 400000, 80, 1.5, 1.5, 0, 0, 0⟩ := by
    simp [setScenarioParameters, scenarioDefaults]
  obtain ⟨t, ht⟩ := height_accepted 400000 (by norm_num)
  have := (H 1 1 _ _ _ _ t hw hp ht).1
  norm_num at this

end OpenNTN
