import Verif.Lemmas.Config
import Verif.Lemmas.PosDef

/-
Lifting of checks over the finite set of parameter tables to all accepted configurations.
-/
namespace OpenNTN

def rows : List ℤ := [10, 20, 30, 40, 50, 60, 70, 80, 90]
def classes : List ScenarioClass := [.denseUrban, .urban, .subUrban]
def bools : List Bool := [true, false]

theorem mem_classes (c : ScenarioClass) : c ∈ classes := by cases c <;> simp [classes]
theorem mem_bools (b : Bool) : b ∈ bools := by cases b <;> simp [bools]

/-- Lookup with an explicit row. -/
def lookupAt (f : ParamFile) (p : Param) (k : ℤ) : Except Err Cell :=
  if ¬ (p = .pCPhiNLoS ∨ p = .pCThetaNLoS) then lookupAngle f p k else lookupScalar f p

def cellIs (P : ℤ → Bool) : Except Err Cell → Bool
  | .ok (.m n) => P n
  | _ => false

def isOk : Except Err Cell → Bool
  | .ok _ => true
  | _ => false

/-- A check over all tables (scenario class, LoS state, S band, uplink) and rows. -/
def tableAll (Q : ScenarioClass → Bool → Bool → Bool → ℤ → Bool) : Bool :=
  classes.all fun c => bools.all fun l => bools.all fun s => bools.all fun u => rows.all fun k => Q c l s u k

theorem tableAll_spec {Q : ScenarioClass → Bool → Bool → Bool → ℤ → Bool} (h : tableAll Q = true)
    (c : ScenarioClass) (l s u : Bool) {k : ℤ} (hk : k ∈ rows) : Q c l s u k = true := by
  simp only [tableAll, List.all_eq_true] at h
  exact h c (mem_classes c) l (mem_bools l) s (mem_bools s) u (mem_bools u) k hk

theorem lookupParam_eq (c : Config) (f : ParamFile) (p : Param) : c.lookupParam f p = lookupAt f p c.angleKey := by
  unfold Config.lookupParam lookupAt
  split_ifs <;> rfl

theorem isOk_spec {x : Except Err Cell} (h : isOk x = true) : ∃ v, x = .ok v := by
  cases x with
  | error e => simp [isOk] at h
  | ok v => exact ⟨v, rfl⟩

theorem cellIs_spec {P : ℤ → Bool} {x : Except Err Cell} (h : cellIs P x = true) : ∃ n, x = .ok (.m n) ∧ P n = true := by
  cases x with
  | error e => simp [cellIs] at h
  | ok v => cases v with
    | m n => exact ⟨n, rfl, h⟩
    | ninf => simp [cellIs] at h

/-- Thousandths in a table cell; only used where the cell is known to hold a number. -/
def milliAt (f : ParamFile) (p : Param) (k : ℤ) : ℤ :=
  match lookupAt f p k with
  | .ok (.m n) => n
  | _ => 0

theorem getParam_ok {c : Config} {p : Param} {vl vn : Cell} (hl : lookupAt c.paramsLos p c.angleKey = .ok vl)
    (hn : lookupAt c.paramsNlos p c.angleKey = .ok vn) (los : Bool) :
    c.getParam p los = .ok (if los then vl.val else vn.val) := by
  unfold Config.getParam
  rw [lookupParam_eq, lookupParam_eq, hl, hn]

theorem getReal_ok {c : Config} {p : Param} {nl nn : ℤ} (hl : lookupAt c.paramsLos p c.angleKey = .ok (.m nl))
    (hn : lookupAt c.paramsNlos p c.angleKey = .ok (.m nn)) (los : Bool) :
    c.getReal p los = .ok (((if los then nl else nn : ℤ) : ℝ) / 1000) := by
  unfold Config.getReal
  rw [getParam_ok hl hn]
  cases los <;> rfl

/-- The accepted configuration's tables and row. -/
theorem built_rows {cls : ScenarioClass} {a : ScenarioArgs} {c : Config} (h : mkScenario cls a = .ok c) :
    ∃ s u : Bool, c.angleKey ∈ rows ∧ (s = true ↔ Spec.SBand a.carrierFrequency) ∧ (u = true ↔ a.direction = "uplink") ∧
      c.paramsLos = tableOf cls true s u ∧ c.paramsNlos = tableOf cls false s u := by
  obtain ⟨s, u, k, hk, he, h1⟩ := built_table h
  exact ⟨s, u, by rw [he]; exact hk, h1⟩

/-- Lifting for `get_param` in real arithmetic, with the value tied to the table. -/
theorem getReal_table {cls : ScenarioClass} {a : ScenarioArgs} {c : Config} (h : mkScenario cls a = .ok c)
    (p : Param) (P : ScenarioClass → Bool → Bool → Bool → ℤ → Bool)
    (hc : tableAll (fun cl l s u k => cellIs (P cl l s u) (lookupAt (tableOf cl l s u) p k)) = true) (los : Bool) :
    ∃ s u : Bool, (u = true ↔ a.direction = "uplink") ∧ P cls los s u (milliAt (tableOf cls los s u) p c.angleKey) = true ∧
      c.getReal p los = .ok ((milliAt (tableOf cls los s u) p c.angleKey : ℝ) / 1000) := by
  obtain ⟨s, u, hk, -, hu, e1, e2⟩ := built_rows h
  obtain ⟨nl, hl, hPl⟩ := cellIs_spec (tableAll_spec hc cls true s u hk)
  obtain ⟨nn, hn, hPn⟩ := cellIs_spec (tableAll_spec hc cls false s u hk)
  refine ⟨s, u, hu, ?_, ?_⟩
  · cases los
    · simpa [milliAt, hn] using hPn
    · simpa [milliAt, hl] using hPl
  · rw [← e1] at hl
    rw [← e2] at hn
    rw [getReal_ok hl hn los]
    rw [e1] at hl; rw [e2] at hn
    cases los
    · simp [milliAt, hn]
    · simp [milliAt, hl]

/-- Same with a condition on the number only. -/
theorem getReal_check {cls : ScenarioClass} {a : ScenarioArgs} {c : Config} (h : mkScenario cls a = .ok c)
    (p : Param) (P : ℤ → Bool) (hc : tableAll (fun cl l s u k => cellIs P (lookupAt (tableOf cl l s u) p k)) = true)
    (los : Bool) : ∃ n : ℤ, P n = true ∧ c.getReal p los = .ok ((n : ℝ) / 1000) := by
  obtain ⟨s, u, -, hP, e⟩ := getReal_table h p (fun _ _ _ _ => P) hc los
  exact ⟨_, hP, e⟩

theorem getReal_getParam {c : Config} {p : Param} {los : Bool} {x : ℝ} (h : c.getReal p los = .ok x) :
    c.getParam p los = .ok (x : WithBot ℝ) := by
  unfold Config.getReal at h
  split at h
  · simp at h
  · simp at h
  · rename_i y hy
    injection h with h
    rw [hy, h]
    rfl

/-- Construction succeeds for arrays built for the carrier. -/
theorem mkScenario_ok (cls : ScenarioClass) {a : ScenarioArgs} (hd : a.direction = "uplink" ∨ a.direction = "downlink")
    (hf : Spec.SBand a.carrierFrequency ∨ Spec.KaBand a.carrierFrequency) (hu : a.utArray = panelFor a.carrierFrequency)
    (hb : a.bsArray = panelFor a.carrierFrequency) (h1 : 10 ≤ a.elevationAngle) (h2 : a.elevationAngle ≤ 90) :
    ∃ c, mkScenario cls a = .ok c := by
  rcases mkScenario_spec cls a with ⟨c, h, -⟩ | ⟨-, h⟩
  · exact ⟨c, h⟩
  · exact absurd ⟨hd, hf, hu, hb, h1, h2⟩ h

/-- Example arguments, used to show that hypotheses can be met. -/
noncomputable def exArgs (fc : ℝ) (dir : String) (el : ℝ) : ScenarioArgs :=
  { carrierFrequency := fc, utArray := panelFor fc, bsArray := panelFor fc, direction := dir, elevationAngle := el }

theorem exArgs_ok (cls : ScenarioClass) (up : Bool) (ka : Bool) (el : ℝ) (h1 : 10 ≤ el) (h2 : el ≤ 90) :
    ∃ c, mkScenario cls (exArgs (if ka then 20000000000 else 2000000000) (if up then "uplink" else "downlink") el) = .ok c := by
  apply mkScenario_ok
  · cases up <;> simp [exArgs]
  · cases ka <;> simp [exArgs, Spec.SBand, Spec.KaBand] <;> norm_num
  · rfl
  · rfl
  · exact h1
  · exact h2

end OpenNTN
