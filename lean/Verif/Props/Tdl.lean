import Mathlib.Tactic.FieldSimp
import Mathlib.Tactic.Linarith
import Mathlib.Tactic.LinearCombination
import Mathlib.Tactic.NormNum
import Mathlib.Tactic.Positivity
import Verif.Lemmas.Phases
import Verif.Lemmas.Cholesky
import Verif.Model.Tdl

/-
C78, C79, C86-C89: the tapped delay line model.
-/
namespace OpenNTN

open Classical Matrix

/-! ### Construction -/

/-- What a constructed object contains. -/
theorem tdlInit_ok {a : TdlArgs} {t : Tdl} (h : tdlInit a = .ok t) :
    ∃ tab spread, tdlFile a.model a.delaySpread = .ok (some tab, spread) ∧ tdlLoad tab = .ok t.params ∧ t.delaySpread = spread ∧
      t.numSinusoids = a.numSinusoids ∧ a.numSinusoids ≠ 0 ∧ t.losAngle = a.losAngle ∧ a.minSpeed ≤ a.maxSpeed.getD a.minSpeed ∧
      160000 ≤ a.basestationHeight ∧
      t.minDoppler = tdlDoppler a.basestationHeight a.elevationAngle a.carrierFrequency a.minSpeed ∧
      t.maxDoppler = tdlDoppler a.basestationHeight a.elevationAngle a.carrierFrequency (a.maxSpeed.getD a.minSpeed) := by
  unfold tdlInit at h
  rcases hf : tdlFile a.model a.delaySpread with e | ⟨file, spread⟩
  · rw [hf] at h; cases h
  rw [hf] at h
  simp only [bind, Except.bind] at h
  split at h
  · cases h
  rename_i h1
  split at h
  · cases h
  rcases file with _ | tab
  · cases h
  dsimp only at h
  rcases hl : tdlLoad tab with e | p
  · rw [hl] at h; cases h
  rw [hl] at h
  dsimp only at h
  split at h
  · cases h
  rename_i h3
  split at h
  · cases h
  rename_i h4
  cases h
  exact ⟨tab, spread, rfl, hl, rfl, rfl, h4, rfl, not_not.1 h3, not_not.1 h1, rfl, rfl⟩

theorem tdlFile_mem {m : String} {d : ℝ} {tab : TdlTable} {s : ℝ} (h : tdlFile m d = .ok (some tab, s)) :
    tab ∈ [tdlA, tdlB, tdlC, tdlD, tdlA30, tdlB100, tdlC300] := by
  unfold tdlFile at h
  repeat' (split at h)
  all_goals first
    | (cases h; done)
    | (cases h; simp)

/-! ### C78 -/

/-- Linear value of a power in dB (stored in ten-thousandths). -/
noncomputable def Spec.linear (p : ℤ) : ℝ := (10 : ℝ) ^ ((p : ℝ) / 100000)

/-- Powers of the taps as in the file; with LoS the first two entries are the specular and the scattered part of the first tap. -/
noncomputable def Spec.tapPowers (los : Bool) (powers : List ℤ) : List ℝ :=
  match los, powers with
  | true, p :: q :: rest => (Spec.linear p + Spec.linear q) :: rest.map Spec.linear
  | _, ps => ps.map Spec.linear

theorem linear_eq (p : ℤ) : pow10 (tableVal p / 10) = Spec.linear p := by
  unfold pow10 tableVal Spec.linear
  congr 1
  ring

theorem linear_pos (p : ℤ) : 0 < Spec.linear p := Real.rpow_pos_of_pos (by norm_num) _

theorem map_linear_pos : ∀ (l : List ℤ), ∀ x ∈ l.map Spec.linear, 0 < x := by
  intro l x hx
  obtain ⟨p, -, rfl⟩ := List.mem_map.1 hx
  exact linear_pos p

theorem sum_div_eq (l : List ℝ) (n : ℝ) : (l.map (· / n)).sum = l.sum / n := by
  induction l with
  | nil => simp
  | cons a l ih => simp [ih, add_div]

theorem sum_pos_of_pos : ∀ (l : List ℝ), l ≠ [] → (∀ x ∈ l, 0 < x) → 0 < l.sum
  | [], h, _ => absurd rfl h
  | [a], _, h => by simpa using h a (by simp)
  | a :: b :: l, _, h => by
    have := sum_pos_of_pos (b :: l) (by simp) fun x hx => h x (by simp at hx ⊢; tauto)
    have h2 := h a (by simp)
    rw [List.sum_cons]
    linarith

/-- The reported powers are those of the file divided by their sum. -/
theorem tdl_mean {tab : TdlTable} {t : Tdl} (hl : tdlLoad tab = .ok t.params) (hlen : tab.los = true → 2 ≤ tab.powers.length) :
    t.meanPowers = .ok ((Spec.tapPowers tab.los tab.powers).map (· / (Spec.tapPowers tab.los tab.powers).sum)) := by
  unfold tdlLoad at hl
  simp only [linear_eq] at hl
  unfold Tdl.meanPowers Spec.tapPowers
  by_cases hlos : tab.los = true
  · rw [if_pos hlos] at hl
    have h2 := hlen hlos
    rcases hp : tab.powers with _ | ⟨p, _ | ⟨q, rest⟩⟩
    · simp [hp] at h2
    · simp [hp] at h2
    rw [hp] at hl
    simp only [List.map_cons] at hl
    cases ht : t.params
    rw [ht] at hl
    cases hl
    dsimp only
    rw [hlos]
    simp only [if_true, List.map_cons, List.sum_cons]
    have e : Spec.linear q + (rest.map Spec.linear).sum + Spec.linear p = Spec.linear p + Spec.linear q + (rest.map Spec.linear).sum := by ring
    rw [e, ← add_div, add_comm (Spec.linear q)]
  · rw [if_neg hlos] at hl
    cases ht : t.params
    rw [ht] at hl
    cases hl
    simp only [hlos, Bool.false_eq_true, if_false]

/-- C78. The reported mean powers are positive and sum to one; they are the powers of the file up to a common factor. For LoS models the K-factor
is the ratio of the LoS power and the scattered power of the first tap; for others it is not available. -/
theorem C78_normalised {a : TdlArgs} {t : Tdl} (h : tdlInit a = .ok t) :
    ∃ tab ∈ [tdlA, tdlB, tdlC, tdlD, tdlA30, tdlB100, tdlC300], ∃ mp, t.meanPowers = .ok mp ∧ (∀ p ∈ mp, 0 < p) ∧ mp.sum = 1 ∧
      (∃ f, 0 < f ∧ mp = (Spec.tapPowers tab.los tab.powers).map (· * f)) ∧
      (tab.los = true → ∃ p q rest, tab.powers = p :: q :: rest ∧ t.kFactor = .ok (Spec.linear p / Spec.linear q)) ∧
      (tab.los = false → t.kFactor = .error .assertion) := by
  obtain ⟨tab, spread, hf, hl, -⟩ := tdlInit_ok h
  have hm := tdlFile_mem hf
  have hlen : tab.los = true → 2 ≤ tab.powers.length := by
    revert hm
    simp only [List.mem_cons, List.not_mem_nil, or_false]
    rintro (rfl | rfl | rfl | rfl | rfl | rfl | rfl) <;> decide
  have hne : tab.powers ≠ [] := by
    revert hm
    simp only [List.mem_cons, List.not_mem_nil, or_false]
    rintro (rfl | rfl | rfl | rfl | rfl | rfl | rfl) <;> decide
  have hpos : ∀ x ∈ Spec.tapPowers tab.los tab.powers, 0 < x := by
    unfold Spec.tapPowers
    split
    · intro x hx
      rcases List.mem_cons.1 hx with rfl | hx
      · exact add_pos (linear_pos _) (linear_pos _)
      · exact map_linear_pos _ x hx
    · exact map_linear_pos _
  have hne' : Spec.tapPowers tab.los tab.powers ≠ [] := by
    unfold Spec.tapPowers
    split
    · simp
    · simpa using hne
  have hs := sum_pos_of_pos _ hne' hpos
  refine ⟨tab, hm, _, tdl_mean hl hlen, ?_, by rw [sum_div_eq, div_self hs.ne'], ⟨(Spec.tapPowers tab.los tab.powers).sum⁻¹, inv_pos.2 hs, ?_⟩, fun hlos => ?_, fun hlos => ?_⟩
  · intro p hp
    obtain ⟨x, hx, rfl⟩ := List.mem_map.1 hp
    exact div_pos (hpos x hx) hs
  · rfl
  · have h2 := hlen hlos
    rcases hp : tab.powers with _ | ⟨p, _ | ⟨q, rest⟩⟩
    · simp [hp] at h2
    · simp [hp] at h2
    refine ⟨p, q, rest, rfl, ?_⟩
    unfold tdlLoad at hl
    simp only [linear_eq] at hl
    rw [if_pos hlos, hp] at hl
    simp only [List.map_cons] at hl
    cases ht : t.params
    rw [ht] at hl
    cases hl
    unfold Tdl.kFactor
    rw [ht]
    dsimp only
    rw [hlos]
    simp only [if_true]
    have : 0 < (Spec.linear q :: rest.map Spec.linear).sum + Spec.linear p := by
      have := sum_pos_of_pos (Spec.linear q :: rest.map Spec.linear) (by simp) (map_linear_pos (q :: rest))
      linarith [linear_pos p]
    have hq := linear_pos q
    rw [div_div_div_cancel_right₀ this.ne']
  · unfold tdlLoad at hl
    rw [hlos] at hl
    cases ht : t.params
    rw [ht] at hl
    cases hl
    unfold Tdl.kFactor
    rw [ht]
    simp [hlos]

/-! ### C79 -/

/-- The names that pass the constructor's check. -/
def Spec.tdlNames : List String := ["A", "B", "C", "D", "E", "A30", "B100", "C300"]

/-- The remaining arguments are as documented. -/
def Spec.TdlValid (a : TdlArgs) : Prop :=
  160000 ≤ a.basestationHeight ∧ 0 ≤ a.elevationAngle ∧ a.elevationAngle ≤ 90 ∧ (∀ m, a.maxSpeed = some m → a.minSpeed ≤ m) ∧ 1 ≤ a.numSinusoids

/-- The full claim of C79. -/
def C79_statement : Prop := ∀ a : TdlArgs, a.model ∈ Spec.tdlNames → Spec.TdlValid a → ∃ t, tdlInit a = .ok t

/-- Constructors with a file name succeed. -/
theorem tdlInit_file {a : TdlArgs} (hv : Spec.TdlValid a) {tab : TdlTable} {s : ℝ} (hf : tdlFile a.model a.delaySpread = .ok (some tab, s)) :
    ∃ t, tdlInit a = .ok t ∧ t.delaySpread = s := by
  obtain ⟨h1, h2, h3, h4, h5⟩ := hv
  have hm : a.minSpeed ≤ a.maxSpeed.getD a.minSpeed := by
    cases hc : a.maxSpeed with
    | none => simp
    | some m => simpa using h4 m hc
  obtain ⟨p, hp⟩ : ∃ p, tdlLoad tab = .ok p := by
    have hmem := tdlFile_mem hf
    simp only [List.mem_cons, List.not_mem_nil, or_false] at hmem
    rcases hmem with rfl | rfl | rfl | rfl | rfl | rfl | rfl <;> exact ⟨_, rfl⟩
  unfold tdlInit
  rw [hf]
  simp only [bind, Except.bind]
  rw [if_neg (not_not.2 h1), if_neg (not_not.2 ⟨h2, h3⟩)]
  rw [hp]
  dsimp only
  rw [if_neg (not_not.2 hm), if_neg (by omega)]
  exact ⟨_, rfl, rfl⟩

/-- C79, what holds: all accepted names but "E" lead to an object, with the delay spread given or, for the three fixed models, prescribed by the
name. "E" always raises; other names are rejected. Missing: "E", see `C79_violated`. -/
theorem C79_names_partial (a : TdlArgs) (hv : Spec.TdlValid a) :
    (a.model ∈ Spec.tdlNames → a.model ≠ "E" → ∃ t, tdlInit a = .ok t ∧
      t.delaySpread = (([("A30", 30e-9), ("B100", 100e-9), ("C300", 300e-9)] : List (String × ℝ)).lookup a.model).getD a.delaySpread) ∧
    (a.model = "E" → tdlInit a = .error .nameError) ∧ (a.model ∉ Spec.tdlNames → tdlInit a = .error .assertion) := by
  refine ⟨fun hm hE => ?_, fun hE => ?_, fun hm => ?_⟩
  · have : ∃ tab, tdlFile a.model a.delaySpread = .ok (some tab, (([("A30", 30e-9), ("B100", 100e-9), ("C300", 300e-9)] :
        List (String × ℝ)).lookup a.model).getD a.delaySpread) := by
      simp only [Spec.tdlNames, List.mem_cons, List.not_mem_nil, or_false] at hm
      unfold tdlFile
      rcases hm with h | h | h | h | h | h | h | h <;> first | exact absurd h hE | (rw [h]; simp [List.lookup])
    obtain ⟨tab, htab⟩ := this
    exact tdlInit_file hv htab
  · unfold tdlInit tdlFile
    rw [hE]
    obtain ⟨h1, h2, h3, -⟩ := hv
    simp [bind, Except.bind, not_lt.2 h1, h2, h3]
  · unfold tdlInit tdlFile
    simp only [Spec.tdlNames, List.mem_cons, List.not_mem_nil, or_false, not_or] at hm
    obtain ⟨h1, h2, h3, h4, h5, h6, h7, h8⟩ := hm
    rw [if_neg h1, if_neg h2, if_neg h3, if_neg h4, if_neg h5, if_neg h6, if_neg h7, if_neg h8]
    rfl

theorem exTdl_valid (m : String) : Spec.TdlValid { model := m, delaySpread := 3e-7, carrierFrequency := 2e9 } := by
  refine ⟨by norm_num, by norm_num, by norm_num, by simp, by norm_num⟩

/-- C79 fails for the accepted name "E". -/
theorem C79_violated : ¬ C79_statement := by
  intro H
  obtain ⟨t, ht⟩ := H { model := "E", delaySpread := 3e-7, carrierFrequency := 2e9 } (by simp [Spec.tdlNames]) (exTdl_valid "E")
  rw [(C79_names_partial _ (exTdl_valid "E")).2.1 rfl] at ht
  cases ht

/-- A LoS model can be constructed. -/
example : ∃ t, tdlInit { model := "D", delaySpread := 3e-7, carrierFrequency := 2e9 } = .ok t := by
  obtain ⟨t, h, -⟩ := (C79_names_partial _ (exTdl_valid "D")).1 (by simp [Spec.tdlNames]) (by decide)
  exact ⟨t, h⟩

/-! ### C89: delays -/

/-- C89. The delays are non-negative, in ascending order and start with zero; there are as many as powers and clusters. They are the normalised
delays of the file times the delay spread, or, for the models with fixed spread, times one nanosecond whatever spread is set. -/
theorem C89_delays {a : TdlArgs} {t : Tdl} (h : tdlInit a = .ok t) (hd : 0 ≤ t.delaySpread) :
    (∀ d ∈ t.delays, 0 ≤ d) ∧ t.delays.SortedLE ∧ t.delays.head? = some 0 ∧ t.delays.length = t.params.powers.length ∧
      t.params.numClusters = t.params.powers.length ∧
      (t.params.scaleDelays = false ↔ a.model ∈ ["A30", "B100", "C300"]) ∧
      ∀ v, (t.setDelaySpread v).delays = t.params.delays.map (· * if t.params.scaleDelays then v else 1e-9) := by
  obtain ⟨tab, spread, hf, hl, -⟩ := tdlInit_ok h
  have key : ∀ f : ℝ, 0 ≤ f → (∀ d ∈ t.params.delays.map (· * f), 0 ≤ d) ∧ (t.params.delays.map (· * f)).SortedLE ∧
      (t.params.delays.map (· * f)).head? = some 0 := by
    intro f hf0
    have base : (∀ d ∈ t.params.delays, 0 ≤ d) ∧ t.params.delays.SortedLE ∧ t.params.delays.head? = some 0 := by
      have hmem := tdlFile_mem hf
      simp only [List.mem_cons, List.not_mem_nil, or_false] at hmem
      cases ht : t.params
      rw [ht] at hl
      rcases hmem with rfl | rfl | rfl | rfl | rfl | rfl | rfl <;> cases hl <;>
        (refine ⟨?_, ?_, ?_⟩ <;> simp [tdlA, tdlB, tdlC, tdlD, tdlA30, tdlB100, tdlC300, tableVal, List.sortedLE_iff_pairwise] <;> norm_num)
    obtain ⟨b1, b2, b3⟩ := base
    refine ⟨fun d hd => ?_, ?_, by rw [List.head?_map, b3]; simp⟩
    · obtain ⟨x, hx, rfl⟩ := List.mem_map.1 hd
      exact mul_nonneg (b1 x hx) hf0
    · rw [List.sortedLE_iff_pairwise] at b2 ⊢
      rw [List.pairwise_map]
      exact b2.imp fun hab => mul_le_mul_of_nonneg_right hab hf0
  have hlen : t.params.delays.length = t.params.powers.length ∧ t.params.numClusters = t.params.powers.length := by
    have hmem := tdlFile_mem hf
    simp only [List.mem_cons, List.not_mem_nil, or_false] at hmem
    cases ht : t.params
    rw [ht] at hl
    rcases hmem with rfl | rfl | rfl | rfl | rfl | rfl | rfl <;> cases hl <;>
      simp [tdlA, tdlB, tdlC, tdlD, tdlA30, tdlB100, tdlC300]
  have hsc : t.params.scaleDelays = false ↔ a.model ∈ ["A30", "B100", "C300"] := by
    unfold tdlFile at hf
    cases ht : t.params
    rw [ht] at hl
    repeat' (split at hf)
    all_goals first
      | (cases hf; done)
      | (rename_i hm; cases hf; cases hl; simp [hm, tdlA, tdlB, tdlC, tdlD, tdlA30, tdlB100, tdlC300])
  have hset : ∀ v, (t.setDelaySpread v).delays = t.params.delays.map (· * if t.params.scaleDelays then v else 1e-9) := by
    intro v
    unfold Tdl.setDelaySpread Tdl.delays
    by_cases hb : t.params.scaleDelays = true
    · simp [hb]
    · simp [hb]
  have hdel : t.delays = t.params.delays.map (· * if t.params.scaleDelays then t.delaySpread else 1e-9) := by
    unfold Tdl.delays
    by_cases hb : t.params.scaleDelays = true
    · simp [hb]
    · simp [hb]
  have k := key (if t.params.scaleDelays then t.delaySpread else 1e-9) (by split <;> [exact hd; norm_num])
  rw [← hdel] at k
  exact ⟨k.1, k.2.1, k.2.2, by rw [hdel, List.length_map]; exact hlen.1, hlen.2, hsc, hset⟩

/-! ### C88: Doppler -/

/-- Maximum Doppler shift in radian per second caused by a terminal of the given speed and by a satellite on a circular orbit, seen at the given
elevation (TR 38.811, 6.7.2): `2π f/c (v + v_sat R/(R+h) cos(el))`. -/
noncomputable def Spec.maxDoppler (height el fc speed : ℝ) : ℝ :=
  2 * Real.pi * fc / 299792458 * (speed + Real.sqrt (6.6743e-11 * 5.972e24 / (6371000 + height)) * (6371000 / (6371000 + height)) * Real.cos (el * Real.pi / 180))

/-- The full claim of C88. -/
def C88_statement : Prop := ∀ height el fc speed : ℝ, 160000 ≤ height → 0 ≤ el → el ≤ 90 → 0 < fc → 0 ≤ speed →
  tdlDoppler height el fc speed = Spec.maxDoppler height el fc speed

/-- C88, what holds: the part of the terminal is right; the part of the satellite is too small by the factor `7200 π`: kilometres per second are
divided by a speed in kilometres per hour and the factor `2π` is missing. So the claim holds at the zenith only. -/
theorem C88_doppler_partial (height el fc speed : ℝ) (hh : 160000 ≤ height) :
    tdlDoppler height el fc speed =
      Spec.maxDoppler 0 90 fc speed + (Spec.maxDoppler height el fc speed - Spec.maxDoppler 0 90 fc speed) / (7200 * Real.pi) ∧
    tdlDoppler height 90 fc speed = Spec.maxDoppler height 90 fc speed := by
  have hc90 : Real.cos ((90 : ℝ) * Real.pi / 180) = 0 := by
    rw [show (90 : ℝ) * Real.pi / 180 = Real.pi / 2 by ring, Real.cos_pi_div_two]
  have hpi := Real.pi_pos
  have hpos : 0 < 6371000 + height := by linarith
  have e1 : tdlDoppler height el fc speed = 2 * Real.pi * fc / 299792458 * speed +
      Real.sqrt (6.6743e-11 * 5.972e24 / (6371000 + height)) * (6371000 / (6371000 + height)) * Real.cos (el * Real.pi / 180) * fc / 299792458 / 3600 := by
    unfold tdlDoppler speedOfLight
    dsimp only
    have r1 : (6.6743 * 10 ^ (-11 : ℤ) * (5.972 * 10 ^ 24) : ℝ) / (6371 * 1000 + height / 1000 * 1000) = 6.6743e-11 * 5.972e24 / (6371000 + height) := by
      congr 1
      · norm_num
      · ring
    have r2 : (6371 : ℝ) / (6371 + height / 1000) = 6371000 / (6371000 + height) := by
      have : 0 < 6371 + height / 1000 := by linarith
      field_simp
      ring
    rw [r1, r2, show el * (Real.pi / 180) = el * Real.pi / 180 by ring]
    ring
  refine ⟨?_, ?_⟩
  · rw [e1]
    unfold Spec.maxDoppler
    rw [hc90]
    field_simp
    ring
  · unfold tdlDoppler Spec.maxDoppler speedOfLight
    dsimp only
    rw [hc90, show (90 : ℝ) * (Real.pi / 180) = 90 * Real.pi / 180 by ring, hc90]
    ring

example : (160000 : ℝ) ≤ 600000 := by norm_num

/-- C88 fails at the horizon. -/
theorem C88_violated : ¬ C88_statement := by
  intro H
  have h1 := H 600000 0 2e9 0 (by norm_num) (by norm_num) (by norm_num) (by norm_num) (by norm_num)
  have h2 := (C88_doppler_partial 600000 0 2e9 0 (by norm_num)).1
  have hc90 : Real.cos ((90 : ℝ) * Real.pi / 180) = 0 := by
    rw [show (90 : ℝ) * Real.pi / 180 = Real.pi / 2 by ring, Real.cos_pi_div_two]
  have h3 : Spec.maxDoppler 0 90 2e9 0 = 0 := by unfold Spec.maxDoppler; rw [hc90]; ring
  have h4 : 0 < Spec.maxDoppler 600000 0 2e9 0 := by
    unfold Spec.maxDoppler
    rw [zero_mul, zero_div, Real.cos_zero]
    have := Real.pi_pos
    positivity
  rw [h1, h3] at h2
  have hpi := Real.two_le_pi
  have : Spec.maxDoppler 600000 0 2e9 0 / (7200 * Real.pi) < Spec.maxDoppler 600000 0 2e9 0 := by
    rw [div_lt_iff₀ (by positivity)]
    nlinarith
  rw [zero_add, sub_zero] at h2
  exact this.ne h2.symm

/-! ### C87: average tap power -/

/-- The coefficient as constant plus phasors. -/
theorem tdlCoeff_eq {B R T C N : ℕ} (t : Tdl) (powers : Fin C → ℝ) (w : TdlDraws B R T C N) (fs : ℝ) (b : Fin B) (r : Fin R) (x : Fin T) (c : Fin C) (s : ℕ) :
    ∃ (z : ℂ) (u : Fin N → ℂ), (∀ v : TdlDraws B R T C N, v.doppler = w.doppler → v.theta = w.theta → v.phi0 = w.phi0 →
        tdlCoeff t powers v fs b r x c s = z + ∑ k, u k * Complex.exp ((v.phi b r x c k : ℂ) * Complex.I)) ∧
      (∀ k, ‖u k‖ ^ 2 = |Real.sqrt (powers c)| ^ 2 / N) ∧
      ‖z‖ = if c.val = 0 then (t.params.losPower.map Real.sqrt).getD 0 else 0 := by
  have hph : ∀ y : ℝ, (⟨Real.cos y, Real.sin y⟩ : ℂ) = Complex.exp (y * Complex.I) := fun y => by
    rw [Complex.exp_mul_I, ← Complex.ofReal_cos, ← Complex.ofReal_sin]
    apply Complex.ext <;> simp [-Complex.ofReal_cos, -Complex.ofReal_sin]
  let spec := w.doppler b * ((s : ℝ) / fs) * Real.cos t.losAngle + w.phi0 b
  let z : ℂ := if c.val = 0 then match t.params.losPower with
    | some l => Complex.exp (spec * Complex.I) * ((Real.sqrt l : ℝ) : ℂ)
    | none => 0 else 0
  let beta : Fin N → ℝ := fun k => w.doppler b * ((s : ℝ) / fs) * Real.cos (2 * Real.pi / N * ((k.val : ℝ) + 1) + w.theta b c k)
  let u : Fin N → ℂ := fun k => ((Real.sqrt (powers c) * (1 / Real.sqrt N) : ℝ) : ℂ) * Complex.exp (beta k * Complex.I)
  refine ⟨z, u, ?_, ?_, ?_⟩
  · rintro v h1 h2 h3
    have hsum : ((Real.sqrt (powers c) : ℝ) : ℂ) * (((1 / Real.sqrt N : ℝ) : ℂ) * ∑ k : Fin N, (⟨Real.cos (w.doppler b * ((s : ℝ) / fs) * Real.cos
        (2 * Real.pi / N * ((k.val : ℝ) + 1) + w.theta b c k) + v.phi b r x c k), Real.sin (w.doppler b * ((s : ℝ) / fs) * Real.cos
        (2 * Real.pi / N * ((k.val : ℝ) + 1) + w.theta b c k) + v.phi b r x c k)⟩ : ℂ)) = ∑ k, u k * Complex.exp ((v.phi b r x c k : ℂ) * Complex.I) := by
      rw [← mul_assoc, Finset.mul_sum]
      refine Finset.sum_congr rfl fun k _ => ?_
      rw [hph, Complex.ofReal_add, add_mul, Complex.exp_add, Complex.ofReal_mul]
      simp only [u, beta]
      push_cast
      ring
    unfold tdlCoeff
    dsimp only
    rw [h1, h2, h3, hsum]
    simp only [z]
    cases t.params.losPower with
    | none => simp
    | some l =>
      by_cases hc : c.val = 0
      · simp only [hc, if_true, hph, spec]
      · simp [hc]
  · intro k
    simp only [u]
    rw [norm_mul, Complex.norm_exp_ofReal_mul_I, mul_one, Complex.norm_real, Real.norm_eq_abs, abs_mul, mul_pow, sq_abs (1 / _), div_pow, one_pow,
      Real.sq_sqrt (Nat.cast_nonneg _)]
    ring
  · simp only [z]
    by_cases hc : c.val = 0
    · simp only [hc, if_true]
      cases t.params.losPower with
      | none => simp
      | some l =>
        rw [norm_mul, Complex.norm_exp_ofReal_mul_I, one_mul, Complex.norm_real, Real.norm_eq_abs, abs_of_nonneg (Real.sqrt_nonneg _)]
        rfl
    · simp [hc]

/-- The reported mean power of a tap: specular plus scattered part. -/
theorem meanPower_eq {a : TdlArgs} {t : Tdl} (h : tdlInit a = .ok t) :
    ∃ mp, t.meanPowers = .ok mp ∧ (∀ p : Fin t.params.powers.length, 0 ≤ t.params.powers.get p) ∧ (∀ l ∈ t.params.losPower, 0 ≤ l) ∧
      ∀ p : Fin t.params.powers.length, mp[p.val]? = some ((if p.val = 0 then t.params.losPower.getD 0 else 0) + t.params.powers.get p) := by
  obtain ⟨tab, spread, hf, hl, -, hN, hN0, -⟩ := tdlInit_ok h
  obtain ⟨_, -, mp, hmp, -⟩ := C78_normalised h
  -- stored powers are not negative
  have hpow : (∀ p ∈ t.params.powers, 0 ≤ p) ∧ (∀ l, t.params.losPower = some l → 0 ≤ l) ∧ (t.params.los = true ↔ t.params.losPower.isSome) := by
    have hlin : ∀ (l : List ℤ) (n : ℝ), 0 ≤ n → ∀ p ∈ (l.map Spec.linear).map (· / n), 0 ≤ p := by
      intro l n hn p hp
      obtain ⟨y, hy, rfl⟩ := List.mem_map.1 hp
      exact div_nonneg (map_linear_pos l y hy).le hn
    have hsum : ∀ l : List ℤ, 0 ≤ (l.map Spec.linear).sum := fun l => List.sum_nonneg fun y hy => (map_linear_pos l y hy).le
    unfold tdlLoad at hl
    simp only [linear_eq] at hl
    by_cases hlos : tab.los = true
    · rw [if_pos hlos] at hl
      rcases hp : tab.powers with _ | ⟨p, rest⟩
      · rw [hp] at hl; cases hl
      rw [hp] at hl
      simp only [List.map_cons] at hl
      cases ht : t.params
      rw [ht] at hl
      cases hl
      have h0 : 0 ≤ (rest.map Spec.linear).sum + Spec.linear p := add_nonneg (hsum rest) (linear_pos p).le
      refine ⟨hlin rest _ h0, fun l hl => ?_, by simp [hlos]⟩
      cases hl
      exact div_nonneg (linear_pos p).le h0
    · rw [if_neg hlos] at hl
      cases ht : t.params
      rw [ht] at hl
      cases hl
      exact ⟨hlin _ _ (hsum _), fun l hl => (by cases hl), by simp [hlos]⟩
  obtain ⟨p1, p2, p3⟩ := hpow
  refine ⟨mp, hmp, fun p => p1 _ (List.get_mem t.params.powers p), p2, fun c => ?_⟩
  unfold Tdl.meanPowers at hmp
  cases hlp : t.params.losPower with
  | none =>
    rw [hlp] at p3
    have hf : ¬ t.params.los = true := by rw [p3]; simp
    rw [if_neg hf] at hmp
    cases hmp
    simp
  | some l =>
    rw [hlp] at p3
    have hf : t.params.los = true := by rw [p3]; simp
    rw [if_pos hf, hlp] at hmp
    obtain ⟨cv, hcv⟩ := c
    obtain ⟨p, ps, hps⟩ := List.exists_cons_of_length_pos (Nat.lt_of_le_of_lt (Nat.zero_le _) hcv)
    rw [hps] at hmp
    cases hmp
    have hl0 := p2 l hlp
    have hget : ∀ (hh : cv < t.params.powers.length), t.params.powers.get ⟨cv, hh⟩ = (p :: ps).getD cv 0 := by
      intro hh
      rw [← hps, List.get_eq_getElem, List.getD_eq_getElem?_getD, List.getElem?_eq_getElem hh]
      rfl
    rw [hget]
    have hcv' : cv < (p :: ps).length := by rw [← hps]; exact hcv
    cases cv with
    | zero =>
      simp only [if_true, Option.map_some, Option.getD_some, Real.sq_sqrt hl0]
      simp [add_comm]
    | succ n =>
      simp only [Nat.succ_ne_zero, if_false]
      simp at hcv'
      simp [hcv']

/-- C87. Averaged over independent phases that are uniform on `(-π, π]`, the power of each tap, for each antenna pair and at every time, is the
reported mean power of the tap, whatever the other draws. -/
theorem C87_average_power {a : TdlArgs} {t : Tdl} (h : tdlInit a = .ok t) {B R T : ℕ} (w : TdlDraws B R T t.params.powers.length t.numSinusoids) (fs : ℝ) (b : Fin B)
    (r : Fin R) (x : Fin T) (c : Fin t.params.powers.length) (s : ℕ) :
    ∃ mp, t.meanPowers = .ok mp ∧
      mp[c.val]? = some (∫ phases : Fin t.numSinusoids → ℝ, ‖tdlCoeff t (fun p => t.params.powers.get p)
        { w with phi := fun _ _ _ _ k => phases k } fs b r x c s‖ ^ 2 ∂(MeasureTheory.Measure.pi fun _ => uniformPhase)) := by
  obtain ⟨tab, spread, hf, hl, -, hN, hN0, -⟩ := tdlInit_ok h
  obtain ⟨z, u, h1, h2, h3⟩ := tdlCoeff_eq t (fun p => t.params.powers.get p) w fs b r x c s
  obtain ⟨mp, hmp, p1, p2, p3⟩ := meanPower_eq h
  refine ⟨mp, hmp, ?_⟩
  have e : ∀ phases : Fin t.numSinusoids → ℝ, tdlCoeff t (fun p => t.params.powers.get p) { w with phi := fun _ _ _ _ k => phases k } fs b r x c s =
      z + ∑ k, u k * Complex.exp ((phases k : ℂ) * Complex.I) := fun phases => h1 _ rfl rfl rfl
  simp_rw [e]
  rw [average_power, h3]
  have hNr : (0 : ℝ) < t.numSinusoids := by rw [hN]; exact_mod_cast Nat.pos_of_ne_zero hN0
  simp_rw [h2]
  rw [Finset.sum_const, Finset.card_univ, Fintype.card_fin, nsmul_eq_mul]
  rw [abs_of_nonneg (Real.sqrt_nonneg _), Real.sq_sqrt (p1 c), mul_div_cancel₀ _ hNr.ne', p3]
  congr 2
  by_cases hc : c.val = 0
  · rw [if_pos hc, if_pos hc]
    cases hlp : t.params.losPower with
    | none => simp
    | some l => simp [Real.sq_sqrt (p2 l hlp)]
  · rw [if_neg hc, if_neg hc]
    simp

/-! ### C86: spatial correlation -/

/-- The linear map `A` acts on the matrix of channel coefficients. -/
def Spec.Acts {R T : ℕ} (A : Matrix (Fin R × Fin T) (Fin R × Fin T) ℂ) (f : Matrix (Fin R) (Fin T) ℂ → Matrix (Fin R) (Fin T) ℂ) : Prop :=
  ∀ h r t, f h r t = ∑ p : Fin R × Fin T, A (r, t) p * h p.1 p.2

/-- Covariance of the result if the input is white: `A A^H`. -/
def Spec.covariance {R T : ℕ} (A : Matrix (Fin R × Fin T) (Fin R × Fin T) ℂ) : Matrix (Fin R × Fin T) (Fin R × Fin T) ℂ := A * Aᴴ

/-- The correlation matrices given are Hermitian. -/
def Spec.HermitianGiven {R T : ℕ} (c : TdlCorr R T) : Prop :=
  (∀ S ∈ c.spatial, S.IsHermitian) ∧ (∀ S ∈ c.rx, S.IsHermitian) ∧ ∀ S ∈ c.tx, S.IsHermitian

/-- The full claim of C86: the coefficients have the joint covariance given, or, without a joint one, the Kronecker product of those given for
receiver and transmitter (identity if not given). -/
def C86_statement : Prop :=
  ∀ (R T : ℕ) (c : TdlCorr R T) (f : Matrix (Fin R) (Fin T) ℂ → Matrix (Fin R) (Fin T) ℂ), Spec.HermitianGiven c →
    (∀ h, tdlCorrelate c h = .ok (f h)) → ∃ A, Spec.Acts A f ∧ ∀ r t r' t', Spec.covariance A (r, t) (r', t') = match c.spatial with
      | some S => S (toLex (r, t)) (toLex (r', t'))
      | none => (match c.rx with | some X => X r r' | none => if r = r' then 1 else 0) *
          (match c.tx with | some X => X t t' | none => if t = t' then 1 else 0)

theorem cholesky_spec {ι : Type} [Fintype ι] [LinearOrder ι] {R L : Matrix ι ι ℂ} (h : cholesky R = .ok L) :
    (∀ i j, i < j → L i j = 0) ∧ (∀ i, 0 < (L i i).re ∧ (L i i).im = 0) ∧ L * Lᴴ = lowerHermitian R := by
  unfold cholesky at h
  split at h
  · rename_i hex
    cases h
    exact hex.choose_spec
  · cases h

theorem cholesky_prod {ι : Type} [Fintype ι] [LinearOrder ι] {R L : Matrix ι ι ℂ} (hR : R.IsHermitian) (h : cholesky R = .ok L) : L * Lᴴ = R := by
  rw [(cholesky_spec h).2.2, lowerHermitian_eq hR]

/-- C86, what holds: with a joint matrix, and with a receive matrix only, the covariance is the one requested. With a transmit matrix whose factor
is `L` it is `Lᵀ conj(L)` instead of `L Lᴴ`, since the factor is multiplied from the right without transposition. Missing: the transmit
side, see `C86_violated`. -/
theorem C86_covariance_partial {R T : ℕ} (c : TdlCorr R T) (f : Matrix (Fin R) (Fin T) ℂ → Matrix (Fin R) (Fin T) ℂ) (hherm : Spec.HermitianGiven c)
    (hf : ∀ h, tdlCorrelate c h = .ok (f h)) :
    (∀ S, c.spatial = some S → ∃ A, Spec.Acts A f ∧ ∀ r t r' t', Spec.covariance A (r, t) (r', t') = S (toLex (r, t)) (toLex (r', t'))) ∧
    (c.spatial = none → ∃ A, Spec.Acts A f ∧ ∀ r t r' t', Spec.covariance A (r, t) (r', t') =
      (match c.rx with | some X => X r r' | none => if r = r' then 1 else 0) *
      (match c.tx with
        | some X => (match cholesky X with | .ok L => (Lᵀ * (Lᵀ)ᴴ) t t' | .error _ => 0)
        | none => if t = t' then 1 else 0)) := by
  constructor
  · intro S hS
    unfold tdlCorrelate at hf
    rw [hS] at hf
    dsimp only at hf
    rcases hL : cholesky S with e | L
    · rw [hL] at hf; exact absurd (hf 0) (by simp [bind, Except.bind])
    rw [hL] at hf
    have hS' := cholesky_prod (hherm.1 S hS) hL
    refine ⟨fun p q => L (toLex p) (toLex q), fun h r t => ?_, fun r t r' t' => ?_⟩
    · have := hf h
      simp only [bind, Except.bind] at this
      injection this with this
      rw [← this]
      exact (Fintype.sum_equiv toLex _ _ fun p => rfl).symm
    · rw [← hS']
      unfold Spec.covariance
      simp only [mul_apply, conjTranspose_apply]
      exact Fintype.sum_equiv toLex _ _ fun p => rfl
  · intro hS
    unfold tdlCorrelate at hf
    rw [hS] at hf
    dsimp only at hf
    rcases hr : choleskyOpt c.rx with e | lr
    · rw [hr] at hf; exact absurd (hf 0) (by simp [bind, Except.bind])
    rw [hr] at hf
    rcases ht : choleskyOpt c.tx with e | lt
    · rw [ht] at hf; exact absurd (hf 0) (by simp [bind, Except.bind])
    rw [ht] at hf
    have hf' : ∀ h, tdlRxTx lr lt h = f h := fun h => by
      have := hf h
      simp only [bind, Except.bind] at this
      injection this
    let X : Matrix (Fin R) (Fin R) ℂ := lr.getD 1
    let Y : Matrix (Fin T) (Fin T) ℂ := lt.getD 1
    have hXY : ∀ h, f h = X * h * Y := by
      intro h
      rw [← hf' h]
      unfold tdlRxTx
      cases lr <;> cases lt <;> simp [X, Y]
    have hX : ∀ r r', (X * Xᴴ) r r' = match c.rx with | some X => X r r' | none => if r = r' then 1 else 0 := by
      intro r r'
      unfold choleskyOpt at hr
      cases hc : c.rx with
      | none =>
        rw [hc] at hr; cases hr
        simp [X, one_apply]
      | some M =>
        rw [hc] at hr
        dsimp only at hr
        rcases hL : cholesky M with e | L
        · rw [hL] at hr; cases hr
        rw [hL] at hr; cases hr
        simp only [X, Option.getD_some, cholesky_prod (hherm.2.1 M hc) hL]
    have hY : ∀ t t', (Yᵀ * (Yᵀ)ᴴ) t t' = match c.tx with
        | some X => (match cholesky X with | .ok L => (Lᵀ * (Lᵀ)ᴴ) t t' | .error _ => 0)
        | none => if t = t' then 1 else 0 := by
      intro t t'
      unfold choleskyOpt at ht
      cases hc : c.tx with
      | none =>
        rw [hc] at ht; cases ht
        simp [Y, one_apply]
      | some M =>
        rw [hc] at ht
        dsimp only at ht ⊢
        rcases hL : cholesky M with e | L
        · rw [hL] at ht; cases ht
        rw [hL] at ht; cases ht
        simp only [Y, Option.getD_some]
    refine ⟨Matrix.of fun p q => X p.1 q.1 * Y q.2 p.2, fun h r t => ?_, fun r t r' t' => ?_⟩
    · rw [hXY, mul_apply]
      simp only [mul_apply, Finset.sum_mul]
      rw [Finset.sum_comm, Fintype.sum_prod_type]
      refine Finset.sum_congr rfl fun q _ => Finset.sum_congr rfl fun q' _ => ?_
      rw [of_apply]
      ring
    · rw [← hX, ← hY]
      unfold Spec.covariance
      simp only [mul_apply, conjTranspose_apply, transpose_apply, of_apply]
      rw [Fintype.sum_prod_type, Finset.sum_mul_sum]
      refine Finset.sum_congr rfl fun q _ => Finset.sum_congr rfl fun q' _ => ?_
      simp only [star_mul']
      ring

/-- A correlation matrix for two antennas. -/
noncomputable def exCorr : Matrix (Fin 2) (Fin 2) ℂ := !![1, 3 / 5; 3 / 5, 1]

theorem exCorr_hermitian : exCorr.IsHermitian := by
  have c35 : (starRingEnd ℂ) (3 / 5 : ℂ) = 3 / 5 := by
    have : (3 / 5 : ℂ) = ((3 / 5 : ℝ) : ℂ) := by push_cast; ring
    rw [this, Complex.conj_ofReal]
  ext i j
  fin_cases i <;> fin_cases j <;> simp [exCorr, -map_div₀, c35]

theorem exCorr_chol : ∃ L, cholesky exCorr = .ok L ∧ L 0 0 = 1 ∧ L 1 0 = 3 / 5 := by
  have hex : ∃ L : Matrix (Fin 2) (Fin 2) ℂ, (∀ i j, i < j → L i j = 0) ∧ (∀ i, 0 < (L i i).re ∧ (L i i).im = 0) ∧ L * Lᴴ = exCorr := by
    refine ⟨!![1, 0; 3 / 5, 4 / 5], ?_, ?_, ?_⟩
    · intro i j hij
      fin_cases i <;> fin_cases j <;> simp at hij ⊢
    · intro i
      have : (4 / 5 : ℂ) = ((4 / 5 : ℝ) : ℂ) := by push_cast; ring
      fin_cases i
      · simp
      · simp only [Fin.mk_one, of_apply, cons_val_one, cons_val_fin_one]
        rw [this]
        constructor
        · rw [Complex.ofReal_re]; norm_num
        · exact Complex.ofReal_im _
    · unfold exCorr
      have c35 : (starRingEnd ℂ) (3 / 5 : ℂ) = 3 / 5 := by
        have : (3 / 5 : ℂ) = ((3 / 5 : ℝ) : ℂ) := by push_cast; ring
        rw [this, Complex.conj_ofReal]
      have c45 : (starRingEnd ℂ) (4 / 5 : ℂ) = 4 / 5 := by
        have : (4 / 5 : ℂ) = ((4 / 5 : ℝ) : ℂ) := by push_cast; ring
        rw [this, Complex.conj_ofReal]
      ext i j
      fin_cases i <;> fin_cases j <;> simp [mul_apply, Fin.sum_univ_two, -map_div₀, c35, c45]
      norm_num
  have hc : ∃ L, cholesky exCorr = .ok L := ⟨_, by unfold cholesky; rw [lowerHermitian_eq exCorr_hermitian, dif_pos hex]⟩
  obtain ⟨L, hL⟩ := hc
  obtain ⟨h1, h2, h3⟩ := cholesky_spec hL
  rw [lowerHermitian_eq exCorr_hermitian] at h3
  have h01 : L 0 1 = 0 := h1 0 1 (by decide)
  have e00 := congrFun (congrFun h3 0) 0
  have e10 := congrFun (congrFun h3 1) 0
  simp only [mul_apply, Fin.sum_univ_two, conjTranspose_apply, h01, exCorr] at e00 e10
  simp only [star_zero, mul_zero, add_zero, of_apply, cons_val_zero, cons_val_one, cons_val', cons_val_fin_one] at e00 e10
  obtain ⟨hp, hi⟩ := h2 0
  have hL00 : L 0 0 = 1 := by
    have : L 0 0 = ((L 0 0).re : ℂ) := by apply Complex.ext <;> simp [hi]
    rw [this] at e00 ⊢
    rw [Complex.star_def, Complex.conj_ofReal, ← Complex.ofReal_mul] at e00
    have e : (L 0 0).re * (L 0 0).re = 1 := by exact_mod_cast e00
    have : (L 0 0).re = 1 := by nlinarith
    rw [this]; simp
  refine ⟨L, hL, hL00, ?_⟩
  rw [hL00] at e10
  simpa using e10

/-- C86 fails for a transmit correlation of 0.6: the first antenna gets power 1.36 instead of 1. -/
theorem C86_violated : ¬ C86_statement := by
  intro H
  obtain ⟨L, hL, h00, h10⟩ := exCorr_chol
  let c : TdlCorr 1 2 := { tx := some exCorr }
  have hf : ∀ h, tdlCorrelate c h = .ok (tdlRxTx none (some L) h) := by
    intro h
    simp [tdlCorrelate, c, choleskyOpt, hL, bind, Except.bind]
  have hh : Spec.HermitianGiven c := ⟨by simp [c], by simp [c], fun S hS => by cases hS; exact exCorr_hermitian⟩
  obtain ⟨A, hA, hcov⟩ := H 1 2 c _ hh hf
  obtain ⟨A', hA', hcov'⟩ := (C86_covariance_partial c _ hh hf).2 rfl
  have hAA : A = A' := by
    funext ⟨r, t⟩ q
    have e1 := hA (fun r' t' => if (r', t') = q then 1 else 0) r t
    have e2 := e1.symm.trans (hA' (fun r' t' => if (r', t') = q then 1 else 0) r t)
    simpa using e2
  have e1 := hcov 0 0 0 0
  have e2 := hcov' 0 0 0 0
  rw [hAA, e2] at e1
  simp only [c, hL] at e1
  simp only [exCorr, mul_apply, Fin.sum_univ_two, conjTranspose_apply, transpose_apply, h00, h10] at e1
  simp [-map_div₀] at e1

/-- The hypothesis is met for a receive matrix. -/
example : Spec.HermitianGiven ({ rx := some exCorr } : TdlCorr 2 1) ∧ ∃ f : Matrix (Fin 2) (Fin 1) ℂ → Matrix (Fin 2) (Fin 1) ℂ, ∀ h, tdlCorrelate ({ rx := some exCorr } : TdlCorr 2 1) h = .ok (f h) := by
  obtain ⟨L, hL, -⟩ := exCorr_chol
  exact ⟨⟨by simp, fun S hS => by cases hS; exact exCorr_hermitian, by simp⟩, tdlRxTx (some L) none, fun h => by simp [tdlCorrelate, choleskyOpt, hL, bind, Except.bind]⟩

end OpenNTN
