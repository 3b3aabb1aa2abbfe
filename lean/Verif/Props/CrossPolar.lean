import Verif.Props.Polarisation
import Verif.Props.Config
import Mathlib.Analysis.Real.Pi.Bounds

/-
C208: power between upright antennas of equal and of different polarisation.
-/
namespace OpenNTN

open Spec MeasureTheory

/-- An array with bearing only, neither tilted nor slanted. -/
def Spec.Upright (o : Fin 3 → ℝ) : Prop := o 1 = 0 ∧ o 2 = 0

/-- Angle by which the ionosphere turns the polarisation: 108 degrees at 1 GHz, falling with the square of the frequency, for satellites (at least 600 km). -/
noncomputable def Spec.faradayAngle (fc height : ℝ) : ℝ := if height < 600000 then 0 else 108 * (1e9 / fc) ^ 2 / 180 * Real.pi

/-- Share of the power of a wave turned by `psi` that arrives in the same (`same`) or in the other polarisation, if the channel passes a share `leak` into the other
one. -/
noncomputable def Spec.polarShare (psi leak : ℝ) (same : Prop) [Decidable same] : ℝ :=
  if same then Real.cos psi ^ 2 + leak * Real.sin psi ^ 2 else Real.sin psi ^ 2 + leak * Real.cos psi ^ 2

/-- Field of an upright antenna: all power in the zenith component for "V", in the azimuth component for "H". -/
theorem field_upright {a : ArrayArgs} {arr : PanelArray} (h : mkArray a = .ok arr) (hp : a.polarization = "single") {o : Fin 3 → ℝ} (ho : Upright o)
    (theta phi : ℝ) (u : ℕ) :
    (a.polarizationType = "V" ∧ fieldVector arr o theta phi u 0 ^ 2 = elementGain arr o theta phi ∧ fieldVector arr o theta phi u 1 = 0) ∨
    (a.polarizationType = "H" ∧ fieldVector arr o theta phi u 1 ^ 2 = elementGain arr o theta phi ∧ fieldVector arr o theta phi u 0 = 0) := by
  obtain ⟨-, hv⟩ := (C62_slants_partial h).2.1 hp
  have hs : arr.polarization = "single" := by rw [((C111_constructor _).2 arr h).1, hp]
  have hpsi : Real.sin (computePsi o theta phi) = 0 := by
    have e : computePsi o theta phi = Complex.arg ((Real.sin theta : ℝ) : ℂ) := by
      unfold computePsi
      simp only [ho.1, ho.2, Real.sin_zero, Real.cos_zero]
      congr 1
      apply Complex.ext <;> simp [-Complex.ofReal_sin]
    rw [e]
    rcases le_or_gt 0 (Real.sin theta) with h0 | h0
    · rw [Complex.arg_ofReal_of_nonneg h0, Real.sin_zero]
    · rw [Complex.arg_ofReal_of_neg h0, Real.sin_pi]
  have hcos : Real.cos (computePsi o theta phi) ^ 2 = 1 := by
    have := Real.sin_sq_add_cos_sq (computePsi o theta phi)
    rw [hpsi] at this
    linarith
  have hg : 0 ≤ elementGain arr o theta phi := by
    have := (C61_patterns (gcsToLcs o theta phi).1 (gcsToLcs o theta phi).2 0).2.2.2.2.2.2.2.2 arr.pol1.pattern
    unfold elementGain
    rw [← this]
    positivity
  have hsq : Real.sqrt (arr.pol1.pattern.power (gcsToLcs o theta phi).1 (gcsToLcs o theta phi).2) ^ 2 = elementGain arr o theta phi := Real.sq_sqrt hg
  rcases hv with ⟨hV, hsl⟩ | ⟨hH, hsl⟩
  · refine Or.inl ⟨hV, ?_, ?_⟩ <;>
      simp [fieldVector, hs, l2gResponse, Matrix.mulVec, dotProduct, Fin.sum_univ_two, Element.field, hsl, hpsi, mul_pow, hcos, hsq]
  · refine Or.inr ⟨hH, ?_, ?_⟩ <;>
      simp [fieldVector, hs, l2gResponse, Matrix.mulVec, dotProduct, Fin.sum_univ_two, Element.field, hsl, hpsi, mul_pow, hcos, hsq]

theorem faraday_angle (fc height : ℝ) (f : Fin 2 → ℝ) : Spec.faraday fc height f =
    ![Real.cos (faradayAngle fc height) * f 0 - Real.sin (faradayAngle fc height) * f 1,
      Real.sin (faradayAngle fc height) * f 0 + Real.cos (faradayAngle fc height) * f 1] := by
  unfold Spec.faraday faradayAngle
  split_ifs
  · funext k
    fin_cases k <;> simp
  · rfl

section
variable {ar as : ArrayArgs} {rx tx : PanelArray} (hr : mkArray ar = .ok rx) (hs : mkArray as = .ok tx) (hdr : ar.polarization = "single")
  (hds : as.polarization = "single") {o o' : Fin 3 → ℝ} (ho : Upright o) (ho' : Upright o') (fc height θ φ θ' φ' : ℝ) (u s : ℕ)

include hr hs hdr hds ho ho'

theorem upright_ray (x : ℝ) :
    rayGain x (fieldVector rx o θ φ u) (Spec.faraday fc height (fieldVector tx o' θ' φ' s)) =
      elementGain rx o θ φ * elementGain tx o' θ' φ' * polarShare (faradayAngle fc height) (1 / x) (ar.polarizationType = as.polarizationType) := by
  rw [faraday_angle]
  generalize faradayAngle fc height = psi
  unfold polarShare rayGain
  simp only [Matrix.cons_val]
  rcases field_upright hr hdr ho θ φ u with ⟨t1, e1, e2⟩ | ⟨t1, e1, e2⟩ <;> rcases field_upright hs hds ho' θ' φ' s with ⟨t2, e3, e4⟩ | ⟨t2, e3, e4⟩
  · rw [if_pos (by rw [t1, t2]), e2, e4, ← e1, ← e3]; ring
  · rw [if_neg (by rw [t1, t2]; decide), e2, e4, ← e1, ← e3]; ring
  · rw [if_neg (by rw [t1, t2]; decide), e2, e4, ← e1, ← e3]; ring
  · rw [if_pos (by rw [t1, t2]), e2, e4, ← e1, ← e3]; ring

theorem upright_los :
    (fieldVector rx o θ φ u 0 * Spec.faraday fc height (fieldVector tx o' θ' φ' s) 0 -
        fieldVector rx o θ φ u 1 * Spec.faraday fc height (fieldVector tx o' θ' φ' s) 1) ^ 2 =
      elementGain rx o θ φ * elementGain tx o' θ' φ' * polarShare (faradayAngle fc height) 0 (ar.polarizationType = as.polarizationType) := by
  rw [faraday_angle]
  generalize faradayAngle fc height = psi
  unfold polarShare
  simp only [Matrix.cons_val]
  rcases field_upright hr hdr ho θ φ u with ⟨t1, e1, e2⟩ | ⟨t1, e1, e2⟩ <;> rcases field_upright hs hds ho' θ' φ' s with ⟨t2, e3, e4⟩ | ⟨t2, e3, e4⟩
  · rw [if_pos (by rw [t1, t2]), e2, e4, ← e1, ← e3]; ring
  · rw [if_neg (by rw [t1, t2]; decide), e2, e4, ← e1, ← e3]; ring
  · rw [if_neg (by rw [t1, t2]; decide), e2, e4, ← e1, ← e3]; ring
  · rw [if_pos (by rw [t1, t2]), e2, e4, ← e1, ← e3]; ring

end

/-- C208. Between upright antennas of a single polarisation, the average power of a path is the sum over its rays of a twentieth of the cluster power times the gains
of the elements times the share of the polarisations: turned by the Faraday angle, with the inverse cross polarisation ratio passing into the other polarisation.
Nothing of the specular path passes into the other polarisation but by Faraday rotation. Rays are assigned to paths as in C47. -/
theorem C208_upright {n : ℕ} {ar as : ArrayArgs} (g : CoeffGen) (hr : mkArray ar = .ok g.rx) (hs : mkArray as = .ok g.tx) (hdr : ar.polarization = "single")
    (hds : as.polarization = "single") (l : LinkTopo) (ho : Upright l.rxOri) (ho' : Upright l.txOri) (k : ℝ) (r : LinkRays (n + 2)) (cDs : ℝ)
    (hP : ∀ c, 0 ≤ r.powers c) (hx : ∀ c m, 0 < r.xpr c m) (hk : 0 ≤ k) :
    ∃ (strong : Finset (Fin (n + 2))) (path : Fin (n + 2) → Fin raysPerCluster → Fin (n + 6)),
      strong.card = 2 ∧ (∀ c ∈ strong, ∀ d ∉ strong, r.powers d ≤ r.powers c) ∧
      (∀ c m d m', path c m = path d m' ↔ c = d ∧ (c ∈ strong → subCluster m = subCluster m')) ∧
      ∀ q u s t,
        let psi := faradayAngle g.fc l.bsHeight
        let same := ar.polarizationType = as.polarizationType
        let gains c m := elementGain g.rx l.rxOri (r.zoa c m) (r.aoa c m) * elementGain g.tx l.txOri (r.zod c m) (r.aod c m)
        let losGains := elementGain g.rx l.rxOri l.losZoa l.losAoa * elementGain g.tx l.txOri l.losZod l.losAod
        let scattered := ∑ c, ∑ m, if path c m = q then r.powers c / 20 * (gains c m * polarShare psi (1 / r.xpr c m) same) else 0
        ∫ x : Fin (n + 2) × Fin raysPerCluster × Fin 4 → ℝ, ‖(coeffCall g l k r cDs fun c m i => x (c, m, i)).1 q u s t‖ ^ 2
            ∂(Measure.pi fun _ => uniformPhase) =
          if l.los then (k * (if q = 0 then losGains * polarShare psi 0 same else 0) + scattered) / (k + 1) else scattered := by
  obtain ⟨strong, path, h1, h2, h3, -, H⟩ := C100_average g l k r cDs hP hx hk
  refine ⟨strong, path, h1, h2, h3, fun q u s t => ?_⟩
  have := H q u s t
  simp only [upright_ray hr hs hdr hds ho ho', upright_los hr hs hdr hds ho ho'] at this
  exact this

/-- The hypotheses can be met: antennas of different polarisations, with a bearing, and a satellite. -/
example : ∃ (g : CoeffGen) (ar as : ArrayArgs) (l : LinkTopo), mkArray ar = .ok g.rx ∧ mkArray as = .ok g.tx ∧ ar.polarization = "single" ∧ as.polarization = "single" ∧
    ar.polarizationType ≠ as.polarizationType ∧ Upright l.rxOri ∧ l.rxOri ≠ 0 ∧ Upright l.txOri ∧ 600000 ≤ l.bsHeight := by
  obtain ⟨rx, hrx⟩ : ∃ a, mkArray ⟨1, 1, "single", "V", "omni", 2e9, 1, 1, none, none, none, none⟩ = .ok a := by
    norm_num [mkArray, patternOf, ArrayArgs.panelH, ArrayArgs.panelV, ArrayArgs.elementH, ArrayArgs.elementV, ArrayArgs.numPanels, Except.map]
  obtain ⟨tx, htx⟩ : ∃ a, mkArray ⟨1, 1, "single", "H", "omni", 2e9, 1, 1, none, none, none, none⟩ = .ok a := by
    norm_num +decide [mkArray, patternOf, ArrayArgs.panelH, ArrayArgs.panelV, ArrayArgs.elementH, ArrayArgs.elementV, ArrayArgs.numPanels, Except.map]
  exact ⟨⟨2e9, tx, rx⟩, _, _, ⟨0, true, 0, 0, 1, 2, true, 1e6, 0, ![1, 0, 0], 600000, 0, true⟩, hrx, htx, rfl, rfl, by decide, ⟨rfl, rfl⟩,
    fun h => by simpa using congrFun h 0, ⟨rfl, rfl⟩, le_rfl⟩

/-- C208, frequencies: in every scenario that can be made, the specular path keeps more than three quarters of its power in its polarisation; in the Ka band less than
one part in 36000 passes into the other one (more than 45 dB of isolation). -/
theorem C208_bands {cls : ScenarioClass} {sa : ScenarioArgs} {c : Config} (h : mkScenario cls sa = .ok c) (height : ℝ) :
    3 / 4 < polarShare (faradayAngle sa.carrierFrequency height) 0 True ∧
    (KaBand sa.carrierFrequency → polarShare (faradayAngle sa.carrierFrequency height) 0 False < 1 / 36000) := by
  have hb : SBand sa.carrierFrequency ∨ KaBand sa.carrierFrequency := by
    rcases mkScenario_spec cls sa with ⟨_, -, hb⟩ | ⟨h', -⟩
    · exact hb.fc_ok
    · rw [h] at h'
      exact absurd h' (by simp)
  have hpi := Real.pi_lt_d4
  have hpi0 := Real.pi_pos
  generalize sa.carrierFrequency = f at *
  have key : ∀ f0 : ℝ, 0 < f0 → f0 ≤ f → 0 ≤ faradayAngle f height ∧ faradayAngle f height ≤ 108 * (1e9 / f0) ^ 2 / 180 * Real.pi := by
    intro f0 h0 hf
    unfold faradayAngle
    have hf0 : 0 < f := h0.trans_le hf
    split_ifs
    · exact ⟨le_rfl, by positivity⟩
    · refine ⟨by positivity, ?_⟩
      gcongr
  constructor
  · obtain ⟨k1, k2⟩ := key 1900000000 (by norm_num) (by rcases hb with hb | hb <;> linarith [hb.1])
    have hlt : faradayAngle f height < Real.pi / 6 := lt_of_le_of_lt k2 (by norm_num; linarith)
    have hc := Real.cos_lt_cos_of_nonneg_of_le_pi_div_two k1 (by linarith) hlt
    rw [Real.cos_pi_div_six] at hc
    simp only [polarShare, if_true, zero_mul, add_zero]
    have h3 : (Real.sqrt 3 / 2) ^ 2 = 3 / 4 := by rw [div_pow, Real.sq_sqrt (by norm_num)]; norm_num
    rw [← h3]
    exact pow_lt_pow_left₀ hc (by positivity) (by norm_num)
  · intro hk
    obtain ⟨k1, k2⟩ := key 19000000000 (by norm_num) hk.1
    simp only [polarShare, if_false, zero_mul, add_zero]
    have hs := Real.sin_le k1
    have hs0 : 0 ≤ Real.sin (faradayAngle f height) := Real.sin_nonneg_of_nonneg_of_le_pi k1 (k2.trans (by norm_num; nlinarith))
    have : Real.sin (faradayAngle f height) ≤ 0.00523 := by
      refine hs.trans (k2.trans ?_)
      norm_num at hpi ⊢
      linarith
    calc Real.sin (faradayAngle f height) ^ 2 ≤ 0.00523 ^ 2 := pow_le_pow_left₀ hs0 this 2
      _ < 1 / 36000 := by norm_num

end OpenNTN
