import Verif.Spec.DopplerSpectrum
import Verif.Props.Coeff2
import Verif.Model.Tdl

/-
C202: every path is a sum of oscillations around the Doppler shift of the satellite, which is the same for all paths; only the motion of the UT
spreads them.
-/
namespace OpenNTN

open Matrix

/-- Projection of the velocity on a direction is at most the speed. -/
theorem direction_speed (θ φ : ℝ) (v : Fin 3 → ℝ) : |∑ k, unitSphere θ φ k * v k| ≤ Real.sqrt (∑ k, v k ^ 2) := by
  apply Real.abs_le_sqrt
  have h := Finset.sum_mul_sq_le_sq_mul_sq Finset.univ (unitSphere θ φ) v
  have h1 : ∑ k, unitSphere θ φ k ^ 2 = 1 := by
    simp only [unitSphere, Fin.sum_univ_three, cons_val_zero, cons_val_one, cons_val]
    nlinarith [Real.sin_sq_add_cos_sq θ, Real.sin_sq_add_cos_sq φ]
  rwa [h1, one_mul] at h

/-- Angular Doppler shift due to the satellite. -/
noncomputable def satelliteShift (g : CoeffGen) (l : LinkTopo) : ℝ :=
  if 600000 ≤ l.bsHeight ∧ l.doppler = true then 2 * Real.pi / g.lambda0 * l.satSpeed else 0

/-- The Doppler factor of a direction is one oscillation. -/
theorem doppler_oscillation (g : CoeffGen) (hf : 0 < g.fc) (l : LinkTopo) (aoa zoa aod zod : ℝ) :
    ∃ ω, |ω - satelliteShift g l| ≤ 2 * Real.pi * g.fc / 299792458 * Real.sqrt (∑ k, l.velocity k ^ 2) ∧
      ∀ t, dopplerTerm g l aoa zoa aod zod t = Spec.oscillation ω t := by
  have hl : 2 * Real.pi / g.lambda0 = 2 * Real.pi * g.fc / 299792458 := by
    unfold CoeffGen.lambda0 speedOfLight
    field_simp
  refine ⟨2 * Real.pi / g.lambda0 * (∑ k, (if l.movingRx then unitSphere zoa aoa else unitSphere zod aod) k * l.velocity k) + satelliteShift g l, ?_, fun t => ?_⟩
  · rw [add_sub_cancel_right, hl, abs_mul, abs_of_nonneg (by positivity)]
    refine mul_le_mul_of_nonneg_left ?_ (by positivity)
    split <;> exact direction_speed _ _ _
  · unfold dopplerTerm Spec.oscillation dopplerExponent satelliteShift
    congr 3
    by_cases hc : 600000 ≤ l.bsHeight ∧ l.doppler = true
    · simp only [if_pos hc]
      ring_nf
    · simp only [if_neg hc]
      ring_nf

theorem bandLimited_smul {c W : ℝ} {f : ℝ → ℂ} (a : ℂ) (h : Spec.BandLimited c W f) : Spec.BandLimited c W fun t => a * f t :=
  Submodule.smul_mem _ a h

theorem bandLimited_add {c W : ℝ} {f f' : ℝ → ℂ} (h : Spec.BandLimited c W f) (h' : Spec.BandLimited c W f') : Spec.BandLimited c W fun t => f t + f' t :=
  Submodule.add_mem _ h h'

theorem bandLimited_oscillation {c W ω : ℝ} (h : |ω - c| ≤ W) : Spec.BandLimited c W (Spec.oscillation ω) :=
  Submodule.subset_span ⟨ω, h, rfl⟩

/-- Coefficients all of whose entries are band limited. -/
def bandSubmodule (c W : ℝ) : AddSubmonoid Coeff where
  carrier := {h | ∀ u s, Spec.BandLimited c W (h u s)}
  zero_mem' _ _ := Submodule.zero_mem _
  add_mem' h h' u s := Submodule.add_mem _ (h u s) (h' u s)

/-- Reduction to paths only adds rays. -/
theorem reduceNlos_mem {n : ℕ} {H : Type} [AddCommMonoid H] (N : AddSubmonoid H) (powers delays : Fin (n + 2) → ℝ)
    (hFull : Fin (n + 2) → Fin raysPerCluster → H) (cDs : ℝ) (h : ∀ c m, hFull c m ∈ N) (q : Fin (n + 6)) : (reduceNlos powers delays hFull cDs).1 q ∈ N := by
  unfold reduceNlos
  dsimp only
  repeat' split
  all_goals first
    | (refine AddSubmonoid.list_sum_mem _ fun x hx => ?_
       obtain ⟨m, -, rfl⟩ := List.mem_map.1 hx
       exact h _ _)
    | exact AddSubmonoid.sum_mem _ fun m _ => h _ _

theorem nlosRay_band {M : ℕ} (g : CoeffGen) (hf : 0 < g.fc) (l : LinkTopo) (r : LinkRays M) (phi : Fin M → Fin raysPerCluster → Fin 4 → ℝ) (c : Fin M)
    (m : Fin raysPerCluster) :
    nlosRay g l r phi c m ∈ bandSubmodule (satelliteShift g l) (2 * Real.pi * g.fc / 299792458 * Real.sqrt (∑ k, l.velocity k ^ 2)) := by
  intro u s
  obtain ⟨ω, hω, he⟩ := doppler_oscillation g hf l (r.aoa c m) (r.zoa c m) (r.aod c m) (r.zod c m)
  have := bandLimited_smul (fieldMatrix g l (r.aoa c m) (r.aod c m) (r.zoa c m) (r.zod c m) (withFaraday g l (phaseMatrix (phi c m) (r.xpr c m))) u s *
    arrayOffset g l (r.aoa c m) (r.aod c m) (r.zoa c m) (r.zod c m) u s * ((Real.sqrt (r.powers c / raysPerCluster) : ℝ) : ℂ)) (bandLimited_oscillation hω)
  convert this using 2 with t
  simp only [nlosRay, he]
  ring

theorem losCoeff_band (g : CoeffGen) (hf : 0 < g.fc) (l : LinkTopo) :
    losCoeff g l ∈ bandSubmodule (satelliteShift g l) (2 * Real.pi * g.fc / 299792458 * Real.sqrt (∑ k, l.velocity k ^ 2)) := by
  intro u s
  obtain ⟨ω, hω, he⟩ := doppler_oscillation g hf l l.losAoa l.losZoa l.losAod l.losZod
  have := bandLimited_smul (fieldMatrix g l l.losAoa l.losAod l.losZoa l.losZod (withFaraday g l losPhaseMatrix) u s *
    arrayOffset g l l.losAoa l.losAod l.losZoa l.losZod u s * Complex.exp (Complex.I * (2 * Real.pi * l.distance3d / g.lambda0 : ℝ))) (bandLimited_oscillation hω)
  convert this using 2 with t
  simp only [losCoeff, he]
  ring

theorem combineLos_band {p : ℕ} {c W : ℝ} (los : Bool) (k : ℝ) {hLos : Coeff} {hNlos : Fin (p + 1) → Coeff} (hl : hLos ∈ bandSubmodule c W)
    (hn : ∀ q, hNlos q ∈ bandSubmodule c W) (q : Fin (p + 1)) : combineLos los k hLos hNlos q ∈ bandSubmodule c W := by
  have hs : ∀ {h : Coeff} (a : ℂ), h ∈ bandSubmodule c W → (fun u s t => h u s t * a) ∈ bandSubmodule c W := by
    intro h a hh u s
    convert bandLimited_smul a (hh u s) using 2
    exact mul_comm _ _
  unfold combineLos
  cases los
  · exact hn q
  · simp only [if_true]
    split
    · exact fun u s => bandLimited_add (hs _ hl u s) (hs _ (hn 0) u s)
    · exact hs _ (hn q)

/-- Bounds on the Doppler shift of the satellite. -/
theorem satelliteShift_bound (g : CoeffGen) (hf : 0 < g.fc) (l : LinkTopo) {elevation dir : ℝ} (he : 0 ≤ elevation) (he' : elevation ≤ 90)
    (hs : l.satSpeed = topologySatSpeed l.bsHeight elevation dir) :
    |satelliteShift g l| ≤ 2 * Real.pi * g.fc / 299792458 * (Real.cos (elevation * Real.pi / 180) * satelliteSpeed l.bsHeight) ∧
      (l.doppler = false ∨ l.bsHeight < 600000 → satelliteShift g l = 0) := by
  have hl : 2 * Real.pi / g.lambda0 = 2 * Real.pi * g.fc / 299792458 := by
    unfold CoeffGen.lambda0 speedOfLight
    field_simp
  have hv : 0 ≤ satelliteSpeed l.bsHeight := Real.sqrt_nonneg _
  have hc : 0 ≤ Real.cos (elevation * Real.pi / 180) := by
    refine Real.cos_nonneg_of_neg_pi_div_two_le_of_le ?_ ?_ <;> nlinarith [Real.pi_pos]
  constructor
  · unfold satelliteShift
    split
    · rw [hl, abs_mul, abs_of_nonneg (by positivity), hs]
      refine mul_le_mul_of_nonneg_left ?_ (by positivity)
      unfold topologySatSpeed
      dsimp only
      rw [mul_div_assoc] at hc
      rw [abs_mul, abs_of_nonneg (mul_nonneg hc hv), mul_div_assoc]
      exact mul_le_of_le_one_left (mul_nonneg hc hv) (Real.abs_cos_le_one dir)
    · rw [abs_zero]
      positivity
  · intro h
    unfold satelliteShift
    refine if_neg fun hh => ?_
    rcases h with h | h
    · rw [h] at hh
      exact absurd hh.2 (by decide)
    · exact absurd hh.1 (not_le.2 h)

/-- C202. Every path is a finite sum of oscillations; their angular frequencies differ from the Doppler shift of the satellite, common to all paths and
antennas, by at most that of a motion of the UT along the path. -/
theorem C202_band {n : ℕ} (g : CoeffGen) (hf : 0 < g.fc) (l : LinkTopo) (k : ℝ) (r : LinkRays (n + 2)) (cDs : ℝ)
    (phi : Fin (n + 2) → Fin raysPerCluster → Fin 4 → ℝ) {elevation dir : ℝ} (he : 0 ≤ elevation) (he' : elevation ≤ 90)
    (hs : l.satSpeed = topologySatSpeed l.bsHeight elevation dir) :
    ∃ shift, |shift| ≤ 2 * Real.pi * g.fc / 299792458 * (Real.cos (elevation * Real.pi / 180) * satelliteSpeed l.bsHeight) ∧
      (l.doppler = false ∨ l.bsHeight < 600000 → shift = 0) ∧
      ∀ q u s, Spec.BandLimited shift (2 * Real.pi * g.fc / 299792458 * Real.sqrt (∑ k, l.velocity k ^ 2)) ((coeffCall g l k r cDs phi).1 q u s) := by
  obtain ⟨h1, h2⟩ := satelliteShift_bound g hf l he he' hs
  refine ⟨satelliteShift g l, h1, h2, fun q => ?_⟩
  exact combineLos_band (p := n + 5) _ _ (losCoeff_band g hf l) (fun q => reduceNlos_mem _ _ _ _ _ (nlosRay_band g hf l r phi) q) q

/-- C202 without sub-clusters. -/
theorem C202_band_plain {n : ℕ} (g : CoeffGen) (hf : 0 < g.fc) (l : LinkTopo) (k : ℝ) (r : LinkRays (n + 1))
    (phi : Fin (n + 1) → Fin raysPerCluster → Fin 4 → ℝ) {elevation dir : ℝ} (he : 0 ≤ elevation) (he' : elevation ≤ 90)
    (hs : l.satSpeed = topologySatSpeed l.bsHeight elevation dir) :
    ∃ shift, |shift| ≤ 2 * Real.pi * g.fc / 299792458 * (Real.cos (elevation * Real.pi / 180) * satelliteSpeed l.bsHeight) ∧
      (l.doppler = false ∨ l.bsHeight < 600000 → shift = 0) ∧
      ∀ q u s, Spec.BandLimited shift (2 * Real.pi * g.fc / 299792458 * Real.sqrt (∑ k, l.velocity k ^ 2)) ((coeffCallPlain g l k r phi).1 q u s) := by
  obtain ⟨h1, h2⟩ := satelliteShift_bound g hf l he he' hs
  refine ⟨satelliteShift g l, h1, h2, fun q => ?_⟩
  refine combineLos_band _ _ (losCoeff_band g hf l) (fun q => ?_) q
  exact AddSubmonoid.sum_mem _ fun m _ => nlosRay_band g hf l r phi _ m

/-- A band of width zero is a single oscillation. -/
theorem bandLimited_zero {c : ℝ} {f : ℝ → ℂ} (h : Spec.BandLimited c 0 f) (t : ℝ) : f t = Spec.oscillation c t * f 0 := by
  have hset : Spec.oscillation '' {ω | |ω - c| ≤ 0} = {Spec.oscillation c} := by
    ext x
    simp [sub_eq_zero, eq_comm]
  rw [Spec.BandLimited, hset, Submodule.mem_span_singleton] at h
  obtain ⟨a, rfl⟩ := h
  simp [Spec.oscillation, mul_comm]

/-- C202, UT at rest. All paths and antennas rotate with one frequency, no magnitude changes. -/
theorem C202_rest {n : ℕ} (g : CoeffGen) (hf : 0 < g.fc) (l : LinkTopo) (hv : l.velocity = 0) (k : ℝ) (r : LinkRays (n + 2)) (cDs : ℝ)
    (phi : Fin (n + 2) → Fin raysPerCluster → Fin 4 → ℝ) :
    ∃ shift : ℝ, ∀ q u s t, (coeffCall g l k r cDs phi).1 q u s t = Complex.exp (Complex.I * ((shift * t : ℝ) : ℂ)) * (coeffCall g l k r cDs phi).1 q u s 0 := by
  refine ⟨satelliteShift g l, fun q u s t => bandLimited_zero ?_ t⟩
  have := combineLos_band (p := n + 5) l.los k (losCoeff_band g hf l) (fun q => reduceNlos_mem _ r.powers r.delays _ cDs (nlosRay_band g hf l r phi) q) q u s
  have hz : 2 * Real.pi * g.fc / 299792458 * Real.sqrt (∑ k, l.velocity k ^ 2) = 0 := by simp [hv]
  rw [hz] at this
  exact this

/-- C202, tapped delay lines. Every tap is the sampled sum of oscillations of at most the Doppler frequency drawn for the example. -/
theorem C202_tdl {B R T C N : ℕ} (t : Tdl) (powers : Fin C → ℝ) (w : TdlDraws B R T C N) (fs : ℝ) (b : Fin B) (r : Fin R) (x : Fin T) (c : Fin C) :
    ∃ f, Spec.BandLimited 0 |w.doppler b| f ∧ ∀ s, tdlCoeff t powers w fs b r x c s = f (s / fs) := by
  have hosc : ∀ α φ : ℝ, Spec.BandLimited 0 |w.doppler b| fun τ => (⟨Real.cos (w.doppler b * τ * Real.cos α + φ), Real.sin (w.doppler b * τ * Real.cos α + φ)⟩ : ℂ) := by
    intro α φ
    have hb : |w.doppler b * Real.cos α - 0| ≤ |w.doppler b| := by
      rw [sub_zero, abs_mul]
      exact mul_le_of_le_one_right (abs_nonneg _) (Real.abs_cos_le_one α)
    convert bandLimited_smul (Complex.exp (Complex.I * (φ : ℂ))) (bandLimited_oscillation hb) using 2 with τ
    rw [Spec.oscillation, ← Complex.exp_add, show Complex.I * (φ : ℂ) + Complex.I * ((w.doppler b * Real.cos α * τ : ℝ) : ℂ) =
      ((w.doppler b * τ * Real.cos α + φ : ℝ) : ℂ) * Complex.I by push_cast; ring, Complex.exp_mul_I, ← Complex.ofReal_cos, ← Complex.ofReal_sin]
    generalize Real.cos (w.doppler b * τ * Real.cos α + φ) = p
    generalize Real.sin (w.doppler b * τ * Real.cos α + φ) = q
    exact Complex.ext (by simp) (by simp)
  have hdiff : Spec.BandLimited 0 |w.doppler b| fun τ => ((Real.sqrt (powers c) : ℝ) : ℂ) * (((1 / Real.sqrt N : ℝ) : ℂ) *
      ∑ k : Fin N, (⟨Real.cos (w.doppler b * τ * Real.cos (2 * Real.pi / N * ((k.val : ℝ) + 1) + w.theta b c k) + w.phi b r x c k),
        Real.sin (w.doppler b * τ * Real.cos (2 * Real.pi / N * ((k.val : ℝ) + 1) + w.theta b c k) + w.phi b r x c k)⟩ : ℂ)) := by
    refine bandLimited_smul _ (bandLimited_smul _ ?_)
    have := Submodule.sum_mem (Submodule.span ℂ (Spec.oscillation '' {ω | |ω - 0| ≤ |w.doppler b|})) (t := Finset.univ)
      fun k _ => hosc (2 * Real.pi / N * ((k.val : ℝ) + 1) + w.theta b c k) (w.phi b r x c k)
    unfold Spec.BandLimited
    convert this using 1
    funext τ
    rw [Finset.sum_apply]
  unfold tdlCoeff
  cases hl : t.params.losPower with
  | none => exact ⟨_, hdiff, fun s => rfl⟩
  | some p =>
    by_cases hc : c.val = 0
    · refine ⟨_, bandLimited_add (bandLimited_smul ((Real.sqrt p : ℝ) : ℂ) (hosc t.losAngle (w.phi0 b))) hdiff, fun s => ?_⟩
      simp only [if_pos hc]
      rw [mul_comm (⟨Real.cos _, Real.sin _⟩ : ℂ)]
    · refine ⟨_, hdiff, fun s => ?_⟩
      simp only [if_neg hc]

/-- The hypotheses can be met by a link to a satellite at 600 km with a UT in motion. -/
example (a : PanelArray) : ∃ (g : CoeffGen) (l : LinkTopo), 0 < g.fc ∧ l.satSpeed = topologySatSpeed l.bsHeight 30 1 ∧ l.velocity ≠ 0 ∧ l.bsHeight = 600000 ∧ l.doppler = true :=
  ⟨⟨2e9, a, a⟩, ⟨![3, 0, 0], true, 0, 0, 0, 0, true, 1e6, 0, 0, 600000, topologySatSpeed 600000 30 1, true⟩, by norm_num, rfl,
    fun h => by simpa using congrFun h 0, rfl, rfl⟩

end OpenNTN
