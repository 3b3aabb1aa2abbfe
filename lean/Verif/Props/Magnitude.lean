import Verif.Props.Power
import Verif.Props.DopplerSpectrum
import Verif.Props.Orbit
import Verif.Model.Ofdm

/-
C206: bounds on the coefficients, on their change with time and on the change of the frequency response, for every draw.
-/
namespace OpenNTN

open Matrix

/-- The function of time is at most `A` and changes at most by `A * Ω` per second. -/
def Spec.Tame (A Ω : ℝ) (f : ℝ → ℂ) : Prop := (∀ t, ‖f t‖ ≤ A) ∧ ∀ t t', ‖f t - f t'‖ ≤ A * Ω * |t - t'|

/-- Amplitude of a ray with power `P` and cross polarisation ratio `x` between isotropic antennas if all its components add up. -/
noncomputable def Spec.rayAmplitude (P x : ℝ) : ℝ := Real.sqrt P * (1 + Real.sqrt (1 / x))

theorem tame_add {A A' Ω : ℝ} {f f' : ℝ → ℂ} (h : Spec.Tame A Ω f) (h' : Spec.Tame A' Ω f') : Spec.Tame (A + A') Ω fun t => f t + f' t := by
  refine ⟨fun t => (norm_add_le _ _).trans (add_le_add (h.1 t) (h'.1 t)), fun t t' => ?_⟩
  rw [add_sub_add_comm, add_mul, add_mul]
  exact (norm_add_le _ _).trans (add_le_add (h.2 t t') (h'.2 t t'))

theorem tame_zero (Ω : ℝ) : Spec.Tame 0 Ω fun _ => 0 := ⟨fun _ => by simp, fun _ _ => by simp⟩

theorem tame_sum {ι : Type} (S : Finset ι) {A : ι → ℝ} {Ω : ℝ} {f : ι → ℝ → ℂ} (h : ∀ i ∈ S, Spec.Tame (A i) Ω (f i)) :
    Spec.Tame (∑ i ∈ S, A i) Ω fun t => ∑ i ∈ S, f i t := by
  classical
  induction S using Finset.induction_on with
  | empty => simpa using tame_zero Ω
  | insert i S hi ih =>
    simp only [Finset.sum_insert hi]
    exact tame_add (h i (Finset.mem_insert_self _ _)) (ih fun j hj => h j (Finset.mem_insert_of_mem hj))

theorem tame_mul {A Ω : ℝ} {f : ℝ → ℂ} (h : Spec.Tame A Ω f) {a : ℝ} (ha : 0 ≤ a) : Spec.Tame (A * a) Ω fun t => f t * (a : ℂ) := by
  have hn : ‖(a : ℂ)‖ = a := by rw [Complex.norm_real, Real.norm_of_nonneg ha]
  refine ⟨fun t => ?_, fun t t' => ?_⟩
  · rw [norm_mul, hn]
    exact mul_le_mul_of_nonneg_right (h.1 t) ha
  · rw [← sub_mul, norm_mul, hn]
    exact (mul_le_mul_of_nonneg_right (h.2 t t') ha).trans_eq (by ring)

/-- Two phases are no further apart on the circle than on the line. -/
theorem phase_sub_le (x y : ℝ) : ‖Complex.exp (Complex.I * (x : ℂ)) - Complex.exp (Complex.I * (y : ℂ))‖ ≤ |x - y| := by
  have e : Complex.exp (Complex.I * (x : ℂ)) - Complex.exp (Complex.I * (y : ℂ)) =
      Complex.exp (Complex.I * (y : ℂ)) * (Complex.exp (Complex.I * ((x - y : ℝ) : ℂ)) - 1) := by
    rw [mul_sub, ← Complex.exp_add, mul_one]
    congr 2
    push_cast
    ring
  rw [e, norm_mul, mul_comm Complex.I (y : ℂ), Complex.norm_exp_ofReal_mul_I, one_mul]
  exact Real.norm_exp_I_mul_ofReal_sub_one_le

theorem tame_oscillation {A Ω ω : ℝ} {a : ℂ} (ha : ‖a‖ ≤ A) (hω : |ω| ≤ Ω) : Spec.Tame A Ω fun t => a * Spec.oscillation ω t := by
  have hA : 0 ≤ A := (norm_nonneg _).trans ha
  refine ⟨fun t => ?_, fun t t' => ?_⟩
  · rw [norm_mul, Spec.oscillation, mul_comm Complex.I, Complex.norm_exp_ofReal_mul_I, mul_one]
    exact ha
  · rw [← mul_sub, norm_mul, mul_assoc]
    refine mul_le_mul ha ?_ (norm_nonneg _) hA
    refine (phase_sub_le _ _).trans ?_
    rw [← mul_sub, abs_mul]
    exact mul_le_mul_of_nonneg_right hω (abs_nonneg _)

/-- Fields of bounded gain couple at most by the root of the product of the gains. -/
theorem coupling_le {f h : Fin 2 → ℝ} {Gr Gt : ℝ} (hf : f 0 ^ 2 + f 1 ^ 2 ≤ Gr) (hh : h 0 ^ 2 + h 1 ^ 2 ≤ Gt) :
    |f 0 * h 0| + |f 1 * h 1| ≤ Real.sqrt (Gr * Gt) ∧ |f 0 * h 1| + |f 1 * h 0| ≤ Real.sqrt (Gr * Gt) := by
  have hGr : 0 ≤ Gr := le_trans (by positivity) hf
  have key := mul_le_mul hf hh (by positivity) hGr
  have e : ∀ x : ℝ, |x| ^ 2 = x ^ 2 := sq_abs
  constructor
  · apply Real.le_sqrt_of_sq_le
    rw [abs_mul, abs_mul]
    nlinarith [sq_nonneg (|f 0| * |h 1| - |f 1| * |h 0|), e (f 0), e (f 1), e (h 0), e (h 1)]
  · apply Real.le_sqrt_of_sq_le
    rw [abs_mul, abs_mul]
    nlinarith [sq_nonneg (|f 0| * |h 0| - |f 1| * |h 1|), e (f 0), e (f 1), e (h 0), e (h 1)]

/-- The largest angular Doppler shift: motion of the UT and of the satellite. -/
theorem shift_bound (g : CoeffGen) (hf : 0 < g.fc) (l : LinkTopo) {elevation dir : ℝ} (he : 0 ≤ elevation) (he' : elevation ≤ 90)
    (hs : l.satSpeed = topologySatSpeed l.bsHeight elevation dir) {ω : ℝ}
    (hω : |ω - satelliteShift g l| ≤ 2 * Real.pi * g.fc / 299792458 * Real.sqrt (∑ k, l.velocity k ^ 2)) :
    |ω| ≤ 2 * Real.pi * g.fc / 299792458 * (Real.sqrt (∑ k, l.velocity k ^ 2) + Real.cos (elevation * Real.pi / 180) * satelliteSpeed l.bsHeight) := by
  have h1 := (satelliteShift_bound g hf l he he' hs).1
  have h2 := abs_add_le (ω - satelliteShift g l) (satelliteShift g l)
  rw [sub_add_cancel] at h2
  rw [mul_add]
  linarith

section
variable {n : ℕ} {ar as : ArrayArgs} (g : CoeffGen) (hr : mkArray ar = .ok g.rx) (hs : mkArray as = .ok g.tx) (hf : 0 < g.fc) (l : LinkTopo)
  {elevation dir : ℝ} (he : 0 ≤ elevation) (he' : elevation ≤ 90) (hsp : l.satSpeed = topologySatSpeed l.bsHeight elevation dir)

include hr hs hf he he' hsp

theorem losCoeff_tame (u s : ℕ) :
    Spec.Tame (Real.sqrt (Spec.maxGain ar.pattern * Spec.maxGain as.pattern))
      (2 * Real.pi * g.fc / 299792458 * (Real.sqrt (∑ k, l.velocity k ^ 2) + Real.cos (elevation * Real.pi / 180) * satelliteSpeed l.bsHeight))
      (losCoeff g l u s) := by
  obtain ⟨ω, hω, ho⟩ := doppler_oscillation g hf l l.losAoa l.losZoa l.losAod l.losZod
  have hb := shift_bound g hf l he he' hsp hω
  set a := fieldMatrix g l l.losAoa l.losAod l.losZoa l.losZod (withFaraday g l losPhaseMatrix) u s *
    arrayOffset g l l.losAoa l.losAod l.losZoa l.losZod u s * Complex.exp (Complex.I * (2 * Real.pi * l.distance3d / g.lambda0 : ℝ)) with hadef
  have hfun : losCoeff g l u s = fun t => a * Spec.oscillation ω t := by
    funext t
    simp only [losCoeff, ho, hadef]
    ring
  have hna : ‖a‖ ≤ Real.sqrt (Spec.maxGain ar.pattern * Spec.maxGain as.pattern) := by
    have h0 : ‖a‖ = ‖losCoeff g l u s 0‖ := by
      rw [hfun]
      simp [Spec.oscillation]
    rw [h0]
    apply Real.le_sqrt_of_sq_le
    rw [losCoeff_power]
    have e := faraday_norm g.fc l.bsHeight (fieldVector g.tx l.txOri l.losZod l.losAod s)
    have h1 := field_le hr l.rxOri l.losZoa l.losAoa u
    have h2 := field_le hs l.txOri l.losZod l.losAod s
    rw [← e] at h2
    have h3 := mul_le_mul h1 h2 (by positivity) (le_trans (by positivity) h1)
    generalize Spec.faraday g.fc l.bsHeight (fieldVector g.tx l.txOri l.losZod l.losAod s) = f at *
    generalize fieldVector g.rx l.rxOri l.losZoa l.losAoa u = f' at *
    nlinarith [sq_nonneg (f' 0 * f 1 + f' 1 * f 0)]
  rw [hfun]
  exact tame_oscillation hna hb

theorem nlosRay_tame {M : ℕ} (r : LinkRays M) (phi : Fin M → Fin raysPerCluster → Fin 4 → ℝ) (c : Fin M) (m : Fin raysPerCluster) (u s : ℕ) :
    Spec.Tame (Real.sqrt (Spec.maxGain ar.pattern * Spec.maxGain as.pattern) * Spec.rayAmplitude (r.powers c / 20) (r.xpr c m))
      (2 * Real.pi * g.fc / 299792458 * (Real.sqrt (∑ k, l.velocity k ^ 2) + Real.cos (elevation * Real.pi / 180) * satelliteSpeed l.bsHeight))
      (nlosRay g l r phi c m u s) := by
  obtain ⟨ω, hω, ho⟩ := doppler_oscillation g hf l (r.aoa c m) (r.zoa c m) (r.aod c m) (r.zod c m)
  have hb := shift_bound g hf l he he' hsp hω
  set a := fieldMatrix g l (r.aoa c m) (r.aod c m) (r.zoa c m) (r.zod c m) (withFaraday g l (phaseMatrix (phi c m) (r.xpr c m))) u s *
    arrayOffset g l (r.aoa c m) (r.aod c m) (r.zoa c m) (r.zod c m) u s * ((Real.sqrt (r.powers c / raysPerCluster) : ℝ) : ℂ) with hadef
  have hfun : nlosRay g l r phi c m u s = fun t => a * Spec.oscillation ω t := by
    funext t
    simp only [nlosRay, ho, hadef]
    ring
  have hna : ‖a‖ ≤ Real.sqrt (Spec.maxGain ar.pattern * Spec.maxGain as.pattern) * Spec.rayAmplitude (r.powers c / 20) (r.xpr c m) := by
    have h0 : ‖a‖ = ‖nlosRay g l r phi c m u s 0‖ := by
      rw [hfun]
      simp [Spec.oscillation]
    have e := faraday_norm g.fc l.bsHeight (fieldVector g.tx l.txOri (r.zod c m) (r.aod c m) s)
    have h1 := field_le hr l.rxOri (r.zoa c m) (r.aoa c m) u
    have h2 := field_le hs l.txOri (r.zod c m) (r.aod c m) s
    rw [← e] at h2
    obtain ⟨k1, k2⟩ := coupling_le h1 h2
    obtain ⟨a1, -, a2, -⟩ := C45_phases g l (r.aoa c m) (r.aod c m) (r.zoa c m) (r.zod c m) 0 u s
    rw [h0, nlosRay_phasors]
    refine (norm_sum_le _ _).trans ?_
    have hph : ∀ x : ℝ, ‖Complex.exp ((x : ℂ) * Complex.I)‖ = 1 := Complex.norm_exp_ofReal_mul_I
    have h20 : r.powers c / (raysPerCluster : ℝ) = r.powers c / 20 := by simp [raysPerCluster]
    have hP := Real.sqrt_nonneg (r.powers c / 20)
    have hX := Real.sqrt_nonneg (1 / r.xpr c m)
    simp only [Fin.sum_univ_four, norm_mul, hph, mul_one, rayWeight, Matrix.cons_val, a1, a2, one_mul, Complex.norm_real, Real.norm_eq_abs,
      h20, abs_mul, abs_of_nonneg hP, abs_of_nonneg hX, Spec.rayAmplitude] at *
    generalize Spec.faraday g.fc l.bsHeight (fieldVector g.tx l.txOri (r.zod c m) (r.aod c m) s) = f at *
    generalize fieldVector g.rx l.rxOri (r.zoa c m) (r.aoa c m) u = f' at *
    generalize Real.sqrt (Spec.maxGain ar.pattern * Spec.maxGain as.pattern) = G at *
    generalize Real.sqrt (r.powers c / 20) = P at *
    generalize Real.sqrt (1 / r.xpr c m) = X at *
    have m1 := mul_le_mul_of_nonneg_right k1 hP
    have m2 := mul_le_mul_of_nonneg_right (mul_le_mul_of_nonneg_left k2 hX) hP
    linarith
  rw [hfun]
  exact tame_oscillation hna hb

/-- C206. Whatever the initial phases are, the coefficient of a path is at most the root of the product of the largest gains of the elements times the sum of the
amplitudes of its rays, weighted with the K-factor, and with the specular path for the first; and per second it changes by no more than that times the
largest Doppler shift that the speeds of UT and satellite allow. All paths together are at most the specular path and all rays. Rays are assigned to paths as in C47. -/
theorem C206_coefficients (k : ℝ) (r : LinkRays (n + 2)) (cDs : ℝ) :
    ∃ (strong : Finset (Fin (n + 2))) (path : Fin (n + 2) → Fin raysPerCluster → Fin (n + 6)),
      strong.card = 2 ∧ (∀ c ∈ strong, ∀ d ∉ strong, r.powers d ≤ r.powers c) ∧
      (∀ c m d m', path c m = path d m' ↔ c = d ∧ (c ∈ strong → Spec.subCluster m = Spec.subCluster m')) ∧
      (∀ phi c m, (coeffCall g l k r cDs phi).2 (path c m) = r.delays c + if c ∈ strong then Spec.subClusterDelay (Spec.subCluster m) * cDs else 0) ∧
      (∀ phi q u s, let scattered := ∑ c, ∑ m, if path c m = q then Spec.rayAmplitude (r.powers c / 20) (r.xpr c m) else 0
        Spec.Tame (Real.sqrt (Spec.maxGain ar.pattern * Spec.maxGain as.pattern) *
            if l.los then (if q = 0 then Real.sqrt (k / (k + 1)) else 0) + scattered * Real.sqrt (1 / (k + 1)) else scattered)
          (2 * Real.pi * g.fc / 299792458 * (Real.sqrt (∑ k, l.velocity k ^ 2) + Real.cos (elevation * Real.pi / 180) * satelliteSpeed l.bsHeight))
          ((coeffCall g l k r cDs phi).1 q u s)) ∧
      ∀ phi u s t, ∑ q, ‖(coeffCall g l k r cDs phi).1 q u s t‖ ≤ Real.sqrt (Spec.maxGain ar.pattern * Spec.maxGain as.pattern) *
        let scattered := ∑ c, ∑ m, Spec.rayAmplitude (r.powers c / 20) (r.xpr c m)
        if l.los then Real.sqrt (k / (k + 1)) + scattered * Real.sqrt (1 / (k + 1)) else scattered := by
  obtain ⟨-, strong, path, h1, h2, h3, h4, h5, -⟩ := C47_paths r.powers r.delays
    (fun c m (x : Fin (n + 2) → Fin raysPerCluster → Fin 4 → ℝ) => nlosRay g l r x c m) cDs
  have main : ∀ phi q u s, let scattered := ∑ c, ∑ m, if path c m = q then Spec.rayAmplitude (r.powers c / 20) (r.xpr c m) else 0
        Spec.Tame (Real.sqrt (Spec.maxGain ar.pattern * Spec.maxGain as.pattern) *
            if l.los then (if q = 0 then Real.sqrt (k / (k + 1)) else 0) + scattered * Real.sqrt (1 / (k + 1)) else scattered)
          (2 * Real.pi * g.fc / 299792458 * (Real.sqrt (∑ k, l.velocity k ^ 2) + Real.cos (elevation * Real.pi / 180) * satelliteSpeed l.bsHeight))
          ((coeffCall g l k r cDs phi).1 q u s) := by
    intro phi q u s scattered
    set G := Real.sqrt (Spec.maxGain ar.pattern * Spec.maxGain as.pattern)
    set Ω := 2 * Real.pi * g.fc / 299792458 * (Real.sqrt (∑ k, l.velocity k ^ 2) + Real.cos (elevation * Real.pi / 180) * satelliteSpeed l.bsHeight)
    have hn : Spec.Tame (G * scattered) Ω ((reduceNlos r.powers r.delays (nlosRay g l r phi) cDs).1 q u s) := by
      have e : (reduceNlos r.powers r.delays (nlosRay g l r phi) cDs).1 q u s = fun t => ∑ c, ∑ m, if path c m = q then nlosRay g l r phi c m u s t else 0 := by
        funext t
        have e := congrFun (congrFun (congrFun (congrFun (h3 q) phi) u) s) t
        rw [reduceNlos_eval] at e
        refine e.trans ?_
        rw [Finset.sum_apply, Finset.sum_apply, Finset.sum_apply, Finset.sum_apply]
        refine Finset.sum_congr rfl fun c _ => ?_
        rw [Finset.sum_apply, Finset.sum_apply, Finset.sum_apply, Finset.sum_apply]
        refine Finset.sum_congr rfl fun m _ => ?_
        split_ifs <;> rfl
      rw [e]
      have e' : G * scattered = ∑ c, ∑ m, if path c m = q then G * Spec.rayAmplitude (r.powers c / 20) (r.xpr c m) else 0 := by
        simp only [scattered, Finset.mul_sum, mul_ite, mul_zero]
      rw [e']
      refine tame_sum _ fun c _ => tame_sum _ fun m _ => ?_
      split_ifs
      · exact nlosRay_tame g hr hs hf l he he' hsp r phi c m u s
      · exact tame_zero Ω
    by_cases hl : l.los = true
    · simp only [coeffCall, combineLos, hl, if_true]
      split_ifs with h0
      · subst h0
        have := tame_add (tame_mul (losCoeff_tame g hr hs hf l he he' hsp u s) (Real.sqrt_nonneg (k / (k + 1)))) (tame_mul hn (Real.sqrt_nonneg (1 / (k + 1))))
        rwa [mul_add, ← mul_assoc]
      · have := tame_mul hn (Real.sqrt_nonneg (1 / (k + 1)))
        rwa [zero_add, ← mul_assoc]
    · simp only [coeffCall, combineLos, hl]
      exact hn
  refine ⟨strong, path, h1, h2, h5, fun phi c m => h4 c m, main, fun phi u s t => ?_⟩
  refine (Finset.sum_le_sum fun q _ => (main phi q u s).1 t).trans_eq ?_
  have hsum : ∑ q, ∑ c, ∑ m, (if path c m = q then Spec.rayAmplitude (r.powers c / 20) (r.xpr c m) else 0) =
      ∑ c, ∑ m, Spec.rayAmplitude (r.powers c / 20) (r.xpr c m) := by
    rw [Finset.sum_comm]
    refine Finset.sum_congr rfl fun c _ => ?_
    rw [Finset.sum_comm]
    refine Finset.sum_congr rfl fun m _ => ?_
    simp
  rw [← Finset.mul_sum, ← hsum]
  congr 1
  by_cases hl : l.los = true
  · simp only [hl, if_true]
    rw [Finset.sum_add_distrib, Finset.sum_mul]
    simp
  · simp only [hl]
    rfl

end

/-- The hypotheses can be met: a UT in motion and a satellite at 600 km, with antennas of different patterns. -/
example : ∃ (g : CoeffGen) (ar as : ArrayArgs) (l : LinkTopo), mkArray ar = .ok g.rx ∧ mkArray as = .ok g.tx ∧ 0 < g.fc ∧
    l.satSpeed = topologySatSpeed l.bsHeight 30 1 ∧ l.velocity ≠ 0 ∧ l.los = true ∧ Spec.maxGain as.pattern = (10 : ℝ) ^ (0.8 : ℝ) := by
  obtain ⟨rx, hrx⟩ : ∃ a, mkArray ⟨1, 2, "single", "V", "omni", 2e9, 1, 1, none, none, none, none⟩ = .ok a := by
    norm_num [mkArray, patternOf, ArrayArgs.panelH, ArrayArgs.panelV, ArrayArgs.elementH, ArrayArgs.elementV, ArrayArgs.numPanels, Except.map]
  obtain ⟨tx, htx⟩ : ∃ a, mkArray ⟨1, 1, "single", "V", "38.901", 2e9, 1, 1, none, none, none, none⟩ = .ok a := by
    norm_num +decide [mkArray, patternOf, ArrayArgs.panelH, ArrayArgs.panelV, ArrayArgs.elementH, ArrayArgs.elementV, ArrayArgs.numPanels, Except.map]
  exact ⟨⟨2e9, tx, rx⟩, _, _, { exSatLink 30 1 with velocity := ![3, 0, 0] }, hrx, htx, by norm_num, rfl, fun h => by simpa using congrFun h 0, rfl,
    by norm_num [Spec.maxGain]⟩

/-- C206, frequency response. Between two subcarriers the response of any coefficients changes by at most 2π times their distance times the sum of the
magnitudes of the paths times their delays, and it is never more than the sum of the magnitudes. -/
theorem C206_response {B Y RA X TA P T F : ℕ} (freq : Fin F → ℝ) (a : PathCoeffs B Y RA X TA P T) (tau : Fin B → Fin Y → Fin X → Fin P → ℝ)
    (b : Fin B) (y : Fin Y) (ra : Fin RA) (x : Fin X) (ta : Fin TA) (t : Fin T) (i j : Fin F) :
    let H := cirToOfdm freq a (.link tau) false b y ra x ta t
    ‖H i‖ ≤ ∑ p, ‖a b y ra x ta p t‖ ∧
    ‖H i - H j‖ ≤ 2 * Real.pi * |freq i - freq j| * ∑ p, ‖a b y ra x ta p t‖ * |tau b y x p| := by
  intro H
  have hm : ∀ θ : ℝ, (⟨0, θ⟩ : ℂ) = Complex.I * (θ : ℂ) := fun θ => by apply Complex.ext <;> simp
  have hH : ∀ i, H i = ∑ p, a b y ra x ta p t * Complex.exp (Complex.I * ((-2 * Real.pi * freq i * tau b y x p : ℝ) : ℂ)) := by
    intro i
    simp only [H, cirToOfdm, PathDelays.expand, hm]
    rfl
  constructor
  · rw [hH]
    refine (norm_sum_le _ _).trans (Finset.sum_le_sum fun p _ => ?_)
    rw [norm_mul, mul_comm Complex.I, Complex.norm_exp_ofReal_mul_I, mul_one]
  · rw [hH, hH, ← Finset.sum_sub_distrib, Finset.mul_sum]
    refine (norm_sum_le _ _).trans (Finset.sum_le_sum fun p _ => ?_)
    rw [← mul_sub, norm_mul]
    have h1 := phase_sub_le (-2 * Real.pi * freq i * tau b y x p) (-2 * Real.pi * freq j * tau b y x p)
    have e : -2 * Real.pi * freq i * tau b y x p - -2 * Real.pi * freq j * tau b y x p = -(2 * Real.pi) * ((freq i - freq j) * tau b y x p) := by ring
    rw [e, abs_mul, abs_mul, abs_neg, abs_of_pos Real.two_pi_pos] at h1
    exact (mul_le_mul_of_nonneg_left h1 (norm_nonneg _)).trans_eq (by ring)

end OpenNTN
