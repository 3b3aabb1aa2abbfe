import Verif.Props.Tdl
import Verif.Lemmas.Fading
import Verif.Spec.Bessel

namespace OpenNTN

open MeasureTheory

/-! ### C113: autocorrelation of the taps -/

/-- Clarke's model: the average phasor of directions that are uniform on the circle. -/
theorem clarke (x : ℝ) :
    (1 / (2 * Real.pi : ℂ)) * ∫ t in (-Real.pi)..Real.pi, Complex.exp ((x * Real.cos t : ℝ) * Complex.I) = (Spec.besselJ0 x : ℂ) := by
  have hpi := Real.pi_pos
  have cc : Continuous fun t : ℝ => Real.cos (x * Real.cos t) := by fun_prop
  have cs : Continuous fun t : ℝ => Real.sin (x * Real.cos t) := by fun_prop
  have csn : Continuous fun t : ℝ => Real.cos (x * Real.sin t) := by fun_prop
  -- imaginary part
  have him : ∫ t in (-Real.pi)..Real.pi, Real.sin (x * Real.cos t) = 0 := by
    have h1 : ∫ t in (-Real.pi)..0, Real.sin (x * Real.cos t) = -∫ t in (0 : ℝ)..Real.pi, Real.sin (x * Real.cos t) := by
      have := intervalIntegral.integral_comp_add_right (fun t => Real.sin (x * Real.cos t)) Real.pi (a := -Real.pi) (b := 0)
      rw [neg_add_cancel, zero_add] at this
      rw [← this, ← intervalIntegral.integral_neg]
      refine intervalIntegral.integral_congr fun t _ => ?_
      simp only [Real.cos_add_pi, mul_neg, Real.sin_neg, neg_neg]
    rw [← intervalIntegral.integral_add_adjacent_intervals (b := 0) (cs.intervalIntegrable _ _) (cs.intervalIntegrable _ _), h1]
    ring
  -- real part
  have hre : ∫ t in (-Real.pi)..Real.pi, Real.cos (x * Real.cos t) = 2 * ∫ t in (0 : ℝ)..Real.pi, Real.cos (x * Real.sin t) := by
    have hper : Function.Periodic (fun t => Real.cos (x * Real.sin t)) (2 * Real.pi) := fun t => by simp [Real.sin_add_two_pi]
    have h0 : ∫ t in (-Real.pi)..Real.pi, Real.cos (x * Real.cos t) = ∫ t in (-Real.pi)..Real.pi, Real.cos (x * Real.sin t) := by
      have e : ∀ t : ℝ, Real.cos (x * Real.cos t) = (fun u => Real.cos (x * Real.sin u)) (t + Real.pi / 2) := fun t => by
        simp only [Real.sin_add_pi_div_two]
      simp_rw [e]
      rw [intervalIntegral.integral_comp_add_right (fun u => Real.cos (x * Real.sin u)) (Real.pi / 2)]
      have := hper.intervalIntegral_add_eq (-Real.pi + Real.pi / 2) (-Real.pi)
      rw [show -Real.pi + Real.pi / 2 + 2 * Real.pi = Real.pi + Real.pi / 2 by ring, show -Real.pi + 2 * Real.pi = Real.pi by ring] at this
      exact this
    have h1 : ∫ t in (-Real.pi)..0, Real.cos (x * Real.sin t) = ∫ t in (0 : ℝ)..Real.pi, Real.cos (x * Real.sin t) := by
      have := intervalIntegral.integral_comp_neg (fun t => Real.cos (x * Real.sin t)) (a := 0) (b := Real.pi)
      rw [neg_zero] at this
      rw [← this]
      refine intervalIntegral.integral_congr fun t _ => ?_
      simp only [Real.sin_neg, mul_neg, Real.cos_neg]
    rw [h0, ← intervalIntegral.integral_add_adjacent_intervals (b := 0) (csn.intervalIntegrable _ _) (csn.intervalIntegrable _ _), h1]
    ring
  have split : ∀ t : ℝ, Complex.exp ((x * Real.cos t : ℝ) * Complex.I) =
      ((Real.cos (x * Real.cos t) : ℝ) : ℂ) + ((Real.sin (x * Real.cos t) : ℝ) : ℂ) * Complex.I := fun t => by
    rw [Complex.exp_mul_I, Complex.ofReal_cos (x * Real.cos t), Complex.ofReal_sin (x * Real.cos t)]
  simp_rw [split]
  rw [intervalIntegral.integral_add, intervalIntegral.integral_mul_const, intervalIntegral.integral_ofReal, intervalIntegral.integral_ofReal, him, hre]
  · unfold Spec.besselJ0
    have : (Real.pi : ℂ) ≠ 0 := by exact_mod_cast hpi.ne'
    push_cast
    field_simp
    ring
  · exact (Complex.continuous_ofReal.comp cc).intervalIntegrable _ _
  · exact ((Complex.continuous_ofReal.comp cs).mul continuous_const).intervalIntegrable _ _

/-- The specular part of a coefficient. -/
noncomputable def tdlSpecular {C : ℕ} (t : Tdl) (doppler phi0 time : ℝ) (c : Fin C) : ℂ :=
  if c.val = 0 then (t.params.losPower.map fun l => ((Real.sqrt l : ℝ) : ℂ) * Complex.exp ((doppler * time * Real.cos t.losAngle + phi0 : ℝ) * Complex.I)).getD 0
  else 0

/-- The coefficient as specular part plus phasors. -/
theorem tdlCoeff_phasors {B R T C N : ℕ} (t : Tdl) (powers : Fin C → ℝ) (w : TdlDraws B R T C N) (fs : ℝ) (b : Fin B) (r : Fin R) (x : Fin T) (c : Fin C) (s : ℕ) :
    tdlCoeff t powers w fs b r x c s = tdlSpecular t (w.doppler b) (w.phi0 b) (s / fs) c +
      ∑ k, (((Real.sqrt (powers c) * (1 / Real.sqrt N) : ℝ) : ℂ) *
        Complex.exp ((w.doppler b * ((s : ℝ) / fs) * Real.cos (2 * Real.pi / N * ((k.val : ℝ) + 1) + w.theta b c k) : ℝ) * Complex.I)) *
        Complex.exp ((w.phi b r x c k : ℂ) * Complex.I) := by
  have hph : ∀ y : ℝ, (⟨Real.cos y, Real.sin y⟩ : ℂ) = Complex.exp (y * Complex.I) := fun y => by
    rw [Complex.exp_mul_I, ← Complex.ofReal_cos, ← Complex.ofReal_sin]
    apply Complex.ext <;> simp [-Complex.ofReal_cos, -Complex.ofReal_sin]
  have hsum : ((Real.sqrt (powers c) : ℝ) : ℂ) * (((1 / Real.sqrt N : ℝ) : ℂ) * ∑ k : Fin N, (⟨Real.cos (w.doppler b * ((s : ℝ) / fs) * Real.cos
        (2 * Real.pi / N * ((k.val : ℝ) + 1) + w.theta b c k) + w.phi b r x c k), Real.sin (w.doppler b * ((s : ℝ) / fs) * Real.cos
        (2 * Real.pi / N * ((k.val : ℝ) + 1) + w.theta b c k) + w.phi b r x c k)⟩ : ℂ)) =
      ∑ k, (((Real.sqrt (powers c) * (1 / Real.sqrt N) : ℝ) : ℂ) *
        Complex.exp ((w.doppler b * ((s : ℝ) / fs) * Real.cos (2 * Real.pi / N * ((k.val : ℝ) + 1) + w.theta b c k) : ℝ) * Complex.I)) *
        Complex.exp ((w.phi b r x c k : ℂ) * Complex.I) := by
    rw [← mul_assoc, Finset.mul_sum]
    refine Finset.sum_congr rfl fun k _ => ?_
    rw [hph, Complex.ofReal_add, add_mul, Complex.exp_add, ← Complex.ofReal_mul, mul_assoc _ (Complex.exp _)]
  unfold tdlCoeff tdlSpecular
  dsimp only
  rw [hsum]
  cases t.params.losPower with
  | none => simp
  | some l =>
    by_cases hc : c.val = 0
    · simp only [hc, if_true, hph, Option.map_some, Option.getD_some]
      rw [mul_comm ((Real.sqrt l : ℝ) : ℂ)]
    · simp [hc]

/-- The stored powers are positive. -/
theorem stored_powers {a : TdlArgs} {t : Tdl} (h : tdlInit a = .ok t) :
    (∀ p ∈ t.params.powers, 0 < p) ∧ (∀ l, t.params.losPower = some l → 0 < l) ∧ (t.params.los = true ↔ t.params.losPower.isSome) := by
  obtain ⟨tab, spread, hf, hl, -, hN, hN0, -⟩ := tdlInit_ok h
  have hlin : ∀ (l : List ℤ) (n : ℝ), 0 < n → ∀ p ∈ (l.map Spec.linear).map (· / n), 0 < p := by
    intro l n hn p hp
    obtain ⟨y, hy, rfl⟩ := List.mem_map.1 hp
    exact div_pos (map_linear_pos l y hy) hn
  have hsum : ∀ l : List ℤ, 0 ≤ (l.map Spec.linear).sum := fun l => List.sum_nonneg fun y hy => (map_linear_pos l y hy).le
  unfold tdlLoad at hl
  simp only [linear_eq] at hl
  by_cases hlos : tab.los = true
  · rw [if_pos hlos] at hl
    rcases hp : tab.powers with _ | ⟨p, rest⟩
    · rw [hp] at hl; cases hl
    rw [hp] at hl
    simp only [List.map_cons] at hl
    cases ht : t.params
    rw [ht] at hl
    cases hl
    have h0 : 0 < (rest.map Spec.linear).sum + Spec.linear p := add_pos_of_nonneg_of_pos (hsum rest) (linear_pos p)
    refine ⟨hlin rest _ h0, fun l hl => ?_, by simp [hlos]⟩
    cases hl
    exact div_pos (linear_pos p) h0
  · rw [if_neg hlos] at hl
    cases ht : t.params
    rw [ht] at hl
    cases hl
    refine ⟨?_, fun l hl => (by cases hl), by simp [hlos]⟩
    intro p hp
    refine hlin _ _ ?_ p hp
    have hne : tab.powers ≠ [] := by
      intro e
      simp [e] at hp
    exact sum_pos_of_pos _ (by simpa using hne) (map_linear_pos _)

/-- The reported powers and K-factor in terms of the stored ones. -/
theorem reported_powers {a : TdlArgs} {t : Tdl} (h : tdlInit a = .ok t) :
    ∃ mp, t.meanPowers = .ok mp ∧ (∀ c : Fin t.params.powers.length, 0 ≤ t.params.powers.get c) ∧
      (∀ c : Fin t.params.powers.length, t.params.los = false ∨ c.val ≠ 0 → mp[c.val]? = some (t.params.powers.get c)) ∧
      (t.params.los = false → t.params.losPower = none) ∧
      (t.params.los = true → ∃ l, t.params.losPower = some l ∧ 0 ≤ l ∧ ∀ c : Fin t.params.powers.length, c.val = 0 → 0 < t.params.powers.get c ∧
        mp[0]? = some (t.params.powers.get c + l) ∧ t.kFactor = .ok (l / t.params.powers.get c)) := by
  obtain ⟨tab, spread, hf, hl, -, hN, hN0, -⟩ := tdlInit_ok h
  obtain ⟨_, -, mp, hmp, -⟩ := C78_normalised h
  have hmem := tdlFile_mem hf
  obtain ⟨p1, p2, p3⟩ := stored_powers h
  refine ⟨mp, hmp, fun c => (p1 _ (List.get_mem _ c)).le, ?_, ?_, ?_⟩
  · intro c hc
    unfold Tdl.meanPowers at hmp
    cases hlos : t.params.los with
    | false =>
      rw [hlos, if_neg (by simp)] at hmp
      cases hmp
      simp
    | true =>
      rw [hlos] at p3
      obtain ⟨l, hlp⟩ := Option.isSome_iff_exists.1 (p3.1 rfl)
      rw [hlos, if_pos rfl, hlp] at hmp
      have hc0 : c.val ≠ 0 := by simpa [hlos] using hc
      obtain ⟨cv, hcv⟩ := c
      obtain ⟨p, ps, hps⟩ := List.exists_cons_of_length_pos (Nat.lt_of_le_of_lt (Nat.zero_le _) hcv)
      rw [hps] at hmp
      cases hmp
      cases cv with
      | zero => exact absurd rfl hc0
      | succ n =>
        have : t.params.powers[n + 1]? = some (t.params.powers.get ⟨n + 1, hcv⟩) := by simp
        rw [← this]
        simp only [hps]
        rfl
  · intro hlos
    rw [hlos] at p3
    cases hlp : t.params.losPower with
    | none => rfl
    | some l => rw [hlp] at p3; simp at p3
  · intro hlos
    rw [hlos] at p3
    obtain ⟨l, hlp⟩ := Option.isSome_iff_exists.1 (p3.1 rfl)
    refine ⟨l, hlp, (p2 l hlp).le, fun c hc => ⟨p1 _ (List.get_mem _ c), ?_, ?_⟩⟩
    · unfold Tdl.meanPowers at hmp
      rw [hlos, if_pos rfl, hlp] at hmp
      obtain ⟨cv, hcv⟩ := c
      simp only at hc
      subst hc
      obtain ⟨p, ps, hps⟩ := List.exists_cons_of_length_pos hcv
      rw [hps] at hmp
      cases hmp
      simp [hps]
    · unfold Tdl.kFactor
      rw [hlos, if_pos rfl, hlp]
      obtain ⟨cv, hcv⟩ := c
      simp only at hc
      subst hc
      obtain ⟨p, ps, hps⟩ := List.exists_cons_of_length_pos hcv
      simp [hps]

/-- Average of the product of a coefficient at one time and its conjugate at another, over independent phases uniform on the circle and angles
uniform on their sectors. -/
noncomputable def Spec.autocorrelation (N : ℕ) (h : (Fin N → ℝ) → (Fin N → ℝ) → ℕ → ℂ) (s s' : ℕ) : ℂ :=
  ∫ theta : Fin N → ℝ, ∫ phases : Fin N → ℝ, (starRingEnd ℂ) (h theta phases s) * h theta phases s'
    ∂(Measure.pi fun _ => uniformPhase) ∂(Measure.pi fun _ => uniformSector N)

theorem tdl_autocorrelation {B R T C N : ℕ} (hN : N ≠ 0) (t : Tdl) (powers : Fin C → ℝ) (w : TdlDraws B R T C N) (fs : ℝ) (b : Fin B) (r : Fin R)
    (x : Fin T) (c : Fin C) (hp : 0 ≤ powers c) (s s' : ℕ) :
    Spec.autocorrelation N (fun theta phases s => tdlCoeff t powers
        { w with theta := fun _ _ k => theta k, phi := fun _ _ _ _ k => phases k } fs b r x c s) s s' =
      (starRingEnd ℂ) (tdlSpecular t (w.doppler b) (w.phi0 b) (s / fs) c) * tdlSpecular t (w.doppler b) (w.phi0 b) (s' / fs) c +
        powers c * Spec.besselJ0 (w.doppler b * (((s' : ℝ) - s) / fs)) := by
  unfold Spec.autocorrelation
  simp_rw [tdlCoeff_phasors]
  simp_rw [average_correlation]
  haveI := uniformSector_prob hN
  have hNr : (0 : ℝ) < N := by exact_mod_cast Nat.pos_of_ne_zero hN
  let f : ℝ → ℂ := fun y => Complex.exp ((w.doppler b * (((s' : ℝ) - s) / fs) * Real.cos y : ℝ) * Complex.I)
  have hf : Continuous f := by simp only [f]; fun_prop
  have hper : Function.Periodic f (2 * Real.pi) := fun y => by simp only [f, Real.cos_add_two_pi]
  have e : ∀ theta : Fin N → ℝ, (∑ k : Fin N, (starRingEnd ℂ) (((Real.sqrt (powers c) * (1 / Real.sqrt N) : ℝ) : ℂ) *
        Complex.exp ((w.doppler b * ((s : ℝ) / fs) * Real.cos (2 * Real.pi / N * ((k.val : ℝ) + 1) + theta k) : ℝ) * Complex.I)) *
        (((Real.sqrt (powers c) * (1 / Real.sqrt N) : ℝ) : ℂ) *
        Complex.exp ((w.doppler b * ((s' : ℝ) / fs) * Real.cos (2 * Real.pi / N * ((k.val : ℝ) + 1) + theta k) : ℝ) * Complex.I))) =
      (powers c : ℂ) * ((1 / (N : ℂ)) * ∑ k : Fin N, f (2 * Real.pi / N * ((k.val : ℝ) + 1) + theta k)) := by
    intro theta
    rw [Finset.mul_sum, Finset.mul_sum]
    refine Finset.sum_congr rfl fun k _ => ?_
    have hs : ((Real.sqrt (powers c) * (1 / Real.sqrt N) : ℝ) : ℂ) * ((Real.sqrt (powers c) * (1 / Real.sqrt N) : ℝ) : ℂ) = (powers c : ℂ) * (1 / (N : ℂ)) := by
      rw [← Complex.ofReal_mul, show Real.sqrt (powers c) * (1 / Real.sqrt N) * (Real.sqrt (powers c) * (1 / Real.sqrt N)) =
        (Real.sqrt (powers c) * Real.sqrt (powers c)) * (1 / (Real.sqrt N * Real.sqrt N)) by field_simp, Real.mul_self_sqrt hp,
        Real.mul_self_sqrt hNr.le]
      push_cast
      rfl
    rw [map_mul, Complex.conj_ofReal, ← Complex.exp_conj, map_mul, Complex.conj_ofReal, Complex.conj_I]
    rw [mul_mul_mul_comm, hs, ← Complex.exp_add, mul_assoc]
    simp only [f]
    congr 4
    push_cast
    ring
  simp_rw [e]
  have hb : ∀ y, ‖f y‖ = 1 := fun y => Complex.norm_exp_ofReal_mul_I _
  rw [integral_add (integrable_const _), integral_const, integral_const_mul, sector_average hN f hf hper, clarke]
  · simp
  · refine Integrable.const_mul (Integrable.const_mul (integrable_finsetSum _ fun k _ => ?_) _) _
    exact Integrable.of_bound (Continuous.aestronglyMeasurable (by fun_prop)) 1 (Filter.Eventually.of_forall fun _ => (hb _).le)

/-- C113. Averaged over phases and angles the taps have the autocorrelation of Clarke's model: the mean power of the tap times the Bessel
function `J0` of angular Doppler frequency times lag; it depends on the lag only. The first tap of a LoS model has a specular part in addition
that carries the share `K/(K+1)` of the power and turns with the Doppler frequency of the LoS direction. -/
theorem C113_autocorrelation {a : TdlArgs} {t : Tdl} (h : tdlInit a = .ok t) {B R T : ℕ} (w : TdlDraws B R T t.params.powers.length t.numSinusoids)
    (fs : ℝ) (b : Fin B) (r : Fin R) (x : Fin T) (c : Fin t.params.powers.length) (s s' : ℕ) :
    let rho := Spec.autocorrelation t.numSinusoids (fun theta phases s => tdlCoeff t (fun p => t.params.powers.get p)
        { w with theta := fun _ _ k => theta k, phi := fun _ _ _ _ k => phases k } fs b r x c s) s s'
    let lag := ((s' : ℝ) - s) / fs
    ∃ mp, t.meanPowers = .ok mp ∧ ∃ P, mp[c.val]? = some P ∧
      (t.params.los = false ∨ c.val ≠ 0 → rho = (P * Spec.besselJ0 (w.doppler b * lag) : ℝ)) ∧
      (t.params.los = true → c.val = 0 → ∃ K, t.kFactor = .ok K ∧ 0 ≤ K ∧
        rho = (P / (K + 1) * Spec.besselJ0 (w.doppler b * lag) : ℝ) +
          (P * K / (K + 1) : ℝ) * Complex.exp ((w.doppler b * Real.cos a.losAngle * lag : ℝ) * Complex.I)) := by
  dsimp only
  obtain ⟨tab, spread, hf, hl, -, hN, hN0, hrest⟩ := tdlInit_ok h
  obtain ⟨mp, hmp, hpos, h1, h2, h3⟩ := reported_powers h
  have hN' : t.numSinusoids ≠ 0 := by rw [hN]; exact hN0
  have hlosAngle : t.losAngle = a.losAngle := hrest.1
  refine ⟨mp, hmp, ?_⟩
  rw [tdl_autocorrelation hN' t _ w fs b r x c (hpos c)]
  cases hlos : t.params.los with
  | false =>
    refine ⟨_, h1 c (.inl hlos), fun _ => ?_, fun h => by cases h⟩
    simp [tdlSpecular, h2 hlos]
  | true =>
    by_cases hc : c.val = 0
    · obtain ⟨l, hlp, hl0, hall⟩ := h3 hlos
      obtain ⟨hp0, hmp0, hK⟩ := hall c hc
      refine ⟨_, by rw [hc]; exact hmp0, fun h => by simp [hc] at h, fun _ _ => ⟨_, hK, by positivity, ?_⟩⟩
      rw [add_comm]
      have hsum : t.params.powers.get c + l ≠ 0 := by positivity
      congr 1
      · rw [← Complex.ofReal_mul]
        congr 2
        field_simp
        ring
      · simp only [tdlSpecular, hc, if_true, hlp, Option.map_some, Option.getD_some]
        rw [map_mul, Complex.conj_ofReal, ← Complex.exp_conj, map_mul, Complex.conj_ofReal, Complex.conj_I, mul_mul_mul_comm, ← Complex.ofReal_mul,
          Real.mul_self_sqrt hl0, ← Complex.exp_add, hlosAngle]
        congr 1
        · congr 1
          field_simp
          ring
        · congr 1
          push_cast
          ring
    · refine ⟨_, h1 c (.inr hc), fun _ => ?_, fun _ h => absurd h hc⟩
      simp [tdlSpecular, hc]

/-- The default model D with its LoS tap. -/
example : ∃ t, tdlInit { model := "D", delaySpread := 3e-7, carrierFrequency := 2e9 } = .ok t := by
  obtain ⟨t, h, -⟩ := (C79_names_partial _ (exTdl_valid "D")).1 (by simp [Spec.tdlNames]) (by decide)
  exact ⟨t, h⟩

/-- At lag zero the autocorrelation is the mean power. -/
example : Spec.besselJ0 0 = 1 := by
  simp [Spec.besselJ0, Real.pi_ne_zero]

/-! ### C114: different taps and antenna pairs fade independently -/

/-- C114. Averaged over the phases, coefficients of different taps are uncorrelated at any two times, and so are the coefficients of
different antenna pairs of one tap, except for the specular part of the first tap, which all antenna pairs share. -/
theorem C114_uncorrelated {B R T C N : ℕ} (t : Tdl) (powers : Fin C → ℝ) (w : TdlDraws B R T C N) (fs : ℝ) (b : Fin B)
    (r r' : Fin R) (x x' : Fin T) (c c' : Fin C) (s s' : ℕ) (hne : (r, x, c) ≠ (r', x', c')) (hspec : t.params.losPower = none ∨ c.val ≠ 0 ∨ c'.val ≠ 0) :
    ∫ y : Fin N → ℝ, ∫ z : Fin N → ℝ,
      (let v := { w with phi := fun _ r₁ x₁ c₁ k => if (r₁, x₁, c₁) = (r, x, c) then z k else y k }
       (starRingEnd ℂ) (tdlCoeff t powers v fs b r x c s) * tdlCoeff t powers v fs b r' x' c' s')
      ∂(Measure.pi fun _ => uniformPhase) ∂(Measure.pi fun _ => uniformPhase) = 0 := by
  dsimp only
  simp_rw [tdlCoeff_phasors]
  simp only [if_true, if_neg (Ne.symm hne)]
  set A := tdlSpecular t (w.doppler b) (w.phi0 b) (s / fs) c with hA
  set A' := tdlSpecular t (w.doppler b) (w.phi0 b) (s' / fs) c' with hA'
  have hAA : (starRingEnd ℂ) A * A' = 0 := by
    have hz : ∀ {q : Fin C} (d p tm : ℝ), t.params.losPower = none ∨ q.val ≠ 0 → tdlSpecular t d p tm q = 0 := by
      intro q d p tm h
      rcases h with h | h
      · simp [tdlSpecular, h]
      · simp [tdlSpecular, h]
    rcases hspec with h | h | h
    · rw [hA', hz _ _ _ (.inl h), mul_zero]
    · rw [hA, hz _ _ _ (.inr h), map_zero, zero_mul]
    · rw [hA', hz _ _ _ (.inr h), mul_zero]
  set u : Fin N → ℂ := fun k => ((Real.sqrt (powers c) * (1 / Real.sqrt N) : ℝ) : ℂ) *
        Complex.exp ((w.doppler b * ((s : ℝ) / fs) * Real.cos (2 * Real.pi / N * ((k.val : ℝ) + 1) + w.theta b c k) : ℝ) * Complex.I) with hu
  set u' : Fin N → ℂ := fun k => ((Real.sqrt (powers c') * (1 / Real.sqrt N) : ℝ) : ℂ) *
        Complex.exp ((w.doppler b * ((s' : ℝ) / fs) * Real.cos (2 * Real.pi / N * ((k.val : ℝ) + 1) + w.theta b c' k) : ℝ) * Complex.I) with hu'
  have inner : ∀ g : ℂ, ∫ z : Fin N → ℝ, (starRingEnd ℂ) (A + ∑ k, u k * Complex.exp ((z k : ℂ) * Complex.I)) * g ∂(Measure.pi fun _ => uniformPhase) =
      (starRingEnd ℂ) A * g := by
    intro g
    have := average_correlation A g u 0
    simpa using this
  have outer : ∫ y : Fin N → ℝ, (starRingEnd ℂ) A * (A' + ∑ k, u' k * Complex.exp ((y k : ℂ) * Complex.I)) ∂(Measure.pi fun _ => uniformPhase) =
      (starRingEnd ℂ) A * A' := by
    have := average_correlation A A' 0 u'
    simpa using this
  calc _ = ∫ y : Fin N → ℝ, (starRingEnd ℂ) A * (A' + ∑ k, u' k * Complex.exp ((y k : ℂ) * Complex.I)) ∂(Measure.pi fun _ => uniformPhase) :=
        integral_congr_ae (Filter.Eventually.of_forall fun y => inner _)
    _ = 0 := by rw [outer, hAA]

/-- Two taps of one antenna pair. -/
example : ((0, 0, 0) : Fin 1 × Fin 1 × Fin 2) ≠ (0, 0, 1) ∧ ((1 : Fin 2).val ≠ 0) := by decide

end OpenNTN
