import Verif.Props.Coeff2
import Verif.Props.Antenna
import Verif.Lemmas.Phases

/-
Average power of the path coefficients over the random phases.
-/
namespace OpenNTN

open Classical Matrix MeasureTheory

/-- Mean power transferred by a ray with cross polarisation ratio `x` from a field `tx` to a field `rx`: components of equal polarisation
add up with weight one, those of different polarisation with weight `1/x`. -/
noncomputable def Spec.rayGain (x : ℝ) (rx tx : Fin 2 → ℝ) : ℝ :=
  rx 0 ^ 2 * tx 0 ^ 2 + rx 1 ^ 2 * tx 1 ^ 2 + (rx 0 ^ 2 * tx 1 ^ 2 + rx 1 ^ 2 * tx 0 ^ 2) / x

/-- Rotation of the polarisation by the ionosphere, 108 degrees at 1 GHz, with the inverse square of the frequency (TR 38.811 6.8.1), for
satellites (at least 600 km). -/
noncomputable def Spec.faraday (fc height : ℝ) (f : Fin 2 → ℝ) : Fin 2 → ℝ :=
  if height < 600000 then f else
    let psi := 108 * (1e9 / fc) ^ 2 / 180 * Real.pi
    ![Real.cos psi * f 0 - Real.sin psi * f 1, Real.sin psi * f 0 + Real.cos psi * f 1]

theorem faraday_norm (fc height : ℝ) (f : Fin 2 → ℝ) : Spec.faraday fc height f 0 ^ 2 + Spec.faraday fc height f 1 ^ 2 = f 0 ^ 2 + f 1 ^ 2 := by
  unfold Spec.faraday
  split
  · rfl
  · have := Real.sin_sq_add_cos_sq (108 * (1e9 / fc) ^ 2 / 180 * Real.pi)
    simp only [Matrix.cons_val_zero, Matrix.cons_val_one]
    linear_combination (f 0 ^ 2 + f 1 ^ 2) * this

theorem withFaraday_apply (g : CoeffGen) (l : LinkTopo) (P : Matrix (Fin 2) (Fin 2) ℂ) (f : Fin 2 → ℝ) :
    withFaraday g l P *ᵥ (fun k => (f k : ℂ)) = P *ᵥ fun k => (Spec.faraday g.fc l.bsHeight f k : ℂ) := by
  unfold withFaraday Spec.faraday
  by_cases h : 600000 ≤ l.bsHeight
  · rw [if_pos h, if_neg (not_lt.2 h), ← Matrix.mulVec_mulVec]
    congr 1
    have e : 108 / (g.fc / 1e9 * (g.fc / 1e9)) * (Real.pi / 180) = 108 * (1e9 / g.fc) ^ 2 / 180 * Real.pi := by
      by_cases hf : g.fc = 0
      · simp [hf]
      · field_simp
    ext k
    fin_cases k <;> simp [faradayRotation, e, Matrix.mulVec, dotProduct, Fin.sum_univ_two, -Complex.ofReal_cos, -Complex.ofReal_sin] <;> ring
  · rw [if_neg h, if_pos (not_le.1 h)]

/-- Reduction of rays to paths commutes with evaluation. -/
theorem reduceNlos_eval {n : ℕ} {X H : Type} [AddCommMonoid H] (powers delays : Fin (n + 2) → ℝ)
    (hFull : Fin (n + 2) → Fin raysPerCluster → X → H) (cDs : ℝ) (x : X) (q : Fin (n + 6)) :
    (reduceNlos powers delays hFull cDs).1 q x = (reduceNlos powers delays (fun c m => hFull c m x) cDs).1 q := by
  have key : ∀ (L : List (Fin raysPerCluster)) (F : Fin raysPerCluster → X → H), (L.map F).sum x = (L.map fun m => F m x).sum := by
    intro L F
    induction L with
    | nil => rfl
    | cons a L ih => simp [ih]
  simp only [reduceNlos]
  split_ifs
  · exact key _ _
  · exact key _ _
  · exact key _ _
  · rw [Finset.sum_apply]

/-- Weight of the phase `i` in the coefficient of a ray. -/
noncomputable def rayWeight (x : ℝ) (rx tx : Fin 2 → ℝ) (A : ℂ) : Fin 4 → ℂ :=
  let sc := Real.sqrt (1 / x)
  ![(rx 0 * tx 0 : ℝ) * A, (sc * rx 0 * tx 1 : ℝ) * A, (sc * rx 1 * tx 0 : ℝ) * A, (rx 1 * tx 1 : ℝ) * A]

theorem rayWeight_sum (x : ℝ) (hx : 0 < x) (rx tx : Fin 2 → ℝ) (A : ℂ) : ∑ i, ‖rayWeight x rx tx A i‖ ^ 2 = ‖A‖ ^ 2 * Spec.rayGain x rx tx := by
  have hs : Real.sqrt (1 / x) ^ 2 = 1 / x := Real.sq_sqrt (by positivity)
  simp only [Fin.sum_univ_four, rayWeight, Matrix.cons_val, norm_mul, Complex.norm_real, mul_pow, Real.norm_eq_abs, sq_abs, hs, Spec.rayGain]
  ring

theorem nlosRay_phasors {M : ℕ} (g : CoeffGen) (l : LinkTopo) (r : LinkRays M) (phi : Fin M → Fin raysPerCluster → Fin 4 → ℝ)
    (c : Fin M) (m : Fin raysPerCluster) (u s : ℕ) (t : ℝ) :
    nlosRay g l r phi c m u s t = ∑ i, rayWeight (r.xpr c m) (fieldVector g.rx l.rxOri (r.zoa c m) (r.aoa c m) u)
      (Spec.faraday g.fc l.bsHeight (fieldVector g.tx l.txOri (r.zod c m) (r.aod c m) s))
      (arrayOffset g l (r.aoa c m) (r.aod c m) (r.zoa c m) (r.zod c m) u s *
        dopplerTerm g l (r.aoa c m) (r.zoa c m) (r.aod c m) (r.zod c m) t * ((Real.sqrt (r.powers c / raysPerCluster) : ℝ) : ℂ)) i *
      Complex.exp ((phi c m i : ℂ) * Complex.I) := by
  simp only [nlosRay, fieldMatrix]
  rw [withFaraday_apply]
  generalize Spec.faraday g.fc l.bsHeight (fieldVector g.tx l.txOri (r.zod c m) (r.aod c m) s) = tx
  generalize fieldVector g.rx l.rxOri (r.zoa c m) (r.aoa c m) u = rx
  simp only [Fin.sum_univ_four, Fin.sum_univ_two, rayWeight, Matrix.cons_val, Matrix.mulVec, dotProduct, phaseMatrix, Matrix.of_apply]
  simp only [Complex.ofReal_mul, mul_comm Complex.I]
  ring

theorem losCoeff_power (g : CoeffGen) (l : LinkTopo) (u s : ℕ) (t : ℝ) :
    ‖losCoeff g l u s t‖ ^ 2 =
      (fieldVector g.rx l.rxOri l.losZoa l.losAoa u 0 * Spec.faraday g.fc l.bsHeight (fieldVector g.tx l.txOri l.losZod l.losAod s) 0 -
        fieldVector g.rx l.rxOri l.losZoa l.losAoa u 1 * Spec.faraday g.fc l.bsHeight (fieldVector g.tx l.txOri l.losZod l.losAod s) 1) ^ 2 := by
  rw [(C45_phases g l l.losAoa l.losAod l.losZoa l.losZod t u s).2.2.2.2.2.2]
  simp only [fieldMatrix]
  rw [withFaraday_apply]
  generalize Spec.faraday g.fc l.bsHeight (fieldVector g.tx l.txOri l.losZod l.losAod s) = tx
  generalize fieldVector g.rx l.rxOri l.losZoa l.losAoa u = rx
  have : ∑ k, (rx k : ℂ) * (losPhaseMatrix *ᵥ fun k => (tx k : ℂ)) k = ((rx 0 * tx 0 - rx 1 * tx 1 : ℝ) : ℂ) := by
    simp [losPhaseMatrix, Matrix.mulVec, dotProduct, Fin.sum_univ_two]; ring
  rw [this, Complex.norm_real, Real.norm_eq_abs, sq_abs]

/-- C100. Averaged over independent phases that are uniform on `(-π, π]`, the power of a path is the sum over its rays of a twentieth of
the power of the cluster times the gain of the ray, in which co-polarised components count fully and cross-polarised ones divided by the
cross polarisation ratio; with LoS this is divided by `K + 1` and the first path has `K/(K+1)` times the power of the specular path in addition.
It depends on neither time nor antenna positions. Rays are assigned to paths as in C47. -/
theorem C100_average {n : ℕ} (g : CoeffGen) (l : LinkTopo) (k : ℝ) (r : LinkRays (n + 2)) (cDs : ℝ) (hP : ∀ c, 0 ≤ r.powers c)
    (hx : ∀ c m, 0 < r.xpr c m) (hk : 0 ≤ k) :
    ∃ (strong : Finset (Fin (n + 2))) (path : Fin (n + 2) → Fin raysPerCluster → Fin (n + 6)),
      strong.card = 2 ∧ (∀ c ∈ strong, ∀ d ∉ strong, r.powers d ≤ r.powers c) ∧
      (∀ c m d m', path c m = path d m' ↔ c = d ∧ (c ∈ strong → Spec.subCluster m = Spec.subCluster m')) ∧
      (∀ phi c m, (coeffCall g l k r cDs phi).2 (path c m) =
        r.delays c + if c ∈ strong then Spec.subClusterDelay (Spec.subCluster m) * cDs else 0) ∧
      ∀ q u s t,
        let gain c m := Spec.rayGain (r.xpr c m) (fieldVector g.rx l.rxOri (r.zoa c m) (r.aoa c m) u)
          (Spec.faraday g.fc l.bsHeight (fieldVector g.tx l.txOri (r.zod c m) (r.aod c m) s))
        let scattered := ∑ c, ∑ m, if path c m = q then r.powers c / 20 * gain c m else 0
        let los := (fieldVector g.rx l.rxOri l.losZoa l.losAoa u 0 * Spec.faraday g.fc l.bsHeight (fieldVector g.tx l.txOri l.losZod l.losAod s) 0 -
          fieldVector g.rx l.rxOri l.losZoa l.losAoa u 1 * Spec.faraday g.fc l.bsHeight (fieldVector g.tx l.txOri l.losZod l.losAod s) 1) ^ 2
        ∫ x : Fin (n + 2) × Fin raysPerCluster × Fin 4 → ℝ, ‖(coeffCall g l k r cDs fun c m i => x (c, m, i)).1 q u s t‖ ^ 2
            ∂(Measure.pi fun _ => uniformPhase) =
          if l.los then (k * (if q = 0 then los else 0) + scattered) / (k + 1) else scattered := by
  obtain ⟨-, strong, path, h1, h2, h3, h4, h5, -⟩ := C47_paths r.powers r.delays
    (fun c m (x : Fin (n + 2) × Fin raysPerCluster × Fin 4 → ℝ) => nlosRay g l r (fun c m i => x (c, m, i)) c m) cDs
  refine ⟨strong, path, h1, h2, h5, fun phi c m => h4 c m, ?_⟩
  intro q u s t gain scattered los
  let A c m : ℂ := arrayOffset g l (r.aoa c m) (r.aod c m) (r.zoa c m) (r.zod c m) u s *
        dopplerTerm g l (r.aoa c m) (r.zoa c m) (r.aod c m) (r.zod c m) t * ((Real.sqrt (r.powers c / raysPerCluster) : ℝ) : ℂ)
  let w : Fin (n + 2) × Fin raysPerCluster × Fin 4 → ℂ := fun p => if path p.1 p.2.1 = q then
    rayWeight (r.xpr p.1 p.2.1) (fieldVector g.rx l.rxOri (r.zoa p.1 p.2.1) (r.aoa p.1 p.2.1) u)
      (Spec.faraday g.fc l.bsHeight (fieldVector g.tx l.txOri (r.zod p.1 p.2.1) (r.aod p.1 p.2.1) s)) (A p.1 p.2.1) p.2.2 else 0
  have hA : ∀ c m, ‖A c m‖ ^ 2 = r.powers c / 20 := by
    intro c m
    obtain ⟨a1, -, a2, -⟩ := C45_phases g l (r.aoa c m) (r.aod c m) (r.zoa c m) (r.zod c m) t u s
    simp only [A]
    rw [norm_mul, norm_mul, a1, a2, Complex.norm_real, Real.norm_eq_abs, one_mul, one_mul, sq_abs, Real.sq_sqrt]
    · simp [raysPerCluster]
    · exact div_nonneg (hP c) (by simp)
  have hw : ∑ p, ‖w p‖ ^ 2 = scattered := by
    rw [Fintype.sum_prod_type]
    refine Finset.sum_congr rfl fun c _ => ?_
    rw [Fintype.sum_prod_type]
    refine Finset.sum_congr rfl fun m _ => ?_
    simp only [w]
    split_ifs
    · rw [rayWeight_sum _ (hx c m), hA]
    · simp
  have hn : ∀ x : Fin (n + 2) × Fin raysPerCluster × Fin 4 → ℝ,
      (reduceNlos r.powers r.delays (nlosRay g l r fun c m i => x (c, m, i)) cDs).1 q u s t = ∑ p, w p * Complex.exp ((x p : ℂ) * Complex.I) := by
    intro x
    have e := congrFun (congrFun (congrFun (congrFun (h3 q) x) u) s) t
    rw [reduceNlos_eval] at e
    rw [Fintype.sum_prod_type]
    refine e.trans ?_
    rw [Finset.sum_apply, Finset.sum_apply, Finset.sum_apply, Finset.sum_apply]
    refine Finset.sum_congr rfl fun c _ => ?_
    rw [Finset.sum_apply, Finset.sum_apply, Finset.sum_apply, Finset.sum_apply, Fintype.sum_prod_type]
    refine Finset.sum_congr rfl fun m _ => ?_
    simp only [w]
    split_ifs
    · exact nlosRay_phasors g l r _ c m u s t
    · simp
  have hlos : ‖losCoeff g l u s t‖ ^ 2 = los := losCoeff_power g l u s t
  by_cases hl : l.los = true
  · rw [if_pos hl]
    have e : ∀ x : Fin (n + 2) × Fin raysPerCluster × Fin 4 → ℝ, (coeffCall g l k r cDs fun c m i => x (c, m, i)).1 q u s t =
        (if q = 0 then losCoeff g l u s t * ((Real.sqrt (k / (k + 1)) : ℝ) : ℂ) else 0) +
          ∑ p, w p * ((Real.sqrt (1 / (k + 1)) : ℝ) : ℂ) * Complex.exp ((x p : ℂ) * Complex.I) := by
      intro x
      have h6 := hn x
      simp only [coeffCall, combineLos, hl, if_true]
      have h7 : (∑ p, w p * ((Real.sqrt (1 / (k + 1)) : ℝ) : ℂ) * Complex.exp ((x p : ℂ) * Complex.I)) =
        (∑ p, w p * Complex.exp ((x p : ℂ) * Complex.I)) * ((Real.sqrt (1 / (k + 1)) : ℝ) : ℂ) := by
        rw [Finset.sum_mul]; exact Finset.sum_congr rfl fun p _ => by ring
      rw [h7, ← h6]
      split_ifs with h0
      · subst h0; rfl
      · simp
    simp_rw [e]
    rw [average_power]
    simp only [norm_mul, mul_pow, Complex.norm_real, Real.norm_eq_abs, sq_abs]
    rw [← Finset.sum_mul, hw, Real.sq_sqrt (by positivity)]
    split_ifs with h0
    · rw [norm_mul, mul_pow, hlos, Complex.norm_real, Real.norm_eq_abs, sq_abs, Real.sq_sqrt (by positivity)]
      field_simp
    · simp; field_simp
  · rw [if_neg hl]
    have e : ∀ x : Fin (n + 2) × Fin raysPerCluster × Fin 4 → ℝ, (coeffCall g l k r cDs fun c m i => x (c, m, i)).1 q u s t =
        0 + ∑ p, w p * Complex.exp ((x p : ℂ) * Complex.I) := by
      intro x
      have h6 := hn x
      simp only [coeffCall, combineLos, hl]
      rw [zero_add, ← h6]
      rfl
    simp_rw [e]
    rw [average_power, hw]
    simp

/-- A link with three clusters the theorem applies to. -/
noncomputable def exLinkRays : LinkRays (1 + 2) where
  delays := ![0, 1e-7, 2e-7]
  powers := ![0.5, 0.3, 0.2]
  aoa := fun _ _ => 0
  aod := fun _ _ => 0
  zoa := fun _ _ => 1
  zod := fun _ _ => 2
  xpr := fun _ _ => 100

example : (∀ c, 0 ≤ exLinkRays.powers c) ∧ (∀ c m, 0 < exLinkRays.xpr c m) ∧ (0 : ℝ) ≤ 10 :=
  ⟨fun c => by fin_cases c <;> norm_num [exLinkRays], fun _ _ => by norm_num [exLinkRays], by norm_num⟩

theorem rayGain_le {x : ℝ} (hx : 1 ≤ x) (rx tx : Fin 2 → ℝ) :
    0 ≤ Spec.rayGain x rx tx ∧ Spec.rayGain x rx tx ≤ (rx 0 ^ 2 + rx 1 ^ 2) * (tx 0 ^ 2 + tx 1 ^ 2) := by
  unfold Spec.rayGain
  have h : (rx 0 ^ 2 * tx 1 ^ 2 + rx 1 ^ 2 * tx 0 ^ 2) / x ≤ rx 0 ^ 2 * tx 1 ^ 2 + rx 1 ^ 2 * tx 0 ^ 2 := div_le_self (by positivity) hx
  exact ⟨by positivity, by nlinarith⟩

/-- Maximum power gain of an element: 8 dB for the pattern of TR 38.901, 0 dB for the others. -/
noncomputable def Spec.maxGain (pattern : String) : ℝ := if pattern = "38.901" then (10 : ℝ) ^ (0.8 : ℝ) else 1

theorem power_le {name : String} {p : Pattern} (h : patternOf name = .ok p) (θ φ : ℝ) : p.power θ φ ≤ Spec.maxGain name := by
  have H := C61_patterns θ φ 0
  unfold patternOf at h
  unfold Spec.maxGain
  split_ifs at h with h1 h2 h3 h4 <;> injection h with h <;> subst h
  · rw [if_neg (by rw [h1]; decide)]; exact H.2.2.2.2.1.le
  · rw [if_pos h2]; have := H.1.2; unfold pow10 at this; norm_num at this ⊢; exact this
  · rw [if_neg (by assumption)]; exact H.2.2.2.2.2.1.2
  · rw [if_neg (by assumption)]; exact H.2.2.1.2

theorem l2g_norm (f : Fin 2 → ℝ) (o : Fin 3 → ℝ) (θ φ : ℝ) : l2gResponse f o θ φ 0 ^ 2 + l2gResponse f o θ φ 1 ^ 2 = f 0 ^ 2 + f 1 ^ 2 := by
  have := Real.sin_sq_add_cos_sq (computePsi o θ φ)
  simp only [l2gResponse, Matrix.mulVec, dotProduct, Fin.sum_univ_two, Matrix.of_apply, Matrix.cons_val]
  linear_combination (f 0 ^ 2 + f 1 ^ 2) * this

/-- No antenna of an array radiates more than the maximum gain of its pattern. -/
theorem field_le {a : ArrayArgs} {arr : PanelArray} (h : mkArray a = .ok arr) (o : Fin 3 → ℝ) (θ φ : ℝ) (u : ℕ) :
    fieldVector arr o θ φ u 0 ^ 2 + fieldVector arr o θ φ u 1 ^ 2 ≤ Spec.maxGain a.pattern := by
  have key : ∀ e : Element, (∃ p, patternOf a.pattern = .ok p ∧ e.pattern = p) → ∀ θ' φ',
      l2gResponse (e.field θ' φ') o θ φ 0 ^ 2 + l2gResponse (e.field θ' φ') o θ φ 1 ^ 2 ≤ Spec.maxGain a.pattern := by
    rintro e ⟨p, hp, he⟩ θ' φ'
    rw [l2g_norm, (C61_patterns θ' φ' e.slant).2.2.2.2.2.2.2.2 e.pattern, he]
    exact power_le hp _ _
  have h1 : (∃ p, patternOf a.pattern = .ok p ∧ arr.pol1.pattern = p) ∧ ∀ e, arr.pol2 = some e → ∃ p, patternOf a.pattern = .ok p ∧ e.pattern = p := by
    unfold mkArray at h
    cases hp : patternOf a.pattern with
    | error e =>
      rw [hp] at h
      split_ifs at h <;> simp [Except.map] at h
    | ok p =>
      rw [hp] at h
      split_ifs at h <;> simp [Except.map] at h <;> subst h <;> simp
  simp only [fieldVector]
  split_ifs
  · exact key _ h1.1 _ _
  · exact key _ h1.1 _ _
  · cases h2 : arr.pol2 with
    | none => exact key _ h1.1 _ _
    | some e => exact key _ (h1.2 e h2) _ _

/-- C100, energy: if the cluster powers sum to one and no cross polarisation ratio is below one, then the average power of all paths together
is at most the product of the maximum gains of the elements at both ends: the channel does not amplify. -/
theorem C100_passive {n : ℕ} {ar as : ArrayArgs} (g : CoeffGen) (hrx : mkArray ar = .ok g.rx) (htx : mkArray as = .ok g.tx) (l : LinkTopo)
    (k : ℝ) (r : LinkRays (n + 2)) (cDs : ℝ) (hP : ∀ c, 0 ≤ r.powers c) (hsum : ∑ c, r.powers c = 1) (hx : ∀ c m, 1 ≤ r.xpr c m) (hk : 0 ≤ k)
    (u s : ℕ) (t : ℝ) :
    ∑ q, ∫ x : Fin (n + 2) × Fin raysPerCluster × Fin 4 → ℝ, ‖(coeffCall g l k r cDs fun c m i => x (c, m, i)).1 q u s t‖ ^ 2
      ∂(Measure.pi fun _ => uniformPhase) ≤ Spec.maxGain ar.pattern * Spec.maxGain as.pattern := by
  have hr : ∀ θ φ, fieldVector g.rx l.rxOri θ φ u 0 ^ 2 + fieldVector g.rx l.rxOri θ φ u 1 ^ 2 ≤ Spec.maxGain ar.pattern :=
    fun θ φ => field_le hrx _ _ _ _
  have ht : ∀ θ φ, fieldVector g.tx l.txOri θ φ s 0 ^ 2 + fieldVector g.tx l.txOri θ φ s 1 ^ 2 ≤ Spec.maxGain as.pattern :=
    fun θ φ => field_le htx _ _ _ _
  have hGr : 0 ≤ Spec.maxGain ar.pattern := by unfold Spec.maxGain; split <;> positivity
  generalize Spec.maxGain ar.pattern = Gr at *
  generalize Spec.maxGain as.pattern = Gt at *
  obtain ⟨strong, path, -, -, -, -, H⟩ := C100_average g l k r cDs hP (fun c m => by linarith [hx c m]) hk
  have hg : ∀ c m, Spec.rayGain (r.xpr c m) (fieldVector g.rx l.rxOri (r.zoa c m) (r.aoa c m) u)
          (Spec.faraday g.fc l.bsHeight (fieldVector g.tx l.txOri (r.zod c m) (r.aod c m) s)) ≤ Gr * Gt := by
    intro c m
    refine (rayGain_le (hx c m) _ _).2.trans ?_
    rw [faraday_norm]
    exact mul_le_mul (hr _ _) (ht _ _) (by positivity) hGr
  have hS : ∑ q, ∑ c, ∑ m, (if path c m = q then r.powers c / 20 * Spec.rayGain (r.xpr c m)
      (fieldVector g.rx l.rxOri (r.zoa c m) (r.aoa c m) u)
          (Spec.faraday g.fc l.bsHeight (fieldVector g.tx l.txOri (r.zod c m) (r.aod c m) s)) else 0) ≤ Gr * Gt := by
    rw [Finset.sum_comm]
    have : ∀ c, ∑ q, ∑ m, (if path c m = q then r.powers c / 20 * Spec.rayGain (r.xpr c m)
      (fieldVector g.rx l.rxOri (r.zoa c m) (r.aoa c m) u)
          (Spec.faraday g.fc l.bsHeight (fieldVector g.tx l.txOri (r.zod c m) (r.aod c m) s)) else 0) ≤ r.powers c * (Gr * Gt) := by
      intro c
      rw [Finset.sum_comm]
      simp only [Finset.sum_ite_eq, Finset.mem_univ, if_true]
      calc _ ≤ ∑ m : Fin raysPerCluster, r.powers c / 20 * (Gr * Gt) :=
            Finset.sum_le_sum fun m _ => mul_le_mul_of_nonneg_left (hg c m) (by have := hP c; positivity)
        _ = _ := by
            rw [Finset.sum_const, Finset.card_univ, Fintype.card_fin, nsmul_eq_mul]
            simp only [raysPerCluster]; push_cast; ring
    refine (Finset.sum_le_sum fun c _ => this c).trans ?_
    rw [← Finset.sum_mul, hsum, one_mul]
  have hL : (fieldVector g.rx l.rxOri l.losZoa l.losAoa u 0 * Spec.faraday g.fc l.bsHeight (fieldVector g.tx l.txOri l.losZod l.losAod s) 0 -
          fieldVector g.rx l.rxOri l.losZoa l.losAoa u 1 * Spec.faraday g.fc l.bsHeight (fieldVector g.tx l.txOri l.losZod l.losAod s) 1) ^ 2 ≤
      Gr * Gt := by
    have e := faraday_norm g.fc l.bsHeight (fieldVector g.tx l.txOri l.losZod l.losAod s)
    generalize Spec.faraday g.fc l.bsHeight (fieldVector g.tx l.txOri l.losZod l.losAod s) = f at e
    have h1 := hr l.losZoa l.losAoa
    have h2 := ht l.losZod l.losAod
    rw [← e] at h2
    refine le_trans ?_ (mul_le_mul h1 h2 (by positivity) hGr)
    nlinarith [sq_nonneg (fieldVector g.rx l.rxOri l.losZoa l.losAoa u 0 * f 1 + fieldVector g.rx l.rxOri l.losZoa l.losAoa u 1 * f 0)]
  simp only [H]
  split_ifs with hl
  · rw [← Finset.sum_div, Finset.sum_add_distrib, ← Finset.mul_sum, div_le_iff₀ (by linarith)]
    simp only [Finset.sum_ite_eq', Finset.mem_univ, if_true]
    have := mul_le_mul_of_nonneg_left hL hk
    linarith
  · exact hS

/-- Arrays the theorem applies to, with the rays above. -/
example : (∃ a, mkAntenna "single" "V" "omni" 2e9 = .ok a) ∧ (∃ a, mkAntenna "dual" "cross" "38.901" 2e9 = .ok a) ∧
    ∑ c, exLinkRays.powers c = 1 ∧ ∀ c m, 1 ≤ exLinkRays.xpr c m := by
  refine ⟨?_, ?_, ?_, fun _ _ => by norm_num [exLinkRays]⟩
  · norm_num [mkAntenna, mkArray, ArrayArgs.elementH, ArrayArgs.elementV, ArrayArgs.panelH, ArrayArgs.panelV, ArrayArgs.numPanels, patternOf,
      Except.map]
  · norm_num +decide [mkAntenna, mkArray, ArrayArgs.elementH, ArrayArgs.elementV, ArrayArgs.panelH, ArrayArgs.panelV, ArrayArgs.numPanels,
      patternOf, Except.map]
  · show ∑ c : Fin 3, (![0.5, 0.3, 0.2] : Fin 3 → ℝ) c = 1
    rw [Fin.sum_univ_three]
    show (0.5 : ℝ) + 0.3 + 0.2 = 1
    norm_num

end OpenNTN
