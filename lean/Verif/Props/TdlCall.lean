import Verif.Lemmas.Cholesky
import Verif.Props.Fading
import Verif.Props.Statistics

/-
C143: a call of the tapped delay line model with spatial correlation.
-/
namespace OpenNTN

open Classical Matrix MeasureTheory ComplexOrder

/-- If the factorisation succeeds, the matrix read is positive definite. -/
theorem cholesky_posDef {ι : Type} [Fintype ι] [LinearOrder ι] {S L : Matrix ι ι ℂ} (h : cholesky S = .ok L) : (lowerHermitian S).PosDef := by
  obtain ⟨h1, h2, h3⟩ := cholesky_spec h
  rw [← h3]
  refine PosDef.mul_conjTranspose_self _ ?_
  rw [vecMul_injective_iff_isUnit, isUnit_iff_isUnit_det, det_of_lowerTriangular _ fun i j hij => h1 i j hij, isUnit_iff_ne_zero]
  refine Finset.prod_ne_zero_iff.2 fun i _ hi => ?_
  have := (h2 i).1
  rw [hi] at this
  simp at this

/-- The matrices given are correlation matrices: Hermitian, positive definite, with ones on the diagonal. -/
def Spec.Correlations {R T : ℕ} (c : TdlCorr R T) : Prop :=
  (∀ S ∈ c.spatial, S.PosDef ∧ ∀ i, S i i = 1) ∧ (∀ S ∈ c.rx, S.PosDef ∧ ∀ i, S i i = 1) ∧ ∀ S ∈ c.tx, S.PosDef ∧ ∀ i, S i i = 1

/-- Coefficients of a call as a function of the phases of the sinusoids: the call returns them, with the reported delays for every batch
example. -/
def Spec.Returns {B R T : ℕ} (t : Tdl) (c : TdlCorr R T) (w : TdlDraws B R T t.params.powers.length t.numSinusoids) (fs : ℝ)
    (H : (Fin B × Fin R × Fin T × Fin t.params.powers.length × Fin t.numSinusoids → ℝ) →
      Fin B → Fin t.params.powers.length → ℕ → Matrix (Fin R) (Fin T) ℂ) : Prop :=
  ∀ phases, ∃ f, tdlCall t c { w with phi := fun b r x p k => phases (b, r, x, p, k) } fs = .ok (f, fun _ => t.delays) ∧
    ∀ b p s, f b p s = .ok (H phases b p s)

/-- Over independent phases, uniform on `(-π, π]`, every tap has its reported mean power at every antenna pair and time. -/
def Spec.MeanPower {B R T : ℕ} (t : Tdl) (H : (Fin B × Fin R × Fin T × Fin t.params.powers.length × Fin t.numSinusoids → ℝ) →
      Fin B → Fin t.params.powers.length → ℕ → Matrix (Fin R) (Fin T) ℂ) (p : Fin t.params.powers.length) : Prop :=
  ∃ mp, t.meanPowers = .ok mp ∧ ∀ b s r x, mp[p.val]? = some (∫ phases, ‖H phases b p s r x‖ ^ 2 ∂(Measure.pi fun _ => uniformPhase))

/-- The full claim of C143. -/
def C143_statement : Prop := ∀ (a : TdlArgs) (t : Tdl), tdlInit a = .ok t → ∀ (B R T : ℕ) (c : TdlCorr R T), Spec.Correlations c →
  ∀ (w : TdlDraws B R T t.params.powers.length t.numSinusoids) (fs : ℝ), ∃ H, Spec.Returns t c w fs H ∧ ∀ p, Spec.MeanPower t H p

/-- With positive definite matrices the correlation step is a linear map with the covariance of C86. -/
theorem correlate_linear {R T : ℕ} (c : TdlCorr R T) (hc : Spec.Correlations c) :
    ∃ A : Matrix (Fin R × Fin T) (Fin R × Fin T) ℂ, (∀ h, tdlCorrelate c h = .ok fun r x => ∑ q, A (r, x) q * h q.1 q.2) ∧
      (∀ S, c.spatial = some S → ∀ r t r' t', Spec.covariance A (r, t) (r', t') = S (toLex (r, t)) (toLex (r', t'))) ∧
      (c.spatial = none → ∀ r t r' t', Spec.covariance A (r, t) (r', t') =
        (match c.rx with | some X => X r r' | none => if r = r' then 1 else 0) *
        (match c.tx with
          | some X => (match cholesky X with | .ok L => (Lᵀ * (Lᵀ)ᴴ) t t' | .error _ => 0)
          | none => if t = t' then 1 else 0)) ∧
      (c.spatial = none → c.rx = none → c.tx = none → A = 1) := by
  obtain ⟨f, hf⟩ : ∃ f : Matrix (Fin R) (Fin T) ℂ → Matrix (Fin R) (Fin T) ℂ, ∀ h, tdlCorrelate c h = .ok (f h) := by
    obtain ⟨h1, h2, h3⟩ := hc
    have opt : ∀ {ι : Type} [Fintype ι] [LinearOrder ι] (o : Option (Matrix ι ι ℂ)), (∀ S ∈ o, S.PosDef ∧ ∀ i, S i i = 1) →
        ∃ l, choleskyOpt o = .ok l := by
      intro ι _ _ o ho
      cases o with
      | none => exact ⟨_, rfl⟩
      | some S =>
        obtain ⟨L, hL⟩ := cholesky_ok (ho S rfl).1
        exact ⟨some L, by simp [choleskyOpt, hL, bind, Except.bind]⟩
    unfold tdlCorrelate
    cases hs : c.spatial with
    | some S =>
      obtain ⟨L, hL⟩ := cholesky_ok (h1 S hs).1
      simp only [hL, bind, Except.bind]
      exact ⟨_, fun _ => rfl⟩
    | none =>
      obtain ⟨lr, hr⟩ := opt c.rx h2
      obtain ⟨lt, ht⟩ := opt c.tx h3
      simp only [hr, ht, bind, Except.bind]
      exact ⟨_, fun _ => rfl⟩
  have key := C86_covariance_partial c f ⟨fun S h => (hc.1 S h).1.isHermitian, fun S h => (hc.2.1 S h).1.isHermitian,
    fun S h => (hc.2.2 S h).1.isHermitian⟩ hf
  cases hs : c.spatial with
  | some S =>
    obtain ⟨A, hA, hcov⟩ := key.1 S hs
    refine ⟨A, fun h => by rw [hf]; congr 1; funext r x; exact hA h r x, ?_, ?_, ?_⟩
    · rintro S' hS'; cases hS'; exact hcov
    · intro h; cases h
    · intro h; cases h
  | none =>
    obtain ⟨A, hA, hcov⟩ := key.2 hs
    refine ⟨A, fun h => by rw [hf]; congr 1; funext r x; exact hA h r x, ?_, fun _ => hcov, ?_⟩
    · intro S h; cases h
    · intro _ hr ht
      have hid : ∀ h, f h = h := by
        intro h
        have := hf h
        simp only [tdlCorrelate, hs, hr, ht, choleskyOpt, bind, Except.bind, tdlRxTx] at this
        injection this with this
        exact this.symm
      ext ⟨r, x⟩ q
      have := (congrFun (congrFun (hid fun r' t' => if (r', t') = q then 1 else 0) r) x).symm.trans (hA (fun r' t' => if (r', t') = q then 1 else 0) r x)
      simp only [Prod.mk.eta, mul_ite, mul_one, mul_zero, Finset.sum_ite_eq', Finset.mem_univ, if_true] at this
      rw [← this, one_apply]

/-- Sums over the phases of one batch example and tap. -/
theorem sum_select {B R T C N : ℕ} {M : Type} [AddCommMonoid M] (b : Fin B) (c : Fin C) (g : Fin R × Fin T → Fin N → M) :
    ∑ i : Fin B × Fin R × Fin T × Fin C × Fin N, (if i.1 = b ∧ i.2.2.2.1 = c then g (i.2.1, i.2.2.1) i.2.2.2.2 else 0) = ∑ q, ∑ k, g q k := by
  rw [Fintype.sum_prod_type, Finset.sum_eq_single b (fun b' _ hb => ?_) (fun h => absurd (Finset.mem_univ _) h)]
  swap
  · exact Finset.sum_eq_zero fun i _ => by simp only [hb, false_and, if_false]
  rw [Fintype.sum_prod_type, Fintype.sum_prod_type]
  refine Finset.sum_congr rfl fun r _ => ?_
  rw [Fintype.sum_prod_type]
  refine Finset.sum_congr rfl fun x _ => ?_
  rw [Fintype.sum_prod_type, Finset.sum_eq_single c (fun c' _ hb => ?_) (fun h => absurd (Finset.mem_univ _) h)]
  swap
  · exact Finset.sum_eq_zero fun i _ => by simp only [hb, and_false, if_false]
  simp only [and_self, if_true]

/-- A linear combination of coefficients as constant plus phasors. -/
theorem combination_phasors {B R T C N : ℕ} (t : Tdl) (powers : Fin C → ℝ) (w : TdlDraws B R T C N) (fs : ℝ) (b : Fin B) (c : Fin C) (s : ℕ)
    (A : Fin R × Fin T → ℂ) (phases : Fin B × Fin R × Fin T × Fin C × Fin N → ℝ) :
    ∑ q, A q * tdlCoeff t powers { w with phi := fun b r x p k => phases (b, r, x, p, k) } fs b q.1 q.2 c s =
      tdlSpecular t (w.doppler b) (w.phi0 b) (s / fs) c * ∑ q, A q +
      ∑ i : Fin B × Fin R × Fin T × Fin C × Fin N, (if i.1 = b ∧ i.2.2.2.1 = c then A (i.2.1, i.2.2.1) *
        (((Real.sqrt (powers c) * (1 / Real.sqrt N) : ℝ) : ℂ) *
        Complex.exp ((w.doppler b * ((s : ℝ) / fs) * Real.cos (2 * Real.pi / N * ((i.2.2.2.2.val : ℝ) + 1) + w.theta b c i.2.2.2.2) : ℝ) * Complex.I)) else 0) *
        Complex.exp ((phases i : ℂ) * Complex.I) := by
  simp_rw [tdlCoeff_phasors]
  simp only [mul_add, Finset.sum_add_distrib]
  congr 1
  · rw [← Finset.sum_mul, mul_comm]
  simp only [ite_mul, zero_mul]
  have := sum_select (B := B) (R := R) (T := T) (C := C) (N := N) b c fun q k => A q *
        (((Real.sqrt (powers c) * (1 / Real.sqrt N) : ℝ) : ℂ) *
        Complex.exp ((w.doppler b * ((s : ℝ) / fs) * Real.cos (2 * Real.pi / N * ((k.val : ℝ) + 1) + w.theta b c k) : ℝ) * Complex.I)) *
        Complex.exp ((phases (b, q.1, q.2, c, k) : ℂ) * Complex.I)
  rw [Finset.sum_congr rfl fun q _ => Finset.mul_sum _ _ _]
  refine Eq.trans ?_ (this.symm.trans ?_)
  · exact Finset.sum_congr rfl fun q _ => Finset.sum_congr rfl fun k _ => by ring
  · refine Finset.sum_congr rfl fun i _ => ?_
    split_ifs with hi
    · obtain ⟨i1, i2, i3, i4, i5⟩ := i
      obtain ⟨rfl, rfl⟩ := hi
      simp only [mul_add]
    · rfl

/-- The covariance requested between the antenna pairs `(r, x)` and `(r', x')`. -/
def Spec.requested {R T : ℕ} (c : TdlCorr R T) (r : Fin R) (x : Fin T) (r' : Fin R) (x' : Fin T) : ℂ :=
  match c.spatial with
  | some S => S (toLex (r, x)) (toLex (r', x'))
  | none => (match c.rx with | some X => X r r' | none => if r = r' then 1 else 0) *
      (match c.tx with | some X => X x x' | none => if x = x' then 1 else 0)

/-- The coefficients returned, in terms of the linear map of the correlation step. -/
theorem tdlCall_linear {a : TdlArgs} {t : Tdl} (h : tdlInit a = .ok t) {B R T : ℕ} (c : TdlCorr R T)
    (A : Matrix (Fin R × Fin T) (Fin R × Fin T) ℂ) (hA : ∀ h, tdlCorrelate c h = .ok fun r x => ∑ q, A (r, x) q * h q.1 q.2)
    (w : TdlDraws B R T t.params.powers.length t.numSinusoids) (fs : ℝ) :
    ∃ H, Spec.Returns t c w fs H ∧
      (∀ phases b p s r x, H phases b p s r x = ∑ q, A (r, x) q *
        tdlCoeff t (fun p => t.params.powers.get p) { w with phi := fun b r x p k => phases (b, r, x, p, k) } fs b q.1 q.2 p s) ∧
      (∀ b p s r x, ∫ phases, ‖H phases b p s r x‖ ^ 2 ∂(Measure.pi fun _ => uniformPhase) =
        (if p.val = 0 then t.params.losPower.getD 0 else 0) * ‖∑ q, A (r, x) q‖ ^ 2 + t.params.powers.get p * (Spec.covariance A (r, x) (r, x)).re) ∧
      ∀ b b' p p' s s' r r' x x',
        let mean b p s r x := ∫ phases, H phases b p s r x ∂(Measure.pi fun _ => uniformPhase)
        let angle (k : Fin t.numSinusoids) := 2 * Real.pi / t.numSinusoids * ((k.val : ℝ) + 1) + w.theta b p k
        ∫ phases, (starRingEnd ℂ) (H phases b p s r x - mean b p s r x) * (H phases b' p' s' r' x' - mean b' p' s' r' x') ∂(Measure.pi fun _ => uniformPhase) =
          if b = b' ∧ p = p' then (t.params.powers.get p : ℂ) * Spec.covariance A (r', x') (r, x) *
            ((∑ k, Complex.exp ((w.doppler b * (((s' : ℝ) - s) / fs) * Real.cos (angle k) : ℝ) * Complex.I)) / t.numSinusoids) else 0 := by
  obtain ⟨tab, spread, hf, hl, -, hN, hN0, -⟩ := tdlInit_ok h
  obtain ⟨mp, hmp, p1, p2, -⟩ := meanPower_eq h
  have hNr : (0 : ℝ) < t.numSinusoids := by rw [hN]; exact_mod_cast Nat.pos_of_ne_zero hN0
  have hnum : t.params.numClusters = t.params.powers.length := by
    have hmem := tdlFile_mem hf
    simp only [List.mem_cons, List.not_mem_nil, or_false] at hmem
    cases ht : t.params
    rw [ht] at hl
    rcases hmem with rfl | rfl | rfl | rfl | rfl | rfl | rfl <;> cases hl <;>
      simp [tdlA, tdlB, tdlC, tdlD, tdlA30, tdlB100, tdlC300]
  refine ⟨fun phases b p s r x => ∑ q, A (r, x) q *
    tdlCoeff t (fun p => t.params.powers.get p) { w with phi := fun b r x p k => phases (b, r, x, p, k) } fs b q.1 q.2 p s, ?_, fun _ _ _ _ _ _ => rfl, ?_, ?_⟩
  · intro phases
    unfold tdlCall
    rw [if_neg (not_not.2 hnum)]
    exact ⟨_, rfl, fun b p s => hA _⟩
  · intro b p s r x
    simp_rw [combination_phasors]
    rw [average_power]
    congr 1
    · rw [norm_mul, mul_pow]
      congr 1
      unfold tdlSpecular
      split_ifs
      · cases hlp : t.params.losPower with
        | none => simp
        | some l =>
          simp only [Option.map_some, Option.getD_some]
          rw [norm_mul, Complex.norm_exp_ofReal_mul_I, mul_one, Complex.norm_real, Real.norm_eq_abs, sq_abs, Real.sq_sqrt (p2 l hlp)]
      · simp
    · have e : ∀ i : Fin B × Fin R × Fin T × Fin t.params.powers.length × Fin t.numSinusoids, ‖(if i.1 = b ∧ i.2.2.2.1 = p then A (r, x) (i.2.1, i.2.2.1) *
          (((Real.sqrt (t.params.powers.get p) * (1 / Real.sqrt t.numSinusoids) : ℝ) : ℂ) *
          Complex.exp ((w.doppler b * ((s : ℝ) / fs) * Real.cos (2 * Real.pi / t.numSinusoids * ((i.2.2.2.2.val : ℝ) + 1) + w.theta b p i.2.2.2.2) : ℝ) * Complex.I)) else 0)‖ ^ 2 =
          if i.1 = b ∧ i.2.2.2.1 = p then ‖A (r, x) (i.2.1, i.2.2.1)‖ ^ 2 * (t.params.powers.get p / t.numSinusoids) else 0 := by
        intro i
        split_ifs
        · rw [norm_mul, norm_mul, Complex.norm_exp_ofReal_mul_I, mul_one, Complex.norm_real, Real.norm_eq_abs, mul_pow, sq_abs, mul_pow, Real.sq_sqrt (p1 p), div_pow,
            one_pow, Real.sq_sqrt hNr.le]
          ring
        · simp
      rw [Finset.sum_congr rfl fun i _ => e i, sum_select (B := B) (N := t.numSinusoids) b p fun q _ => ‖A (r, x) q‖ ^ 2 * (t.params.powers.get p / t.numSinusoids)]
      simp only [Finset.sum_const, Finset.card_univ, Fintype.card_fin, nsmul_eq_mul]
      have e2 : (Spec.covariance A (r, x) (r, x)).re = ∑ q, ‖A (r, x) q‖ ^ 2 := by
        simp only [Spec.covariance, mul_apply, conjTranspose_apply, Complex.re_sum]
        refine Finset.sum_congr rfl fun q _ => ?_
        rw [Complex.star_def, Complex.mul_conj, Complex.ofReal_re, Complex.normSq_eq_norm_sq]
      rw [e2, Finset.mul_sum]
      refine Finset.sum_congr rfl fun q _ => ?_
      field_simp
  · intro b b' p p' s s' r r' x x' mean angle
    simp only [mean]
    simp_rw [combination_phasors, average_mean, add_sub_cancel_left]
    have := fun c d => average_correlation (ι := Fin B × Fin R × Fin T × Fin t.params.powers.length × Fin t.numSinusoids) 0 0 c d
    simp only [zero_add, map_zero, zero_mul] at this
    rw [this]
    clear this
    by_cases hbp : b = b' ∧ p = p'
    swap
    · rw [if_neg hbp]
      refine Finset.sum_eq_zero fun i _ => ?_
      by_cases hi : i.1 = b ∧ i.2.2.2.1 = p
      · rw [if_neg (c := i.1 = b' ∧ i.2.2.2.1 = p') fun h => hbp ⟨hi.1.symm.trans h.1, hi.2.symm.trans h.2⟩, mul_zero]
      · rw [if_neg hi, map_zero, zero_mul]
    rw [if_pos hbp]
    obtain ⟨rfl, rfl⟩ := hbp
    have e : ∀ i : Fin B × Fin R × Fin T × Fin t.params.powers.length × Fin t.numSinusoids,
        (starRingEnd ℂ) (if i.1 = b ∧ i.2.2.2.1 = p then A (r, x) (i.2.1, i.2.2.1) *
          (((Real.sqrt (t.params.powers.get p) * (1 / Real.sqrt t.numSinusoids) : ℝ) : ℂ) *
          Complex.exp ((w.doppler b * ((s : ℝ) / fs) * Real.cos (2 * Real.pi / t.numSinusoids * ((i.2.2.2.2.val : ℝ) + 1) + w.theta b p i.2.2.2.2) : ℝ) * Complex.I)) else 0) *
        (if i.1 = b ∧ i.2.2.2.1 = p then A (r', x') (i.2.1, i.2.2.1) *
          (((Real.sqrt (t.params.powers.get p) * (1 / Real.sqrt t.numSinusoids) : ℝ) : ℂ) *
          Complex.exp ((w.doppler b * ((s' : ℝ) / fs) * Real.cos (2 * Real.pi / t.numSinusoids * ((i.2.2.2.2.val : ℝ) + 1) + w.theta b p i.2.2.2.2) : ℝ) * Complex.I)) else 0) =
        if i.1 = b ∧ i.2.2.2.1 = p then (A (r', x') (i.2.1, i.2.2.1) * star (A (r, x) (i.2.1, i.2.2.1))) *
          (((t.params.powers.get p / t.numSinusoids : ℝ) : ℂ) * Complex.exp ((w.doppler b * (((s' : ℝ) - s) / fs) * Real.cos (angle i.2.2.2.2) : ℝ) * Complex.I)) else 0 := by
      intro i
      split_ifs
      · have hsq : Real.sqrt (t.params.powers.get p) * (1 / Real.sqrt t.numSinusoids) * (Real.sqrt (t.params.powers.get p) * (1 / Real.sqrt t.numSinusoids)) =
            t.params.powers.get p / t.numSinusoids := by
          rw [mul_mul_mul_comm, Real.mul_self_sqrt (p1 p), div_mul_div_comm, Real.mul_self_sqrt hNr.le]
          ring
        rw [map_mul, map_mul, Complex.conj_ofReal, ← Complex.exp_conj, map_mul, Complex.conj_ofReal, Complex.conj_I, ← hsq, Complex.star_def]
        rw [show ∀ c1 r e1 c2 e2 : ℂ, c1 * (r * e1) * (c2 * (r * e2)) = c2 * c1 * ((r * r) * (e1 * e2)) from fun _ _ _ _ _ => by ring, ← Complex.exp_add,
          ← Complex.ofReal_mul]
        congr 3
        simp only [angle]
        push_cast
        ring
      · simp
    rw [Finset.sum_congr rfl fun i _ => e i]
    rw [sum_select (B := B) (N := t.numSinusoids) b p fun q k => (A (r', x') q * star (A (r, x) q)) *
          (((t.params.powers.get p / t.numSinusoids : ℝ) : ℂ) * Complex.exp ((w.doppler b * (((s' : ℝ) - s) / fs) * Real.cos (angle k) : ℝ) * Complex.I))]
    simp only [← Finset.mul_sum, ← Finset.sum_mul]
    simp only [Spec.covariance, mul_apply, conjTranspose_apply]
    push_cast
    ring

/-- C143, what holds: with correlation matrices the call succeeds and returns the reported delays. Without matrices every tap has its reported
mean power at every antenna pair and time; with a joint matrix or a receive matrix the same holds for every scattered tap, and the coefficients
less their mean have the requested covariance times power of the tap and time correlation, and are uncorrelated between taps and batch examples.
Missing: transmit matrices, and the specular component with any matrix, see `C143_violated`. -/
theorem C143_call_partial {a : TdlArgs} {t : Tdl} (h : tdlInit a = .ok t) {B R T : ℕ} (c : TdlCorr R T) (hc : Spec.Correlations c)
    (w : TdlDraws B R T t.params.powers.length t.numSinusoids) (fs : ℝ) :
    ∃ H, Spec.Returns t c w fs H ∧
      (c.spatial = none → c.rx = none → c.tx = none → ∀ p, Spec.MeanPower t H p) ∧
      (c.spatial ≠ none ∨ c.tx = none → (∀ p, t.params.losPower = none ∨ p.val ≠ 0 → Spec.MeanPower t H p) ∧
        ∀ b b' p p' s s' r r' x x',
        let mean b p s r x := ∫ phases, H phases b p s r x ∂(Measure.pi fun _ => uniformPhase)
        let angle (k : Fin t.numSinusoids) := 2 * Real.pi / t.numSinusoids * ((k.val : ℝ) + 1) + w.theta b p k
        ∫ phases, (starRingEnd ℂ) (H phases b p s r x - mean b p s r x) * (H phases b' p' s' r' x' - mean b' p' s' r' x') ∂(Measure.pi fun _ => uniformPhase) =
          if b = b' ∧ p = p' then (t.params.powers.get p : ℂ) * Spec.requested c r' x' r x *
            ((∑ k, Complex.exp ((w.doppler b * (((s' : ℝ) - s) / fs) * Real.cos (angle k) : ℝ) * Complex.I)) / t.numSinusoids) else 0) := by
  obtain ⟨A, hA, hs, hn, h1⟩ := correlate_linear c hc
  obtain ⟨H, hH, -, hpow, hcov⟩ := tdlCall_linear h c A hA w fs
  obtain ⟨mp, hmp, -, -, hval⟩ := meanPower_eq h
  have hreq : c.spatial ≠ none ∨ c.tx = none → ∀ r x r' x', Spec.covariance A (r, x) (r', x') = Spec.requested c r x r' x' := by
    intro hx r x r' x'
    unfold Spec.requested
    cases hsp : c.spatial with
    | some S => exact hs S hsp r x r' x'
    | none =>
      have ht : c.tx = none := by
        rcases hx with hx | hx
        · exact absurd hsp hx
        · exact hx
      rw [hn hsp, ht]
  have hdiag : c.spatial ≠ none ∨ c.tx = none → ∀ r x, Spec.requested c r x r x = 1 := by
    intro hx r x
    unfold Spec.requested
    cases hsp : c.spatial with
    | some S => exact (hc.1 S hsp).2 _
    | none =>
      have ht : c.tx = none := by
        rcases hx with hx | hx
        · exact absurd hsp hx
        · exact hx
      rw [ht]
      cases hr : c.rx with
      | none => simp
      | some X => simp [(hc.2.1 X hr).2 r]
  refine ⟨H, hH, fun e1 e2 e3 p => ⟨mp, hmp, fun b s r x => ?_⟩, fun hx => ⟨fun p hp => ⟨mp, hmp, fun b s r x => ?_⟩, ?_⟩⟩
  · rw [hpow, hval, hreq (.inr e3), hdiag (.inr e3), h1 e1 e2 e3]
    simp [one_apply]
  · rw [hpow, hval, hreq hx, hdiag hx]
    rcases hp with hp | hp
    · simp [hp]
    · simp [hp]
  · intro b b' p p' s s' r r' x x' mean angle
    rw [← hreq hx]
    exact hcov b b' p p' s s' r r' x x'

theorem exCorr_ok : exCorr.PosDef ∧ ∀ i, exCorr i i = 1 := by
  obtain ⟨L, hL, -⟩ := exCorr_chol
  exact ⟨lowerHermitian_eq exCorr_hermitian ▸ cholesky_posDef hL, fun i => by fin_cases i <;> simp [exCorr]⟩

theorem returns_unique {B R T : ℕ} {t : Tdl} {c : TdlCorr R T} {w : TdlDraws B R T t.params.powers.length t.numSinusoids} {fs : ℝ}
    {H H' : (Fin B × Fin R × Fin T × Fin t.params.powers.length × Fin t.numSinusoids → ℝ) →
      Fin B → Fin t.params.powers.length → ℕ → Matrix (Fin R) (Fin T) ℂ} (h : Spec.Returns t c w fs H) (h' : Spec.Returns t c w fs H') : H = H' := by
  funext phases b p s
  obtain ⟨f, hf, e⟩ := h phases
  obtain ⟨f', hf', e'⟩ := h' phases
  rw [hf] at hf'
  injection hf' with hf'
  injection hf' with hf'
  have := (e b p s).symm.trans ((congrFun (congrFun (congrFun hf' b) p) s).trans (e' b p s))
  injection this

/-- C143 fails with a transmit correlation of 0.6 (model A): the first transmit antenna has 1.36 times the mean power. -/
theorem C143_violated_transmit : ∃ (a : TdlArgs) (t : Tdl) (c : TdlCorr 1 2), tdlInit a = .ok t ∧ a.model = "A" ∧ Spec.Correlations c ∧ c.spatial = none ∧ c.rx = none ∧
    ∀ (B : ℕ) (w : TdlDraws (B + 1) 1 2 t.params.powers.length t.numSinusoids) (fs : ℝ) H, Spec.Returns t c w fs H → ∃ p, ¬ Spec.MeanPower t H p := by
  obtain ⟨t, ht, -⟩ := (C79_names_partial _ (exTdl_valid "A")).1 (by simp [Spec.tdlNames]) (by decide)
  have hc : Spec.Correlations ({ tx := some exCorr } : TdlCorr 1 2) := by
    refine ⟨by simp, by simp, fun S hS => ?_⟩
    cases hS
    exact exCorr_ok
  refine ⟨_, t, { tx := some exCorr }, ht, rfl, hc, rfl, rfl, fun B w fs H hH => ?_⟩
  obtain ⟨A, hA, -, hn, -⟩ := correlate_linear _ hc
  obtain ⟨H', hH', -, hpow, -⟩ := tdlCall_linear ht _ A hA w fs
  obtain rfl := returns_unique hH hH'
  obtain ⟨L, hL, h00, h10⟩ := exCorr_chol
  have hcov := hn rfl 0 0 0 0
  simp only [hL, mul_apply, Fin.sum_univ_two, conjTranspose_apply, transpose_apply, h00, h10] at hcov
  have hre : (Spec.covariance A (0, 0) (0, 0)).re = 34 / 25 := by
    rw [hcov]
    norm_num [Complex.div_re, Complex.div_im, Complex.normSq]
  obtain ⟨tab, spread, hf, hl, -⟩ := tdlInit_ok ht
  have htab : tab = tdlA := by
    simp [tdlFile] at hf
    exact hf.1.symm
  subst htab
  obtain ⟨hlen, hlos⟩ : 0 < t.params.powers.length ∧ t.params.losPower = none := by
    cases hp : t.params
    rw [hp] at hl
    cases hl
    simp [tdlA]
  refine ⟨⟨0, hlen⟩, fun hm => ?_⟩
  obtain ⟨mp, hmp, hm⟩ := hm
  obtain ⟨_, -, mp1, hmp1, hpos, -⟩ := C78_normalised ht
  obtain ⟨mp2, hmp2, -, -, hval⟩ := meanPower_eq ht
  rw [hmp] at hmp1 hmp2
  cases hmp1
  cases hmp2
  have e := hm 0 0 0 0
  rw [hpow, hre, hval, hlos] at e
  have h0 := hpos _ (List.mem_of_getElem? (hval ⟨0, hlen⟩))
  rw [hlos] at h0
  simp only [if_true, Option.getD_none, zero_add, zero_mul, Option.some.injEq] at e h0
  linarith

/-- C143 fails with a receive correlation of 0.6 and the LoS model D: the specular component of the second antenna is amplified by 1.4. -/
theorem C143_violated_specular : ∃ (a : TdlArgs) (t : Tdl) (c : TdlCorr 2 1), tdlInit a = .ok t ∧ a.model = "D" ∧ Spec.Correlations c ∧ c.spatial = none ∧ c.tx = none ∧
    ∀ (B : ℕ) (w : TdlDraws (B + 1) 2 1 t.params.powers.length t.numSinusoids) (fs : ℝ) H, Spec.Returns t c w fs H → ∃ p, ¬ Spec.MeanPower t H p := by
  obtain ⟨t, ht, -⟩ := (C79_names_partial _ (exTdl_valid "D")).1 (by simp [Spec.tdlNames]) (by decide)
  have hc : Spec.Correlations ({ rx := some exCorr } : TdlCorr 2 1) := by
    refine ⟨by simp, fun S hS => ?_, by simp⟩
    cases hS
    exact exCorr_ok
  refine ⟨_, t, { rx := some exCorr }, ht, rfl, hc, rfl, rfl, fun B w fs H hH => ?_⟩
  obtain ⟨A, hA, -, hn, -⟩ := correlate_linear _ hc
  obtain ⟨H', hH', -, hpow, -⟩ := tdlCall_linear ht _ A hA w fs
  obtain rfl := returns_unique hH hH'
  obtain ⟨L, hL, h00, h10⟩ := exCorr_chol
  have hcov := hn rfl 1 0 1 0
  have hre : (Spec.covariance A (1, 0) (1, 0)).re = 1 := by
    rw [hcov]
    simp [exCorr]
  have hsum : ∑ q, A (1, 0) q = 3 / 5 + L 1 1 := by
    have := hA (Matrix.of fun _ _ => 1)
    simp only [tdlCorrelate, choleskyOpt, hL, bind, Except.bind, tdlRxTx] at this
    injection this with this
    have := congrFun (congrFun this 1) 0
    simp only [mul_apply, Fin.sum_univ_two, of_apply, mul_one, h10] at this
    exact this.symm
  obtain ⟨h1, h2, h3⟩ := cholesky_spec hL
  rw [lowerHermitian_eq exCorr_hermitian] at h3
  have e11 := congrFun (congrFun h3 1) 1
  simp only [mul_apply, Fin.sum_univ_two, conjTranspose_apply, h10, exCorr] at e11
  obtain ⟨hp, hi⟩ := h2 1
  have hLr : L 1 1 = ((L 1 1).re : ℂ) := by apply Complex.ext <;> simp [hi]
  have hsq : (3 / 5 + (L 1 1).re) ^ 2 = 49 / 25 := by
    rw [hLr, Complex.star_def, Complex.conj_ofReal] at e11
    have := congrArg Complex.re e11
    norm_num [Complex.div_re, Complex.div_im, Complex.normSq, Complex.mul_re] at this
    have : (L 1 1).re = 4 / 5 := by nlinarith
    rw [this]
    norm_num
  have hn2 : ‖∑ q, A (1, 0) q‖ ^ 2 = 49 / 25 := by
    rw [hsum, hLr, show (3 / 5 : ℂ) + ((L 1 1).re : ℂ) = ((3 / 5 + (L 1 1).re : ℝ) : ℂ) by push_cast; ring, Complex.norm_real, Real.norm_eq_abs, sq_abs, hsq]
  obtain ⟨tab, spread, hf, hl, -⟩ := tdlInit_ok ht
  have htab : tab = tdlD := by
    simp [tdlFile] at hf
    exact hf.1.symm
  subst htab
  obtain ⟨_, _, _, _, _, _, _, hK, -⟩ := C78_normalised ht
  obtain ⟨hlen, l, hlos, hlpos⟩ : 0 < t.params.powers.length ∧ ∃ l, t.params.losPower = some l ∧ l ≠ 0 := by
    cases hp : t.params
    rw [hp] at hl
    simp only [tdlLoad, linear_eq] at hl
    cases hl
    refine ⟨by simp [tdlD], _, rfl, ?_⟩
    refine (div_pos (linear_pos _) (add_pos_of_nonneg_of_pos (List.sum_nonneg fun y hy => ?_) (linear_pos _))).ne'
    exact (map_linear_pos _ y hy).le
  refine ⟨⟨0, hlen⟩, fun hm => ?_⟩
  obtain ⟨mp, hmp, hm⟩ := hm
  obtain ⟨mp2, hmp2, -, -, hval⟩ := meanPower_eq ht
  rw [hmp] at hmp2
  cases hmp2
  have e := hm 0 0 1 0
  rw [hpow, hre, hval, hlos, hn2] at e
  simp only [if_true, Option.getD_some, Option.some.injEq] at e
  apply hlpos
  linarith

/-- So the full claim fails. -/
theorem C143_violated : ¬ C143_statement := by
  intro H
  obtain ⟨a, t, c, ht, -, hc, -, -, hbad⟩ := C143_violated_specular
  let w : TdlDraws 1 2 1 t.params.powers.length t.numSinusoids := ⟨fun _ => 0, fun _ _ _ => 0, fun _ _ _ _ _ => 0, fun _ => 0⟩
  obtain ⟨H, hH, hm⟩ := H a t ht 1 2 1 c hc w 1
  obtain ⟨p, hp⟩ := hbad 0 w 1 H hH
  exact hp (hm p)

/-- The hypotheses are met by a joint matrix for two pairs of antennas. -/
example : ∃ c : TdlCorr 1 2, c.spatial ≠ none ∧ Spec.Correlations c := by
  refine ⟨{ spatial := some (exCorr.submatrix (fun p => (ofLex p).2) fun p => (ofLex p).2) }, by simp, fun S hS => ?_, by simp, by simp⟩
  cases hS
  refine ⟨exCorr_ok.1.submatrix ?_, fun i => exCorr_ok.2 _⟩
  rintro ⟨a, b⟩ ⟨a', b'⟩ (h : b = b')
  rw [Subsingleton.elim a a', h]

end OpenNTN
