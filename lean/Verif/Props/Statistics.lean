import Verif.Lemmas.Fading
import Verif.Props.Steering
import Verif.Props.Ofdm

/-
C140, C141: second-order statistics of the path coefficients over the random phases.
-/
namespace OpenNTN

open Classical Matrix MeasureTheory

/-- Mean product of the transfers of one ray between two pairs of antennas (fields `rx`, `tx` and `rx'`, `tx'`): components of equal polarisation
count fully, those of different polarisation divided by the cross polarisation ratio. -/
noncomputable def Spec.crossGain (x : ℝ) (rx tx rx' tx' : Fin 2 → ℝ) : ℝ :=
  rx 0 * rx' 0 * (tx 0 * tx' 0) + rx 1 * rx' 1 * (tx 1 * tx' 1) + (rx 0 * rx' 0 * (tx 1 * tx' 1) + rx 1 * rx' 1 * (tx 0 * tx' 0)) / x

theorem rayWeight_cross (x : ℝ) (hx : 0 < x) (rx tx rx' tx' : Fin 2 → ℝ) (A A' : ℂ) :
    ∑ i, (starRingEnd ℂ) (rayWeight x rx tx A i) * rayWeight x rx' tx' A' i = (Spec.crossGain x rx tx rx' tx' : ℂ) * ((starRingEnd ℂ) A * A') := by
  have hs : ((Real.sqrt (1 / x) : ℝ) : ℂ) ^ 2 = ((1 / x : ℝ) : ℂ) := by rw [← Complex.ofReal_pow, Real.sq_sqrt (by positivity)]
  simp only [Fin.sum_univ_four, rayWeight, Matrix.cons_val, map_mul, Complex.conj_ofReal, Spec.crossGain]
  push_cast at hs ⊢
  linear_combination ((rx 0 : ℂ) * tx 1 * rx' 0 * tx' 1 + rx 1 * tx 0 * rx' 1 * tx' 0) * (starRingEnd ℂ) A * A' * hs

/-- The coefficients as sums of phasors with the random phases. -/
theorem coeffCall_phasors {n : ℕ} (g : CoeffGen) (l : LinkTopo) (k : ℝ) (r : LinkRays (n + 2)) (cDs : ℝ) :
    ∃ (strong : Finset (Fin (n + 2))) (path : Fin (n + 2) → Fin raysPerCluster → Fin (n + 6)),
      strong.card = 2 ∧ (∀ c ∈ strong, ∀ d ∉ strong, r.powers d ≤ r.powers c) ∧
      (∀ c m d m', path c m = path d m' ↔ c = d ∧ (c ∈ strong → Spec.subCluster m = Spec.subCluster m')) ∧
      (∀ phi c m, (coeffCall g l k r cDs phi).2 (path c m) =
        r.delays c + if c ∈ strong then Spec.subClusterDelay (Spec.subCluster m) * cDs else 0) ∧
      ∀ (x : Fin (n + 2) × Fin raysPerCluster × Fin 4 → ℝ) q u s t, (coeffCall g l k r cDs fun c m i => x (c, m, i)).1 q u s t =
        (if l.los = true ∧ q = 0 then ((Real.sqrt (k / (k + 1)) : ℝ) : ℂ) * losCoeff g l u s t else 0) +
        ∑ p, (if path p.1 p.2.1 = q then rayWeight (r.xpr p.1 p.2.1) (fieldVector g.rx l.rxOri (r.zoa p.1 p.2.1) (r.aoa p.1 p.2.1) u)
          (Spec.faraday g.fc l.bsHeight (fieldVector g.tx l.txOri (r.zod p.1 p.2.1) (r.aod p.1 p.2.1) s))
          (arrayOffset g l (r.aoa p.1 p.2.1) (r.aod p.1 p.2.1) (r.zoa p.1 p.2.1) (r.zod p.1 p.2.1) u s *
            dopplerTerm g l (r.aoa p.1 p.2.1) (r.zoa p.1 p.2.1) (r.aod p.1 p.2.1) (r.zod p.1 p.2.1) t *
            ((Real.sqrt (r.powers p.1 / raysPerCluster) : ℝ) : ℂ)) p.2.2 * (if l.los = true then ((Real.sqrt (1 / (k + 1)) : ℝ) : ℂ) else 1)
          else 0) * Complex.exp ((x p : ℂ) * Complex.I) := by
  obtain ⟨-, strong, path, h1, h2, h3, h4, h5, -⟩ := C47_paths r.powers r.delays
    (fun c m (x : Fin (n + 2) × Fin raysPerCluster × Fin 4 → ℝ) => nlosRay g l r (fun c m i => x (c, m, i)) c m) cDs
  refine ⟨strong, path, h1, h2, h5, fun phi c m => h4 c m, ?_⟩
  intro x q u s t
  have hn : (reduceNlos r.powers r.delays (nlosRay g l r fun c m i => x (c, m, i)) cDs).1 q u s t =
      ∑ p : Fin (n + 2) × Fin raysPerCluster × Fin 4, (if path p.1 p.2.1 = q then
        rayWeight (r.xpr p.1 p.2.1) (fieldVector g.rx l.rxOri (r.zoa p.1 p.2.1) (r.aoa p.1 p.2.1) u)
          (Spec.faraday g.fc l.bsHeight (fieldVector g.tx l.txOri (r.zod p.1 p.2.1) (r.aod p.1 p.2.1) s))
          (arrayOffset g l (r.aoa p.1 p.2.1) (r.aod p.1 p.2.1) (r.zoa p.1 p.2.1) (r.zod p.1 p.2.1) u s *
            dopplerTerm g l (r.aoa p.1 p.2.1) (r.zoa p.1 p.2.1) (r.aod p.1 p.2.1) (r.zod p.1 p.2.1) t *
            ((Real.sqrt (r.powers p.1 / raysPerCluster) : ℝ) : ℂ)) p.2.2 else 0) * Complex.exp ((x p : ℂ) * Complex.I) := by
    have e := congrFun (congrFun (congrFun (congrFun (h3 q) x) u) s) t
    rw [reduceNlos_eval] at e
    rw [Fintype.sum_prod_type]
    refine e.trans ?_
    rw [Finset.sum_apply, Finset.sum_apply, Finset.sum_apply, Finset.sum_apply]
    refine Finset.sum_congr rfl fun c _ => ?_
    rw [Finset.sum_apply, Finset.sum_apply, Finset.sum_apply, Finset.sum_apply, Fintype.sum_prod_type]
    refine Finset.sum_congr rfl fun m _ => ?_
    dsimp only
    split_ifs
    · exact nlosRay_phasors g l r _ c m u s t
    · simp
  by_cases hl : l.los = true
  · simp only [coeffCall, combineLos, hl, if_true, true_and]
    have h7 : ∀ (w : Fin (n + 2) × Fin raysPerCluster × Fin 4 → ℂ) (a : ℂ),
        ∑ p, (if path p.1 p.2.1 = q then w p * a else 0) * Complex.exp ((x p : ℂ) * Complex.I) =
        (∑ p, (if path p.1 p.2.1 = q then w p else 0) * Complex.exp ((x p : ℂ) * Complex.I)) * a := by
      intro w a
      rw [Finset.sum_mul]
      refine Finset.sum_congr rfl fun p _ => ?_
      split_ifs <;> ring
    rw [h7 (fun p => rayWeight (r.xpr p.1 p.2.1) (fieldVector g.rx l.rxOri (r.zoa p.1 p.2.1) (r.aoa p.1 p.2.1) u)
          (Spec.faraday g.fc l.bsHeight (fieldVector g.tx l.txOri (r.zod p.1 p.2.1) (r.aod p.1 p.2.1) s))
          (arrayOffset g l (r.aoa p.1 p.2.1) (r.aod p.1 p.2.1) (r.zoa p.1 p.2.1) (r.zod p.1 p.2.1) u s *
            dopplerTerm g l (r.aoa p.1 p.2.1) (r.zoa p.1 p.2.1) (r.aod p.1 p.2.1) (r.zod p.1 p.2.1) t *
            ((Real.sqrt (r.powers p.1 / raysPerCluster) : ℝ) : ℂ)) p.2.2), ← hn]
    split_ifs with h0
    · subst h0
      rw [mul_comm (Complex.ofReal _) (losCoeff g l u s t)]
    · rw [zero_add]
  · simp only [coeffCall, combineLos, hl, false_and, if_false, zero_add, mul_one, Bool.false_eq_true]
    exact hn

theorem average_mean {ι : Type} [Fintype ι] (a : ℂ) (c : ι → ℂ) :
    ∫ x, (a + ∑ k, c k * Complex.exp ((x k : ℂ) * Complex.I)) ∂(Measure.pi fun _ : ι => uniformPhase) = a := by
  have := average_correlation (ι := ι) 1 a 0 c
  simpa using this

theorem cycles_conj (x y : ℝ) : (starRingEnd ℂ) (Spec.cycles x) * Spec.cycles y = Spec.cycles (y - x) := by
  simp only [Spec.cycles, ← Complex.exp_conj, map_mul, Complex.conj_ofReal, Complex.conj_I, ← Complex.exp_add]
  congr 1
  push_cast
  ring

theorem ray_advance {M : ℕ} (g : CoeffGen) (l : LinkTopo) (r : LinkRays M) (c : Fin M) (m : Fin raysPerCluster) (u u' s s' : ℕ) (t t' : ℝ)
    (hP : 0 ≤ r.powers c) :
    let arrival := Spec.sphereDirection (r.zoa c m) (r.aoa c m)
    let departure := Spec.sphereDirection (r.zod c m) (r.aod c m)
    let lambda := 299792458 / g.fc
    (starRingEnd ℂ) (arrayOffset g l (r.aoa c m) (r.aod c m) (r.zoa c m) (r.zod c m) u s *
        dopplerTerm g l (r.aoa c m) (r.zoa c m) (r.aod c m) (r.zod c m) t * ((Real.sqrt (r.powers c / raysPerCluster) : ℝ) : ℂ)) *
      (arrayOffset g l (r.aoa c m) (r.aod c m) (r.zoa c m) (r.zod c m) u' s' *
        dopplerTerm g l (r.aoa c m) (r.zoa c m) (r.aod c m) (r.zod c m) t' * ((Real.sqrt (r.powers c / raysPerCluster) : ℝ) : ℂ)) =
      ((r.powers c / 20 : ℝ) : ℂ) * Spec.cycles ((arrival ⬝ᵥ Spec.attitude l.rxOri *ᵥ (g.rx.antPos u' - g.rx.antPos u)) / lambda +
          (departure ⬝ᵥ Spec.attitude l.txOri *ᵥ (g.tx.antPos s' - g.tx.antPos s)) / lambda +
          Spec.dopplerFrequency lambda l (if l.movingRx then arrival else departure) * (t' - t)) := by
  intro arrival departure lambda
  have hs : ((Real.sqrt (r.powers c / raysPerCluster) : ℝ) : ℂ) ^ 2 = ((r.powers c / 20 : ℝ) : ℂ) := by
    rw [← Complex.ofReal_pow, Real.sq_sqrt (div_nonneg hP (by simp))]
    simp [raysPerCluster]
  have e : Spec.cycles ((arrival ⬝ᵥ Spec.attitude l.rxOri *ᵥ (g.rx.antPos u' - g.rx.antPos u)) / lambda +
          (departure ⬝ᵥ Spec.attitude l.txOri *ᵥ (g.tx.antPos s' - g.tx.antPos s)) / lambda +
          Spec.dopplerFrequency lambda l (if l.movingRx then arrival else departure) * (t' - t)) =
      Spec.cycles ((arrival ⬝ᵥ Spec.attitude l.rxOri *ᵥ g.rx.antPos u') / lambda -
        (arrival ⬝ᵥ Spec.attitude l.rxOri *ᵥ g.rx.antPos u) / lambda) *
      Spec.cycles ((departure ⬝ᵥ Spec.attitude l.txOri *ᵥ g.tx.antPos s') / lambda -
        (departure ⬝ᵥ Spec.attitude l.txOri *ᵥ g.tx.antPos s) / lambda) *
      Spec.cycles (Spec.dopplerFrequency lambda l (if l.movingRx then arrival else departure) * t' -
        Spec.dopplerFrequency lambda l (if l.movingRx then arrival else departure) * t) := by
    simp only [Spec.cycles, ← Complex.exp_add, Matrix.mulVec_sub, dotProduct_sub]
    congr 1
    push_cast
    ring
  rw [e, ← hs, ← cycles_conj, ← cycles_conj, ← cycles_conj, arrayOffset_cycles, arrayOffset_cycles, dopplerTerm_cycles, dopplerTerm_cycles]
  simp only [map_mul, Complex.conj_ofReal, arrival, departure, lambda]
  ring

theorem los_share {k : ℝ} (hk : 0 ≤ k) (los : Bool) : (starRingEnd ℂ) (if los = true then ((Real.sqrt (1 / (k + 1)) : ℝ) : ℂ) else 1) *
    (if los = true then ((Real.sqrt (1 / (k + 1)) : ℝ) : ℂ) else 1) = 1 / (if los = true then (k : ℂ) + 1 else 1) := by
  split_ifs
  · rw [Complex.conj_ofReal, ← Complex.ofReal_mul, Real.mul_self_sqrt (by positivity)]
    push_cast; rfl
  · simp

/-- C140. Over independent phases that are uniform on `(-π, π]`: the mean of a path coefficient is the specular component with its share of the
K-factor on the first path of a LoS link and zero otherwise. Different paths are uncorrelated, for any antennas and times. Within a path, the
covariance between antenna pairs and times is the sum over its rays of a twentieth of the cluster power times the product of the antenna fields
and the phase by which plane wave and Doppler shift advance from one to the other; over time it depends on the lag only. -/
theorem C140_second_order {n : ℕ} (g : CoeffGen) (l : LinkTopo) (k : ℝ) (r : LinkRays (n + 2)) (cDs : ℝ) (hP : ∀ c, 0 ≤ r.powers c)
    (hx : ∀ c m, 0 < r.xpr c m) (hk : 0 ≤ k) :
    ∃ (strong : Finset (Fin (n + 2))) (path : Fin (n + 2) → Fin raysPerCluster → Fin (n + 6)),
      strong.card = 2 ∧ (∀ c ∈ strong, ∀ d ∉ strong, r.powers d ≤ r.powers c) ∧
      (∀ c m d m', path c m = path d m' ↔ c = d ∧ (c ∈ strong → Spec.subCluster m = Spec.subCluster m')) ∧
      (∀ phi c m, (coeffCall g l k r cDs phi).2 (path c m) =
        r.delays c + if c ∈ strong then Spec.subClusterDelay (Spec.subCluster m) * cDs else 0) ∧
      ∀ q q' u u' s s' t t',
        let h (x : Fin (n + 2) × Fin raysPerCluster × Fin 4 → ℝ) q u s t := (coeffCall g l k r cDs fun c m i => x (c, m, i)).1 q u s t
        let mean q u s t : ℂ := if l.los = true ∧ q = 0 then ((Real.sqrt (k / (k + 1)) : ℝ) : ℂ) * losCoeff g l u s t else 0
        let lambda := 299792458 / g.fc
        let gain c m := Spec.crossGain (r.xpr c m) (fieldVector g.rx l.rxOri (r.zoa c m) (r.aoa c m) u)
          (Spec.faraday g.fc l.bsHeight (fieldVector g.tx l.txOri (r.zod c m) (r.aod c m) s))
          (fieldVector g.rx l.rxOri (r.zoa c m) (r.aoa c m) u')
          (Spec.faraday g.fc l.bsHeight (fieldVector g.tx l.txOri (r.zod c m) (r.aod c m) s'))
        let arrival c m := Spec.sphereDirection (r.zoa c m) (r.aoa c m)
        let departure c m := Spec.sphereDirection (r.zod c m) (r.aod c m)
        let advance c m := (arrival c m ⬝ᵥ Spec.attitude l.rxOri *ᵥ (g.rx.antPos u' - g.rx.antPos u)) / lambda +
          (departure c m ⬝ᵥ Spec.attitude l.txOri *ᵥ (g.tx.antPos s' - g.tx.antPos s)) / lambda +
          Spec.dopplerFrequency lambda l (if l.movingRx then arrival c m else departure c m) * (t' - t)
        ∫ x, h x q u s t ∂(Measure.pi fun _ => uniformPhase) = mean q u s t ∧
        ∫ x, (starRingEnd ℂ) (h x q u s t - mean q u s t) * (h x q' u' s' t' - mean q' u' s' t') ∂(Measure.pi fun _ => uniformPhase) =
          if q = q' then (∑ c, ∑ m, if path c m = q then ((r.powers c / 20 * gain c m : ℝ) : ℂ) * Spec.cycles (advance c m) else 0) /
            (if l.los then (k : ℂ) + 1 else 1) else 0 := by
  obtain ⟨strong, path, h1, h2, h3, h4, h5⟩ := coeffCall_phasors g l k r cDs
  refine ⟨strong, path, h1, h2, h3, h4, ?_⟩
  intro q q' u u' s s' t t' h mean lambda gain arrival departure advance
  constructor
  · simp only [h, h5, average_mean, mean]
  simp only [h, h5, mean, add_sub_cancel_left]
  have := fun c d => average_correlation (ι := Fin (n + 2) × Fin raysPerCluster × Fin 4) 0 0 c d
  simp only [zero_add, map_zero, zero_mul] at this
  rw [this]
  clear this
  have hA : ∀ c m, _ = ((r.powers c / 20 : ℝ) : ℂ) * Spec.cycles (advance c m) := fun c m => ray_advance g l r c m u u' s s' t t' (hP c)
  by_cases hq : q = q'
  swap
  · rw [if_neg hq]
    refine Finset.sum_eq_zero fun p _ => ?_
    by_cases c1 : path p.1 p.2.1 = q
    · rw [if_neg (c := path p.1 p.2.1 = q') fun c2 => hq (c1.symm.trans c2), mul_zero]
    · rw [if_neg c1, map_zero, zero_mul]
  subst hq
  rw [if_pos rfl, Fintype.sum_prod_type, Finset.sum_div]
  refine Finset.sum_congr rfl fun c _ => ?_
  rw [Fintype.sum_prod_type, Finset.sum_div]
  refine Finset.sum_congr rfl fun m _ => ?_
  dsimp only
  by_cases hp : path c m = q
  swap
  · simp only [if_neg hp, map_zero, zero_mul, Finset.sum_const_zero, zero_div]
  simp only [if_pos hp, map_mul]
  have hsq := los_share hk l.los
  have hf := rayWeight_cross (r.xpr c m) (hx c m) (fieldVector g.rx l.rxOri (r.zoa c m) (r.aoa c m) u)
          (Spec.faraday g.fc l.bsHeight (fieldVector g.tx l.txOri (r.zod c m) (r.aod c m) s))
          (fieldVector g.rx l.rxOri (r.zoa c m) (r.aoa c m) u')
          (Spec.faraday g.fc l.bsHeight (fieldVector g.tx l.txOri (r.zod c m) (r.aod c m) s'))
          _ _ |>.trans (congrArg _ (hA c m))
  have hc : ∀ (f f' : Fin 4 → ℂ) (a : ℂ), ∑ i, (starRingEnd ℂ) (f i) * (starRingEnd ℂ) a * (f' i * a) =
      (∑ i, (starRingEnd ℂ) (f i) * f' i) * ((starRingEnd ℂ) a * a) := fun f f' a => by
    rw [Finset.sum_mul]; exact Finset.sum_congr rfl fun i _ => by ring
  rw [hc, hf, hsq]
  push_cast
  ring

/-- The rays of C100 meet the hypotheses. -/
example : (∀ c, 0 ≤ exLinkRays.powers c) ∧ (∀ c m, 0 < exLinkRays.xpr c m) ∧ (0 : ℝ) ≤ 10 :=
  ⟨fun c => by fin_cases c <;> norm_num [exLinkRays], fun _ _ => by norm_num [exLinkRays], by norm_num⟩

/-- C141. The frequency response of a link, computed from its path coefficients and delays, is stationary in time and frequency: over the random
phases its mean is that of the specular component, and its covariance between antenna pairs, times and frequencies is a sum over all rays of a
twentieth of the cluster power times the product of the antenna fields, with phases that advance with the difference of antenna positions, with
Doppler frequency times time lag, and back with delay times frequency difference. -/
theorem C141_frequency_correlation {n RA TA T F : ℕ} (g : CoeffGen) (l : LinkTopo) (k : ℝ) (r : LinkRays (n + 2)) (cDs : ℝ) (hP : ∀ c, 0 ≤ r.powers c)
    (hx : ∀ c m, 0 < r.xpr c m) (hk : 0 ≤ k) (freq : Fin F → ℝ) (times : Fin T → ℝ) :
    ∃ strong : Finset (Fin (n + 2)), strong.card = 2 ∧ (∀ c ∈ strong, ∀ d ∉ strong, r.powers d ≤ r.powers c) ∧
      ∀ (u u' : Fin RA) (s s' : Fin TA) (i i' : Fin T) (f f' : Fin F),
        let H (x : Fin (n + 2) × Fin raysPerCluster × Fin 4 → ℝ) (u : Fin RA) (s : Fin TA) (i : Fin T) (f : Fin F) : ℂ :=
          let o := coeffCall g l k r cDs fun c m j => x (c, m, j)
          cirToOfdm (B := 1) (Y := 1) (X := 1) freq (fun _ _ u _ s q i => o.1 q u s (times i)) (.link fun _ _ _ q => o.2 q) false 0 0 u 0 s i f
        let mean (u : Fin RA) (s : Fin TA) (i : Fin T) (f : Fin F) : ℂ := if l.los = true then
          ((Real.sqrt (k / (k + 1)) : ℝ) : ℂ) * losCoeff g l u s (times i) * Spec.rotation (freq f) ((coeffCall g l k r cDs 0).2 0) else 0
        let lambda := 299792458 / g.fc
        let gain c m := Spec.crossGain (r.xpr c m) (fieldVector g.rx l.rxOri (r.zoa c m) (r.aoa c m) u)
          (Spec.faraday g.fc l.bsHeight (fieldVector g.tx l.txOri (r.zod c m) (r.aod c m) s))
          (fieldVector g.rx l.rxOri (r.zoa c m) (r.aoa c m) u')
          (Spec.faraday g.fc l.bsHeight (fieldVector g.tx l.txOri (r.zod c m) (r.aod c m) s'))
        let arrival c m := Spec.sphereDirection (r.zoa c m) (r.aoa c m)
        let departure c m := Spec.sphereDirection (r.zod c m) (r.aod c m)
        let delay c (m : Fin raysPerCluster) := r.delays c + if c ∈ strong then Spec.subClusterDelay (Spec.subCluster m) * cDs else 0
        let advance c m := (arrival c m ⬝ᵥ Spec.attitude l.rxOri *ᵥ (g.rx.antPos u' - g.rx.antPos u)) / lambda +
          (departure c m ⬝ᵥ Spec.attitude l.txOri *ᵥ (g.tx.antPos s' - g.tx.antPos s)) / lambda +
          Spec.dopplerFrequency lambda l (if l.movingRx then arrival c m else departure c m) * (times i' - times i) -
          delay c m * (freq f' - freq f)
        ∫ x, H x u s i f ∂(Measure.pi fun _ => uniformPhase) = mean u s i f ∧
        ∫ x, (starRingEnd ℂ) (H x u s i f - mean u s i f) * (H x u' s' i' f' - mean u' s' i' f') ∂(Measure.pi fun _ => uniformPhase) =
          (∑ c, ∑ m, ((r.powers c / 20 * gain c m : ℝ) : ℂ) * Spec.cycles (advance c m)) / (if l.los then (k : ℂ) + 1 else 1) := by
  obtain ⟨strong, path, h1, h2, -, h4, h5⟩ := coeffCall_phasors g l k r cDs
  refine ⟨strong, h1, h2, ?_⟩
  intro u u' s s' i i' f f' H mean lambda gain arrival departure delay advance
  let w (u : Fin RA) (s : Fin TA) (i : Fin T) (f : Fin F) (p : Fin (n + 2) × Fin raysPerCluster × Fin 4) : ℂ :=
    rayWeight (r.xpr p.1 p.2.1) (fieldVector g.rx l.rxOri (r.zoa p.1 p.2.1) (r.aoa p.1 p.2.1) u)
      (Spec.faraday g.fc l.bsHeight (fieldVector g.tx l.txOri (r.zod p.1 p.2.1) (r.aod p.1 p.2.1) s))
      (arrayOffset g l (r.aoa p.1 p.2.1) (r.aod p.1 p.2.1) (r.zoa p.1 p.2.1) (r.zod p.1 p.2.1) u s *
        dopplerTerm g l (r.aoa p.1 p.2.1) (r.zoa p.1 p.2.1) (r.aod p.1 p.2.1) (r.zod p.1 p.2.1) (times i) *
        ((Real.sqrt (r.powers p.1 / raysPerCluster) : ℝ) : ℂ)) p.2.2 * (if l.los = true then ((Real.sqrt (1 / (k + 1)) : ℝ) : ℂ) else 1) *
      Spec.rotation (freq f) (delay p.1 p.2.1)
  have hH : ∀ x u s i f, H x u s i f = mean u s i f + ∑ p, w u s i f p * Complex.exp ((x p : ℂ) * Complex.I) := by
    intro x u s i f
    have hd : ∀ c m, (coeffCall g l k r cDs fun c m j => x (c, m, j)).2 (path c m) = delay c m := fun c m => h4 _ c m
    have hd0 : (coeffCall g l k r cDs fun c m j => x (c, m, j)).2 = (coeffCall g l k r cDs 0).2 := rfl
    simp only [H]
    rw [(C64_frequency_response freq _ 0 0 0 _ 0 0 0).1]
    simp only [h5, add_mul, Finset.sum_add_distrib, Spec.delayOf, Finset.sum_mul]
    congr 1
    · by_cases hl : l.los = true
      · simp [hl, mean, ite_mul, hd0]
      · simp [hl, mean]
    · rw [Finset.sum_comm]
      refine Finset.sum_congr rfl fun p _ => ?_
      rw [Finset.sum_eq_single (path p.1 p.2.1)]
      · rw [if_pos rfl, hd]
        simp only [w]
        ring
      · intro q _ hq
        rw [if_neg (Ne.symm hq), zero_mul, zero_mul]
      · intro hq; exact absurd (Finset.mem_univ _) hq
  constructor
  · simp only [hH, average_mean]
  simp only [hH, add_sub_cancel_left]
  have := fun c d => average_correlation (ι := Fin (n + 2) × Fin raysPerCluster × Fin 4) 0 0 c d
  simp only [zero_add, map_zero, zero_mul] at this
  rw [this]
  clear this
  rw [Fintype.sum_prod_type, Finset.sum_div]
  refine Finset.sum_congr rfl fun c _ => ?_
  rw [Fintype.sum_prod_type, Finset.sum_div]
  refine Finset.sum_congr rfl fun m _ => ?_
  simp only [w, map_mul]
  have hsq := los_share hk l.los
  have hf := rayWeight_cross (r.xpr c m) (hx c m) (fieldVector g.rx l.rxOri (r.zoa c m) (r.aoa c m) u)
          (Spec.faraday g.fc l.bsHeight (fieldVector g.tx l.txOri (r.zod c m) (r.aod c m) s))
          (fieldVector g.rx l.rxOri (r.zoa c m) (r.aoa c m) u')
          (Spec.faraday g.fc l.bsHeight (fieldVector g.tx l.txOri (r.zod c m) (r.aod c m) s'))
          _ _ |>.trans (congrArg _ (ray_advance g l r c m u u' s s' (times i) (times i') (hP c)))
  have hr : (starRingEnd ℂ) (Spec.rotation (freq f) (delay c m)) * Spec.rotation (freq f') (delay c m) = Spec.cycles (-(delay c m * (freq f' - freq f))) := by
    simp only [Spec.rotation, Spec.cycles, ← Complex.exp_conj, ← Complex.exp_add]
    congr 1
    simp only [map_mul, map_neg, Complex.conj_ofReal, Complex.conj_I, Complex.conj_ofNat]
    push_cast
    ring
  have hc : ∀ (f f' : Fin 4 → ℂ) (a b b' : ℂ), ∑ i, (starRingEnd ℂ) (f i) * (starRingEnd ℂ) a * (starRingEnd ℂ) b * (f' i * a * b') =
      (∑ i, (starRingEnd ℂ) (f i) * f' i) * ((starRingEnd ℂ) a * a) * ((starRingEnd ℂ) b * b') := fun f f' a b b' => by
    rw [Finset.sum_mul, Finset.sum_mul]; exact Finset.sum_congr rfl fun i _ => by ring
  rw [hc, hf, hsq, hr]
  have ha : Spec.cycles (advance c m) = Spec.cycles (advance c m + delay c m * (freq f' - freq f)) * Spec.cycles (-(delay c m * (freq f' - freq f))) := by
    simp only [Spec.cycles, ← Complex.exp_add]
    congr 1
    push_cast
    ring
  rw [ha]
  simp only [advance, sub_add_cancel]
  push_cast
  ring

/-- A case that meets the hypotheses with power in every cluster: the three clusters of C100. -/
example : (∀ c, 0 ≤ exLinkRays.powers c) ∧ (∀ c m, 0 < exLinkRays.xpr c m) ∧ (0 : ℝ) ≤ 10 ∧ 0 < exLinkRays.powers 0 :=
  ⟨fun c => by fin_cases c <;> norm_num [exLinkRays], fun _ _ => by norm_num [exLinkRays], by norm_num, by norm_num [exLinkRays]⟩

end OpenNTN
