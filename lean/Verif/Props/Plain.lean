import Verif.Props.Statistics

/-
C142: channel coefficients without sub-clusters.
-/
namespace OpenNTN

open Classical Matrix MeasureTheory

/-- The coefficients without sub-clusters as sums of phasors with the random phases. -/
theorem plain_phasors {n : ℕ} (g : CoeffGen) (l : LinkTopo) (k : ℝ) (r : LinkRays (n + 1)) (x : Fin (n + 1) × Fin raysPerCluster × Fin 4 → ℝ)
    (q : Fin (n + 1)) (u s : ℕ) (t : ℝ) : (coeffCallPlain g l k r fun c m i => x (c, m, i)).1 q u s t =
        (if l.los = true ∧ q = 0 then ((Real.sqrt (k / (k + 1)) : ℝ) : ℂ) * losCoeff g l u s t else 0) +
        ∑ p, (if p.1 = Tuple.sort r.delays q then rayWeight (r.xpr p.1 p.2.1) (fieldVector g.rx l.rxOri (r.zoa p.1 p.2.1) (r.aoa p.1 p.2.1) u)
          (Spec.faraday g.fc l.bsHeight (fieldVector g.tx l.txOri (r.zod p.1 p.2.1) (r.aod p.1 p.2.1) s))
          (arrayOffset g l (r.aoa p.1 p.2.1) (r.aod p.1 p.2.1) (r.zoa p.1 p.2.1) (r.zod p.1 p.2.1) u s *
            dopplerTerm g l (r.aoa p.1 p.2.1) (r.zoa p.1 p.2.1) (r.aod p.1 p.2.1) (r.zod p.1 p.2.1) t *
            ((Real.sqrt (r.powers p.1 / raysPerCluster) : ℝ) : ℂ)) p.2.2 * (if l.los = true then ((Real.sqrt (1 / (k + 1)) : ℝ) : ℂ) else 1)
          else 0) * Complex.exp ((x p : ℂ) * Complex.I) := by
  set c := Tuple.sort r.delays q with hc
  have hn : ∀ a : ℂ, (∑ m, nlosRay g l r (fun c m i => x (c, m, i)) c m u s t) * a =
      ∑ p : Fin (n + 1) × Fin raysPerCluster × Fin 4, (if p.1 = c then
        rayWeight (r.xpr p.1 p.2.1) (fieldVector g.rx l.rxOri (r.zoa p.1 p.2.1) (r.aoa p.1 p.2.1) u)
          (Spec.faraday g.fc l.bsHeight (fieldVector g.tx l.txOri (r.zod p.1 p.2.1) (r.aod p.1 p.2.1) s))
          (arrayOffset g l (r.aoa p.1 p.2.1) (r.aod p.1 p.2.1) (r.zoa p.1 p.2.1) (r.zod p.1 p.2.1) u s *
            dopplerTerm g l (r.aoa p.1 p.2.1) (r.zoa p.1 p.2.1) (r.aod p.1 p.2.1) (r.zod p.1 p.2.1) t *
            ((Real.sqrt (r.powers p.1 / raysPerCluster) : ℝ) : ℂ)) p.2.2 * a else 0) * Complex.exp ((x p : ℂ) * Complex.I) := by
    intro a
    rw [Fintype.sum_prod_type, Finset.sum_eq_single c]
    · rw [Finset.sum_mul, Fintype.sum_prod_type]
      refine Finset.sum_congr rfl fun m _ => ?_
      rw [nlosRay_phasors, Finset.sum_mul]
      refine Finset.sum_congr rfl fun i _ => ?_
      dsimp only
      rw [if_pos rfl]
      ring
    · intro d _ hd
      refine Finset.sum_eq_zero fun p _ => ?_
      dsimp only
      rw [if_neg hd, zero_mul]
    · intro h; exact absurd (Finset.mem_univ _) h
  have e : (∑ m, nlosRay g l r (fun c m i => x (c, m, i)) c m) u s t = ∑ m, nlosRay g l r (fun c m i => x (c, m, i)) c m u s t := by
    rw [Finset.sum_apply, Finset.sum_apply, Finset.sum_apply]
  rw [← hn]
  by_cases hl : l.los = true
  · simp only [coeffCallPlain, reduceNlosPlain, combineLos, hl, if_true, true_and]
    split_ifs with h0
    · subst h0
      rw [← hc, mul_comm (Complex.ofReal _) (losCoeff g l u s t)]
      beta_reduce
      rw [e]
    · rw [← hc, zero_add]
      beta_reduce
      rw [e]
  · simp only [coeffCallPlain, reduceNlosPlain, combineLos, hl, false_and, if_false, zero_add, mul_one, Bool.false_eq_true]
    rw [← hc, e]

/-- C142. Without sub-clusters there is one path per cluster, in the order of the delays: the coefficient of a path is the sum of the twenty rays of
its cluster, on LoS links with a share `1/(K+1)` of the power, to which the specular component is added on the first path. Over
independent uniform phases the paths are uncorrelated, and the covariance within a path is as in C140. -/
theorem C142_plain {n : ℕ} (g : CoeffGen) (l : LinkTopo) (k : ℝ) (r : LinkRays (n + 1)) (hP : ∀ c, 0 ≤ r.powers c)
    (hx : ∀ c m, 0 < r.xpr c m) (hk : 0 ≤ k) :
    ∃ cluster : Equiv.Perm (Fin (n + 1)), Monotone (r.delays ∘ cluster) ∧
      (∀ phi, (coeffCallPlain g l k r phi).2 = r.delays ∘ cluster) ∧
      (∀ phi q u s t, l.los = false → (coeffCallPlain g l k r phi).1 q u s t = ∑ m, nlosRay g l r phi (cluster q) m u s t) ∧
      (∀ phi q u s t, l.los = true → (coeffCallPlain g l k r phi).1 q u s t =
        (if q = 0 then (Real.sqrt (k / (k + 1)) : ℂ) * losCoeff g l u s t else 0) +
          (Real.sqrt (1 / (k + 1)) : ℂ) * ∑ m, nlosRay g l r phi (cluster q) m u s t) ∧
      ∀ q q' u u' s s' t t',
        let h (x : Fin (n + 1) × Fin raysPerCluster × Fin 4 → ℝ) q u s t := (coeffCallPlain g l k r fun c m i => x (c, m, i)).1 q u s t
        let mean q u s t : ℂ := if l.los = true ∧ q = 0 then ((Real.sqrt (k / (k + 1)) : ℝ) : ℂ) * losCoeff g l u s t else 0
        let lambda := 299792458 / g.fc
        let gain c m := Spec.crossGain (r.xpr c m) (fieldVector g.rx l.rxOri (r.zoa c m) (r.aoa c m) u)
          (Spec.faraday g.fc l.bsHeight (fieldVector g.tx l.txOri (r.zod c m) (r.aod c m) s))
          (fieldVector g.rx l.rxOri (r.zoa c m) (r.aoa c m) u')
          (Spec.faraday g.fc l.bsHeight (fieldVector g.tx l.txOri (r.zod c m) (r.aod c m) s'))
        let arrival c m := Spec.sphereDirection (r.zoa c m) (r.aoa c m)
        let departure c m := Spec.sphereDirection (r.zod c m) (r.aod c m)
        let advance c m := (arrival c m ⬝ᵥ Spec.attitude l.rxOri *ᵥ (g.rx.antPos u' - g.rx.antPos u)) / lambda +
          (departure c m ⬝ᵥ Spec.attitude l.txOri *ᵥ (g.tx.antPos s' - g.tx.antPos s)) / lambda +
          Spec.dopplerFrequency lambda l (if l.movingRx then arrival c m else departure c m) * (t' - t)
        ∫ x, h x q u s t ∂(Measure.pi fun _ => uniformPhase) = mean q u s t ∧
        ∫ x, (starRingEnd ℂ) (h x q u s t - mean q u s t) * (h x q' u' s' t' - mean q' u' s' t') ∂(Measure.pi fun _ => uniformPhase) =
          if q = q' then (∑ m, ((r.powers (cluster q) / 20 * gain (cluster q) m : ℝ) : ℂ) * Spec.cycles (advance (cluster q) m)) /
            (if l.los then (k : ℂ) + 1 else 1) else 0 := by
  refine ⟨Tuple.sort r.delays, Tuple.monotone_sort _, fun _ => rfl, ?_, ?_, ?_⟩
  · intro phi q u s t hl
    simp only [coeffCallPlain, reduceNlosPlain, combineLos, hl, if_false, Bool.false_eq_true, Finset.sum_apply]
  · intro phi q u s t hl
    simp only [coeffCallPlain, reduceNlosPlain, combineLos, hl, if_true]
    split_ifs with h0
    · subst h0
      simp only [Finset.sum_apply]
      ring
    · simp only [Finset.sum_apply]
      ring
  intro q q' u u' s s' t t' h mean lambda gain arrival departure advance
  constructor
  · simp only [h, plain_phasors, average_mean, mean]
  simp only [h, plain_phasors, mean, add_sub_cancel_left]
  have := fun c d => average_correlation (ι := Fin (n + 1) × Fin raysPerCluster × Fin 4) 0 0 c d
  simp only [zero_add, map_zero, zero_mul] at this
  rw [this]
  clear this
  set c := Tuple.sort r.delays q with hc
  by_cases hq : q = q'
  swap
  · rw [if_neg hq]
    refine Finset.sum_eq_zero fun p _ => ?_
    by_cases c1 : p.1 = c
    · rw [if_neg (c := p.1 = Tuple.sort r.delays q') fun c2 => hq ((Tuple.sort r.delays).injective (hc.symm.trans (c1.symm.trans c2))), mul_zero]
    · rw [if_neg c1, map_zero, zero_mul]
  subst hq
  rw [if_pos rfl, Fintype.sum_prod_type, Finset.sum_eq_single c]
  rotate_left
  · intro d _ hd
    refine Finset.sum_eq_zero fun p _ => ?_
    dsimp only
    rw [if_neg hd, map_zero, zero_mul]
  · intro h; exact absurd (Finset.mem_univ _) h
  rw [Fintype.sum_prod_type, Finset.sum_div]
  refine Finset.sum_congr rfl fun m _ => ?_
  simp only [← hc, if_true, map_mul]
  have hA : _ = ((r.powers c / 20 : ℝ) : ℂ) * Spec.cycles (advance c m) := ray_advance g l r c m u u' s s' t t' (hP c)
  have hsq := los_share hk l.los
  have hf := rayWeight_cross (r.xpr c m) (hx c m) (fieldVector g.rx l.rxOri (r.zoa c m) (r.aoa c m) u)
          (Spec.faraday g.fc l.bsHeight (fieldVector g.tx l.txOri (r.zod c m) (r.aod c m) s))
          (fieldVector g.rx l.rxOri (r.zoa c m) (r.aoa c m) u')
          (Spec.faraday g.fc l.bsHeight (fieldVector g.tx l.txOri (r.zod c m) (r.aod c m) s'))
          _ _ |>.trans (congrArg _ hA)
  have hcc : ∀ (f f' : Fin 4 → ℂ) (a : ℂ), ∑ i, (starRingEnd ℂ) (f i) * (starRingEnd ℂ) a * (f' i * a) =
      (∑ i, (starRingEnd ℂ) (f i) * f' i) * ((starRingEnd ℂ) a * a) := fun f f' a => by
    rw [Finset.sum_mul]; exact Finset.sum_congr rfl fun i _ => by ring
  rw [hcc, hf, hsq]
  push_cast
  ring

/-- Three clusters that are not in the order of their delays. -/
example : ∃ r : LinkRays (2 + 1), (∀ c, 0 ≤ r.powers c) ∧ (∀ c m, 0 < r.xpr c m) ∧ ¬ Monotone r.delays :=
  ⟨{ exLinkRays with delays := ![1e-7, 0, 2e-7] }, fun c => by fin_cases c <;> norm_num [exLinkRays], fun _ _ => by norm_num [exLinkRays],
    fun h => by have := h (show (0 : Fin 3) ≤ 1 by decide); norm_num at this⟩

end OpenNTN
