import Verif.Props.Power
import Verif.Props.Arrays

/-
C188: the power received by both polarisations together from both polarisations together.
-/
namespace OpenNTN

open Spec MeasureTheory

/-- The gain of an array's elements in direction `theta`, `phi`, for orientation `o`. -/
noncomputable def Spec.elementGain (arr : PanelArray) (o : Fin 3 → ℝ) (theta phi : ℝ) : ℝ :=
  arr.pol1.pattern.power (gcsToLcs o theta phi).1 (gcsToLcs o theta phi).2

/-- Two fields at right angles with gain `G`. -/
def CrossPolar (f g : Fin 2 → ℝ) (G : ℝ) : Prop := f 0 ^ 2 + g 0 ^ 2 = G ∧ f 1 ^ 2 + g 1 ^ 2 = G ∧ f 0 * f 1 + g 0 * g 1 = 0

theorem crossPolar_rot {f g : Fin 2 → ℝ} {G x : ℝ} (h : CrossPolar f g G) :
    CrossPolar ![Real.cos x * f 0 - Real.sin x * f 1, Real.sin x * f 0 + Real.cos x * f 1]
      ![Real.cos x * g 0 - Real.sin x * g 1, Real.sin x * g 0 + Real.cos x * g 1] G := by
  obtain ⟨h1, h2, h3⟩ := h
  have hs := Real.sin_sq_add_cos_sq x
  refine ⟨?_, ?_, ?_⟩ <;> simp only [Matrix.cons_val]
  · linear_combination Real.cos x ^ 2 * h1 + Real.sin x ^ 2 * h2 - 2 * Real.cos x * Real.sin x * h3 + G * hs
  · linear_combination Real.sin x ^ 2 * h1 + Real.cos x ^ 2 * h2 + 2 * Real.cos x * Real.sin x * h3 + G * hs
  · linear_combination Real.cos x * Real.sin x * (h1 - h2) + (Real.cos x ^ 2 - Real.sin x ^ 2) * h3

theorem crossPolar_faraday {f g : Fin 2 → ℝ} {G : ℝ} (h : CrossPolar f g G) (fc height : ℝ) :
    CrossPolar (Spec.faraday fc height f) (Spec.faraday fc height g) G := by
  unfold Spec.faraday
  split
  · exact h
  · exact crossPolar_rot h

theorem field_crossPolar {a : ArrayArgs} {arr : PanelArray} (h : mkArray a = .ok arr) (hd : a.polarization = "dual") {u u' : ℕ}
    (hu : u ∈ arr.indPol1) (hu' : u' ∈ arr.indPol2) (o : Fin 3 → ℝ) (theta phi : ℝ) :
    CrossPolar (fieldVector arr o theta phi u) (fieldVector arr o theta phi u') (elementGain arr o theta phi) := by
  obtain ⟨e2, h1, h2, h3, h4, -⟩ := (C62_slants_partial h).1 hd
  obtain ⟨hperm, -⟩ := C60_partition h
  have hnd : (arr.indPol1 ++ arr.indPol2).Nodup := hperm.nodup_iff.2 List.nodup_range
  have hne : arr.polarization ≠ "single" := by
    rw [((C111_constructor _).2 arr h).1, hd]; decide
  have hnot : u ∉ arr.indPol2 := fun hh => (List.nodup_append.1 hnd).2.2 u hu u hh rfl
  have c1 : arr.indPol2.count u = 0 := List.count_eq_zero.2 hnot
  have c2 : arr.indPol2.count u' ≠ 0 := fun hh => List.count_eq_zero.1 hh hu'
  have hp : 0 ≤ elementGain arr o theta phi := by
    have := (C61_patterns (gcsToLcs o theta phi).1 (gcsToLcs o theta phi).2 0).2.2.2.2.2.2.2.2 arr.pol1.pattern
    unfold elementGain
    rw [← this]; positivity
  have hsq := Real.sq_sqrt hp
  have hcs : Real.sin (Real.pi / 4) ^ 2 = 1 / 2 := by
    rw [Real.sin_pi_div_four, div_pow, Real.sq_sqrt (by norm_num)]; norm_num
  have hcc : Real.cos (Real.pi / 4) ^ 2 = 1 / 2 := by
    rw [Real.cos_pi_div_four, div_pow, Real.sq_sqrt (by norm_num)]; norm_num
  have key : CrossPolar (arr.pol1.field (gcsToLcs o theta phi).1 (gcsToLcs o theta phi).2) (e2.field (gcsToLcs o theta phi).1 (gcsToLcs o theta phi).2)
      (elementGain arr o theta phi) := by
    have e : e2.pattern.power (gcsToLcs o theta phi).1 (gcsToLcs o theta phi).2 = elementGain arr o theta phi := by rw [h2]; rfl
    have e' : arr.pol1.pattern.power (gcsToLcs o theta phi).1 (gcsToLcs o theta phi).2 = elementGain arr o theta phi := rfl
    simp only [CrossPolar, Element.field, h3, h4, e, e', Matrix.cons_val, Real.cos_neg, Real.sin_neg]
    refine ⟨?_, ?_, ?_⟩
    · rw [mul_pow, hcc, hsq]; ring
    · rw [mul_pow, mul_pow, neg_sq, hcs, hsq]; ring
    · ring
  have hf := crossPolar_rot (x := computePsi o theta phi) key
  simp only [fieldVector, if_neg hne, if_pos c1, if_neg c2, h1, Option.getD_some, l2gResponse]
  convert hf using 1 <;> funext k <;> fin_cases k <;> simp [Matrix.mulVec, dotProduct, Fin.sum_univ_two] <;> ring

theorem rayGain_crossPolar {f f' g g' : Fin 2 → ℝ} {G H : ℝ} (hf : CrossPolar f f' G) (hg : CrossPolar g g' H) (x : ℝ) :
    rayGain x f g + rayGain x f g' + rayGain x f' g + rayGain x f' g' = 2 * (G * H) * (1 + 1 / x) := by
  obtain ⟨h1, h2, -⟩ := hf
  obtain ⟨h3, h4, -⟩ := hg
  have e : rayGain x f g + rayGain x f g' + rayGain x f' g + rayGain x f' g' =
      (f 0 ^ 2 + f' 0 ^ 2) * (g 0 ^ 2 + g' 0 ^ 2) + (f 1 ^ 2 + f' 1 ^ 2) * (g 1 ^ 2 + g' 1 ^ 2) +
        ((f 0 ^ 2 + f' 0 ^ 2) * (g 1 ^ 2 + g' 1 ^ 2) + (f 1 ^ 2 + f' 1 ^ 2) * (g 0 ^ 2 + g' 0 ^ 2)) / x := by
    simp only [rayGain]; ring
  rw [e, h1, h2, h3, h4]; ring

theorem los_crossPolar {f f' g g' : Fin 2 → ℝ} {G H : ℝ} (hf : CrossPolar f f' G) (hg : CrossPolar g g' H) :
    (f 0 * g 0 - f 1 * g 1) ^ 2 + (f 0 * g' 0 - f 1 * g' 1) ^ 2 + (f' 0 * g 0 - f' 1 * g 1) ^ 2 + (f' 0 * g' 0 - f' 1 * g' 1) ^ 2 = 2 * (G * H) := by
  obtain ⟨h1, h2, h5⟩ := hf
  obtain ⟨h3, h4, h6⟩ := hg
  have e : (f 0 * g 0 - f 1 * g 1) ^ 2 + (f 0 * g' 0 - f 1 * g' 1) ^ 2 + (f' 0 * g 0 - f' 1 * g 1) ^ 2 + (f' 0 * g' 0 - f' 1 * g' 1) ^ 2 =
      (f 0 ^ 2 + f' 0 ^ 2) * (g 0 ^ 2 + g' 0 ^ 2) + (f 1 ^ 2 + f' 1 ^ 2) * (g 1 ^ 2 + g' 1 ^ 2) -
        2 * ((f 0 * f 1 + f' 0 * f' 1) * (g 0 * g 1 + g' 0 * g' 1)) := by ring
  rw [e, h1, h2, h3, h4, h5, h6]; ring

/-- C188. Between arrays with two polarisations, the power of a path, averaged over the initial phases and summed over both polarisations at both ends, is twice the
gain of the elements in the directions of the path at both ends times the power of the path and one plus the inverse of the cross polarisation ratio; the
specular path contributes twice the gains times its power. So neither the Faraday rotation nor the turn of the arrays around the direction of a path nor
time makes a difference. Rays are assigned to paths as in C47. -/
theorem C188_polarisations {n : ℕ} {ar as : ArrayArgs} (g : CoeffGen) (hr : mkArray ar = .ok g.rx) (hs : mkArray as = .ok g.tx) (hdr : ar.polarization = "dual")
    (hds : as.polarization = "dual") (l : LinkTopo) (k : ℝ) (r : LinkRays (n + 2)) (cDs : ℝ) (hP : ∀ c, 0 ≤ r.powers c) (hx : ∀ c m, 0 < r.xpr c m)
    (hk : 0 ≤ k) :
    let avg q u s t := ∫ x : Fin (n + 2) × Fin raysPerCluster × Fin 4 → ℝ, ‖(coeffCall g l k r cDs fun c m i => x (c, m, i)).1 q u s t‖ ^ 2
      ∂(Measure.pi fun _ => uniformPhase)
    let gains c m := elementGain g.rx l.rxOri (r.zoa c m) (r.aoa c m) * elementGain g.tx l.txOri (r.zod c m) (r.aod c m)
    let losGains := elementGain g.rx l.rxOri l.losZoa l.losAoa * elementGain g.tx l.txOri l.losZod l.losAod
    ∃ (strong : Finset (Fin (n + 2))) (path : Fin (n + 2) → Fin raysPerCluster → Fin (n + 6)),
      strong.card = 2 ∧ (∀ c ∈ strong, ∀ d ∉ strong, r.powers d ≤ r.powers c) ∧
      (∀ c m d m', path c m = path d m' ↔ c = d ∧ (c ∈ strong → subCluster m = subCluster m')) ∧
      ∀ u ∈ g.rx.indPol1, ∀ u' ∈ g.rx.indPol2, ∀ s ∈ g.tx.indPol1, ∀ s' ∈ g.tx.indPol2, ∀ t,
        (∀ q, let scattered := ∑ c, ∑ m, if path c m = q then r.powers c / 20 * (2 * gains c m * (1 + 1 / r.xpr c m)) else 0
          avg q u s t + avg q u s' t + avg q u' s t + avg q u' s' t =
            if l.los then (k * (if q = 0 then 2 * losGains else 0) + scattered) / (k + 1) else scattered) ∧
        (let scattered := ∑ c, ∑ m, r.powers c / 20 * (2 * gains c m * (1 + 1 / r.xpr c m))
          ∑ q, (avg q u s t + avg q u s' t + avg q u' s t + avg q u' s' t) =
            if l.los then (k * (2 * losGains) + scattered) / (k + 1) else scattered) := by
  intro avg gains losGains
  obtain ⟨strong, path, h1, h2, h3, -, H⟩ := C100_average g l k r cDs hP hx hk
  refine ⟨strong, path, h1, h2, h3, ?_⟩
  intro u hu u' hu' s hs1 s' hs2 t
  have fr : ∀ theta phi, CrossPolar (fieldVector g.rx l.rxOri theta phi u) (fieldVector g.rx l.rxOri theta phi u') (elementGain g.rx l.rxOri theta phi) :=
    fun theta phi => field_crossPolar hr hdr hu hu' _ _ _
  have ft : ∀ theta phi, CrossPolar (Spec.faraday g.fc l.bsHeight (fieldVector g.tx l.txOri theta phi s))
      (Spec.faraday g.fc l.bsHeight (fieldVector g.tx l.txOri theta phi s')) (elementGain g.tx l.txOri theta phi) :=
    fun theta phi => crossPolar_faraday (field_crossPolar hs hds hs1 hs2 _ _ _) _ _
  have hq : ∀ q, let scattered := ∑ c, ∑ m, if path c m = q then r.powers c / 20 * (2 * gains c m * (1 + 1 / r.xpr c m)) else 0
          avg q u s t + avg q u s' t + avg q u' s t + avg q u' s' t =
            if l.los then (k * (if q = 0 then 2 * losGains else 0) + scattered) / (k + 1) else scattered := by
    intro q scattered
    have e1 := H q u s t
    have e2 := H q u s' t
    have e3 := H q u' s t
    have e4 := H q u' s' t
    simp only at e1 e2 e3 e4
    simp only [avg]
    rw [e1, e2, e3, e4]
    have hsc : scattered =
        (∑ c, ∑ m, if path c m = q then r.powers c / 20 * rayGain (r.xpr c m) (fieldVector g.rx l.rxOri (r.zoa c m) (r.aoa c m) u)
          (Spec.faraday g.fc l.bsHeight (fieldVector g.tx l.txOri (r.zod c m) (r.aod c m) s)) else 0) +
        (∑ c, ∑ m, if path c m = q then r.powers c / 20 * rayGain (r.xpr c m) (fieldVector g.rx l.rxOri (r.zoa c m) (r.aoa c m) u)
          (Spec.faraday g.fc l.bsHeight (fieldVector g.tx l.txOri (r.zod c m) (r.aod c m) s')) else 0) +
        (∑ c, ∑ m, if path c m = q then r.powers c / 20 * rayGain (r.xpr c m) (fieldVector g.rx l.rxOri (r.zoa c m) (r.aoa c m) u')
          (Spec.faraday g.fc l.bsHeight (fieldVector g.tx l.txOri (r.zod c m) (r.aod c m) s)) else 0) +
        (∑ c, ∑ m, if path c m = q then r.powers c / 20 * rayGain (r.xpr c m) (fieldVector g.rx l.rxOri (r.zoa c m) (r.aoa c m) u')
          (Spec.faraday g.fc l.bsHeight (fieldVector g.tx l.txOri (r.zod c m) (r.aod c m) s')) else 0) := by
      simp only [scattered, ← Finset.sum_add_distrib]
      refine Finset.sum_congr rfl fun c _ => Finset.sum_congr rfl fun m _ => ?_
      split_ifs
      · rw [← rayGain_crossPolar (fr _ _) (ft _ _)]; ring
      · ring
    have hlos := los_crossPolar (fr l.losZoa l.losAoa) (ft l.losZod l.losAod)
    have hlos' : 2 * losGains = 2 * (elementGain g.rx l.rxOri l.losZoa l.losAoa * elementGain g.tx l.txOri l.losZod l.losAod) := rfl
    split_ifs
    · rw [hsc, hlos', ← hlos]; ring
    · rw [hsc]; ring
    · rw [hsc]
  refine ⟨hq, ?_⟩
  intro scattered
  rw [Finset.sum_congr rfl fun q _ => hq q]
  have hsum : ∑ q, ∑ c, ∑ m, (if path c m = q then r.powers c / 20 * (2 * gains c m * (1 + 1 / r.xpr c m)) else 0) = scattered := by
    rw [Finset.sum_comm]
    refine Finset.sum_congr rfl fun c _ => ?_
    rw [Finset.sum_comm]
    refine Finset.sum_congr rfl fun m _ => ?_
    simp
  by_cases hl : l.los = true
  · simp only [hl, if_true]
    rw [← Finset.sum_div, Finset.sum_add_distrib, hsum, ← Finset.mul_sum]
    simp
  · simp only [hl]
    exact hsum

/-- C188 for isotropic elements: twice the path power and what leaks into the other polarisation, wherever the arrays and the rays point. -/
theorem C188_isotropic {n : ℕ} {ar as : ArrayArgs} (g : CoeffGen) (hr : mkArray ar = .ok g.rx) (hs : mkArray as = .ok g.tx) (hdr : ar.polarization = "dual")
    (hds : as.polarization = "dual") (hpr : ar.pattern = "omni") (hps : as.pattern = "omni") (l : LinkTopo) (k : ℝ) (r : LinkRays (n + 2)) (cDs : ℝ)
    (hP : ∀ c, 0 ≤ r.powers c) (h1 : ∑ c, r.powers c = 1) (hx : ∀ c m, 0 < r.xpr c m) (hk : 0 ≤ k) :
    let leak := ∑ c, r.powers c * ((∑ m, 1 / r.xpr c m) / 20)
    ∀ u ∈ g.rx.indPol1, ∀ u' ∈ g.rx.indPol2, ∀ s ∈ g.tx.indPol1, ∀ s' ∈ g.tx.indPol2, ∀ t,
      ∑ q, ∑ v ∈ {u, u'}, ∑ w ∈ {s, s'}, (∫ x : Fin (n + 2) × Fin raysPerCluster × Fin 4 → ℝ,
          ‖(coeffCall g l k r cDs fun c m i => x (c, m, i)).1 q v w t‖ ^ 2 ∂(Measure.pi fun _ => uniformPhase)) =
        2 * (1 + leak / (if l.los then k + 1 else 1)) := by
  intro leak u hu u' hu' s hs1 s' hs2 t
  obtain ⟨_, _, -, -, -, H⟩ := C188_polarisations g hr hs hdr hds l k r cDs hP hx hk
  have H := (H u hu u' hu' s hs1 s' hs2 t).2
  have omni : ∀ {a : ArrayArgs} {arr : PanelArray}, mkArray a = .ok arr → a.pattern = "omni" → ∀ o th ph, elementGain arr o th ph = 1 := by
    intro a arr h hp o th ph
    have h3 := (C62_slants_partial h).2.2
    have hpat : arr.pol1.pattern = .omni := by simpa [patternOf, hp] using h3.symm
    unfold elementGain
    rw [hpat]
    exact (C61_patterns _ _ 0).2.2.2.2.1
  have dist : ∀ {a : ArrayArgs} {arr : PanelArray}, mkArray a = .ok arr → ∀ {v v' : ℕ}, v ∈ arr.indPol1 → v' ∈ arr.indPol2 → v ≠ v' := by
    intro a arr h v v' hv hv'
    have hnd : (arr.indPol1 ++ arr.indPol2).Nodup := (C60_partition h).1.nodup_iff.2 List.nodup_range
    exact (List.nodup_append.1 hnd).2.2 v hv v' hv'
  have hrays : ((raysPerCluster : ℕ) : ℝ) = 20 := by norm_num [raysPerCluster]
  simp only [omni hr hpr, omni hs hps, mul_one] at H
  have hsc : ∑ c, ∑ m, r.powers c / 20 * (2 * (1 + 1 / r.xpr c m)) = 2 * (1 + leak) := by
    have e : 2 * (1 + leak) = 2 * (∑ c, r.powers c + leak) := by rw [h1]
    rw [e, ← Finset.sum_add_distrib, Finset.mul_sum]
    refine Finset.sum_congr rfl fun c _ => ?_
    rw [← Finset.mul_sum, ← Finset.mul_sum, Finset.sum_add_distrib]
    simp only [Finset.sum_const, Finset.card_univ, Fintype.card_fin, nsmul_eq_mul, hrays]
    ring
  rw [hsc] at H
  refine Eq.trans (Finset.sum_congr rfl fun q _ => ?_) (H.trans ?_)
  · rw [Finset.sum_pair (dist hr hu hu'), Finset.sum_pair (dist hs hs1 hs2), Finset.sum_pair (dist hs hs1 hs2)]
    ring
  · split_ifs
    · have : k + 1 ≠ 0 := by positivity
      field_simp
      ring
    · ring

/-- Hypotheses of C188 can be met: two isotropic elements at each end. -/
example : ∃ (ar : ArrayArgs) (arr : PanelArray), mkArray ar = .ok arr ∧ ar.polarization = "dual" ∧ ar.pattern = "omni" ∧
    (∃ u ∈ arr.indPol1, ∃ u' ∈ arr.indPol2, u ≠ u') ∧ (∀ c, 0 ≤ exLinkRays.powers c) ∧ ∑ c, exLinkRays.powers c = 1 ∧
    (∀ c m, 0 < exLinkRays.xpr c m) := by
  obtain ⟨arr, h, hn, -⟩ := (C112_derived_classes 1 1 "dual" "cross" "omni" 2e9 none none (by simp [Spec.DocumentedArray])).1
  let ar : ArrayArgs := { numRowsPerPanel := 1, numColsPerPanel := 1, polarization := "dual", polarizationType := "cross", pattern := "omni", carrierFrequency := 2e9 }
  have h : mkArray ar = .ok arr := h
  refine ⟨ar, arr, h, rfl, rfl, ?_, fun c => by fin_cases c <;> norm_num [exLinkRays], by simp only [exLinkRays]; rw [Fin.sum_univ_three]; change (0.5 + 0.3 + 0.2 : ℝ) = 1; norm_num, fun _ _ => by norm_num [exLinkRays]⟩
  obtain ⟨hp, -, h1, h2, -⟩ := C60_partition h
  have l1 : arr.indPol1.length = 1 := by rw [h1]; simp [ar]
  have l2 : arr.indPol2.length = 1 := by rw [h2 rfl, l1]
  have hnd : (arr.indPol1 ++ arr.indPol2).Nodup := hp.nodup_iff.2 List.nodup_range
  refine ⟨arr.indPol1[0], List.getElem_mem _, arr.indPol2[0], List.getElem_mem _, ?_⟩
  exact (List.nodup_append.1 hnd).2.2 _ (List.getElem_mem _) _ (List.getElem_mem _)

end OpenNTN
