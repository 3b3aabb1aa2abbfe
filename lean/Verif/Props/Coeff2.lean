import Verif.Props.Coeff
import Mathlib.Analysis.Complex.Trigonometric
import Mathlib.Analysis.Real.Pi.Bounds
import Mathlib.Data.Fin.Tuple.Sort
import Mathlib.Tactic.FieldSimp

namespace OpenNTN

open Classical Matrix

/-! ### C45: phase terms -/

theorem norm_phase (x : ℝ) : ‖Complex.exp (Complex.I * (x : ℂ))‖ = 1 := by
  rw [mul_comm]; exact Complex.norm_exp_ofReal_mul_I x

/-- C45. Doppler and array terms have modulus one, the Faraday rotation is unitary, the Doppler terms are one at time zero, and the power of a
LoS coefficient depends on the field patterns and the Faraday rotation only. -/
theorem C45_phases (g : CoeffGen) (l : LinkTopo) (aoa aod zoa zod t : ℝ) (u s : ℕ) :
    ‖dopplerTerm g l aoa zoa aod zod t‖ = 1 ∧ dopplerTerm g l aoa zoa aod zod 0 = 1 ∧
    ‖arrayOffset g l aoa aod zoa zod u s‖ = 1 ∧
    faradayRotation g.fc ∈ Matrix.unitaryGroup (Fin 2) ℂ ∧
    (∀ P ∈ Matrix.unitaryGroup (Fin 2) ℂ, withFaraday g l P ∈ Matrix.unitaryGroup (Fin 2) ℂ) ∧
    losPhaseMatrix ∈ Matrix.unitaryGroup (Fin 2) ℂ ∧
    ‖losCoeff g l u s t‖ = ‖fieldMatrix g l l.losAoa l.losAod l.losZoa l.losZod (withFaraday g l losPhaseMatrix) u s‖ := by
  have hf : faradayRotation g.fc ∈ Matrix.unitaryGroup (Fin 2) ℂ := by
    rw [Matrix.mem_unitaryGroup_iff]
    simp only [faradayRotation]
    generalize 108 / (g.fc / 1e9 * (g.fc / 1e9)) * (Real.pi / 180) = x
    have h := Complex.sin_sq_add_cos_sq (x : ℂ)
    ext i j
    fin_cases i <;> fin_cases j <;>
      simp [Matrix.mul_apply, Fin.sum_univ_two, Matrix.star_apply, ← Complex.cos_conj, ← Complex.sin_conj] <;> grind
  refine ⟨norm_phase _, ?_, ?_, hf, ?_, ?_, ?_⟩
  · simp [dopplerTerm, dopplerExponent]
  · rw [arrayOffset, norm_mul, norm_phase, norm_phase, one_mul]
  · intro P hP
    unfold withFaraday
    split
    · exact mul_mem hP hf
    · exact hP
  · rw [Matrix.mem_unitaryGroup_iff]
    ext i j
    fin_cases i <;> fin_cases j <;> simp [losPhaseMatrix, Matrix.mul_apply, Fin.sum_univ_two, Matrix.star_apply]
  · simp only [losCoeff, norm_mul, norm_phase, dopplerTerm, arrayOffset, mul_one]

/-- A unitary matrix the theorem applies to. -/
example : losPhaseMatrix ∈ Matrix.unitaryGroup (Fin 2) ℂ := by
  rw [Matrix.mem_unitaryGroup_iff]
  ext i j
  fin_cases i <;> fin_cases j <;> simp [losPhaseMatrix, Matrix.mul_apply, Fin.sum_univ_two, Matrix.star_apply]

/-! ### C46, C47: from rays to paths -/

theorem sub_ray_sum {H : Type} [AddCommMonoid H] (f : Fin raysPerCluster → H) :
    (subCl1Ind.map f).sum = ∑ m : Fin raysPerCluster, (if Spec.subCluster m = 0 then f m else 0) ∧
    (subCl2Ind.map f).sum = ∑ m : Fin raysPerCluster, (if Spec.subCluster m = 1 then f m else 0) ∧
    (subCl3Ind.map f).sum = ∑ m : Fin raysPerCluster, (if Spec.subCluster m = 2 then f m else 0) := by
  have key : ∀ (L : List (Fin raysPerCluster)) (j : Fin 3), L.Nodup →
      L.toFinset = Finset.univ.filter (fun m : Fin raysPerCluster => Spec.subCluster m = j) →
      (L.map f).sum = ∑ m : Fin raysPerCluster, (if Spec.subCluster m = j then f m else 0) := by
    intro L j hn hL
    rw [← List.sum_toFinset f hn, hL, Finset.sum_filter]
  exact ⟨key _ 0 (by decide) (by decide), key _ 1 (by decide) (by decide), key _ 2 (by decide) (by decide)⟩

/-- The path a ray belongs to, before the paths are sorted by delay: `pos` is the rank of the cluster by power. -/
def rawPath {n : ℕ} (pos : Fin (n + 2)) (m : Fin raysPerCluster) : Fin (n + 6) :=
  if h : pos.1 < 2 then ⟨pos.1 + 2 * (Spec.subCluster m).1, by omega⟩ else ⟨pos.1 + 4, by omega⟩

theorem rawPath_inj {n : ℕ} (p q : Fin (n + 2)) (m m' : Fin raysPerCluster) :
    rawPath p m = rawPath q m' ↔ p = q ∧ (p.1 < 2 → Spec.subCluster m = Spec.subCluster m') := by
  unfold rawPath
  have h1 := (Spec.subCluster m).2
  have h2 := (Spec.subCluster m').2
  by_cases hp : p.1 < 2 <;> by_cases hq : q.1 < 2 <;> simp only [hp, hq, dite_true, dite_false, Fin.ext_iff, true_implies, false_implies, and_true] <;> omega

/-- C47. Each ray of each cluster belongs to one path. Path coefficients are the sums of their rays; the delay of a path is that of the
cluster of its rays, plus the sub-cluster offset for the two strongest clusters, which are split into sub-clusters; every path has a ray; and
the delays are ascending. -/
theorem C47_paths {n : ℕ} {H : Type} [AddCommMonoid H] (powers delays : Fin (n + 2) → ℝ)
    (hFull : Fin (n + 2) → Fin raysPerCluster → H) (cDs : ℝ) :
    let out := reduceNlos powers delays hFull cDs
    Monotone out.2 ∧
    ∃ (strong : Finset (Fin (n + 2))) (path : Fin (n + 2) → Fin raysPerCluster → Fin (n + 6)),
      strong.card = 2 ∧ (∀ c ∈ strong, ∀ d ∉ strong, powers d ≤ powers c) ∧
      (∀ q, out.1 q = ∑ c, ∑ m, if path c m = q then hFull c m else 0) ∧
      (∀ c m, out.2 (path c m) = delays c + if c ∈ strong then Spec.subClusterDelay (Spec.subCluster m) * cDs else 0) ∧
      (∀ c m d m', path c m = path d m' ↔ c = d ∧ (c ∈ strong → Spec.subCluster m = Spec.subCluster m')) ∧
      ∀ q, ∃ c m, path c m = q := by
  intro out
  set σ := Tuple.sort fun k => -powers k with hσ
  let hNlos : Fin (n + 6) → H := fun k =>
    if h : k.1 < 2 then (subCl1Ind.map fun m => hFull (σ ⟨k.1, by omega⟩) m).sum
    else if h : k.1 < 4 then (subCl2Ind.map fun m => hFull (σ ⟨k.1 - 2, by omega⟩) m).sum
    else if h : k.1 < 6 then (subCl3Ind.map fun m => hFull (σ ⟨k.1 - 4, by omega⟩) m).sum
    else ∑ m, hFull (σ ⟨k.1 - 6 + 2, by omega⟩) m
  let delaysNlos : Fin (n + 6) → ℝ := fun k =>
    if h : k.1 < 6 then delays (σ ⟨k.1 % 2, by omega⟩) + subClDelayOffsets ⟨k.1 / 2, by omega⟩ * cDs
    else delays (σ ⟨k.1 - 6 + 2, by omega⟩)
  set τ := Tuple.sort delaysNlos with hτ
  have hout : out = (fun k => hNlos (τ k), fun k => delaysNlos (τ k)) := rfl
  have hmono : Monotone (fun k => delaysNlos (τ k)) := Tuple.monotone_sort delaysNlos
  have hpow : ∀ i j : Fin (n + 2), i ≤ j → powers (σ j) ≤ powers (σ i) := by
    intro i j hij
    have := Tuple.monotone_sort (fun k => -powers k) hij
    simp only [Function.comp] at this
    exact neg_le_neg_iff.1 this
  rw [hout]
  refine ⟨hmono, (Finset.univ.filter fun c => (σ.symm c).1 < 2), fun c m => τ.symm (rawPath (σ.symm c) m), ?_, ?_, ?_, ?_, ?_, ?_⟩
  · have : (Finset.univ.filter fun c => (σ.symm c).1 < 2) = ({0, 1} : Finset (Fin (n + 2))).map σ.toEmbedding := by
      ext c
      simp only [Finset.mem_filter, Finset.mem_univ, true_and, Finset.mem_map, Finset.mem_insert, Finset.mem_singleton,
        Equiv.coe_toEmbedding]
      constructor
      · intro h
        refine ⟨σ.symm c, ?_, by simp⟩
        rcases (by omega : (σ.symm c).1 = 0 ∨ (σ.symm c).1 = 1) with h | h
        · exact .inl (Fin.ext h)
        · exact .inr (Fin.ext (by rw [h]; rfl))
      · rintro ⟨a, (rfl | rfl), rfl⟩
        · simp
        · rw [Equiv.symm_apply_apply]; exact Nat.lt_of_le_of_lt (le_of_eq (by rfl : ((1 : Fin (n + 2)).1) = 1)) (by omega)
    rw [this, Finset.card_map]
    rfl
  · intro c hc d hd
    simp only [Finset.mem_filter, Finset.mem_univ, true_and, not_lt] at hc hd
    have := hpow (σ.symm c) (σ.symm d) (by rw [Fin.le_def]; omega)
    simpa using this
  · intro q
    simp only [Equiv.symm_apply_eq]
    -- sum over the clusters by rank
    rw [← Equiv.sum_comp σ]
    simp only [Equiv.symm_apply_apply]
    generalize τ q = k
    simp only [hNlos]
    have hk := k.2
    have single : ∀ p : Fin (n + 2), (∀ p' m, rawPath p' m = k → p' = p) →
        ∑ p', ∑ m, (if rawPath p' m = k then hFull (σ p') m else 0) = ∑ m, if rawPath p m = k then hFull (σ p) m else 0 := by
      intro p hp
      refine Finset.sum_eq_single p (fun p' _ hne => Finset.sum_eq_zero fun m _ => ?_) (fun h => absurd (Finset.mem_univ _) h)
      rw [if_neg]
      exact fun h => hne (hp p' m h)
    have hrank : ∀ (p : Fin (n + 2)) (m : Fin raysPerCluster), rawPath p m = k →
        (p.1 < 2 ∧ p.1 + 2 * (Spec.subCluster m).1 = k.1) ∨ (2 ≤ p.1 ∧ p.1 + 4 = k.1) := by
      intro p m h
      unfold rawPath at h
      split at h
      · exact .inl ⟨by assumption, congrArg Fin.val h⟩
      · exact .inr ⟨by omega, congrArg Fin.val h⟩
    have hiff : ∀ (p : Fin (n + 2)) (j : Fin 3) (m : Fin raysPerCluster), p.1 < 2 → p.1 + 2 * j.1 = k.1 →
        (rawPath p m = k ↔ Spec.subCluster m = j) := by
      intro p j m h h'
      constructor
      · intro e
        rcases hrank p m e with ⟨-, e⟩ | ⟨e, -⟩
        · exact Fin.ext (by omega)
        · omega
      · rintro rfl
        unfold rawPath
        rw [dif_pos h]
        exact Fin.ext h'
    have hless : ∀ m : Fin raysPerCluster, (Spec.subCluster m).1 < 3 := fun m => (Spec.subCluster m).2
    split_ifs with h2 h4 h6
    · rw [single ⟨k.1, by omega⟩, (sub_ray_sum _).1]
      · exact Finset.sum_congr rfl fun m _ => if_congr (hiff ⟨k.1, by omega⟩ 0 m h2 (by simp)).symm rfl rfl
      · intro p m h
        have := hrank p m h
        have := hless m
        exact Fin.ext (by simp only; omega)
    · rw [single ⟨k.1 - 2, by omega⟩, (sub_ray_sum _).2.1]
      · exact Finset.sum_congr rfl fun m _ => if_congr (hiff ⟨k.1 - 2, by omega⟩ 1 m (by simp only; omega) (by simp; omega)).symm rfl rfl
      · intro p m h
        have := hrank p m h
        have := hless m
        exact Fin.ext (by simp only; omega)
    · rw [single ⟨k.1 - 4, by omega⟩, (sub_ray_sum _).2.2]
      · exact Finset.sum_congr rfl fun m _ => if_congr (hiff ⟨k.1 - 4, by omega⟩ 2 m (by simp only; omega) (by simp; omega)).symm rfl rfl
      · intro p m h
        have := hrank p m h
        have := hless m
        exact Fin.ext (by simp only; omega)
    · rw [single ⟨k.1 - 6 + 2, by omega⟩]
      · refine Finset.sum_congr rfl fun m _ => ?_
        rw [if_pos]
        unfold rawPath
        rw [dif_neg (by simp)]
        exact Fin.ext (by simp only; omega)
      · intro p m h
        have := hrank p m h
        have := hless m
        exact Fin.ext (by simp only; omega)
  · intro c m
    have hl := (Spec.subCluster m).2
    simp only [Equiv.apply_symm_apply, Finset.mem_filter, Finset.mem_univ, true_and]
    simp only [delaysNlos, rawPath]
    by_cases hc : (σ.symm c).1 < 2
    · simp only [hc, dite_true, if_true]
      rw [dif_pos (by omega)]
      have e1 : (⟨((σ.symm c).1 + 2 * (Spec.subCluster m).1) % 2, by omega⟩ : Fin (n + 2)) = σ.symm c := Fin.ext (by simp only; omega)
      have e2 : (⟨((σ.symm c).1 + 2 * (Spec.subCluster m).1) / 2, by omega⟩ : Fin 3) = Spec.subCluster m := Fin.ext (by simp only; omega)
      rw [e1, e2, Equiv.apply_symm_apply]
      congr 2
      generalize Spec.subCluster m = j
      fin_cases j <;> simp [subClDelayOffsets, Spec.subClusterDelay]
    · simp only [hc, dite_false, if_false, add_zero]
      rw [dif_neg (by omega)]
      congr 1
      rw [show (⟨(σ.symm c).1 + 4 - 6 + 2, by omega⟩ : Fin (n + 2)) = σ.symm c from Fin.ext (by simp only; omega),
        Equiv.apply_symm_apply]
  · intro c m d m'
    simp only [Finset.mem_filter, Finset.mem_univ, true_and]
    rw [τ.symm.injective.eq_iff, rawPath_inj, σ.symm.injective.eq_iff]
  · intro q
    have hk := (τ q).2
    by_cases h6 : (τ q).1 < 6
    · have hm : ∀ j : Fin 3, ∃ m : Fin raysPerCluster, Spec.subCluster m = j := by decide
      obtain ⟨m, hm⟩ := hm ⟨(τ q).1 / 2, by omega⟩
      refine ⟨σ ⟨(τ q).1 % 2, by omega⟩, m, ?_⟩
      rw [Equiv.symm_apply_eq, Equiv.symm_apply_apply, rawPath, dif_pos (by simp only; omega)]
      refine Fin.ext ?_
      simp only [hm]
      omega
    · refine ⟨σ ⟨(τ q).1 - 4, by omega⟩, 0, ?_⟩
      rw [Equiv.symm_apply_eq, Equiv.symm_apply_apply, rawPath, dif_neg (by simp only; omega)]
      refine Fin.ext ?_
      simp only
      omega

/-- C47: the first path has no delay if a cluster has none. -/
theorem C47_first_delay {n : ℕ} {H : Type} [AddCommMonoid H] (powers delays : Fin (n + 2) → ℝ)
    (hFull : Fin (n + 2) → Fin raysPerCluster → H) (cDs : ℝ) (h0 : ∀ c, 0 ≤ delays c) (hz : ∃ c, delays c = 0) (hc : 0 ≤ cDs) :
    (reduceNlos powers delays hFull cDs).2 0 = 0 ∧ ∀ q, 0 ≤ (reduceNlos powers delays hFull cDs).2 q := by
  obtain ⟨hm, strong, path, -, -, -, hd, -, hs⟩ := C47_paths powers delays hFull cDs
  have hnn : ∀ q, 0 ≤ (reduceNlos powers delays hFull cDs).2 q := by
    intro q
    obtain ⟨c, m, rfl⟩ := hs q
    rw [hd]
    refine add_nonneg (h0 c) ?_
    split_ifs
    · refine mul_nonneg ?_ hc
      unfold Spec.subClusterDelay
      split_ifs <;> norm_num
    · exact le_rfl
  refine ⟨le_antisymm ?_ (hnn 0), hnn⟩
  obtain ⟨c, hc0⟩ := hz
  have h1 := hm (Fin.zero_le (path c 0))
  rw [hd, hc0, show Spec.subCluster ((0 : Fin raysPerCluster) : ℕ) = 0 from rfl] at h1
  simpa [Spec.subClusterDelay] using h1

/-- Three clusters. -/
example : (∀ c, 0 ≤ (![0, 1e-7, 2e-7] : Fin (1 + 2) → ℝ) c) ∧ (∃ c, (![0, 1e-7, 2e-7] : Fin (1 + 2) → ℝ) c = 0) ∧
    (0 : ℝ) ≤ 3.9e-9 :=
  ⟨fun c => by fin_cases c <;> norm_num, ⟨0, rfl⟩, by norm_num⟩

/-- C46. The sub-clusters use every ray exactly once, and the sum of the path coefficients is the sum of the ray coefficients. -/
theorem C46_rays_once {n : ℕ} {H : Type} [AddCommMonoid H] (powers delays : Fin (n + 2) → ℝ)
    (hFull : Fin (n + 2) → Fin raysPerCluster → H) (cDs : ℝ) :
    (subCl1Ind ++ subCl2Ind ++ subCl3Ind).Perm (List.finRange raysPerCluster) ∧
    ∑ q, (reduceNlos powers delays hFull cDs).1 q = ∑ c, ∑ m, hFull c m := by
  refine ⟨by decide, ?_⟩
  obtain ⟨-, strong, path, -, -, hh, -⟩ := C47_paths powers delays hFull cDs
  simp only [hh]
  rw [Finset.sum_comm]
  refine Finset.sum_congr rfl fun c _ => ?_
  rw [Finset.sum_comm]
  refine Finset.sum_congr rfl fun m _ => ?_
  simp

/-! ### C48: K-factor -/

/-- C48. For a LoS link there are weights with squares summing to one and in the ratio of the K-factor, with which the LoS coefficient
enters the first path and the scattered coefficients all paths. For other links nothing is changed. -/
theorem C48_kfactor {p : ℕ} (k : ℝ) (hk : 0 < k) (hLos : Coeff) (hNlos : Fin (p + 1) → Coeff) :
    (∃ wL wN : ℝ, 0 < wL ∧ 0 < wN ∧ wL ^ 2 + wN ^ 2 = 1 ∧ wL ^ 2 = k * wN ^ 2 ∧ ∀ q u s t,
      combineLos true k hLos hNlos q u s t = (if q = 0 then wL * hLos u s t else 0) + wN * hNlos q u s t) ∧
    ∀ hLos', combineLos false k hLos' hNlos = hNlos := by
  refine ⟨⟨Real.sqrt (k / (k + 1)), Real.sqrt (1 / (k + 1)), Real.sqrt_pos.2 (by positivity), Real.sqrt_pos.2 (by positivity),
    ?_, ?_, ?_⟩, fun _ => rfl⟩
  · rw [Real.sq_sqrt (by positivity), Real.sq_sqrt (by positivity)]; field_simp
  · rw [Real.sq_sqrt (by positivity), Real.sq_sqrt (by positivity)]; field_simp
  · intro q u s t
    simp only [combineLos, if_true]
    split_ifs with hq
    · subst hq; ring
    · ring

example : (0 : ℝ) < 10 ∧ combineLos false 10 (fun _ _ _ => 1) (fun (_ : Fin 1) _ _ _ => 2) 0 0 0 0 = 2 := ⟨by norm_num, rfl⟩

/-! ### C75, C49: satellite motion -/

/-- C75. Kepler's law for circular orbits, with the constants of the code. -/
theorem C75_kepler :
    (∀ h : ℝ, 0 ≤ h → 0 < satelliteSpeed h ∧ satelliteSpeed h ^ 2 * (6371000 + h) = 6.6743e-11 * 5.972e24) ∧
    ∀ h h' : ℝ, 0 ≤ h → h < h' → satelliteSpeed h' < satelliteSpeed h := by
  refine ⟨fun h hh => ⟨Real.sqrt_pos.2 (by positivity), ?_⟩, fun h h' hh hlt => ?_⟩
  · rw [satelliteSpeed, Real.sq_sqrt (by positivity)]
    field_simp
    norm_num
  · refine Real.sqrt_lt_sqrt (by have : 0 ≤ h' := by linarith
                                 positivity) ?_
    refine div_lt_div_of_pos_left (by positivity) (by linarith) (by linarith)

example : (0 : ℝ) ≤ 600000 ∧ (600000 : ℝ) < 1200000 := by norm_num

/-- C49. The phase the satellite adds is at most `2 pi / lambda` times the circular orbit speed times the cosine of the elevation per unit of
time; it is not there if Doppler is disabled or the BS is lower than 600 km. -/
theorem C49_satellite_doppler (g : CoeffGen) (l : LinkTopo) (elevation dir aoa zoa aod zod t : ℝ) (hf : 0 < g.fc) (he : 0 ≤ elevation)
    (he' : elevation ≤ 90) (hs : l.satSpeed = topologySatSpeed l.bsHeight elevation dir) :
    let still := { l with doppler := false }
    |dopplerExponent g l aoa zoa aod zod t - dopplerExponent g still aoa zoa aod zod t| ≤
      2 * Real.pi / (299792458 / g.fc) * (Real.cos (elevation * Real.pi / 180) * satelliteSpeed l.bsHeight) * |t| ∧
    (l.doppler = false ∨ l.bsHeight < 600000 →
      dopplerExponent g l aoa zoa aod zod t = dopplerExponent g still aoa zoa aod zod t) ∧
    dopplerExponent g still aoa zoa aod zod t = 2 * Real.pi / (299792458 / g.fc) *
      ((if l.movingRx then Spec.sphereDirection zoa aoa else Spec.sphereDirection zod aod) ⬝ᵥ l.velocity) * t := by
  intro still
  have hstill : dopplerExponent g still aoa zoa aod zod t = 2 * Real.pi / (299792458 / g.fc) *
      ((if l.movingRx then Spec.sphereDirection zoa aoa else Spec.sphereDirection zod aod) ⬝ᵥ l.velocity) * t := by
    simp only [dopplerExponent, still, CoeffGen.lambda0, speedOfLight]
    rw [if_neg (by simp)]
    rfl
  have hcos : 0 ≤ Real.cos (elevation * Real.pi / 180) := by
    refine Real.cos_nonneg_of_neg_pi_div_two_le_of_le ?_ ?_ <;> nlinarith [Real.pi_pos]
  have hv : 0 ≤ satelliteSpeed l.bsHeight := Real.sqrt_nonneg _
  refine ⟨?_, ?_, hstill⟩
  · by_cases hc : 600000 ≤ l.bsHeight ∧ l.doppler = true
    · have e : dopplerExponent g l aoa zoa aod zod t - dopplerExponent g still aoa zoa aod zod t =
          2 * Real.pi / (299792458 / g.fc) * l.satSpeed * t := by
        rw [hstill]
        simp only [dopplerExponent, CoeffGen.lambda0, speedOfLight]
        rw [if_pos hc]
        change 2 * Real.pi / (299792458 / g.fc) *
          ((if l.movingRx then Spec.sphereDirection zoa aoa else Spec.sphereDirection zod aod) ⬝ᵥ l.velocity) * t + _ - _ = _
        ring
      rw [e, abs_mul, abs_mul, abs_of_nonneg (by positivity : 0 ≤ 2 * Real.pi / (299792458 / g.fc)), hs]
      simp only [topologySatSpeed]
      rw [abs_mul, abs_of_nonneg (show 0 ≤ Real.cos (elevation * (Real.pi / 180)) * satelliteSpeed l.bsHeight from
        mul_nonneg (by rw [← mul_div_assoc]; exact hcos) hv), ← mul_div_assoc]
      refine mul_le_mul_of_nonneg_right (mul_le_mul_of_nonneg_left ?_ (by positivity)) (abs_nonneg _)
      exact mul_le_of_le_one_left (mul_nonneg hcos hv) (Real.abs_cos_le_one _)
    · have e : dopplerExponent g l aoa zoa aod zod t = dopplerExponent g still aoa zoa aod zod t := by
        rw [hstill]
        simp only [dopplerExponent, CoeffGen.lambda0, speedOfLight]
        rw [if_neg hc]
        rfl
      rw [e, sub_self, abs_zero]
      have := mul_nonneg hcos hv
      positivity
  · intro h
    rw [hstill]
    simp only [dopplerExponent, CoeffGen.lambda0, speedOfLight]
    rw [if_neg (by rintro ⟨h1, h2⟩; rcases h with h | h; · rw [h] at h2; cases h2
                   · linarith)]
    rfl

/-- A link to a satellite at 600 km, at an elevation of 50 degrees, with Doppler enabled. -/
example (a : PanelArray) : ∃ (g : CoeffGen) (l : LinkTopo), 0 < g.fc ∧ l.satSpeed = topologySatSpeed l.bsHeight 50 1 ∧ l.bsHeight = 600000 ∧
    l.doppler = true :=
  ⟨⟨2000000000, a, a⟩, ⟨![1, 0, 0], true, 0, 0, 1, 1, true, 800000, ![0, 0, 0], ![0, 0, 0], 600000, topologySatSpeed 600000 50 1, true⟩,
    by norm_num, rfl, rfl, rfl⟩

/-! ### C50: reciprocity -/

/-- The same link in the other direction. -/
def LinkTopo.reverse (l : LinkTopo) : LinkTopo :=
  { l with
    movingRx := !l.movingRx
    losAoa := l.losAod
    losAod := l.losAoa
    losZoa := l.losZod
    losZod := l.losZoa
    txOri := l.rxOri
    rxOri := l.txOri }

/-- C50, for a link. The LoS coefficient from TX antenna `s` to RX antenna `u` is that of the reverse link from antenna `u` to `s`. -/
theorem C50_reciprocal (g : CoeffGen) (l : LinkTopo) (u s : ℕ) (t : ℝ) :
    losCoeff g l u s t = losCoeff ⟨g.fc, g.rx, g.tx⟩ l.reverse s u t := by
  have hl : (⟨g.fc, g.rx, g.tx⟩ : CoeffGen).lambda0 = g.lambda0 := rfl
  have hsym : ∀ P : Matrix (Fin 2) (Fin 2) ℂ, P 0 1 = P 1 0 → ∀ x y : Fin 2 → ℂ,
      ∑ k, x k * (P *ᵥ y) k = ∑ k, y k * (P *ᵥ x) k := by
    intro P hP x y
    simp only [Fin.sum_univ_two, Matrix.mulVec, dotProduct, hP]
    ring
  have hP : (withFaraday g l losPhaseMatrix) 0 1 = (withFaraday g l losPhaseMatrix) 1 0 := by
    unfold withFaraday
    split
    · simp [losPhaseMatrix, faradayRotation, Matrix.mul_apply, Fin.sum_univ_two]
    · simp [losPhaseMatrix]
  have hfield : fieldMatrix g l l.losAoa l.losAod l.losZoa l.losZod (withFaraday g l losPhaseMatrix) u s =
      fieldMatrix ⟨g.fc, g.rx, g.tx⟩ l.reverse l.losAod l.losAoa l.losZod l.losZoa
        (withFaraday ⟨g.fc, g.rx, g.tx⟩ l.reverse losPhaseMatrix) s u := hsym _ hP _ _
  have harr : arrayOffset g l l.losAoa l.losAod l.losZoa l.losZod u s =
      arrayOffset ⟨g.fc, g.rx, g.tx⟩ l.reverse l.losAod l.losAoa l.losZod l.losZoa s u := by
    simp only [arrayOffset]
    rw [mul_comm]
    rfl
  have hdop : dopplerTerm g l l.losAoa l.losZoa l.losAod l.losZod t =
      dopplerTerm ⟨g.fc, g.rx, g.tx⟩ l.reverse l.losAod l.losZod l.losAoa l.losZoa t := by
    simp only [dopplerTerm, dopplerExponent, LinkTopo.reverse, hl]
    by_cases hm : l.movingRx = true
    · simp [hm]
    · simp [hm]
  simp only [losCoeff]
  rw [hfield, harr, hdop]
  rfl

end OpenNTN
