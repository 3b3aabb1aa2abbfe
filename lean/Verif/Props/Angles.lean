import Verif.Props.Rays

/-
Cluster directions (step 7 of TR 38.901): C92, C93, C94, C95.
-/
namespace OpenNTN

open Spec

variable {cls : ScenarioClass} {sa : ScenarioArgs} {c : Config}

/-- Powers that the directions depend on: in LoS the specular power is added to the first cluster. -/
noncomputable def Spec.anglePower {M : ℕ} [NeZero M] (los : Bool) (k : ℝ) (p : Fin M → ℝ) (m : Fin M) : ℝ :=
  if los then (if m = 0 then k + p m else p m) / (k + 1) else p m

/-- Power relative to the strongest cluster, at least -60 dB. -/
def Spec.RelativePower {M : ℕ} (q rel : Fin M → ℝ) : Prop :=
  ∃ top, IsGreatest (Set.range q) top ∧ ∀ m, rel m = max 1e-6 (q m / top)

/-- Deviations of cluster directions: a shape `ψ` with random sign and a normal perturbation of a seventh of the spread. -/
noncomputable def Spec.deviation {M : ℕ} (spread : ℝ) (sign : Fin M → Bool) (z ψ : Fin M → ℝ) (m : Fin M) : ℝ :=
  (if sign m then spread * ψ m else -(spread * ψ m)) + spread * z m / 7

/-- Centred on the LoS direction: in LoS the first cluster is moved onto it, together with the others. -/
def Spec.Centred {M : ℕ} [NeZero M] (los : Bool) (losAngle : ℝ) (dev centre : Fin M → ℝ) : Prop :=
  ∀ m, centre m = losAngle + (if los then dev m - dev 0 else dev m)

/-- Gaussian profile over the azimuth: a cluster that deviates by `ψ` spreads has the power of a normal curve of width `1.4/2`, scaled by `C`. -/
def Spec.GaussianProfile {M : ℕ} (C : ℝ) (rel ψ : Fin M → ℝ) : Prop :=
  ∀ m, 0 ≤ C * ψ m ∧ Real.exp (-(0.7 * (C * ψ m)) ^ 2) = rel m

/-- Laplacian profile over the zenith. -/
def Spec.LaplaceProfile {M : ℕ} (C : ℝ) (rel ψ : Fin M → ℝ) : Prop :=
  ∀ m, 0 ≤ C * ψ m ∧ Real.exp (-(C * ψ m)) = rel m

/-- K-factor in dB. -/
noncomputable def Spec.db (k : ℝ) : ℝ := 10 * (Real.log k / Real.log 10)

section
variable {M : ℕ} [NeZero M]

theorem isGreatest_reduceMax (p : Fin M → ℝ) : IsGreatest (Set.range p) (reduceMax p) := by
  obtain ⟨k, hk⟩ := reduceMax_mem p
  refine ⟨⟨k, hk.symm⟩, ?_⟩
  rintro _ ⟨j, rfl⟩
  exact le_reduceMax p j

theorem relativePower_spec {p rel : Fin M → ℝ} (hp : ∀ i, 0 ≤ p i) (h : relativePower p = .ok rel) : RelativePower p rel := by
  unfold relativePower at h
  split_ifs at h with h0
  cases h
  refine ⟨reduceMax p, isGreatest_reduceMax p, fun m => ?_⟩
  have hpos : 0 < reduceMax p := lt_of_le_of_ne ((hp m).trans (le_reduceMax p m)) (Ne.symm h0)
  refine min_eq_right (max_le (by norm_num) ?_)
  rw [div_le_one hpos]
  exact le_reduceMax p m

theorem rel_range {p rel : Fin M → ℝ} (h : relativePower p = .ok rel) (m : Fin M) : 0 < rel m ∧ rel m ≤ 1 := by
  unfold relativePower at h
  split_ifs at h
  cases h
  exact ⟨lt_min (by norm_num) (lt_max_of_lt_left (by norm_num)), min_le_left _ _⟩

omit [NeZero M] in
theorem Spec.RelativePower.unique {q r1 r2 : Fin M → ℝ} (h1 : RelativePower q r1) (h2 : RelativePower q r2) : r1 = r2 := by
  obtain ⟨t1, ht1, k1⟩ := h1
  obtain ⟨t2, ht2, k2⟩ := h2
  obtain rfl := ht1.unique ht2
  exact funext fun m => by rw [k1, k2]

theorem departureSpread_eq (hgt s : ℝ) : departureSpread hgt s = if hgt < 160000 then s else 0 := by
  unfold departureSpread
  split_ifs <;> first | rfl | (exfalso; linarith)

/-- What azimuth generation returns. -/
theorem azimuthClusters_spec {los : Bool} {spread k a : ℝ} {p : Fin M → ℝ} {sg : Fin M → Bool} {z cl : Fin M → ℝ} (hp : ∀ i, 0 ≤ p i)
    (h : azimuthClusters c los spread k a p sg z = .ok cl) :
    ∃ n rel ψ, c.getReal .pCPhiNLoS los = .ok n ∧ RelativePower p rel ∧
      (n * if los then 1.1035 - 0.028 * db k - 0.002 * db k ^ 2 + 0.0001 * db k ^ 3 else 1) ≠ 0 ∧
      GaussianProfile (n * if los then 1.1035 - 0.028 * db k - 0.002 * db k ^ 2 + 0.0001 * db k ^ 3 else 1) rel ψ ∧
      Centred los a (deviation spread sg z ψ) cl := by
  unfold azimuthClusters at h
  simp only [bind, Except.bind] at h
  split at h
  · cases h
  rename_i C hC
  split at h
  · cases h
  rename_i rel hrel
  split at h
  · cases h
  rename_i h0
  have hCs : ∃ n, c.getReal .pCPhiNLoS los = .ok n ∧
      C = n * if los then 1.1035 - 0.028 * db k - 0.002 * db k ^ 2 + 0.0001 * db k ^ 3 else 1 := by
    unfold cPhi at hC
    simp only [bind, Except.bind] at hC
    split at hC
    · cases hC
    rename_i n hn
    cases los
    · exact ⟨n, hn, by simpa using (Except.ok.inj hC).symm⟩
    · simp only [if_true] at hC
      split at hC
      · cases hC
      rename_i kd hkd
      unfold kFactorDb at hkd
      split_ifs at hkd
      cases hkd
      exact ⟨n, hn, (Except.ok.inj hC).symm⟩
  obtain ⟨n, hn, eC⟩ := hCs
  have hcl := Except.ok.inj h
  refine ⟨n, rel, fun m => 2 / 1.4 * (Real.sqrt (-Real.log (rel m)) / C), hn, relativePower_spec hp hrel, eC ▸ h0, ?_, ?_⟩
  · rw [← eC]
    intro m
    obtain ⟨r1, r2⟩ := rel_range hrel m
    have hl : 0 ≤ -Real.log (rel m) := by have := Real.log_nonpos r1.le r2; linarith
    have e : C * (2 / 1.4 * (Real.sqrt (-Real.log (rel m)) / C)) = 2 / 1.4 * Real.sqrt (-Real.log (rel m)) := by field_simp
    rw [e]
    refine ⟨by positivity, ?_⟩
    rw [show (0.7 : ℝ) * (2 / 1.4 * Real.sqrt (-Real.log (rel m))) = Real.sqrt (-Real.log (rel m)) by ring, Real.sq_sqrt hl, neg_neg,
      Real.exp_log r1]
  · intro m
    rw [← hcl]
    unfold deviation signOf
    dsimp only
    split_ifs <;> first | (exact absurd ‹_› ‹_›) | (field_simp; ring)

/-- What zenith generation computes, before centring. -/
theorem zenithDeviation_spec {los : Bool} {spread k : ℝ} {p : Fin M → ℝ} {sg : Fin M → Bool} {z dev : Fin M → ℝ} (hp : ∀ i, 0 ≤ p i)
    (h : zenithDeviation c los false spread k p sg z = .ok dev) :
    ∃ n rel ψ, c.getReal .pCThetaNLoS los = .ok n ∧ RelativePower p rel ∧
      (n * if los then 1.3086 + 0.0339 * db k - 0.0077 * db k ^ 2 + 0.0002 * db k ^ 3 else 1) ≠ 0 ∧
      LaplaceProfile (n * if los then 1.3086 + 0.0339 * db k - 0.0077 * db k ^ 2 + 0.0002 * db k ^ 3 else 1) rel ψ ∧
      dev = deviation spread sg z ψ := by
  unfold zenithDeviation at h
  simp only [bind, Except.bind] at h
  split at h
  · cases h
  rename_i C hC
  split at h
  · cases h
  rename_i rel hrel
  split at h
  · cases h
  rename_i h0
  have hCs : ∃ n, c.getReal .pCThetaNLoS los = .ok n ∧
      C = n * if los then 1.3086 + 0.0339 * db k - 0.0077 * db k ^ 2 + 0.0002 * db k ^ 3 else 1 := by
    unfold cTheta at hC
    simp only [bind, Except.bind] at hC
    split at hC
    · cases hC
    rename_i n hn
    cases los
    · exact ⟨n, hn, by simpa using (Except.ok.inj hC).symm⟩
    · simp only [Bool.not_false, Bool.and_self, if_true] at hC
      split at hC
      · cases hC
      rename_i kd hkd
      unfold kFactorDb at hkd
      split_ifs at hkd
      cases hkd
      exact ⟨n, hn, (Except.ok.inj hC).symm⟩
  obtain ⟨n, hn, eC⟩ := hCs
  have hcl := Except.ok.inj h
  refine ⟨n, rel, fun m => -Real.log (rel m) / C, hn, relativePower_spec hp hrel, eC ▸ h0, ?_, ?_⟩
  · rw [← eC]
    intro m
    obtain ⟨r1, r2⟩ := rel_range hrel m
    have hl : 0 ≤ -Real.log (rel m) := by have := Real.log_nonpos r1.le r2; linarith
    rw [mul_div_cancel₀ _ h0]
    exact ⟨hl, by rw [neg_neg, Real.exp_log r1]⟩
  · rw [← hcl]
    funext m
    unfold deviation signOf
    cases sg m <;> simp <;> ring

end

section
variable {B N U M : ℕ} [NeZero B] [NeZero N] [NeZero M]

/-- The powers used for the directions of an outdoor link. -/
theorem angle_powers {los : Bool} {ds k : ℝ} {mask u z p q : Fin M → ℝ} (hm : ∀ i, mask i ≤ 1) (hk : 0 < k)
    (h : clusterPowers c los ds k mask u z = .ok (p, q)) : q = anglePower los k p ∧ ∀ i, 0 ≤ q i := by
  unfold clusterPowers at h
  simp only [bind, Except.bind] at h
  split at h
  · cases h
  rename_i r _
  split at h
  · cases h
  rename_i zeta _
  split_ifs at h with h1 h2 hl h3
  · obtain ⟨rfl, rfl⟩ := Prod.ext_iff.1 (Except.ok.inj h)
    have hraw : ∀ i, 0 ≤ rawPowers r zeta ds mask u z i := fun i => by
      have := hm i
      unfold rawPowers pow10
      refine mul_nonneg (by positivity) (by linarith)
    have hp : ∀ i, 0 ≤ rawPowers r zeta ds mask u z i / ∑ j, rawPowers r zeta ds mask u z j :=
      fun i => div_nonneg (hraw i) (Finset.sum_nonneg fun j _ => hraw j)
    constructor
    · funext i
      unfold anglePower
      simp only [hl, if_true]
      split_ifs <;> field_simp <;> ring
    · intro i
      have := hp i
      dsimp only
      split_ifs <;> positivity
  · obtain ⟨rfl, rfl⟩ := Prod.ext_iff.1 (Except.ok.inj h)
    have hraw : ∀ i, 0 ≤ rawPowers r zeta ds mask u z i := fun i => by
      have := hm i
      unfold rawPowers pow10
      refine mul_nonneg (by positivity) (by linarith)
    constructor
    · funext i
      unfold anglePower
      simp [hl]
    · exact fun i => div_nonneg (hraw i) (Finset.sum_nonneg fun j _ => hraw j)

/-- C92: azimuth of arrival and departure of the clusters of a link. The deviation from the LoS azimuth (from the first cluster in LoS) is
such that the relative power is a Gaussian function of it, the width being the angular spread of the link times a constant of the table,
which in LoS is corrected by the cubic polynomial of the K-factor in dB; signs are random, and a normal term of a seventh of the spread is
added. Rays are arranged around the clusters with the cluster spreads of the tables. For satellites the departure spread is zero. -/
theorem C92_azimuth {i : RayInputs B N U} {w : RayDraws B N U M} {b : Fin B} {n : Fin N} {u : Fin U} {L : LinkRays M}
    (h : raysCall c i w b n u = .ok L) (hm : ∀ j, i.mask b n u j ≤ 1) (hk : 0 < (i.lsp b n u).kFactor) :
    ∃ caa cad nphi rel ψA ψD centreA centreD, c.getReal .pcASA (i.los b n u) = .ok caa ∧ c.getReal .pcASD (i.los b n u) = .ok cad ∧
      c.getReal .pCPhiNLoS (i.los b n u) = .ok nphi ∧
      RelativePower (anglePower (i.los b n u) (i.lsp b n u).kFactor L.powers) rel ∧
      (let K := db (i.lsp b n u).kFactor
       let C := nphi * if i.los b n u then 1.1035 - 0.028 * K - 0.002 * K ^ 2 + 0.0001 * K ^ 3 else 1
       C ≠ 0 ∧ GaussianProfile C rel ψA ∧ GaussianProfile C rel ψD) ∧
      Centred (i.los b n u) (i.angles b n u).aoa (deviation (i.lsp b n u).asa (w.signAoa b n) (w.aoa b n u) ψA) centreA ∧
      Centred (i.los b n u) (i.angles b n u).aod
        (deviation (if i.bsHeight 0 0 < 160000 then (i.lsp b n u).asd else 0) (w.signAod b n) (w.aod b n u) ψD) centreD ∧
      ∀ m, AzimuthRays (L.aoa m) (centreA m) caa rayOffsets ∧ AzimuthRays (L.aod m) (centreD m) cad rayOffsets := by
  obtain ⟨un, q, caa, cad, cza, aoa, aod, devA, devD, -, hp, f1, f2, f3, g1, g2, -, -, -, hr⟩ := raysCall_ok h
  obtain ⟨rfl, hq⟩ := angle_powers (fun j => hm j) hk hp
  obtain ⟨n1, rel1, ψ1, e1, r1, z1, p1, c1⟩ := azimuthClusters_spec hq g1
  obtain ⟨n2, rel2, ψ2, e2, r2, -, p2, c2⟩ := azimuthClusters_spec hq g2
  obtain rfl : n1 = n2 := by rw [e1] at e2; exact Except.ok.inj e2
  obtain rfl : rel1 = rel2 := r1.unique r2
  rw [departureSpread_eq] at c2
  exact ⟨caa, cad, n1, rel1, ψ1, ψ2, aoa, aod, f1, f2, e1, r1, ⟨z1, p1, p2⟩, c1, c2, fun m => ⟨(hr m).1, (hr m).2.1⟩⟩

/-- The spread whose decadic logarithm is `μ`; minus infinity stands for no spread. -/
noncomputable def Spec.spreadOf : WithBot ℝ → ℝ
  | ⊥ => 0
  | (μ : ℝ) => 10 ^ μ

/-- C93: zenith of arrival and departure of the clusters of an outdoor link: as C92, with a Laplacian profile. Without LoS the
zenith of departure is shifted by the offset of the scenario. Around the departure direction, rays are spread by 3/8 of the median
spread of departure. -/
theorem C93_zenith {i : RayInputs B N U} {w : RayDraws B N U M} {b : Fin B} {n : Fin N} {u : Fin U} {L : LinkRays M}
    (h : raysCall c i w b n u = .ok L) (hm : ∀ j, i.mask b n u j ≤ 1) (hk : 0 < (i.lsp b n u).kFactor) (hi : i.indoor b u = false) :
    ∃ cza nth rel ψA ψD centreA centreD, c.getReal .pcZSA (i.los b n u) = .ok cza ∧
      c.getReal .pCThetaNLoS (i.los b n u) = .ok nth ∧
      RelativePower (anglePower (i.los b n u) (i.lsp b n u).kFactor L.powers) rel ∧
      (let K := db (i.lsp b n u).kFactor
       let C := nth * if i.los b n u then 1.3086 + 0.0339 * K - 0.0077 * K ^ 2 + 0.0002 * K ^ 3 else 1
       C ≠ 0 ∧ LaplaceProfile C rel ψA ∧ LaplaceProfile C rel ψD) ∧
      Centred (i.los b n u) (i.angles b n u).zoa (deviation (i.lsp b n u).zsa (w.signZoa b n) (w.zoa b n u) ψA) centreA ∧
      Centred (i.los b n u) ((i.angles b n u).zod + if i.los b n u then 0 else i.zodOff b n u)
        (deviation (if i.bsHeight 0 0 < 160000 then (i.lsp b n u).zsd else 0) (w.signZod b n) (w.zod b n u) ψD) centreD ∧
      ∀ m, ZenithRays (L.zoa m) (centreA m) cza rayOffsets ∧ ZenithRays (L.zod m) (centreD m) (3 / 8 * spreadOf (i.meanZsd b n u)) rayOffsets := by
  obtain ⟨un, q, caa, cad, cza, aoa, aod, devA, devD, -, hp, f1, f2, f3, g1, g2, g3, g4, -, hr⟩ := raysCall_ok h
  obtain ⟨rfl, hq⟩ := angle_powers (fun j => hm j) hk hp
  rw [hi] at g3 g4
  obtain ⟨n1, rel1, ψ1, e1, r1, z1, p1, rfl⟩ := zenithDeviation_spec hq g3
  obtain ⟨n2, rel2, ψ2, e2, r2, -, p2, rfl⟩ := zenithDeviation_spec hq g4
  obtain rfl : n1 = n2 := by rw [e1] at e2; exact Except.ok.inj e2
  obtain rfl : rel1 = rel2 := r1.unique r2
  rw [departureSpread_eq] at hr
  refine ⟨cza, n1, rel1, ψ1, ψ2, _, _, f3, e1, r1, ⟨z1, p1, p2⟩, fun m => rfl, fun m => rfl, fun m => ?_⟩
  obtain ⟨-, -, h3, h4⟩ := hr m
  rw [hi] at h3 h4
  rw [show pow10X = spreadOf from funext fun x => by cases x <;> rfl] at h4
  constructor
  · convert h3 using 1
    unfold zoaClusters
    cases i.los b n u <;> simp <;> ring
  · convert h4 using 1
    unfold zodClusters
    cases i.los b n u <;> simp <;> ring

/-- C93 for an indoor link, which is never in LoS (C15), as far as rays are generated for it (not with the powers of the code, see C35): the same
profile and the same departure, but the waves arrive around the horizon instead of the LoS zenith, as in TR 38.901 step 7 for outdoor to indoor. -/
theorem C93_indoor {i : RayInputs B N U} {w : RayDraws B N U M} {b : Fin B} {n : Fin N} {u : Fin U} {L : LinkRays M}
    (h : raysCall c i w b n u = .ok L) (hm : ∀ j, i.mask b n u j ≤ 1) (hk : 0 < (i.lsp b n u).kFactor) (hi : i.indoor b u = true)
    (hl : i.los b n u = false) :
    ∃ cza nth rel ψA ψD centreA centreD, c.getReal .pcZSA false = .ok cza ∧ c.getReal .pCThetaNLoS false = .ok nth ∧
      RelativePower (anglePower false (i.lsp b n u).kFactor L.powers) rel ∧ (nth ≠ 0 ∧ LaplaceProfile nth rel ψA ∧ LaplaceProfile nth rel ψD) ∧
      Centred false 90 (deviation (i.lsp b n u).zsa (w.signZoa b n) (w.zoa b n u) ψA) centreA ∧
      Centred false ((i.angles b n u).zod + i.zodOff b n u)
        (deviation (if i.bsHeight 0 0 < 160000 then (i.lsp b n u).zsd else 0) (w.signZod b n) (w.zod b n u) ψD) centreD ∧
      ∀ m, ZenithRays (L.zoa m) (centreA m) cza rayOffsets ∧ ZenithRays (L.zod m) (centreD m) (3 / 8 * spreadOf (i.meanZsd b n u)) rayOffsets := by
  obtain ⟨un, q, caa, cad, cza, aoa, aod, devA, devD, -, hp, f1, f2, f3, g1, g2, g3, g4, -, hr⟩ := raysCall_ok h
  obtain ⟨rfl, hq⟩ := angle_powers (fun j => hm j) hk hp
  rw [hi, hl] at g3 g4
  rw [hl] at f3 hq
  obtain ⟨n1, rel1, ψ1, e1, r1, z1, p1, rfl⟩ := zenithDeviation_spec (los := false) hq g3
  obtain ⟨n2, rel2, ψ2, e2, r2, -, p2, rfl⟩ := zenithDeviation_spec (los := false) hq g4
  obtain rfl : n1 = n2 := by rw [e1] at e2; exact Except.ok.inj e2
  obtain rfl : rel1 = rel2 := r1.unique r2
  rw [departureSpread_eq] at hr
  simp only [Bool.false_eq_true, if_false, mul_one] at z1 p1 p2
  refine ⟨cza, n1, rel1, ψ1, ψ2, _, _, f3, e1, r1, ⟨z1, p1, p2⟩, fun m => rfl, fun m => rfl, fun m => ?_⟩
  obtain ⟨-, -, h3, h4⟩ := hr m
  rw [hi, hl] at h3 h4
  rw [show pow10X = spreadOf from funext fun x => by cases x <;> rfl] at h4
  constructor
  · convert h3 using 1
    unfold zoaClusters
    simp; ring
  · convert h4 using 1
    unfold zodClusters
    simp; ring

/-- Rays of an indoor link, with a mask that keeps all clusters. -/
example : ∃ c L, mkScenario .urban (exArgs 2000000000 "uplink" 50) = .ok c ∧
    raysCall (M := 3) c { exRay 1 false fun _ => 600000 with indoor := fun _ _ => true } (exRayDraws 1 3) 0 0 0 = .ok L := by
  obtain ⟨c, hc⟩ := exConfig
  obtain ⟨L, e⟩ := raysCall_defined (M := 3) hc { exRay 1 false fun _ => 600000 with indoor := fun _ _ => true } (exRayDraws 1 3) 0 0 0 2 (by norm_num)
    (fun _ => rfl) (by norm_num [exRay]) (by norm_num [exRay]) (fun _ => by simp [exRay, log10])
  exact ⟨c, L, hc, e⟩

/-- Hypotheses of C92 and C93 can be met, with and without LoS. -/
example (los : Bool) : ∃ c L, mkScenario .urban (exArgs 2000000000 "uplink" 50) = .ok c ∧
    raysCall (M := 3) c (exRay 1 los fun _ => 600000) (exRayDraws 1 3) 0 0 0 = .ok L ∧
    (∀ j, (exRay 1 los fun _ => 600000).mask 0 0 0 j ≤ 1) ∧ 0 < ((exRay 1 los fun _ => 600000).lsp 0 0 0).kFactor ∧
    (exRay 1 los fun _ => 600000).indoor 0 0 = false := by
  obtain ⟨c, hc⟩ := exConfig
  obtain ⟨L, e⟩ := exRay_ok (M := 3) hc los (fun _ : Fin 1 => 600000) 0
  refine ⟨c, L, hc, e, fun j => ?_, by norm_num [exRay], rfl⟩
  unfold exRay
  dsimp only
  split_ifs <;> norm_num

/-! ### C94 -/

/-- The full claim of C94: the side on which clusters lie is drawn for every UT. For two UTs, some outcome of the draws that is the same for
both as far as normal and uniform variables go places clusters differently. -/
def C94_statement : Prop :=
  ∀ (cls : ScenarioClass) (sa : ScenarioArgs) (c : Config), mkScenario cls sa = .ok c →
    ∀ (i : RayInputs 1 1 2) (L : LinkRays 2) (w : RayDraws 1 1 2 2), raysCall c i w 0 0 0 = .ok L → 0 < (i.lsp 0 0 0).asa →
      (i.lsp 0 0 0 = i.lsp 0 0 1 ∧ i.mask 0 0 0 = i.mask 0 0 1 ∧ i.los 0 0 0 = i.los 0 0 1 ∧ i.indoor 0 0 = i.indoor 0 1 ∧
        i.angles 0 0 0 = i.angles 0 0 1 ∧ i.meanZsd 0 0 0 = i.meanZsd 0 0 1 ∧ i.zodOff 0 0 0 = i.zodOff 0 0 1) →
      ∃ (w : RayDraws 1 1 2 2) (L0 L1 : LinkRays 2), w.delay 0 0 0 = w.delay 0 0 1 ∧ w.shadow 0 0 0 = w.shadow 0 0 1 ∧
        w.aoa 0 0 0 = w.aoa 0 0 1 ∧ w.aod 0 0 0 = w.aod 0 0 1 ∧ w.zoa 0 0 0 = w.zoa 0 0 1 ∧ w.zod 0 0 0 = w.zod 0 0 1 ∧
        w.xpr 0 0 0 = w.xpr 0 0 1 ∧ raysCall c i w 0 0 0 = .ok L0 ∧ raysCall c i w 0 0 1 = .ok L1 ∧ L0.aoa ≠ L1.aoa

/-- What holds instead: UTs of the same batch example and BS with equal parameters and equal normal and uniform draws have equal rays,
whatever the outcome of the signs and of the random coupling, which are shared by all UTs. -/
theorem C94_shared_partial {i : RayInputs B N U} {w : RayDraws B N U M} {b : Fin B} {n : Fin N} {u v : Fin U}
    (h1 : i.lsp b n u = i.lsp b n v) (h2 : i.mask b n u = i.mask b n v) (h3 : i.los b n u = i.los b n v) (h4 : i.indoor b u = i.indoor b v)
    (h5 : i.angles b n u = i.angles b n v) (h6 : i.meanZsd b n u = i.meanZsd b n v) (h7 : i.zodOff b n u = i.zodOff b n v)
    (k1 : w.delay b n u = w.delay b n v) (k2 : w.shadow b n u = w.shadow b n v) (k3 : w.aoa b n u = w.aoa b n v)
    (k4 : w.aod b n u = w.aod b n v) (k5 : w.zoa b n u = w.zoa b n v) (k6 : w.zod b n u = w.zod b n v) (k7 : w.xpr b n u = w.xpr b n v) :
    raysCall c i w b n u = raysCall c i w b n v := by
  unfold raysCall shuffleAngles
  rw [h1, h2, h3, h4, h5, h6, h7, k1, k2, k3, k4, k5, k6, k7]

end

/-- Two UTs with the parameters of the link `exRay`. -/
noncomputable def exRay2 : RayInputs 1 1 2 where
  lsp := fun b n _ => (exRay 1 false fun _ => 600000).lsp b n 0
  mask := fun b n _ => (exRay 1 false fun _ => 600000).mask b n 0
  los := fun _ _ _ => false
  indoor := fun _ _ => false
  angles := fun b n _ => (exRay 1 false fun _ => 600000).angles b n 0
  bsHeight := fun _ _ => 600000
  meanZsd := fun _ _ _ => ((0 : ℝ) : WithBot ℝ)
  zodOff := fun _ _ _ => 0

/-- Draws for them. -/
noncomputable def exRay2Draws : RayDraws 1 1 2 2 where
  delay := fun _ _ _ _ => 1 / 2
  shadow := fun _ _ _ _ => 0
  signAoa := fun _ _ _ => true
  signAod := fun _ _ _ => true
  signZoa := fun _ _ _ => true
  signZod := fun _ _ _ => true
  aoa := fun _ _ _ _ => 1
  aod := fun _ _ _ _ => 1
  zoa := fun _ _ _ _ => 1
  zod := fun _ _ _ _ => 1
  xpr := fun _ _ _ _ _ => 0
  couplingAoa := fun _ _ _ r => -r.val
  couplingAod := fun _ _ _ _ => 0
  couplingZoa := fun _ _ _ _ => 0
  couplingZod := fun _ _ _ _ => 0

theorem exRay2_ok (h : mkScenario cls sa = .ok c) (u : Fin 2) : ∃ L, raysCall c exRay2 exRay2Draws 0 0 u = .ok L :=
  raysCall_defined h _ _ 0 0 u 2 (by norm_num) (fun _ => rfl) (by norm_num [exRay2, exRay]) (by norm_num [exRay2, exRay])
    (fun h => by simp [exRay2] at h)

/-- C94 fails: signs and couplings are drawn once for all UTs of a BS. -/
theorem C94_violated : ¬ C94_statement := by
  intro H
  obtain ⟨c, hc⟩ := exConfig
  obtain ⟨L, e⟩ := exRay2_ok hc 0
  obtain ⟨w, L0, L1, k1, k2, k3, k4, k5, k6, k7, e0, e1, hne⟩ :=
    H _ _ c hc exRay2 L exRay2Draws e (by norm_num [exRay2, exRay]) ⟨rfl, rfl, rfl, rfl, rfl, rfl, rfl⟩
  have heq : raysCall c exRay2 w 0 0 0 = raysCall c exRay2 w 0 0 1 :=
    C94_shared_partial rfl rfl rfl rfl rfl rfl rfl k1 k2 k3 k4 k5 k6 k7
  rw [heq, e1] at e0
  cases e0
  exact hne rfl

/-- Hypotheses of C94 can be met. -/
example : ∃ c L, mkScenario .urban (exArgs 2000000000 "uplink" 50) = .ok c ∧ raysCall c exRay2 exRay2Draws 0 0 0 = .ok L ∧
    raysCall c exRay2 exRay2Draws 0 0 1 = .ok L := by
  obtain ⟨c, hc⟩ := exConfig
  obtain ⟨L, e⟩ := exRay2_ok hc 0
  refine ⟨c, L, hc, e, ?_⟩
  rw [← e]
  exact C94_shared_partial rfl rfl rfl rfl rfl rfl rfl rfl rfl rfl rfl rfl rfl rfl

/-! ### C95 -/

/-- Offset of the zenith of departure in rural NLoS links, TR 38.901 table 7.5-9, in radian; `d` is the distance in the plane. -/
noncomputable def Spec.zodOffsetRad (d : ℝ) : ℝ := Real.arctan ((35 - 3.5) / d) - Real.arctan ((35 - 1.5) / d)

/-- The full claim of C95: in NLoS, the centre of a cluster without deviation of its own departs at the LoS zenith plus the offset, all in
degree. -/
def C95_statement : Prop :=
  ∀ z d : ℝ, 0 < d → zodClusters (M := 1) false false z (zodOffset false d) (fun _ => 0) 0 = z + 180 / Real.pi * zodOffsetRad d

theorem zod_offset_bounds {d : ℝ} (hd : 0 < d) : 0 < -zodOffsetRad d ∧ -zodOffsetRad d ≤ 2 / d := by
  unfold zodOffsetRad
  have hlt : (35 - 3.5) / d < (35 - 1.5) / d := by
    rw [div_lt_div_iff_of_pos_right hd]; norm_num
  constructor
  · have := Real.arctan_strictMono hlt
    linarith
  · have key : ∀ x y : ℝ, x ≤ y → Real.arctan y - Real.arctan x ≤ y - x := by
      intro x y hxy
      have hmono : Monotone fun x : ℝ => x - Real.arctan x := by
        refine monotone_of_deriv_nonneg (differentiable_id.sub Real.differentiable_arctan) fun x => ?_
        rw [deriv_fun_sub differentiableAt_fun_id (Real.differentiableAt_arctan x)]
        simp only [deriv_id'', Real.deriv_arctan]
        rw [sub_nonneg, div_le_one (by positivity)]
        nlinarith [sq_nonneg x]
      have := hmono hxy
      simp only at this
      linarith
    have := key _ _ hlt.le
    have e : (35 - 1.5) / d - (35 - 3.5) / d = 2 / d := by rw [← sub_div]; norm_num
    linarith

/-- C95, what holds: the offset is computed in radian and added to degrees, so it is too small by the factor `180/π`; the error is at most
`120/d` degree, which for the distances of satellites is negligible. LoS links have no offset. Missing: the exact value. -/
theorem C95_offset_partial {z d : ℝ} (hd : 0 < d) :
    |zodClusters (M := 1) false false z (zodOffset false d) (fun _ => 0) 0 - (z + 180 / Real.pi * zodOffsetRad d)| ≤ 120 / d ∧
    zodOffset true d = 0 := by
  obtain ⟨h1, h2⟩ := zod_offset_bounds hd
  have e : zodOffset false d = zodOffsetRad d := by unfold zodOffset zodOffsetRad; simp [hd.ne']
  refine ⟨?_, by unfold zodOffset; simp⟩
  have e2 : zodClusters (M := 1) false false z (zodOffset false d) (fun _ => 0) 0 - (z + 180 / Real.pi * zodOffsetRad d) =
      (180 / Real.pi - 1) * (-zodOffsetRad d) := by
    rw [e]; unfold zodClusters; simp; ring
  have hp : 180 / Real.pi ≤ 60 + 1 := by
    rw [div_le_iff₀ Real.pi_pos]; nlinarith [Real.pi_gt_three]
  have hp' : 1 ≤ 180 / Real.pi := by
    rw [le_div_iff₀ Real.pi_pos]; nlinarith [Real.pi_le_four]
  rw [e2, abs_of_nonneg (mul_nonneg (by linarith) h1.le)]
  calc (180 / Real.pi - 1) * (-zodOffsetRad d) ≤ 60 * (2 / d) := by
        apply mul_le_mul (by linarith) h2 h1.le (by norm_num)
    _ = 120 / d := by ring

example : (0 : ℝ) < 800000 := by norm_num

/-- C95 fails for every distance: the units differ. -/
theorem C95_violated : ¬ C95_statement := by
  intro H
  have h := H 0 1 one_pos
  obtain ⟨h1, -⟩ := zod_offset_bounds one_pos
  have e : zodOffset false 1 = zodOffsetRad 1 := by unfold zodOffset zodOffsetRad; simp
  rw [e] at h
  unfold zodClusters at h
  simp only [Bool.false_and, Bool.false_eq_true, if_false, zero_add] at h
  have hp' : 1 < 180 / Real.pi := by
    rw [lt_div_iff₀ Real.pi_pos]; nlinarith [Real.pi_le_four]
  nlinarith

end OpenNTN
