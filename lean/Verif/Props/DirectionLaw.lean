import Verif.Lemmas.TwoSided
import Verif.Props.Angles

/-
C152: the law of the cluster directions, step 7 of TR 38.901.
-/
namespace OpenNTN

open MeasureTheory ProbabilityTheory Spec

variable {B N U M : ℕ} [NeZero B] [NeZero N] [NeZero M] {c : Config}

/-- The four directions of a cluster: azimuth and zenith of arrival and departure. -/
inductive Spec.Direction
  | aoa
  | aod
  | zoa
  | zod
  deriving DecidableEq

instance : Fintype Direction := ⟨{.aoa, .aod, .zoa, .zod}, by intro x; cases x <;> simp⟩

/-- What is drawn for directions: a sign per cluster of a BS, a number per cluster of a link. -/
abbrev Spec.DirectionDraw (B N U M : ℕ) :=
  (Direction × Fin B × Fin N × Fin M) ⊕ (Direction × Fin B × Fin N × Fin U × Fin M)

/-- Signs drawn, as `1` and `-1`. -/
def Spec.signDrawn (w : RayDraws B N U M) : Direction → Fin B → Fin N → Fin M → ℝ
  | .aoa, b, n, m => if w.signAoa b n m then 1 else -1
  | .aod, b, n, m => if w.signAod b n m then 1 else -1
  | .zoa, b, n, m => if w.signZoa b n m then 1 else -1
  | .zod, b, n, m => if w.signZod b n m then 1 else -1

/-- Numbers drawn. -/
def Spec.normalDrawn (w : RayDraws B N U M) : Direction → Fin B → Fin N → Fin U → Fin M → ℝ
  | .aoa, b, n, u, m => w.aoa b n u m
  | .aod, b, n, u, m => w.aod b n u m
  | .zoa, b, n, u, m => w.zoa b n u m
  | .zod, b, n, u, m => w.zod b n u m

/-- Both. -/
def Spec.directionNumber (w : RayDraws B N U M) : DirectionDraw B N U M → ℝ
  | .inl (q, b, n, m) => signDrawn w q b n m
  | .inr (q, b, n, u, m) => normalDrawn w q b n u m

/-- Fair signs, standard normal numbers. -/
noncomputable def Spec.directionLaw : DirectionDraw B N U M → Measure ℝ
  | .inl _ => fairSign
  | .inr _ => gaussianReal 0 1

/-- Signs and numbers are independent and have these laws. -/
structure Spec.DirectionRandom {Ω : Type*} [MeasurableSpace Ω] (P : Measure Ω) (w : Ω → RayDraws B N U M) : Prop where
  meas : ∀ k, Measurable fun ω => directionNumber (w ω) k
  law : ∀ k, HasLaw (fun ω => directionNumber (w ω) k) (directionLaw k) P
  indep : iIndepFun (fun k ω => directionNumber (w ω) k) P

/-- Direction of the line of sight; without LoS the zenith of departure has an offset. -/
def Spec.middle (i : RayInputs B N U) (b : Fin B) (n : Fin N) (u : Fin U) : Direction → ℝ
  | .aoa => (i.angles b n u).aoa
  | .aod => (i.angles b n u).aod
  | .zoa => (i.angles b n u).zoa
  | .zod => (i.angles b n u).zod + if i.los b n u then 0 else i.zodOff b n u

/-- Spread of the link; for satellites the spreads of departure are zero. -/
noncomputable def Spec.linkSpread (i : RayInputs B N U) (b : Fin B) (n : Fin N) (u : Fin U) : Direction → ℝ
  | .aoa => (i.lsp b n u).asa
  | .aod => if i.bsHeight 0 0 < 160000 then (i.lsp b n u).asd else 0
  | .zoa => (i.lsp b n u).zsa
  | .zod => if i.bsHeight 0 0 < 160000 then (i.lsp b n u).zsd else 0

/-- Deviation of a cluster whose direction deviates by `ψ` spreads in the mean: sign and normal perturbation as drawn. -/
noncomputable def Spec.drawnDeviation (i : RayInputs B N U) (b : Fin B) (n : Fin N) (u : Fin U) (ψ : Direction → Fin M → ℝ) (w : RayDraws B N U M)
    (q : Direction) (m : Fin M) : ℝ :=
  signDrawn w q b n m * (linkSpread i b n u q * ψ q m) + linkSpread i b n u q / 7 * normalDrawn w q b n u m

omit [NeZero M] in
theorem Spec.GaussianProfile.unique {C : ℝ} {rel ψ ψ' : Fin M → ℝ} (hC : C ≠ 0) (h : GaussianProfile C rel ψ) (h' : GaussianProfile C rel ψ') :
    ψ = ψ' := by
  funext m
  obtain ⟨p1, e1⟩ := h m
  obtain ⟨p2, e2⟩ := h' m
  rw [← e2, Real.exp_eq_exp, neg_inj, sq_eq_sq₀ (by positivity) (by positivity)] at e1
  exact mul_left_cancel₀ hC (mul_left_cancel₀ (by norm_num) e1)

omit [NeZero M] in
theorem Spec.LaplaceProfile.unique {C : ℝ} {rel ψ ψ' : Fin M → ℝ} (hC : C ≠ 0) (h : LaplaceProfile C rel ψ) (h' : LaplaceProfile C rel ψ') :
    ψ = ψ' := by
  funext m
  obtain ⟨p1, e1⟩ := h m
  obtain ⟨p2, e2⟩ := h' m
  rw [← e2, Real.exp_eq_exp, neg_inj] at e1
  exact mul_left_cancel₀ hC e1

/-- Delays and powers do not depend on the other draws. -/
theorem powers_same {i : RayInputs B N U} {w w' : RayDraws B N U M} {b : Fin B} {n : Fin N} {u : Fin U} {L L' : LinkRays M}
    (h : raysCall c i w b n u = .ok L) (h' : raysCall c i w' b n u = .ok L') (hd : w.delay b n u = w'.delay b n u)
    (hs : w.shadow b n u = w'.shadow b n u) : L.powers = L'.powers := by
  obtain ⟨un, q, -, -, -, -, -, -, -, d1, p1, -⟩ := raysCall_ok h
  obtain ⟨un', q', -, -, -, -, -, -, -, d2, p2, -⟩ := raysCall_ok h'
  rw [← hd, d1] at d2
  simp only [Except.ok.injEq, Prod.mk.injEq] at d2
  rw [← hs, ← d2.2, p1] at p2
  simp only [Except.ok.injEq, Prod.mk.injEq] at p2
  exact p2.1

/-- C152. The directions of the clusters of an outdoor link, given its delays and powers. Each cluster has a shape `ψ`, which follows from its
power by the Gaussian (azimuth) and Laplacian (zenith) profiles of C92 and C93. Its deviation in units of the spread is `ψ` or `-ψ` with
probability one half each, plus a normal perturbation with deviation `1/7`. The deviations of all clusters in all four directions are
independent. Without LoS, clusters lie around the direction of the line of sight: that is the mean of a direction, and its variance is
`s²(ψ² + 1/49)`. With LoS, the first cluster lies exactly on it and the others keep their position relative to the first, which doubles the
perturbation: the mean is the direction of the line of sight and the variance `s²(ψ² + ψ₀² + 2/49)`. -/
theorem C152_direction_law {Ω : Type*} [MeasurableSpace Ω] {P : Measure Ω} [IsProbabilityMeasure P] {i : RayInputs B N U}
    {w : Ω → RayDraws B N U M} {b : Fin B} {n : Fin N} {u : Fin U} {L : Ω → LinkRays M} {d z : Fin M → ℝ} (hw : DirectionRandom P w)
    (hd : ∀ ω, (w ω).delay b n u = d) (hz : ∀ ω, (w ω).shadow b n u = z) (h : ∀ ω, raysCall c i (w ω) b n u = .ok (L ω))
    (hm : ∀ j, i.mask b n u j ≤ 1) (hk : 0 < (i.lsp b n u).kFactor) (hi : i.indoor b u = false) :
    ∃ (caa cad cza nphi nth : ℝ) (p rel : Fin M → ℝ) (ψ : Direction → Fin M → ℝ) (centre : Direction → Fin M → Ω → ℝ),
      c.getReal .pcASA (i.los b n u) = .ok caa ∧ c.getReal .pcASD (i.los b n u) = .ok cad ∧ c.getReal .pcZSA (i.los b n u) = .ok cza ∧
      c.getReal .pCPhiNLoS (i.los b n u) = .ok nphi ∧ c.getReal .pCThetaNLoS (i.los b n u) = .ok nth ∧
      (∀ ω, (L ω).powers = p) ∧ RelativePower (anglePower (i.los b n u) (i.lsp b n u).kFactor p) rel ∧
      (let K := db (i.lsp b n u).kFactor
       let C := nphi * if i.los b n u then 1.1035 - 0.028 * K - 0.002 * K ^ 2 + 0.0001 * K ^ 3 else 1
       let D := nth * if i.los b n u then 1.3086 + 0.0339 * K - 0.0077 * K ^ 2 + 0.0002 * K ^ 3 else 1
       C ≠ 0 ∧ D ≠ 0 ∧ GaussianProfile C rel (ψ .aoa) ∧ GaussianProfile C rel (ψ .aod) ∧ LaplaceProfile D rel (ψ .zoa) ∧
         LaplaceProfile D rel (ψ .zod)) ∧
      iIndepFun (fun (qm : Direction × Fin M) ω => drawnDeviation i b n u ψ (w ω) qm.1 qm.2) P ∧
      (∀ q m, HasLaw (fun ω => drawnDeviation i b n u ψ (w ω) q m) (twoSided (linkSpread i b n u q * ψ q m) (linkSpread i b n u q / 7)) P) ∧
      (∀ q ω, Centred (i.los b n u) (middle i b n u q) (drawnDeviation i b n u ψ (w ω) q) fun m => centre q m ω) ∧
      (∀ ω m, AzimuthRays ((L ω).aoa m) (centre .aoa m ω) caa rayOffsets ∧ AzimuthRays ((L ω).aod m) (centre .aod m ω) cad rayOffsets ∧
        ZenithRays ((L ω).zoa m) (centre .zoa m ω) cza rayOffsets ∧
        ZenithRays ((L ω).zod m) (centre .zod m ω) (3 / 8 * spreadOf (i.meanZsd b n u)) rayOffsets) ∧
      ∀ q m, ∫ ω, centre q m ω ∂P = middle i b n u q ∧
        Var[centre q m; P] = linkSpread i b n u q ^ 2 *
          (if i.los b n u then (if m = 0 then 0 else ψ q m ^ 2 + ψ q 0 ^ 2 + 2 / 49) else ψ q m ^ 2 + 1 / 49) := by
  obtain ⟨ω0⟩ : Nonempty Ω := P.nonempty_of_neZero
  obtain ⟨caa, cad, nphi, rel, ψ1, ψ2, -, -, f1, f2, f3, hrel, ⟨hC, g1, g2⟩, -⟩ := C92_azimuth (h ω0) hm hk
  obtain ⟨cza, nth, rel', ψ3, ψ4, -, -, f4, f5, hrel', ⟨hD, g3, g4⟩, -⟩ := C93_zenith (h ω0) hm hk hi
  obtain rfl := hrel.unique hrel'
  have hpow : ∀ ω, (L ω).powers = (L ω0).powers := fun ω =>
    powers_same (h ω) (h ω0) (by rw [hd, hd]) (by rw [hz, hz])
  let ψ : Direction → Fin M → ℝ := fun q => match q with
    | .aoa => ψ1
    | .aod => ψ2
    | .zoa => ψ3
    | .zod => ψ4
  let centre : Direction → Fin M → Ω → ℝ := fun q m ω =>
    middle i b n u q + if i.los b n u then drawnDeviation i b n u ψ (w ω) q m - drawnDeviation i b n u ψ (w ω) q 0
      else drawnDeviation i b n u ψ (w ω) q m
  have hcent : ∀ q ω, Centred (i.los b n u) (middle i b n u q) (drawnDeviation i b n u ψ (w ω) q) fun m => centre q m ω :=
    fun q ω m => rfl
  have hmeasS : ∀ q m, Measurable fun ω => signDrawn (w ω) q b n m := fun q m => hw.meas (.inl (q, b, n, m))
  have hmeasN : ∀ q m, Measurable fun ω => normalDrawn (w ω) q b n u m := fun q m => hw.meas (.inr (q, b, n, u, m))
  have hpairs : iIndepFun (fun (qm : Direction × Fin M) ω => (signDrawn (w ω) qm.1 b n qm.2, normalDrawn (w ω) qm.1 b n u qm.2)) P := by
    refine iIndepFun_pairs (fun qm => hmeasS qm.1 qm.2) (fun qm => hmeasN qm.1 qm.2) ?_
    let g : (Direction × Fin M) ⊕ (Direction × Fin M) → DirectionDraw B N U M := fun k => match k with
      | .inl (q, m) => .inl (q, b, n, m)
      | .inr (q, m) => .inr (q, b, n, u, m)
    have hg : Function.Injective g := by
      rintro (⟨q, m⟩ | ⟨q, m⟩) (⟨q', m'⟩ | ⟨q', m'⟩) hh <;> simp_all [g]
    have := hw.indep.precomp hg
    convert this using 1
    funext k
    rcases k with ⟨q, m⟩ | ⟨q, m⟩ <;> rfl
  have hindep : iIndepFun (fun (qm : Direction × Fin M) ω => drawnDeviation i b n u ψ (w ω) qm.1 qm.2) P :=
    hpairs.comp (fun qm x => x.1 * (linkSpread i b n u qm.1 * ψ qm.1 qm.2) + linkSpread i b n u qm.1 / 7 * x.2) fun _ => by fun_prop
  have hlaw : ∀ q m, HasLaw (fun ω => drawnDeviation i b n u ψ (w ω) q m)
      (twoSided (linkSpread i b n u q * ψ q m) (linkSpread i b n u q / 7)) P := fun q m =>
    twoSided_law (hw.law (.inl (q, b, n, m))) (hw.law (.inr (q, b, n, u, m)))
      (hw.indep.indepFun (i := .inl (q, b, n, m)) (j := .inr (q, b, n, u, m)) (by simp)) _ _
  have hmean : ∀ q m, ∫ ω, drawnDeviation i b n u ψ (w ω) q m ∂P = 0 := fun q m => by
    rw [(hlaw q m).integral_eq]
    exact (twoSided_moments _ _).1
  have hvar : ∀ q m, Var[fun ω => drawnDeviation i b n u ψ (w ω) q m; P] = linkSpread i b n u q ^ 2 * (ψ q m ^ 2 + 1 / 49) := fun q m => by
    rw [(hlaw q m).variance_eq, (twoSided_moments _ _).2]
    ring
  have hlp : ∀ q m, MemLp (fun ω => drawnDeviation i b n u ψ (w ω) q m) 2 P := fun q m => by
    have := twoSided_memLp (linkSpread i b n u q * ψ q m) (linkSpread i b n u q / 7)
    rw [← (hlaw q m).map_eq, memLp_map_measure_iff (by fun_prop) (hlaw q m).aemeasurable] at this
    exact this
  refine ⟨caa, cad, cza, nphi, nth, (L ω0).powers, rel, ψ, centre, f1, f2, f4, f3, f5, hpow, hrel, ⟨hC, hD, g1, g2, g3, g4⟩, hindep, hlaw, hcent,
    ?_, ?_⟩
  · intro ω m
    obtain ⟨caa', cad', nphi', rel', ψ1', ψ2', A1, A2, e1, e2, e3, r1, ⟨-, k1, k2⟩, c1, c2, y1⟩ := C92_azimuth (h ω) hm hk
    obtain ⟨cza', nth', rel'', ψ3', ψ4', A3, A4, e4, e5, r2, ⟨-, k3, k4⟩, c3, c4, y2⟩ := C93_zenith (h ω) hm hk hi
    rw [hpow ω] at r1 r2
    obtain rfl := hrel.unique r1
    obtain rfl := hrel.unique r2
    rw [f1] at e1
    rw [f2] at e2
    rw [f3] at e3
    rw [f4] at e4
    rw [f5] at e5
    cases e1
    cases e2
    cases e3
    cases e4
    cases e5
    obtain rfl := g1.unique hC k1
    obtain rfl := g2.unique hC k2
    obtain rfl := g3.unique hD k3
    obtain rfl := g4.unique hD k4
    have key : ∀ (q : Direction) (mid : ℝ) (dev A : Fin M → ℝ), mid = middle i b n u q → dev = drawnDeviation i b n u ψ (w ω) q →
        Centred (i.los b n u) mid dev A → A m = centre q m ω := by
      intro q mid dev A hmid hdev hc
      rw [hc m, hmid, hdev]
    have hdev : ∀ (s : ℝ) (sg : Fin M → Bool) (y ψ' : Fin M → ℝ) (m : Fin M), deviation s sg y ψ' m = (if sg m then 1 else -1) * (s * ψ' m) + s / 7 * y m := by
      intro s sg y ψ' m
      unfold deviation
      split_ifs <;> ring
    rw [← key .aoa _ _ A1 rfl (funext fun m => hdev _ _ _ _ m) c1, ← key .aod _ _ A2 rfl (funext fun m => hdev _ _ _ _ m) c2,
      ← key .zoa _ _ A3 rfl (funext fun m => hdev _ _ _ _ m) c3, ← key .zod _ _ A4 rfl (funext fun m => hdev _ _ _ _ m) c4]
    exact ⟨(y1 m).1, (y1 m).2, (y2 m).1, (y2 m).2⟩
  · intro q m
    simp only [centre]
    have hint : ∀ m, Integrable (fun ω => drawnDeviation i b n u ψ (w ω) q m) P := fun m => (hlp q m).integrable (by norm_num)
    rcases hl : i.los b n u
    · simp only [Bool.false_eq_true, if_false]
      refine ⟨?_, ?_⟩
      · rw [integral_add (integrable_const _) (hint m), hmean]
        simp
      · rw [variance_const_add (hlp q m).aestronglyMeasurable, hvar]
    · simp only [if_true]
      refine ⟨?_, ?_⟩
      · have := (hint m).sub (hint 0)
        rw [integral_add (g := fun ω => drawnDeviation i b n u ψ (w ω) q m - drawnDeviation i b n u ψ (w ω) q 0) (integrable_const _) this, integral_sub (hint m) (hint 0), hmean, hmean]
        simp
      · rw [variance_const_add (X := fun ω => drawnDeviation i b n u ψ (w ω) q m - drawnDeviation i b n u ψ (w ω) q 0)
          ((hlp q m).sub (hlp q 0)).aestronglyMeasurable]
        rcases eq_or_ne m 0 with rfl | h0
        · simp only [sub_self, if_true, mul_zero]
          exact variance_zero P
        · rw [if_neg h0]
          have hI : IndepFun (fun ω => drawnDeviation i b n u ψ (w ω) q m) (fun ω => drawnDeviation i b n u ψ (w ω) q 0) P :=
            hindep.indepFun (i := (q, m)) (j := (q, 0)) (by simpa using h0)
          rw [variance_fun_sub (hlp q m) (hlp q 0), hI.covariance_eq_zero (hlp q m) (hlp q 0), hvar, hvar]
          ring

/-! ### Such draws exist -/

/-- Signs and numbers from one family; delays and the rest are fixed. -/
noncomputable def Spec.directionDraws (x : DirectionDraw B N U M → ℝ) : RayDraws B N U M where
  delay _ _ _ _ := 1 / 2
  shadow _ _ _ _ := 0
  signAoa b n m := decide (0 < x (.inl (.aoa, b, n, m)))
  signAod b n m := decide (0 < x (.inl (.aod, b, n, m)))
  signZoa b n m := decide (0 < x (.inl (.zoa, b, n, m)))
  signZod b n m := decide (0 < x (.inl (.zod, b, n, m)))
  aoa b n u m := x (.inr (.aoa, b, n, u, m))
  aod b n u m := x (.inr (.aod, b, n, u, m))
  zoa b n u m := x (.inr (.zoa, b, n, u, m))
  zod b n u m := x (.inr (.zod, b, n, u, m))
  xpr _ _ _ _ _ := 0
  couplingAoa _ _ _ r := r.val
  couplingAod _ _ _ r := r.val
  couplingZoa _ _ _ r := r.val
  couplingZod _ _ _ r := r.val

instance (k : DirectionDraw B N U M) : IsProbabilityMeasure (directionLaw k) := by
  rcases k with k | k
  · exact inferInstanceAs (IsProbabilityMeasure fairSign)
  · exact inferInstanceAs (IsProbabilityMeasure (gaussianReal 0 1))

/-- Draws as required exist. -/
theorem exists_directionRandom (B N U M : ℕ) : ∃ P : Measure (DirectionDraw B N U M → ℝ), IsProbabilityMeasure P ∧
    DirectionRandom P (directionDraws (B := B) (N := N) (U := U) (M := M)) := by
  let f : DirectionDraw B N U M → ℝ → ℝ := fun k x => match k with
    | .inl _ => if 0 < x then 1 else -1
    | .inr _ => x
  have hf : ∀ k, Measurable (f k) := by
    rintro (k | k)
    · exact Measurable.ite measurableSet_Ioi measurable_const measurable_const
    · exact measurable_id
  have e : ∀ (k : DirectionDraw B N U M) (ω : DirectionDraw B N U M → ℝ), directionNumber (directionDraws ω) k = f k (ω k) := by
    rintro (⟨q, b, n, m⟩ | ⟨q, b, n, u, m⟩) ω <;> cases q <;> simp [directionNumber, signDrawn, normalDrawn, directionDraws, f]
  have hlaw : ∀ k : DirectionDraw B N U M, (directionLaw k).map (f k) = directionLaw k := by
    rintro (k | k)
    · change (fairSign).map (f (.inl k)) = fairSign
      unfold fairSign
      rw [Measure.map_add _ _ (hf (.inl k)), Measure.map_smul, Measure.map_smul, Measure.map_dirac' (hf (.inl k)), Measure.map_dirac' (hf (.inl k))]
      norm_num [f]
    · exact Measure.map_id
  refine ⟨Measure.pi fun k => directionLaw k, inferInstance, fun k => ?_, fun k => ?_, ?_⟩
  · simp only [e]
    exact (hf k).comp (measurable_pi_apply k)
  · simp only [e]
    refine ⟨((hf k).comp (measurable_pi_apply k)).aemeasurable, ?_⟩
    have := (measurePreserving_eval (fun k : DirectionDraw B N U M => directionLaw k) k)
    rw [← Function.comp_def (f k), ← Measure.map_map (hf k) (measurable_pi_apply k)]
    rw [show (fun ω : DirectionDraw B N U M → ℝ => ω k) = Function.eval k from rfl, this.map_eq, hlaw]
  · simp only [e]
    exact iIndepFun_pi (X := f) fun k => (hf k).aemeasurable

/-- The hypotheses of C152 can be met, with and without LoS: an urban uplink, three clusters of which two are active. -/
example (los : Bool) : ∃ c : Config, mkScenario .urban (exArgs 2000000000 "uplink" 50) = .ok c ∧
    (∃ P : Measure (DirectionDraw 1 1 1 3 → ℝ), IsProbabilityMeasure P ∧ DirectionRandom P directionDraws) ∧
    (∀ ω : DirectionDraw 1 1 1 3 → ℝ, (directionDraws ω).delay 0 0 0 = (fun _ => 1 / 2) ∧ (directionDraws ω).shadow 0 0 0 = fun _ => 0) ∧
    (∃ L : (DirectionDraw 1 1 1 3 → ℝ) → LinkRays 3, ∀ ω, raysCall c (exRay 1 los fun _ => 600000) (directionDraws ω) 0 0 0 = .ok (L ω)) ∧
    (∀ j, (exRay 1 los fun _ => 600000).mask 0 0 0 j ≤ 1) ∧ 0 < ((exRay 1 los fun _ => 600000).lsp 0 0 0).kFactor ∧
    (exRay 1 los fun _ => 600000).indoor 0 0 = false := by
  obtain ⟨c, hc⟩ := exConfig
  refine ⟨c, hc, exists_directionRandom 1 1 1 3, fun ω => ⟨rfl, rfl⟩, ?_, fun j => ?_, by norm_num [exRay], rfl⟩
  · exact Classical.axiomOfChoice fun ω => raysCall_defined hc (exRay 1 los fun _ => 600000) (directionDraws ω) 0 0 0 2 (by norm_num)
      (fun _ => rfl) (by norm_num [exRay]) (by norm_num [exRay]) (fun _ => by simp [exRay, log10])
  · unfold exRay
    dsimp only
    split_ifs <;> norm_num

end OpenNTN
