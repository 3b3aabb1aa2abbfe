import Mathlib.MeasureTheory.Measure.Lebesgue.Basic
import Mathlib.Probability.Distributions.Gaussian.Real
import Mathlib.Probability.HasLaw
import Mathlib.Probability.Independence.Basic
import Mathlib.Tactic.DeriveFintype
import Verif.Props.Rays

/-
C144: the laws of delays, powers and cross-polarisation ratios of the clusters.
-/
namespace OpenNTN

open MeasureTheory ProbabilityTheory Classical Spec

variable {B N U M : ℕ} [NeZero B] [NeZero N] [NeZero M] {cls : ScenarioClass} {sa : ScenarioArgs} {c : Config}

/-- A cluster of a link: batch example, BS, UT, number of the cluster. -/
abbrev Spec.Cluster (B N U M : ℕ) := Fin B × Fin N × Fin U × Fin M

/-- What is drawn for a cluster: delay, shadowing, and a cross-polarisation ratio for each ray. -/
inductive Spec.Quantity
  | delay
  | shadowing
  | xpr (r : Fin 20)
  deriving Fintype

/-- The numbers drawn. -/
def Spec.rayNumber (w : RayDraws B N U M) (k : Spec.Cluster B N U M × Spec.Quantity) : ℝ :=
  match k with
  | ((b, n, u, m), .delay) => w.delay b n u m
  | ((b, n, u, m), .shadowing) => w.shadow b n u m
  | ((b, n, u, m), .xpr r) => w.xpr b n u m r

/-- Uniform on `[1e-6, 1)` and standard normal. -/
noncomputable def Spec.rayLaw : Spec.Quantity → Measure ℝ
  | .delay => (ENNReal.ofReal (1 - 1e-6))⁻¹ • volume.restrict (Set.Ico 1e-6 1)
  | _ => gaussianReal 0 1

/-- The numbers are independent and have these laws. -/
structure Spec.RayRandom {Ω : Type*} [MeasurableSpace Ω] (P : Measure Ω) (w : Ω → RayDraws B N U M) : Prop where
  law : ∀ k, HasLaw (fun ω => Spec.rayNumber (w ω) k) (Spec.rayLaw k.2) P
  indep : iIndepFun (fun k ω => Spec.rayNumber (w ω) k) P

/-- `-a ln X` for `X` uniform on `[1e-6, 1)` is positive and exponential with mean `a`, up to `1e-6`. -/
theorem exponential_cdf {Ω : Type*} [MeasurableSpace Ω] {P : Measure Ω} {X : Ω → ℝ} (hX : HasLaw X (Spec.rayLaw .delay) P) {a t : ℝ} (ha : 0 < a) (ht : 0 ≤ t) :
    |(P {ω | -a * Real.log (X ω) ≤ t}).toReal - (1 - Real.exp (-t / a))| ≤ 1e-6 := by
  have hm : MeasurableSet {x : ℝ | -a * Real.log x ≤ t} := measurableSet_le (by fun_prop) measurable_const
  have e1 : P {ω | -a * Real.log (X ω) ≤ t} = Spec.rayLaw .delay {x : ℝ | -a * Real.log x ≤ t} := by
    rw [← hX.map_eq, Measure.map_apply_of_aemeasurable hX.aemeasurable hm]
    rfl
  have e2 : {x : ℝ | -a * Real.log x ≤ t} ∩ Set.Ico 1e-6 1 = Set.Ico (max 1e-6 (Real.exp (-t / a))) 1 := by
    ext x
    simp only [Set.mem_inter_iff, Set.mem_ofPred_eq, Set.mem_Ico, max_le_iff]
    have key : 1e-6 ≤ x → (-a * Real.log x ≤ t ↔ Real.exp (-t / a) ≤ x) := by
      intro hx
      have hx0 : 0 < x := lt_of_lt_of_le (by norm_num) hx
      rw [← Real.le_log_iff_exp_le hx0, div_le_iff₀ ha]
      constructor <;> intro h <;> linarith
    constructor
    · rintro ⟨h1, h2, h3⟩
      exact ⟨⟨h2, (key h2).1 h1⟩, h3⟩
    · rintro ⟨⟨h2, h1⟩, h3⟩
      exact ⟨(key h2).2 h1, h2, h3⟩
  have hexp : Real.exp (-t / a) ≤ 1 := Real.exp_le_one_iff.2 (div_nonpos_of_nonpos_of_nonneg (by linarith) ha.le)
  have hmax : max 1e-6 (Real.exp (-t / a)) ≤ 1 := max_le (by norm_num) hexp
  have e3 : (P {ω | -a * Real.log (X ω) ≤ t}).toReal = (1 - max 1e-6 (Real.exp (-t / a))) / (1 - 1e-6) := by
    rw [e1]
    unfold Spec.rayLaw
    rw [Measure.smul_apply, Measure.restrict_apply hm, e2, Real.volume_Ico, smul_eq_mul, ENNReal.toReal_mul, ENNReal.toReal_inv,
      ENNReal.toReal_ofReal (by norm_num), ENNReal.toReal_ofReal (by linarith)]
    ring
  rw [e3, abs_le]
  rcases le_total (Real.exp (-t / a)) 1e-6 with hle | hle
  · rw [max_eq_left hle, div_self (by norm_num)]
    have := Real.exp_pos (-t / a)
    constructor <;> linarith
  · rw [max_eq_right hle]
    have : (1 - Real.exp (-t / a)) / (1 - 1e-6) = (1 - Real.exp (-t / a)) + (1 - Real.exp (-t / a)) * (1e-6 / (1 - 1e-6)) := by
      field_simp
      ring
    rw [this, add_sub_cancel_left]
    constructor
    · have : 0 ≤ (1 - Real.exp (-t / a)) * (1e-6 / (1 - 1e-6)) := mul_nonneg (by linarith) (by norm_num)
      linarith
    · rw [← mul_div_assoc, div_le_iff₀ (by norm_num)]
      nlinarith

theorem normal_affine {Ω : Type*} [MeasurableSpace Ω] {P : Measure Ω} {X : Ω → ℝ} (hX : HasLaw X (gaussianReal 0 1) P) (m σ : ℝ) :
    HasLaw (fun ω => m + σ * X ω) (gaussianReal m (σ ^ 2).toNNReal) P := by
  refine ⟨by have := hX.aemeasurable; fun_prop, ?_⟩
  have e : (fun ω => m + σ * X ω) = ((m + ·) ∘ (σ * ·)) ∘ X := rfl
  rw [e, ← AEMeasurable.map_map_of_aemeasurable (by fun_prop) hX.aemeasurable, hX.map_eq, ← Measure.map_map (by fun_prop) (by fun_prop),
    gaussianReal_map_const_mul, gaussianReal_map_const_add]
  congr 1
  · ring
  · ext; simp [Real.coe_toNNReal _ (sq_nonneg σ)]

/-- C144. The clusters follow TR 38.901 steps 5, 6 and 9. There are independent random variables for all clusters of all links: a raw delay,
positive and exponentially distributed with mean delay scaling times delay spread (the distribution function is exact up to `1e-6`), a
shadowing in dB, normal with mean zero and the tabulated deviation, and for each ray a ratio in dB, normal with the tabulated mean and deviation.
The delays generated are the raw delays of the active clusters less the smallest, in ascending order and, on LoS links, divided by the scaling of
step 5; powers are proportional to the exponential of delay times the factor of step 6 times the shadowing; cross-polarisation ratios are the ones
drawn. -/
theorem C144_cluster_law (h : mkScenario cls sa = .ok c) (i : RayInputs B N U) (hds : ∀ b n u, 0 < (i.lsp b n u).ds)
    {Ω : Type*} [MeasurableSpace Ω] {P : Measure Ω} [IsProbabilityMeasure P] {w : Ω → RayDraws B N U M} (hw : Spec.RayRandom P w) :
    ∃ (rTau zeta mu sigma : Bool → ℝ) (F : Spec.Cluster B N U M × Spec.Quantity → Ω → ℝ),
      (∀ los, c.getParam .prTau los = .ok ((rTau los : ℝ) : WithBot ℝ) ∧ c.getParam .pzeta los = .ok ((zeta los : ℝ) : WithBot ℝ) ∧
        c.getParam .pmuXPR los = .ok ((mu los : ℝ) : WithBot ℝ) ∧ c.getParam .psigmaXPR los = .ok ((sigma los : ℝ) : WithBot ℝ) ∧ 1 < rTau los) ∧
      iIndepFun F P ∧
      (∀ b n u m,
        (∀ᵐ ω ∂P, 0 < F ((b, n, u, m), .delay) ω) ∧
        (∀ t, 0 ≤ t → |(P {ω | F ((b, n, u, m), .delay) ω ≤ t}).toReal - (1 - Real.exp (-t / (rTau (i.los b n u) * (i.lsp b n u).ds)))| ≤ 1e-6) ∧
        HasLaw (F ((b, n, u, m), .shadowing)) (gaussianReal 0 (zeta (i.los b n u) ^ 2).toNNReal) P ∧
        ∀ r, HasLaw (F ((b, n, u, m), .xpr r)) (gaussianReal (mu (i.los b n u)) (sigma (i.los b n u) ^ 2).toNNReal) P) ∧
      ∀ b n u act, 0 < act → 0 < (i.lsp b n u).kFactor → Spec.IsOutdoorMask act (fun k : Fin M => i.mask b n u k) →
        ∀ ω L, raysCall c i (w ω) b n u = .ok L →
          let raw (m : Fin M) := if m.val < act then F ((b, n, u, m), .delay) ω else 1
          let kDb := 10 * Real.logb 10 (i.lsp b n u).kFactor
          let scaling := if i.los b n u then 0.7705 - 0.0433 * kDb + 0.0002 * kDb ^ 2 + 0.000017 * kDb ^ 3 else 1
          let r := rTau (i.los b n u)
          (∃ (order : Equiv.Perm (Fin M)) (first : Fin M), Monotone (raw ∘ order) ∧ (∀ m, raw first ≤ raw m) ∧
            (∀ m, L.delays m = (raw (order m) - raw first) / scaling) ∧
            ∃ g, 0 < g ∧ ∀ m, L.powers m = if m.val < act then
              g * (Real.exp (-(raw (order m) - raw first) * (r - 1) / (r * (i.lsp b n u).ds)) * (10 : ℝ) ^ (-F ((b, n, u, m), .shadowing) ω / 10)) else 0) ∧
          ∀ m q, 0 < L.xpr m q ∧ 10 * Real.logb 10 (L.xpr m q) = F ((b, n, u, m), .xpr q) ω := by
  have hA := fun los => (C04_admissible_values h).2.2.2.2 los
  choose rTau hr hr1 using fun los => (hA los).1
  choose zeta hz hz0 using fun los => (hA los).2.1
  have hxp : ∀ los, ∃ mu sigma : ℝ, c.getReal .pmuXPR los = .ok mu ∧ c.getReal .psigmaXPR los = .ok sigma := by
    intro los
    obtain ⟨mx, -, f5⟩ := getReal_check h .pmuXPR _ (finite_cell (p := .pmuXPR) (by decide)) los
    obtain ⟨sx, f4, -⟩ := (hA los).2.2.2.1 .psigmaXPR (by simp)
    exact ⟨_, sx, f5, f4⟩
  choose mu sigma hmu hsigma using hxp
  let f : Spec.Cluster B N U M × Spec.Quantity → ℝ → ℝ := fun k x => match k with
    | ((b, n, u, m), .delay) => -(rTau (i.los b n u) * (i.lsp b n u).ds) * Real.log x
    | ((b, n, u, m), .shadowing) => 0 + zeta (i.los b n u) * x
    | ((b, n, u, m), .xpr r) => mu (i.los b n u) + sigma (i.los b n u) * x
  have hf : ∀ k, Measurable (f k) := by
    rintro ⟨⟨b, n, u, m⟩, q | q | r⟩ <;> simp only [f] <;> fun_prop
  refine ⟨rTau, zeta, mu, sigma, fun k ω => f k (Spec.rayNumber (w ω) k), fun los => ⟨getReal_getParam (hr los), getReal_getParam (hz los),
    getReal_getParam (hmu los), getReal_getParam (hsigma los), hr1 los⟩, hw.indep.comp f hf, fun b n u m => ⟨?_, ?_, ?_, ?_⟩, ?_⟩
  · have := hw.law ((b, n, u, m), .delay)
    have hae : ∀ᵐ x ∂(P.map fun ω => Spec.rayNumber (w ω) ((b, n, u, m), .delay)), x ∈ Set.Ico (1e-6 : ℝ) 1 := by
      rw [this.map_eq]
      exact Measure.ae_smul_measure (ae_restrict_mem measurableSet_Ico) _
    filter_upwards [ae_of_ae_map this.aemeasurable hae] with ω hω
    exact mul_pos_of_neg_of_neg (neg_neg_of_pos (mul_pos (by linarith [hr1 (i.los b n u)]) (hds b n u)))
      (Real.log_neg (lt_of_lt_of_le (by norm_num) hω.1) hω.2)
  · intro t ht
    exact exponential_cdf (hw.law ((b, n, u, m), .delay)) (mul_pos (by linarith [hr1 (i.los b n u)]) (hds b n u)) ht
  · exact normal_affine (hw.law ((b, n, u, m), .shadowing)) 0 _
  · intro r
    exact normal_affine (hw.law ((b, n, u, m), .xpr r)) _ _
  · intro b n u act hact hk hmask ω L hL raw kDb scaling r
    obtain ⟨un, q, caa, cad, cza, aoa, aod, devA, devD, e1, e2, -, -, -, -, -, -, -, ex, -⟩ := raysCall_ok hL
    have hraw : rawDelays (rTau (i.los b n u)) (i.lsp b n u).ds (fun k : Fin M => i.mask b n u k) (w ω |>.delay b n u) = raw := by
      funext m
      unfold rawDelays
      simp only [raw, f, Spec.rayNumber]
      have hmm : i.mask b n u m = if m.val < act then 0 else 1 := hmask m
      rw [hmm]
      split_ifs <;> ring
    refine ⟨?_, ?_⟩
    · obtain ⟨first, -, hfirst⟩ := Finset.exists_mem_eq_inf' (Finset.univ_nonempty (α := Fin M)) raw
      have hmin : reduceMin raw = raw first := hfirst
      have hfle : ∀ m, raw first ≤ raw m := fun m => by
        rw [← hfirst]; exact Finset.inf'_le _ (Finset.mem_univ m)
      have hun : ∀ m, un m = raw (Tuple.sort (fun k => raw k - raw first) m) - raw first ∧ L.delays m = un m / scaling := by
        unfold clusterDelays at e1
        rw [hr] at e1
        simp only [bind, Except.bind] at e1
        have hu : unscaledDelays (rTau (i.los b n u)) (i.lsp b n u).ds (fun k : Fin M => i.mask b n u k) (w ω |>.delay b n u) =
            fun m => raw (Tuple.sort (fun k => raw k - raw first) m) - raw first := by
          unfold unscaledDelays
          rw [hraw]
          simp only [hmin]
          rfl
        rw [hu] at e1
        unfold kFactorDb at e1
        rw [if_pos hk] at e1
        intro m
        simp only [scaling]
        split_ifs at e1 ⊢ with hl
        · simp only at e1
          split_ifs at e1
          simp only [Except.ok.injEq, Prod.mk.injEq] at e1
          rw [← e1.1, ← e1.2]
          refine ⟨rfl, ?_⟩
          simp only [delayScaling, kDb, log10, Real.logb]
        · simp only [Except.ok.injEq, Prod.mk.injEq] at e1
          rw [← e1.1, ← e1.2]
          exact ⟨rfl, (div_one _).symm⟩
      refine ⟨Tuple.sort fun k => raw k - raw first, first, ?_, hfle, fun m => ?_, ?_⟩
      · intro a a' haa
        have := Tuple.monotone_sort (fun k => raw k - raw first) haa
        simp only [Function.comp] at this ⊢
        linarith
      · rw [(hun m).2, (hun m).1]
      · obtain ⟨p, q', hp, -, -, -, -, r', z', g, hr', hz', hg, hpw⟩ :=
          C34_powers h (i.los b n u) (i.lsp b n u).ds (i.lsp b n u).kFactor act (fun k : Fin M => i.mask b n u k) un (w ω |>.shadow b n u)
            (hds b n u) hk hact hmask
        rw [hr] at hr'
        rw [hz] at hz'
        cases hr'
        cases hz'
        rw [hp] at e2
        simp only [Except.ok.injEq, Prod.mk.injEq] at e2
        refine ⟨g, hg, fun m => ?_⟩
        rw [← e2.1, hpw m, (hun m).1]
        simp only [f, Spec.rayNumber, zero_add, r]
    · intro m q
      obtain ⟨x, mu', sigma', hx, hm', hs', -, hval⟩ := C40_xpr h (i.los b n u) (w ω |>.xpr b n u)
      rw [ex] at hx
      cases hx
      rw [getReal_getParam (hmu _)] at hm'
      rw [getReal_getParam (hsigma _)] at hs'
      simp only [Except.ok.injEq, WithBot.coe_inj] at hm' hs'
      subst hm' hs'
      exact hval m q

/-! ### Such draws exist -/

/-- All arrays from one family of numbers; signs and coupling are fixed. -/
noncomputable def Spec.clusterDraws (x : Spec.Cluster B N U M × Spec.Quantity → ℝ) : RayDraws B N U M where
  delay b n u m := x ((b, n, u, m), .delay)
  shadow b n u m := x ((b, n, u, m), .shadowing)
  xpr b n u m r := x ((b, n, u, m), .xpr r)
  signAoa _ _ _ := true
  signAod _ _ _ := true
  signZoa _ _ _ := true
  signZod _ _ _ := true
  aoa _ _ _ _ := 0
  aod _ _ _ _ := 0
  zoa _ _ _ _ := 0
  zod _ _ _ _ := 0
  couplingAoa _ _ _ _ := 0
  couplingAod _ _ _ _ := 0
  couplingZoa _ _ _ _ := 0
  couplingZod _ _ _ _ := 0

theorem rayLaw_probability (q : Spec.Quantity) : IsProbabilityMeasure (Spec.rayLaw q) := by
  rcases q with _ | _ | r
  · refine ⟨?_⟩
    unfold Spec.rayLaw
    rw [Measure.smul_apply, Measure.restrict_apply MeasurableSet.univ, Set.univ_inter, Real.volume_Ico, smul_eq_mul]
    exact ENNReal.inv_mul_cancel (by norm_num) ENNReal.ofReal_ne_top
  · exact inferInstanceAs (IsProbabilityMeasure (gaussianReal 0 1))
  · exact inferInstanceAs (IsProbabilityMeasure (gaussianReal 0 1))

/-- Draws as required exist. -/
theorem exists_rayRandom (B N U M : ℕ) : ∃ P : Measure (Spec.Cluster B N U M × Spec.Quantity → ℝ), IsProbabilityMeasure P ∧
    Spec.RayRandom P (Spec.clusterDraws (B := B) (N := N) (U := U) (M := M)) := by
  have hp : ∀ k : Spec.Cluster B N U M × Spec.Quantity, IsProbabilityMeasure (Spec.rayLaw k.2) := fun k => rayLaw_probability k.2
  refine ⟨Measure.pi fun k => Spec.rayLaw k.2, inferInstance, ?_, ?_⟩
  · rintro ⟨⟨b, n, u, m⟩, q⟩
    have := measurePreserving_eval (fun k : Spec.Cluster B N U M × Spec.Quantity => Spec.rayLaw k.2) ((b, n, u, m), q)
    rcases q with _ | _ | r <;> exact ⟨this.measurable.aemeasurable, this.map_eq⟩
  · have e : (fun (k : Spec.Cluster B N U M × Spec.Quantity) (ω : Spec.Cluster B N U M × Spec.Quantity → ℝ) => Spec.rayNumber (Spec.clusterDraws ω) k) =
        fun k ω => id (ω k) := by
      funext ⟨⟨b, n, u, m⟩, q⟩ ω
      rcases q with _ | _ | r <;> rfl
    rw [e]
    exact iIndepFun_pi (X := fun _ => id) (fun _ => aemeasurable_id)

/-- The hypotheses of C144 can be met, and ray generation succeeds for every draw: an urban uplink, two examples, three clusters of which two
are active. -/
example : ∃ c : Config, mkScenario .urban (exArgs 2000000000 "uplink" 50) = .ok c ∧
    (∀ b n u, 0 < ((exRay 2 true fun _ => 600000).lsp b n u).ds) ∧ (∀ b n u, 0 < ((exRay 2 true fun _ => 600000).lsp b n u).kFactor) ∧
    (∀ b n u, Spec.IsOutdoorMask 2 fun k : Fin 3 => (exRay 2 true fun _ => 600000).mask b n u k) ∧
    (∃ P : Measure (Spec.Cluster 2 1 1 3 × Spec.Quantity → ℝ), IsProbabilityMeasure P ∧ Spec.RayRandom P Spec.clusterDraws) ∧
    ∀ (ω : Spec.Cluster 2 1 1 3 × Spec.Quantity → ℝ) b, ∃ L, raysCall c (exRay 2 true fun _ => 600000) (Spec.clusterDraws ω) b 0 0 = .ok L := by
  obtain ⟨c, hc⟩ := exArgs_ok .urban true false 50 (by norm_num) (by norm_num)
  exact ⟨c, hc, fun _ _ _ => by norm_num [exRay], fun _ _ _ => by norm_num [exRay], fun _ _ _ _ => rfl, exists_rayRandom 2 1 1 3,
    fun ω b => raysCall_defined hc _ _ b 0 0 2 (by norm_num) (fun _ => rfl) (by norm_num [exRay]) (by norm_num [exRay])
      (fun _ => by simp [exRay, log10])⟩

end OpenNTN
