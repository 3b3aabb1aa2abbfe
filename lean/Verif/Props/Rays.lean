import Verif.Lemmas.Rays
import Verif.Props.Channel
import Mathlib.Analysis.SpecialFunctions.Trigonometric.Basic

/-
C31-C41: ray generation.
-/
namespace OpenNTN

open Classical Spec

variable {cls : ScenarioClass} {sa : ScenarioArgs} {c : Config}

/-! ### C31 -/

/-- One BS, UTs apart: the cached mask is that of the present states. -/
theorem mask_fresh {B N U : ℕ} [NeZero B] {always : Bool} {log : List (ChanEvent B N U)} {s : ChanState B N U}
    (h : mkScenario cls sa = .ok c) (hN : N = 1) (r : ChanReach c always log s) (hap : Apart log) :
    ∀ mask los indoor, s.mask = some mask → s.topo.los = some los → s.topo.inState = some indoor →
      ∃ nl nn, c.numClustersLos = .ok nl ∧ c.numClustersNlos = .ok nn ∧
        mask = fun b n u => clusterMask nl.toNat nn.toNat (los b n u) (indoor b u) := by
  induction r with
  | init => intro _ _ _ e; cases e
  | generate z r ih => exact ih fun a d z x ut hm => hap a d z x ut (List.mem_cons_of_mem _ hm)
  | @topology log s a d zz r ih =>
    have ih := ih fun a d z x ut hm => hap a d z x ut (List.mem_cons_of_mem _ hm)
    obtain ⟨tl, rt, -⟩ := r.topo
    have hres := (channel_ready h hN (ChanReach.topology a d zz r) hap).1 a d zz _ List.mem_cons_self
    rcases chanSet_cases (always := always) h rt a d zz with ⟨e, e1, e2⟩ | ⟨e1, e2⟩ |
        ⟨-, -, los, indoor, ut, mean, std, near, F, hst, hF, hc⟩
    · rw [e2] at hres
      have he : e = .assertion := by rcases hres with e | e <;> cases e; rfl
      subst he
      rw [e2, (C11_assertion_partial h rt a.toTopo d).2.1 e1]
      exact ih
    · rw [e2]
      intro mask los indoor h1 h2 h3
      have h1 : s.mask = some mask := h1
      have h2 : (setTopology c s.topo a.toTopo d).1.los = some los := h2
      have h3 : (setTopology c s.topo a.toTopo d).1.inState = some indoor := h3
      obtain ⟨-, -, q, -⟩ := C12_derived_fresh_partial h rt a.toTopo d false e1
      rw [(q rfl).los] at h2
      rcases setTopology_cases h s.topo a.toTopo d with ⟨-, e⟩ | ⟨-, e3, e⟩ | ⟨-, -, -, -, e, -⟩
      · rw [e] at e1; cases e1
      · simp only [needForUpdate, Bool.or_eq_false_iff] at e3
        have e4 : a.toTopo.inState = none := by
          rcases hh : a.toTopo.inState with _ | v
          · rfl
          · simp [hh] at e3
        rw [e] at h3
        have h3 : assign a.toTopo.inState s.topo.inState = some indoor := h3
        rw [e4] at h3
        exact ih mask los indoor h1 h2 h3
      · rw [e] at e1
        split at e1 <;> cases e1
    · rcases hc with ⟨G, hG, mask, ⟨nl, nn, q1, q2, q3⟩, e2⟩ | ⟨hG, e2⟩
      · rw [e2]
        intro mask' los' indoor' h1 h2 h3
        have h1 : mask = mask' := Option.some.inj h1
        have h2 : some los = some los' := hst.los_eq.symm.trans h2
        have h3 : some indoor = some indoor' := hst.indoor_eq.symm.trans h3
        cases h2; cases h3
        exact ⟨nl, nn, q1, q2, h1 ▸ q3⟩
      · rw [e2] at hres
        rcases hres with e | e <;> cases e

/-- C31: the number of generated clusters is the larger of both table values; for an outdoor link the mask keeps exactly the first
`n` clusters, `n` being the table value of the state of the link; and the mask in use is that of the present states. -/
theorem C31_active_clusters (h : mkScenario cls sa = .ok c) :
    ∃ nl nn : ℕ, c.numClustersLos = .ok (nl : ℤ) ∧ c.numClustersNlos = .ok (nn : ℤ) ∧ c.numClustersMax = .ok ((max nl nn : ℕ) : ℤ) ∧
      2 ≤ nl ∧ 2 ≤ nn ∧
      ∀ {B U : ℕ} [NeZero B] (always : Bool) (log : List (ChanEvent B 1 U)) (s : ChanState B 1 U), ChanReach c always log s → Apart log →
        ∀ mask los indoor, s.mask = some mask → s.topo.los = some los → s.topo.inState = some indoor → ∀ b n u, indoor b u = false →
          ∀ k : ℕ, mask b n u k = if k < (if los b n u then nl else nn) then 0 else 1 := by
  obtain ⟨-, ⟨nl, h1, h2, -⟩, ⟨nn, h3, h4, -⟩, -⟩ := C04_admissible_values h
  lift nl to ℕ using by omega
  lift nn to ℕ using by omega
  refine ⟨nl, nn, h1, h3, ?_, by exact_mod_cast h2, by exact_mod_cast h4, ?_⟩
  · obtain ⟨-, -, -, ⟨n, hn⟩, -⟩ := C03_lookups_succeed h
    unfold Config.numClustersLos at h1
    unfold Config.numClustersNlos at h3
    unfold Config.numClustersMax
    rcases e1 : lookupAngle c.paramsLos .pnumClusters c.angleKey with _ | v1
    · rw [e1] at h1; cases h1
    · rcases e2 : lookupAngle c.paramsNlos .pnumClusters c.angleKey with _ | v2
      · rw [e2] at h3; cases h3
      · rw [e1] at h1; rw [e2] at h3
        have h1 : v1.toInt = nl := Except.ok.inj h1
        have h3 : v2.toInt = nn := Except.ok.inj h3
        simp only [h1, h3]
        push_cast; rfl
  · intro B U _ always log s r hap mask los indoor q1 q2 q3 b n u hi k
    obtain ⟨nl', nn', p1, p2, p3⟩ := mask_fresh h rfl r hap mask los indoor q1 q2 q3
    rw [h1] at p1; rw [h3] at p2
    cases p1; cases p2
    rw [p3]
    dsimp only
    rw [hi]
    exact clusterMask_outdoor nl nn (los b n u) k

/-- Not vacuous: after a complete call the mask exists. -/
example : ∃ (c : Config) (log : List (ChanEvent 2 1 3)) (s : ChanState 2 1 3) (i : CallInputs 2 1 3),
    mkScenario .urban (exArgs 2000000000 "uplink" 50) = .ok c ∧ ChanReach c false log s ∧ Apart log ∧
      callInputs false s (exZ 2 1 3) = .ok i := by
  obtain ⟨c, hc⟩ := exConfig
  obtain ⟨log, s, i, r, ha, hi, -⟩ := exChan_generates hc false 2 3 (exZ 2 1 3)
  exact ⟨c, log, s, i, hc, r, ha, hi⟩

/-! ### C32 -/

section
variable {M : ℕ} [NeZero M]

/-- Sorted, non-negative, starting at zero. -/
def Spec.IsDelayProfile (d : Fin M → ℝ) : Prop := Monotone d ∧ d 0 = 0 ∧ ∀ k, 0 ≤ d k

/-- The mask of an outdoor link with `n` active clusters. -/
def Spec.IsOutdoorMask (n : ℕ) (mask : Fin M → ℝ) : Prop := ∀ k, mask k = if k.val < n then 0 else 1

end

/-- The full claim of C32. -/
def C32_statement : Prop :=
  ∀ (cls : ScenarioClass) (sa : ScenarioArgs) (c : Config), mkScenario cls sa = .ok c →
    ∀ (M : ℕ) [NeZero M] (los : Bool) (ds k : ℝ) (n : ℕ) (mask x : Fin M → ℝ), 0 < ds → 0 < k → IsOutdoorMask n mask →
      (∀ i, 1e-6 ≤ x i ∧ x i < 1) →
      ∃ d u, clusterDelays c los ds k mask x = .ok (d, u) ∧ IsDelayProfile d ∧ IsDelayProfile u

/-- C32, what holds: unscaled delays always; scaled delays for NLoS links and for LoS links with a K-factor of at least -60 dB, whatever
the mask, the delay spread and the draws. Missing: smaller K-factors, see `C32_threshold`, `C32_violated`. -/
theorem C32_delays_partial (h : mkScenario cls sa = .ok c) {M : ℕ} [NeZero M] (los : Bool) (ds k : ℝ) (mask x : Fin M → ℝ)
    (hk : los = true → 1e-6 ≤ k) :
    ∃ d u, clusterDelays c los ds k mask x = .ok (d, u) ∧ IsDelayProfile d ∧ IsDelayProfile u ∧
      (los = false → d = u) ∧
      (los = true → ∃ f > 0, (∀ i, d i = u i / f) ∧
        f = 0.7705 - 0.0433 * (10 * log10 k) + 0.0002 * (10 * log10 k) ^ 2 + 0.000017 * (10 * log10 k) ^ 3) := by
  obtain ⟨r, hr, -, -⟩ := rTau_range h los
  have hu : IsDelayProfile (unscaledDelays r ds mask x) :=
    ⟨unscaled_mono _ _ _ _, unscaled_zero _ _ _ _, unscaled_nonneg _ _ _ _⟩
  cases los
  · refine ⟨_, _, by unfold clusterDelays; rw [hr]; rfl, hu, hu, fun _ => rfl, fun hh => (by cases hh)⟩
  · have hk := hk rfl
    have hk0 : 0 < k := lt_of_lt_of_le (by norm_num) hk
    have hdb : -60 ≤ 10 * log10 k := by
      unfold log10
      have h10 : 0 < Real.log 10 := Real.log_pos (by norm_num)
      have : Real.log (1e-6) ≤ Real.log k := Real.log_le_log (by norm_num) hk
      rw [show (1e-6 : ℝ) = 10 ^ (-6 : ℝ) by rw [Real.rpow_neg (by norm_num)]; norm_num, Real.log_rpow (by norm_num)] at this
      have : -6 ≤ Real.log k / Real.log 10 := by rw [le_div_iff₀ h10]; linarith
      linarith
    have hp := delayScaling_pos hdb
    refine ⟨fun i => unscaledDelays r ds mask x i / delayScaling (10 * log10 k), unscaledDelays r ds mask x, ?_, ?_, hu,
      fun hh => (by cases hh), fun _ => ⟨_, hp, fun _ => rfl, rfl⟩⟩
    · unfold clusterDelays kFactorDb
      rw [hr, if_pos hk0]
      simp only [bind, Except.bind, if_true]
      rw [if_neg hp.ne']
    · exact ⟨fun i j hij => div_le_div_of_nonneg_right (hu.1 hij) hp.le, by simp [hu.2.1], fun i => div_nonneg (hu.2.2 i) hp.le⟩

/-- A dense urban downlink in the Ka-band and a K-factor of 10 dB. -/
example : (∃ c, mkScenario .denseUrban (exArgs 20000000000 "downlink" 30) = .ok c) ∧ (1e-6 : ℝ) ≤ 10 :=
  ⟨by simpa using exArgs_ok .denseUrban false true 30 (by norm_num) (by norm_num), by norm_num⟩


/-- A negative scaling makes delays negative. -/
theorem delays_negative (h : mkScenario cls sa = .ok c) {k : ℝ} (hk : 0 < k) (hneg : delayScaling (10 * log10 k) < 0) :
    ∃ x : Fin 2 → ℝ, (∀ i, 1e-6 ≤ x i ∧ x i < 1) ∧
      ∀ d u, clusterDelays c true 1 k (fun _ => 0) x = .ok (d, u) → ¬ IsDelayProfile d := by
  obtain ⟨r, hr, hr1, -⟩ := rTau_range h true
  let x : Fin 2 → ℝ := fun i => if i = 0 then Real.exp (-1) else Real.exp (-2)
  have e1 : Real.exp (-1) < 1 := by rw [Real.exp_lt_one_iff]; norm_num
  have e2 : Real.exp (-2) < 1 := by rw [Real.exp_lt_one_iff]; norm_num
  have e3 : (1e-6 : ℝ) ≤ Real.exp (-2) := by
    have := Real.add_one_le_exp (-2 / 3 : ℝ)
    have h0 : (0 : ℝ) < Real.exp (-2 / 3) := Real.exp_pos _
    have h3 : Real.exp (-2) = Real.exp (-2 / 3) ^ 3 := by rw [← Real.exp_nat_mul]; norm_num
    rw [h3]
    have : (1 / 3 : ℝ) ^ 3 ≤ Real.exp (-2 / 3) ^ 3 := pow_le_pow_left₀ (by norm_num) (by linarith) 3
    norm_num at this ⊢; linarith
  have e4 : (1e-6 : ℝ) ≤ Real.exp (-1) := e3.trans (Real.exp_le_exp.2 (by norm_num))
  refine ⟨x, fun i => ?_, fun d u e hd => ?_⟩
  · fin_cases i
    · exact ⟨e4, e1⟩
    · exact ⟨e3, e2⟩
  unfold clusterDelays kFactorDb at e
  rw [hr, if_pos hk] at e
  simp only [bind, Except.bind, if_true] at e
  rw [if_neg hneg.ne] at e
  have e : (fun i => unscaledDelays r 1 (fun _ => 0) x i / delayScaling (10 * log10 k)) = d := congrArg Prod.fst (Except.ok.inj e)
  have hu := unscaled_nonneg r 1 (fun _ => 0) x
  have hz : ∀ i, unscaledDelays r 1 (fun _ => 0) x i = 0 := by
    intro i
    have h1 : 0 ≤ unscaledDelays r 1 (fun _ => 0) x i / delayScaling (10 * log10 k) := by
      have := hd.2.2 i; rw [← e] at this; exact this
    rcases (hu i).lt_or_eq with hh | hh
    · exact absurd h1 (not_le.2 (div_neg_of_pos_of_neg hh hneg))
    · exact hh.symm
  obtain ⟨σ, hσ⟩ := unscaled_eq r 1 (fun _ => 0) x
  have g0 := hz (σ.symm 0)
  have g1 := hz (σ.symm 1)
  rw [hσ, σ.apply_symm_apply] at g0 g1
  have : rawDelays r 1 (fun _ => 0) x 0 = rawDelays r 1 (fun _ => 0) x 1 := by linarith
  simp [rawDelays, x] at this
  linarith

/-- C32 fails: a LoS link with a K-factor of -70 dB has negative delays. -/
theorem C32_violated : ¬ C32_statement := by
  intro H
  obtain ⟨c, hc⟩ := exConfig
  have hneg : delayScaling (10 * log10 (pow10 (-7))) < 0 := by rw [log10_pow10]; unfold delayScaling; norm_num
  obtain ⟨x, hx, hn⟩ := delays_negative hc (pow10_pos _) hneg
  obtain ⟨d, u, e, hd, -⟩ := H _ _ c hc 2 true 1 (pow10 (-7)) 2 (fun _ => 0) x one_pos (pow10_pos _)
    (fun k => by rw [if_pos k.isLt]) hx
  exact hn d u e hd

theorem delayScaling_mono {a b : ℝ} (hab : a < b) (hb : b ≤ -60) : delayScaling a < delayScaling b := by
  unfold delayScaling
  have h : 0 < (b - a) * (-0.0433 + 0.0002 * (a + b) + 0.000017 * (a ^ 2 + a * b + b ^ 2)) := by
    refine mul_pos (by linarith) ?_
    have h1 : 60 * 60 ≤ a * b := by nlinarith
    have h2 : 60 * -a ≤ a ^ 2 := by nlinarith
    have h3 : 60 * -b ≤ b ^ 2 := by nlinarith
    linarith
  nlinarith [h]

/-- The scaling changes its sign exactly once. -/
theorem delayScaling_root : ∃ x0 : ℝ, -63.4 < x0 ∧ x0 < -63.3 ∧ ∀ x, 0 < delayScaling x ↔ x0 < x := by
  have hc : ContinuousOn delayScaling (Set.Icc (-63.4) (-63.3)) := by unfold delayScaling; fun_prop
  have l : delayScaling (-63.4) < 0 := by unfold delayScaling; norm_num
  have r : 0 < delayScaling (-63.3) := by unfold delayScaling; norm_num
  obtain ⟨x0, ⟨h1, h2⟩, h3⟩ := intermediate_value_Ioo (by norm_num) hc ⟨l, r⟩
  refine ⟨x0, h1, h2, fun x => ⟨fun hx => ?_, fun hx => ?_⟩⟩
  · by_contra hle
    rcases (not_lt.1 hle).lt_or_eq with hlt | rfl
    · have := delayScaling_mono hlt (by linarith); linarith
    · linarith
  · rcases le_or_gt (-60) x with h | h
    · exact delayScaling_pos h
    · have := delayScaling_mono hx h.le; linarith

/-- C32 exactly: there is one K-factor between -63.4 dB and -63.3 dB, the same for all scenarios, above which the claim holds for LoS links whatever the
draws, and up to which it does not. -/
theorem C32_threshold : ∃ K0 : ℝ, 0 < K0 ∧ -63.4 < 10 * log10 K0 ∧ 10 * log10 K0 < -63.3 ∧
    ∀ (cls : ScenarioClass) (sa : ScenarioArgs) (c : Config), mkScenario cls sa = .ok c → ∀ k, 0 < k →
      ((∀ (M : ℕ) [NeZero M] (ds : ℝ) (n : ℕ) (mask x : Fin M → ℝ), 0 < ds → IsOutdoorMask n mask → (∀ i, 1e-6 ≤ x i ∧ x i < 1) →
        ∃ d u, clusterDelays c true ds k mask x = .ok (d, u) ∧ IsDelayProfile d ∧ IsDelayProfile u) ↔ K0 < k) := by
  obtain ⟨x0, h1, h2, h3⟩ := delayScaling_root
  have hl : 10 * log10 (pow10 (x0 / 10)) = x0 := by rw [log10_pow10]; ring
  refine ⟨pow10 (x0 / 10), pow10_pos _, by rwa [hl], by rwa [hl], fun cls sa c h k hk => ?_⟩
  have hlt : pow10 (x0 / 10) < k ↔ 0 < delayScaling (10 * log10 k) := by
    rw [h3]
    have : log10 (pow10 (x0 / 10)) < log10 k ↔ pow10 (x0 / 10) < k := by
      unfold log10
      rw [div_lt_div_iff_of_pos_right (Real.log_pos (by norm_num)), Real.log_lt_log_iff (pow10_pos _) hk]
    rw [← this, log10_pow10]
    constructor <;> intro hh <;> linarith
  rw [hlt]
  refine ⟨fun H => ?_, fun hp M _ ds n mask x hds hm hx => ?_⟩
  · rcases lt_trichotomy (delayScaling (10 * log10 k)) 0 with hn | hn | hn
    · obtain ⟨x, hx, hno⟩ := delays_negative h hk hn
      obtain ⟨d, u, e, hd, -⟩ := H 2 1 2 (fun _ => 0) x one_pos (fun i => by rw [if_pos i.isLt]) hx
      exact absurd hd (hno d u e)
    · obtain ⟨x, hx, -⟩ : ∃ x : Fin 2 → ℝ, (∀ i, 1e-6 ≤ x i ∧ x i < 1) ∧ True := ⟨fun _ => 0.5, fun _ => by norm_num, trivial⟩
      obtain ⟨d, u, e, -⟩ := H 2 1 2 (fun _ => 0) x one_pos (fun i => by rw [if_pos i.isLt]) hx
      obtain ⟨r, hr, -⟩ := rTau_range h true
      unfold clusterDelays kFactorDb at e
      rw [hr, if_pos hk] at e
      simp only [bind, Except.bind, if_true, hn] at e
      cases e
    · exact hn
  · obtain ⟨r, hr, -⟩ := rTau_range h true
    have hu : IsDelayProfile (unscaledDelays r ds mask x) :=
      ⟨unscaled_mono _ _ _ _, unscaled_zero _ _ _ _, unscaled_nonneg _ _ _ _⟩
    refine ⟨fun i => unscaledDelays r ds mask x i / delayScaling (10 * log10 k), unscaledDelays r ds mask x, ?_, ?_, hu⟩
    · unfold clusterDelays kFactorDb
      rw [hr, if_pos hk]
      simp only [bind, Except.bind, if_true]
      rw [if_neg hp.ne']
    · exact ⟨fun i j hij => div_le_div_of_nonneg_right (hu.1 hij) hp.le, by simp [hu.2.1], fun i => div_nonneg (hu.2.2 i) hp.le⟩

/-! ### C33 -/

/-- C33: with a delay spread of at most 20 ms, sorting keeps the inactive clusters behind the active ones (with strictly larger delays),
so that the power mask, which goes by position, hits exactly them: they have no power, the others have. -/
theorem C33_inactive_last (h : mkScenario cls sa = .ok c) {M : ℕ} [NeZero M] (los : Bool) (ds k : ℝ) (n : ℕ) (mask x z : Fin M → ℝ)
    (hds : 0 < ds) (hds' : ds ≤ 0.02) (hmask : IsOutdoorMask n mask) (hx : ∀ i, 1e-6 ≤ x i ∧ x i < 1)
    {d u p q : Fin M → ℝ} (hd : clusterDelays c los ds k mask x = .ok (d, u)) (hp : clusterPowers c los ds k mask u z = .ok (p, q)) :
    (∃ r, c.getReal .prTau los = .ok r ∧ ∃ σ : Equiv.Perm (Fin M), (∀ i, (σ i).val < n ↔ i.val < n) ∧
      (∀ i j, i.val < n → j.val < n → u j - u i = -r * ds * (Real.log (x (σ j)) - Real.log (x (σ i))))) ∧
    (∀ i j, i.val < n → ¬ j.val < n → u i < u j) ∧ (∀ i, p i = 0 ↔ ¬ i.val < n) := by
  obtain ⟨r, hr, hr1, hr2⟩ := rTau_range h los
  have hu : u = unscaledDelays r ds mask x := by
    unfold clusterDelays at hd
    rw [hr] at hd
    simp only [bind, Except.bind] at hd
    cases los
    · exact (congrArg Prod.snd (Except.ok.inj hd)).symm
    · rcases hk : kFactorDb k with e | kd
      · rw [hk] at hd; cases hd
      · rw [hk] at hd
        simp only [if_true] at hd
        split at hd
        · cases hd
        · exact (congrArg Prod.snd (Except.ok.inj hd)).symm
  have hlog : ∀ i, 0 < -Real.log (x i) ∧ -Real.log (x i) < 13.818 := by
    intro i
    have h0 : 0 < x i := lt_of_lt_of_le (by norm_num) (hx i).1
    have h1 := Real.log_neg h0 (hx i).2
    have h2 : Real.log (1e-6) ≤ Real.log (x i) := Real.log_le_log (by norm_num) (hx i).1
    rw [show (1e-6 : ℝ) = 10 ^ (-6 : ℝ) by rw [Real.rpow_neg (by norm_num)]; norm_num, Real.log_rpow (by norm_num)] at h2
    have := log_ten_lt
    norm_num at this ⊢
    constructor <;> linarith
  have hraw : ∀ i, rawDelays r ds mask x i < 1 ↔ i.val < n := by
    intro i
    unfold rawDelays
    rw [hmask i]
    split_ifs with hi
    · simp only [hi, iff_true]
      have h1 := hlog i
      have h2 : r * ds ≤ 3.5 * 0.02 := mul_le_mul hr2 hds' hds.le (by norm_num)
      have h3 : r * ds * (-Real.log (x i)) ≤ 3.5 * 0.02 * 13.818 := mul_le_mul h2 h1.2.le h1.1.le (by norm_num)
      norm_num at h3 ⊢
      linarith
    · simp [hi]
  obtain ⟨σ, hσ⟩ := unscaled_eq r ds mask x
  have hm : Monotone (rawDelays r ds mask x ∘ σ) := by
    intro i j hij
    have := unscaled_mono r ds mask x hij
    rw [hσ, hσ] at this
    simp only [Function.comp_apply]; linarith
  have hb := sort_block hraw hm
  refine ⟨⟨r, hr, σ, hb, fun i j hi hj => ?_⟩, fun i j hi hj => ?_, fun i => ?_⟩
  · rw [hu, hσ, hσ]
    unfold rawDelays
    rw [hmask, hmask, if_pos ((hb i).2 hi), if_pos ((hb j).2 hj)]; ring
  · rw [hu, hσ, hσ]
    have h1 := (hraw _).2 ((hb i).2 hi)
    have h2 := mt (hraw _).1 (mt (hb j).1 hj)
    linarith
  · unfold clusterPowers at hp
    rw [hr] at hp
    rcases hz : c.getReal .pzeta los with e | zeta
    · rw [hz] at hp; cases hp
    rw [hz] at hp
    simp only [bind, Except.bind] at hp
    split at hp
    · cases hp
    split at hp
    · cases hp
    rename_i hs
    have hpe : p = fun i => rawPowers r zeta ds mask u z i / ∑ j, rawPowers r zeta ds mask u z j := by
      cases los
      · exact (congrArg Prod.fst (Except.ok.inj hp)).symm
      · simp only [if_true] at hp
        split at hp
        · cases hp
        · exact (congrArg Prod.fst (Except.ok.inj hp)).symm
    rw [hpe]
    simp only [div_eq_zero_iff, hs, or_false]
    unfold rawPowers
    rw [hmask]
    have : Real.exp (-u i * (r - 1) / (r * ds)) * pow10 (-(zeta * z i) / 10) ≠ 0 :=
      mul_ne_zero (Real.exp_pos _).ne' (pow10_pos _).ne'
    split_ifs with hi
    · simp only [sub_zero, mul_one, this, hi, not_true]
    · simp [hi]

/-! ### C34 -/

/-- Non-negative and of sum one. -/
def Spec.IsProbability {M : ℕ} (p : Fin M → ℝ) : Prop := (∀ i, 0 ≤ p i) ∧ ∑ i, p i = 1

/-- C34: cluster powers of an outdoor link (at least one active cluster) are a probability vector, for the coefficients and for the
angles. Active clusters decay exponentially with the delay and have log-normal shadowing of the tabulated deviation; with LoS the
powers for the angles are those of the Rician mixture. -/
theorem C34_powers (h : mkScenario cls sa = .ok c) {M : ℕ} [NeZero M] (los : Bool) (ds k : ℝ) (n : ℕ) (mask u z : Fin M → ℝ)
    (hds : 0 < ds) (hk : 0 < k) (hn : 0 < n) (hmask : IsOutdoorMask n mask) :
    ∃ p q, clusterPowers c los ds k mask u z = .ok (p, q) ∧ IsProbability p ∧ IsProbability q ∧
      (los = false → q = p) ∧
      (los = true → ∀ i, q i = (if i = 0 then k / (k + 1) else 0) + p i / (k + 1)) ∧
      ∃ r zeta g, c.getReal .prTau los = .ok r ∧ c.getReal .pzeta los = .ok zeta ∧ 0 < g ∧ ∀ i,
        p i = if i.val < n then g * (Real.exp (-(u i) * (r - 1) / (r * ds)) * (10 : ℝ) ^ (-(zeta * z i) / 10)) else 0 := by
  obtain ⟨r, hr, hr1, hr2⟩ := rTau_range h los
  obtain ⟨zeta, hz, -⟩ := ((C04_admissible_values h).2.2.2.2 los).2.1
  have hraw : ∀ i, rawPowers r zeta ds mask u z i =
      if i.val < n then Real.exp (-(u i) * (r - 1) / (r * ds)) * (10 : ℝ) ^ (-(zeta * z i) / 10) else 0 := by
    intro i
    unfold rawPowers pow10
    rw [hmask]
    split_ifs <;> simp
  have hpos : ∀ i, 0 ≤ rawPowers r zeta ds mask u z i := by
    intro i; rw [hraw]; split_ifs
    · positivity
    · exact le_refl _
  have hsum : 0 < ∑ i, rawPowers r zeta ds mask u z i := by
    refine Finset.sum_pos' (fun i _ => hpos i) ⟨0, Finset.mem_univ _, ?_⟩
    rw [hraw, if_pos (by simpa using hn)]
    positivity
  have hprob : IsProbability fun i => rawPowers r zeta ds mask u z i / ∑ j, rawPowers r zeta ds mask u z j :=
    ⟨fun i => div_nonneg (hpos i) hsum.le, by rw [← Finset.sum_div, div_self hsum.ne']⟩
  have hrd : r * ds ≠ 0 := by positivity
  have hg : ∀ i, rawPowers r zeta ds mask u z i / ∑ j, rawPowers r zeta ds mask u z j =
      if i.val < n then (1 / ∑ j, rawPowers r zeta ds mask u z j) *
        (Real.exp (-(u i) * (r - 1) / (r * ds)) * (10 : ℝ) ^ (-(zeta * z i) / 10)) else 0 := by
    intro i
    rw [div_eq_mul_one_div, mul_comm]
    conv_lhs => rw [hraw i]
    split_ifs <;> simp
  cases los
  · refine ⟨_, _, ?_, hprob, hprob, fun _ => rfl, fun hh => (by cases hh), r, zeta, _, hr, hz, one_div_pos.2 hsum, hg⟩
    unfold clusterPowers
    rw [hr, hz]
    simp only [bind, Except.bind]
    rw [if_neg hrd, if_neg hsum.ne']
    rfl
  · have hk1 : k + 1 ≠ 0 := by positivity
    have hq : ∀ i : Fin M, (if i = 0 then 1 / (k + 1) * (rawPowers r zeta ds mask u z i / ∑ j, rawPowers r zeta ds mask u z j) +
        k * (1 / (k + 1)) else 1 / (k + 1) * (rawPowers r zeta ds mask u z i / ∑ j, rawPowers r zeta ds mask u z j)) =
        (if i = 0 then k / (k + 1) else 0) + (rawPowers r zeta ds mask u z i / ∑ j, rawPowers r zeta ds mask u z j) / (k + 1) := by
      intro i
      split_ifs <;> ring
    refine ⟨_, _, ?_, hprob, ⟨fun i => ?_, ?_⟩, fun hh => (by cases hh), fun _ => hq, r, zeta, _, hr, hz, one_div_pos.2 hsum, hg⟩
    · unfold clusterPowers
      rw [hr, hz]
      simp only [bind, Except.bind, if_true]
      rw [if_neg hrd, if_neg hsum.ne', if_neg hk1]
    · rw [hq]
      have := hprob.1 i
      split_ifs <;> positivity
    · simp_rw [hq]
      rw [Finset.sum_add_distrib, ← Finset.sum_div, hprob.2]
      simp only [Finset.sum_ite_eq', Finset.mem_univ, if_true]
      field_simp

/-- Hypotheses of C33 and C34 can be met: two of three clusters active. -/
example : ∃ (c : Config) (mask x : Fin 3 → ℝ) (p q d u : Fin 3 → ℝ), mkScenario .urban (exArgs 2000000000 "uplink" 50) = .ok c ∧
    IsOutdoorMask 2 mask ∧ (∀ i, 1e-6 ≤ x i ∧ x i < 1) ∧ clusterDelays c true 1e-7 10 mask x = .ok (d, u) ∧
    clusterPowers c true 1e-7 10 mask u (fun _ => 1) = .ok (p, q) := by
  obtain ⟨c, hc⟩ := exConfig
  obtain ⟨d, u, e, -⟩ := C32_delays_partial hc true 1e-7 10 (fun k : Fin 3 => if k.val < 2 then 0 else 1) (fun _ => 1 / 2)
    (fun _ => by norm_num)
  obtain ⟨p, q, e', -⟩ := C34_powers hc true 1e-7 10 2 (fun k : Fin 3 => if k.val < 2 then 0 else 1) u (fun _ => 1)
    (by norm_num) (by norm_num) (by norm_num) (fun _ => rfl)
  exact ⟨c, _, fun _ => 1 / 2, p, q, d, u, hc, fun _ => rfl, fun _ => by norm_num, e, e'⟩

/-! ### C35 -/

/-- The full claim of C35: powers of any link, with the mask the code computes, are a probability vector. -/
def C35_statement : Prop :=
  ∀ (cls : ScenarioClass) (sa : ScenarioArgs) (c : Config), mkScenario cls sa = .ok c →
    ∀ (M : ℕ) [NeZero M] (los indoor : Bool) (ds k : ℝ) (u z : Fin M → ℝ) (nl nn : ℤ), 0 < ds → 0 < k → (indoor = true → los = false) →
      c.numClustersLos = .ok nl → c.numClustersNlos = .ok nn →
      ∃ p q, clusterPowers c los ds k (fun i => clusterMask nl.toNat nn.toNat los indoor i) u z = .ok (p, q) ∧ IsProbability p

/-- C35, what holds: powers are defined exactly for outdoor UTs; for an indoor UT they are not a number, in every configuration and for all
draws. Missing: powers of indoor UTs, see `C35_violated`. -/
theorem C35_outdoor_partial (h : mkScenario cls sa = .ok c) {M : ℕ} [NeZero M] (los indoor : Bool) (ds k : ℝ) (u z : Fin M → ℝ)
    (nl nn : ℤ) (hds : 0 < ds) (hk : 0 < k) (hi : indoor = true → los = false)
    (hl : c.numClustersLos = .ok nl) (hn : c.numClustersNlos = .ok nn) :
    (indoor = false → ∃ p q, clusterPowers c los ds k (fun i => clusterMask nl.toNat nn.toNat los indoor i) u z = .ok (p, q) ∧
      IsProbability p) ∧
    (indoor = true → clusterPowers c los ds k (fun i => clusterMask nl.toNat nn.toNat los indoor i) u z = .error .notANumber) := by
  obtain ⟨-, ⟨nl', h1, h2, -⟩, ⟨nn', h3, h4, -⟩, -⟩ := C04_admissible_values h
  rw [hl] at h1; cases h1
  rw [hn] at h3; cases h3
  constructor
  · rintro rfl
    obtain ⟨p, q, e, hp, -⟩ := C34_powers h los ds k (if los then nl.toNat else nn.toNat)
      (fun i : Fin M => clusterMask nl.toNat nn.toNat los false i) u z hds hk (by split_ifs <;> omega)
      (fun i => clusterMask_outdoor _ _ _ _)
    exact ⟨p, q, e, hp⟩
  · rintro rfl
    have := hi rfl
    subst this
    obtain ⟨r, hr, hr1, hr2⟩ := rTau_range h false
    obtain ⟨zeta, hz, -⟩ := ((C04_admissible_values h).2.2.2.2 false).2.1
    have : ∀ i : Fin M, rawPowers r zeta ds (fun i => clusterMask nl.toNat nn.toNat false true i) u z i = 0 := by
      intro i; unfold rawPowers; dsimp only; rw [clusterMask_indoor]; ring
    unfold clusterPowers
    rw [hr, hz]
    simp only [bind, Except.bind, this, Finset.sum_const_zero, if_true]
    split_ifs <;> rfl

/-- The cluster counts of an urban link. -/
example : ∃ (c : Config) (nl nn : ℤ), mkScenario .urban (exArgs 2000000000 "uplink" 50) = .ok c ∧ c.numClustersLos = .ok nl ∧
    c.numClustersNlos = .ok nn ∧ 2 ≤ nl ∧ 2 ≤ nn := by
  obtain ⟨c, h⟩ := exConfig
  obtain ⟨nl, nn, h1, h2, -, h3, h4, -⟩ := C31_active_clusters h
  exact ⟨c, nl, nn, h, h1, h2, by exact_mod_cast h3, by exact_mod_cast h4⟩

/-- C35 fails for every indoor UT. -/
theorem C35_violated : ¬ C35_statement := by
  intro H
  obtain ⟨c, hc⟩ := exConfig
  obtain ⟨-, ⟨nl, h1, -⟩, ⟨nn, h3, -⟩, -⟩ := C04_admissible_values hc
  obtain ⟨p, q, e, -⟩ := H _ _ c hc 3 false true 1 1 (fun _ => 0) (fun _ => 0) nl nn one_pos one_pos (fun _ => rfl) h1 h3
  rw [(C35_outdoor_partial hc false true 1 1 (fun _ => 0) (fun _ => 0) nl nn one_pos one_pos (fun _ => rfl) h1 h3).2 rfl] at e
  cases e

/-! ### Structure of the generated rays -/

/-- The rays of a cluster in azimuth (radian): the offsets around the centre, in some order, up to full turns, normalised. -/
def Spec.AzimuthRays {R : ℕ} (a : Fin R → ℝ) (center spread : ℝ) (offs : Fin R → ℝ) : Prop :=
  ∃ σ : Equiv.Perm (Fin R), ∀ r, -Real.pi < a r ∧ a r ≤ Real.pi ∧
    ∃ m : ℤ, a r = (center + spread * offs (σ r)) * (Real.pi / 180) + m * (2 * Real.pi)

/-- The rays of a cluster in zenith (radian): the offsets around the centre, in some order, folded into `[0,π]`. -/
def Spec.ZenithRays {R : ℕ} (a : Fin R → ℝ) (center spread : ℝ) (offs : Fin R → ℝ) : Prop :=
  ∃ σ : Equiv.Perm (Fin R), ∀ r, 0 ≤ a r ∧ a r ≤ Real.pi ∧
    Real.cos (a r) = Real.cos ((center + spread * offs (σ r)) * (Real.pi / 180))

theorem azimuthRays_of {R : ℕ} (σ : Equiv.Perm (Fin R)) (center spread : ℝ) (offs : Fin R → ℝ) :
    AzimuthRays (fun r => deg2rad (azimuthRay center spread (offs (σ r)))) center spread offs := by
  refine ⟨σ, fun r => ?_⟩
  obtain ⟨h1, h2, m, h3⟩ := azimuthRay_spec center spread (offs (σ r))
  have hpi := Real.pi_pos
  unfold deg2rad
  refine ⟨?_, ?_, m, ?_⟩
  · have : -180 * (Real.pi / 180) < azimuthRay center spread (offs (σ r)) * (Real.pi / 180) :=
      mul_lt_mul_of_pos_right h1 (by positivity)
    linarith
  · have : azimuthRay center spread (offs (σ r)) * (Real.pi / 180) ≤ 180 * (Real.pi / 180) :=
      mul_le_mul_of_nonneg_right h2 (by positivity)
    linarith
  · dsimp only; rw [h3]; ring

theorem zenithRay_cos (a s o : ℝ) : Real.cos (zenithRay a s o * (Real.pi / 180)) = Real.cos ((a + s * o) * (Real.pi / 180)) := by
  obtain ⟨-, -, m, h | h⟩ := zenithRay_spec a s o
  · rw [h, show (a + s * o + 360 * (m : ℝ)) * (Real.pi / 180) = (a + s * o) * (Real.pi / 180) + m * (2 * Real.pi) by ring,
      Real.cos_add_int_mul_two_pi]
  · rw [h, show (-(a + s * o) + 360 * (m : ℝ)) * (Real.pi / 180) = -((a + s * o) * (Real.pi / 180)) + m * (2 * Real.pi) by ring,
      Real.cos_add_int_mul_two_pi, Real.cos_neg]

theorem zenithRays_of {R : ℕ} (σ : Equiv.Perm (Fin R)) (center spread : ℝ) (offs : Fin R → ℝ) :
    ZenithRays (fun r => deg2rad (zenithRay center spread (offs (σ r)))) center spread offs := by
  refine ⟨σ, fun r => ?_⟩
  obtain ⟨h1, h2, -⟩ := zenithRay_spec center spread (offs (σ r))
  have hpi := Real.pi_pos
  unfold deg2rad
  refine ⟨by positivity, ?_, zenithRay_cos _ _ _⟩
  have : zenithRay center spread (offs (σ r)) * (Real.pi / 180) ≤ 180 * (Real.pi / 180) :=
    mul_le_mul_of_nonneg_right h2 (by positivity)
  linarith

section
variable {B N U M : ℕ} [NeZero B] [NeZero N] [NeZero M]

/-- Everything that goes into the rays of a link. -/
theorem raysCall_ok {i : RayInputs B N U} {w : RayDraws B N U M} {b : Fin B} {n : Fin N} {u : Fin U} {L : LinkRays M}
    (h : raysCall c i w b n u = .ok L) :
    ∃ un q caa cad cza aoa aod devA devD,
      clusterDelays c (i.los b n u) (i.lsp b n u).ds (i.lsp b n u).kFactor (fun k : Fin M => i.mask b n u k) (w.delay b n u) =
        .ok (L.delays, un) ∧
      clusterPowers c (i.los b n u) (i.lsp b n u).ds (i.lsp b n u).kFactor (fun k : Fin M => i.mask b n u k) un (w.shadow b n u) =
        .ok (L.powers, q) ∧
      c.getReal .pcASA (i.los b n u) = .ok caa ∧ c.getReal .pcASD (i.los b n u) = .ok cad ∧ c.getReal .pcZSA (i.los b n u) = .ok cza ∧
      azimuthClusters c (i.los b n u) (i.lsp b n u).asa (i.lsp b n u).kFactor (i.angles b n u).aoa q (w.signAoa b n) (w.aoa b n u) =
        .ok aoa ∧
      azimuthClusters c (i.los b n u) (departureSpread (i.bsHeight 0 0) (i.lsp b n u).asd) (i.lsp b n u).kFactor (i.angles b n u).aod q
        (w.signAod b n) (w.aod b n u) = .ok aod ∧
      zenithDeviation c (i.los b n u) (i.indoor b u) (i.lsp b n u).zsa (i.lsp b n u).kFactor q (w.signZoa b n) (w.zoa b n u) =
        .ok devA ∧
      zenithDeviation c (i.los b n u) (i.indoor b u) (departureSpread (i.bsHeight 0 0) (i.lsp b n u).zsd) (i.lsp b n u).kFactor q
        (w.signZod b n) (w.zod b n u) = .ok devD ∧
      crossPolarization c (i.los b n u) (w.xpr b n u) = .ok L.xpr ∧
      ∀ m, AzimuthRays (L.aoa m) (aoa m) caa rayOffsets ∧ AzimuthRays (L.aod m) (aod m) cad rayOffsets ∧
        ZenithRays (L.zoa m) (zoaClusters (i.los b n u) (i.indoor b u) (i.angles b n u).zoa devA m) cza rayOffsets ∧
        ZenithRays (L.zod m) (zodClusters (i.los b n u) (i.indoor b u) (i.angles b n u).zod (i.zodOff b n u) devD m)
          (3 / 8 * pow10X (i.meanZsd b n u)) rayOffsets := by
  unfold raysCall azimuthOfArrival azimuthOfDeparture zenithOfArrival zenithOfDeparture at h
  simp only [bind, Except.bind] at h
  split at h
  · cases h
  rename_i v1 e1
  split at h
  · cases h
  rename_i v2 e2
  split at h
  · cases h
  rename_i v3 e3
  split at h
  · cases h
  rename_i v4 e4
  split at h
  · cases h
  rename_i v5 e5
  split at h
  · cases h
  rename_i v6 e6
  split at h
  · cases h
  rename_i v7 e7
  split at e3
  · cases e3
  rename_i caa f1
  split at e3
  · cases e3
  rename_i aoa f2
  split at e4
  · cases e4
  rename_i cad f3
  split at e4
  · cases e4
  rename_i aod f4
  split at e5
  · cases e5
  rename_i cza f5
  split at e5
  · cases e5
  rename_i devA f6
  split at e6
  · cases e6
  rename_i devD f7
  cases h; cases e3; cases e4; cases e5; cases e6
  refine ⟨v1.2, v2.2, caa, cad, cza, aoa, aod, devA, devD, e1, e2, f1, f3, f5, f2, f4, f6, f7, e7, fun m => ⟨?_, ?_, ?_, ?_⟩⟩
  · exact azimuthRays_of (Tuple.sort (w.couplingAoa b n m)) _ _ _
  · exact azimuthRays_of (Tuple.sort (w.couplingAod b n m)) _ _ _
  · exact zenithRays_of (Tuple.sort (w.couplingZoa b n m)) _ _ _
  · exact zenithRays_of (Tuple.sort (w.couplingZod b n m)) _ _ _

end

theorem relativePower_ok {M : ℕ} [NeZero M] {p : Fin M → ℝ} (hp : IsProbability p) : ∃ r, relativePower p = .ok r := by
  have : 0 < reduceMax p := by
    by_contra hh
    have h0 : ∀ i, p i ≤ 0 := fun i => (le_reduceMax p i).trans (not_lt.1 hh)
    have : ∑ i, p i ≤ 0 := Finset.sum_nonpos fun i _ => h0 i
    linarith [hp.2]
  unfold relativePower
  rw [if_neg this.ne']
  exact ⟨_, rfl⟩

theorem cPhi_ok (h : mkScenario cls sa = .ok c) (los : Bool) (k : ℝ) (hk : 0 < k) (hdb : los = true → -9 ≤ 10 * log10 k) :
    ∃ x, cPhi c los k = .ok x ∧ 0 < x := by
  obtain ⟨x, hx, hx0⟩ := ((C04_admissible_values h).2.2.2.2 los).2.2.1 .pCPhiNLoS (by simp)
  cases los
  · exact ⟨x, by unfold cPhi; rw [hx]; rfl, hx0⟩
  · refine ⟨x * cPhiScaling (10 * log10 k), ?_, mul_pos hx0 (cPhiScaling_pos (by linarith [hdb rfl]))⟩
    unfold cPhi kFactorDb
    rw [hx, if_pos hk]; rfl

theorem cTheta_ok (h : mkScenario cls sa = .ok c) (los losUt : Bool) (k : ℝ) (hk : 0 < k) (hdb : losUt = true → -9 ≤ 10 * log10 k) :
    ∃ x, cTheta c los losUt k = .ok x ∧ 0 < x := by
  obtain ⟨x, hx, hx0⟩ := ((C04_admissible_values h).2.2.2.2 los).2.2.1 .pCThetaNLoS (by simp)
  cases losUt
  · exact ⟨x, by unfold cTheta; rw [hx]; rfl, hx0⟩
  · refine ⟨x * cThetaScaling (10 * log10 k), ?_, mul_pos hx0 (cThetaScaling_pos (hdb rfl))⟩
    unfold cTheta kFactorDb
    rw [hx, if_pos hk]; rfl

/-- Scaling constants below 10^-6 only for very small K. -/
theorem k_lower {k : ℝ} (hk : 0 < k) (h : -9 ≤ 10 * log10 k) : 1e-6 ≤ k := by
  unfold log10 at h
  have h10 : 0 < Real.log 10 := Real.log_pos (by norm_num)
  have : -6 ≤ Real.log k / Real.log 10 := by linarith
  rw [le_div_iff₀ h10] at this
  have h2 : Real.log (1e-6) ≤ Real.log k := by
    rw [show (1e-6 : ℝ) = 10 ^ (-6 : ℝ) by rw [Real.rpow_neg (by norm_num)]; norm_num, Real.log_rpow (by norm_num)]
    linarith
  exact (Real.log_le_log_iff (by norm_num) hk).1 h2

theorem azimuthClusters_ok (h : mkScenario cls sa = .ok c) {M : ℕ} [NeZero M] {los : Bool} {k : ℝ} (hk : 0 < k)
    (hdb : los = true → -9 ≤ 10 * log10 k) {p : Fin M → ℝ} (hp : IsProbability p) (spread a : ℝ) (sg : Fin M → Bool) (z : Fin M → ℝ) :
    ∃ cl, azimuthClusters c los spread k a p sg z = .ok cl := by
  obtain ⟨x, hx, hx0⟩ := cPhi_ok h los k hk hdb
  obtain ⟨r, hr⟩ := relativePower_ok hp
  unfold azimuthClusters
  rw [hx, hr]
  simp only [bind, Except.bind]
  rw [if_neg hx0.ne']
  exact ⟨_, rfl⟩

theorem zenithDeviation_ok (h : mkScenario cls sa = .ok c) {M : ℕ} [NeZero M] {los indoor : Bool} {k : ℝ} (hk : 0 < k)
    (hdb : los = true → -9 ≤ 10 * log10 k) {p : Fin M → ℝ} (hp : IsProbability p) (spread : ℝ) (sg : Fin M → Bool) (z : Fin M → ℝ) :
    ∃ cl, zenithDeviation c los indoor spread k p sg z = .ok cl := by
  obtain ⟨x, hx, hx0⟩ := cTheta_ok h los (los && !indoor) k hk (fun e => hdb (by cases los <;> simp_all))
  obtain ⟨r, hr⟩ := relativePower_ok hp
  unfold zenithDeviation
  rw [hx, hr]
  simp only [bind, Except.bind]
  rw [if_neg hx0.ne']
  exact ⟨_, rfl⟩

section
variable {B N U M : ℕ} [NeZero B] [NeZero N] [NeZero M]

/-- Ray generation is defined for outdoor links whose K-factor is at least -9 dB. -/
theorem raysCall_defined (h : mkScenario cls sa = .ok c) (i : RayInputs B N U) (w : RayDraws B N U M) (b : Fin B) (n : Fin N) (u : Fin U)
    (act : ℕ) (hact : 0 < act) (hmask : IsOutdoorMask act fun k : Fin M => i.mask b n u k) (hds : 0 < (i.lsp b n u).ds)
    (hk : 0 < (i.lsp b n u).kFactor) (hdb : i.los b n u = true → -9 ≤ 10 * log10 (i.lsp b n u).kFactor) :
    ∃ L, raysCall c i w b n u = .ok L := by
  obtain ⟨d, un, e1, -⟩ := C32_delays_partial h (i.los b n u) (i.lsp b n u).ds (i.lsp b n u).kFactor (fun k : Fin M => i.mask b n u k)
    (w.delay b n u) (fun hl => k_lower hk (hdb hl))
  obtain ⟨p, q, e2, -, hq, -⟩ := C34_powers h (i.los b n u) (i.lsp b n u).ds (i.lsp b n u).kFactor act
    (fun k : Fin M => i.mask b n u k) un (w.shadow b n u) hds hk hact hmask
  have hc := ((C04_admissible_values h).2.2.2.2 (i.los b n u)).2.2.2.1
  obtain ⟨caa, f1, -⟩ := hc .pcASA (by simp)
  obtain ⟨cad, f2, -⟩ := hc .pcASD (by simp)
  obtain ⟨cza, f3, -⟩ := hc .pcZSA (by simp)
  obtain ⟨sx, f4, -⟩ := hc .psigmaXPR (by simp)
  obtain ⟨mx, -, f5⟩ := getReal_check h .pmuXPR _ (finite_cell (p := .pmuXPR) (by decide)) (i.los b n u)
  obtain ⟨aoa, g1⟩ := azimuthClusters_ok h hk hdb hq (i.lsp b n u).asa (i.angles b n u).aoa (w.signAoa b n) (w.aoa b n u)
  obtain ⟨aod, g2⟩ := azimuthClusters_ok h hk hdb hq (departureSpread (i.bsHeight 0 0) (i.lsp b n u).asd) (i.angles b n u).aod
    (w.signAod b n) (w.aod b n u)
  obtain ⟨zoa, g3⟩ := zenithDeviation_ok (indoor := i.indoor b u) h hk hdb hq (i.lsp b n u).zsa (w.signZoa b n) (w.zoa b n u)
  obtain ⟨zod, g4⟩ := zenithDeviation_ok (indoor := i.indoor b u) h hk hdb hq (departureSpread (i.bsHeight 0 0) (i.lsp b n u).zsd)
    (w.signZod b n) (w.zod b n u)
  unfold raysCall azimuthOfArrival azimuthOfDeparture zenithOfArrival zenithOfDeparture crossPolarization
  simp only [bind, Except.bind, e1, e2, f1, f2, f3, f4, f5, g1, g2, g3, g4]
  exact ⟨_, rfl⟩

/-! ### C36 -/

/-- C36: in LoS the first cluster is in the LoS direction: its centre is exactly the LoS angle, its rays are the intra-cluster offsets
around it. -/
theorem C36_first_cluster {i : RayInputs B N U} {w : RayDraws B N U M} {b : Fin B} {n : Fin N} {u : Fin U} {L : LinkRays M}
    (h : raysCall c i w b n u = .ok L) (hlos : i.los b n u = true) (hin : i.indoor b u = false) :
    ∃ caa cad cza, c.getReal .pcASA true = .ok caa ∧ c.getReal .pcASD true = .ok cad ∧ c.getReal .pcZSA true = .ok cza ∧
      AzimuthRays (L.aoa 0) (i.angles b n u).aoa caa rayOffsets ∧ AzimuthRays (L.aod 0) (i.angles b n u).aod cad rayOffsets ∧
      ZenithRays (L.zoa 0) (i.angles b n u).zoa cza rayOffsets ∧
      ZenithRays (L.zod 0) (i.angles b n u).zod (3 / 8 * pow10X (i.meanZsd b n u)) rayOffsets := by
  obtain ⟨un, q, caa, cad, cza, aoa, aod, devA, devD, -, -, f1, f2, f3, g1, g2, -, -, -, hr⟩ := raysCall_ok h
  rw [hlos] at f1 f2 f3
  have key : ∀ {spread k a : ℝ} {p : Fin M → ℝ} {sg : Fin M → Bool} {z cl : Fin M → ℝ},
      azimuthClusters c true spread k a p sg z = .ok cl → cl 0 = a := by
    intro spread k a p sg z cl e
    unfold azimuthClusters at e
    simp only [bind, Except.bind] at e
    split at e
    · cases e
    split at e
    · cases e
    split at e
    · cases e
    rw [← Except.ok.inj e]
    simp only [if_true]; ring
  obtain ⟨r1, r2, r3, r4⟩ := hr 0
  rw [hlos] at g1 g2 r3 r4
  rw [hin] at r3 r4
  rw [key g1] at r1
  rw [key g2] at r2
  refine ⟨caa, cad, cza, f1, f2, f3, r1, r2, ?_, ?_⟩
  · simpa [zoaClusters] using r3
  · simpa [zodClusters] using r4

end

/-- Inputs of a single link, used in examples and counterexamples: `los`, batch examples with satellite heights `hgt`. -/
noncomputable def exRay (B : ℕ) (los : Bool) (hgt : Fin B → ℝ) : RayInputs B 1 1 where
  lsp := fun _ _ _ => { ds := 1e-7, asd := 1, asa := 1, sf := 1, kFactor := 1, zsa := 1, zsd := 1 }
  mask := fun _ _ _ k => if k < 2 then 0 else 1
  los := fun _ _ _ => los
  indoor := fun _ _ => false
  angles := fun _ _ _ => ⟨10, 190, 170, 350⟩
  bsHeight := fun b _ => hgt b
  meanZsd := fun _ _ _ => ((0 : ℝ) : WithBot ℝ)
  zodOff := fun _ _ _ => 0

/-- Draws for that link. -/
noncomputable def exRayDraws (B M : ℕ) : RayDraws B 1 1 M where
  delay := fun _ _ _ _ => 1 / 2
  shadow := fun _ _ _ _ => 0
  signAoa := fun _ _ _ => true
  signAod := fun _ _ _ => true
  signZoa := fun _ _ _ => true
  signZod := fun _ _ _ => true
  aoa := fun _ _ _ _ => 1
  aod := fun _ _ _ _ => 1
  zoa := fun _ _ _ _ => 1
  zod := fun _ _ _ _ => 1
  xpr := fun _ _ _ _ _ => 0
  couplingAoa := fun _ _ _ r => -r.val
  couplingAod := fun _ _ _ _ => 0
  couplingZoa := fun _ _ _ _ => 0
  couplingZod := fun _ _ _ _ => 0

theorem exRay_ok (h : mkScenario cls sa = .ok c) {B M : ℕ} [NeZero B] [NeZero M] (los : Bool) (hgt : Fin B → ℝ) (b : Fin B) :
    ∃ L, raysCall c (exRay B los hgt) (exRayDraws B M) b 0 0 = .ok L :=
  raysCall_defined h _ _ b 0 0 2 (by norm_num) (fun _ => rfl) (by norm_num [exRay]) (by norm_num [exRay])
    (fun _ => by simp [exRay, log10])

/-- Hypotheses of C36 can be met. -/
example : ∃ c L, mkScenario .urban (exArgs 2000000000 "uplink" 50) = .ok c ∧
    raysCall (M := 3) c (exRay 1 true fun _ => 600000) (exRayDraws 1 3) 0 0 0 = .ok L ∧
    (exRay 1 true fun _ => 600000).los 0 0 0 = true ∧ (exRay 1 true fun _ => 600000).indoor 0 0 = false := by
  obtain ⟨c, hc⟩ := exConfig
  obtain ⟨L, e⟩ := exRay_ok (M := 3) hc true (fun _ : Fin 1 => 600000) 0
  exact ⟨c, L, hc, e, rfl, rfl⟩

/-! ### C37 -/

/-- C37: wrapping puts every azimuth into (-180, 180] without changing the direction and every zenith into [0, 180] without changing its
cosine; and all rays that are generated are within these ranges. -/
theorem C37_normalised :
    (∀ a s o : ℝ, -180 < azimuthRay a s o ∧ azimuthRay a s o ≤ 180 ∧
      Real.cos (azimuthRay a s o * (Real.pi / 180)) = Real.cos ((a + s * o) * (Real.pi / 180)) ∧
      Real.sin (azimuthRay a s o * (Real.pi / 180)) = Real.sin ((a + s * o) * (Real.pi / 180))) ∧
    (∀ a s o : ℝ, 0 ≤ zenithRay a s o ∧ zenithRay a s o ≤ 180 ∧
      Real.cos (zenithRay a s o * (Real.pi / 180)) = Real.cos ((a + s * o) * (Real.pi / 180))) ∧
    (∀ {B N U M : ℕ} [NeZero B] [NeZero N] [NeZero M] (c : Config) (i : RayInputs B N U) (w : RayDraws B N U M) b n u L,
      raysCall c i w b n u = .ok L → ∀ m r, L.aoa m r ∈ Set.Ioc (-Real.pi) Real.pi ∧ L.aod m r ∈ Set.Ioc (-Real.pi) Real.pi ∧
        L.zoa m r ∈ Set.Icc 0 Real.pi ∧ L.zod m r ∈ Set.Icc 0 Real.pi) := by
  refine ⟨fun a s o => ?_, fun a s o => ?_, ?_⟩
  · obtain ⟨h1, h2, m, h3⟩ := azimuthRay_spec a s o
    have e : azimuthRay a s o * (Real.pi / 180) = (a + s * o) * (Real.pi / 180) + m * (2 * Real.pi) := by rw [h3]; ring
    exact ⟨h1, h2, by rw [e, Real.cos_add_int_mul_two_pi], by rw [e, Real.sin_add_int_mul_two_pi]⟩
  · obtain ⟨h1, h2, -⟩ := zenithRay_spec a s o
    exact ⟨h1, h2, zenithRay_cos a s o⟩
  · intro B N U M _ _ _ c i w b n u L e m r
    obtain ⟨_, _, _, _, _, _, _, _, _, -, -, -, -, -, -, -, -, -, -, hr⟩ := raysCall_ok e
    obtain ⟨⟨σ1, r1⟩, ⟨σ2, r2⟩, ⟨σ3, r3⟩, ⟨σ4, r4⟩⟩ := hr m
    exact ⟨⟨(r1 r).1, (r1 r).2.1⟩, ⟨(r2 r).1, (r2 r).2.1⟩, ⟨(r3 r).1, (r3 r).2.1⟩, ⟨(r4 r).1, (r4 r).2.1⟩⟩

/-! ### C38 -/

/-- C38: random coupling only reorders the rays within each cluster of each link, and does it in the same way for all UTs. -/
theorem C38_coupling {B N U M R : ℕ} (r : PerBs B N (Fin M → Fin R → ℝ)) (a : PerLink B N U (Fin M → Fin R → ℝ)) :
    (∀ b n, ∃ σ : Fin M → Equiv.Perm (Fin R), ∀ u i j, shuffleAngles r a b n u i j = a b n u i (σ i j)) ∧
    ∀ b n u i (x : ℝ), (Finset.univ.filter fun j => shuffleAngles r a b n u i j = x).card =
      (Finset.univ.filter fun j => a b n u i j = x).card := by
  refine ⟨fun b n => ⟨fun i => Tuple.sort (r b n i), fun _ _ _ => rfl⟩, fun b n u i x => ?_⟩
  refine Finset.card_bij (fun j _ => Tuple.sort (r b n i) j) ?_ ?_ ?_
  · intro j hj
    simp only [Finset.mem_filter, Finset.mem_univ, true_and] at hj ⊢
    exact hj
  · intro j _ k _ e; exact (Tuple.sort (r b n i)).injective e
  · intro k hk
    refine ⟨(Tuple.sort (r b n i)).symm k, ?_, Equiv.apply_symm_apply _ _⟩
    simp only [Finset.mem_filter, Finset.mem_univ, true_and] at hk ⊢
    unfold shuffleAngles
    rw [Equiv.apply_symm_apply]; exact hk

/-- The order does change for suitable draws. -/
example : shuffleAngles (B := 1) (N := 1) (U := 1) (M := 1) (R := 2) (fun _ _ _ j => -(j.val : ℝ)) (fun _ _ _ _ j => j.val) 0 0 0 0 0 = 1 := by
  have hm := Tuple.monotone_sort (fun j : Fin 2 => -(j.val : ℝ)) (show (0 : Fin 2) ≤ 1 by decide)
  unfold shuffleAngles
  dsimp only [Function.comp_apply] at hm ⊢
  have hne : Tuple.sort (fun j : Fin 2 => -(j.val : ℝ)) 0 ≠ Tuple.sort (fun j : Fin 2 => -(j.val : ℝ)) 1 := by
    rw [Ne, (Tuple.sort (fun j : Fin 2 => -(j.val : ℝ))).injective.eq_iff]; decide
  generalize Tuple.sort (fun j : Fin 2 => -(j.val : ℝ)) 0 = x at *
  generalize Tuple.sort (fun j : Fin 2 => -(j.val : ℝ)) 1 = y at *
  fin_cases x <;> fin_cases y <;> simp at hm hne ⊢
  linarith

/-! ### C39 -/

/-- The full claim of C39: offsets come in opposite pairs, so the mean direction of the rays is that of the cluster. -/
def C39_statement : Prop :=
  (∃ π : Equiv.Perm (Fin raysPerCluster), ∀ r, rayOffsets (π r) = -rayOffsets r) ∧ (∑ r, rayOffsets r) / 20 = 0

theorem rayOffsets_sum : ∑ r, rayOffsets r = 1 := by
  unfold rayOffsets raysPerCluster
  simp only [Fin.sum_univ_succ, Matrix.cons_val_zero, Matrix.cons_val_succ, Fin.sum_univ_zero]
  norm_num

/-- C39, what holds: nine of the ten pairs are opposite; the remaining pair (15, 16) sums to one, so the mean ray direction is off by
a twentieth of the cluster spread. Missing: symmetry of that pair, see `C39_violated`. -/
theorem C39_offsets_partial :
    (∀ k : Fin 10, k ≠ 7 → rayOffsets ⟨2 * k.val + 1, by unfold raysPerCluster; omega⟩ = -rayOffsets ⟨2 * k.val, by unfold raysPerCluster; omega⟩) ∧
    rayOffsets ⟨14, by decide⟩ + rayOffsets ⟨15, by decide⟩ = 1 ∧
    ∀ center spread : ℝ, (∑ r, (center + spread * rayOffsets r)) / 20 = center + spread / 20 := by
  refine ⟨?_, ?_, fun center spread => ?_⟩
  · intro k hk
    fin_cases k <;> first | (exact absurd rfl hk) | (simp [rayOffsets]; done) | (unfold rayOffsets; rfl)
  · show (1.1481 : ℝ) + -0.1481 = 1; norm_num
  · rw [Finset.sum_add_distrib, ← Finset.mul_sum, rayOffsets_sum]
    simp only [Finset.sum_const, Finset.card_univ, Fintype.card_fin, nsmul_eq_mul]
    push_cast; ring

/-- C39 fails. -/
theorem C39_violated : ¬ C39_statement := by
  rintro ⟨-, h⟩
  rw [rayOffsets_sum] at h
  norm_num at h

/-! ### C40 -/

/-- C40: every cross-polarisation power ratio is positive, and its dB value is the table mean plus table deviation times the draw. -/
theorem C40_xpr (h : mkScenario cls sa = .ok c) {M : ℕ} [NeZero M] (los : Bool) (z : Fin M → Fin raysPerCluster → ℝ) :
    ∃ x mu sigma, crossPolarization c los z = .ok x ∧ c.getParam .pmuXPR los = .ok ((mu : ℝ) : WithBot ℝ) ∧
      c.getParam .psigmaXPR los = .ok ((sigma : ℝ) : WithBot ℝ) ∧ 0 ≤ sigma ∧
      ∀ i r, 0 < x i r ∧ 10 * (Real.log (x i r) / Real.log 10) = mu + sigma * z i r := by
  obtain ⟨mx, -, f5⟩ := getReal_check h .pmuXPR _ (finite_cell (p := .pmuXPR) (by decide)) los
  obtain ⟨sx, f4, hs⟩ := ((C04_admissible_values h).2.2.2.2 los).2.2.2.1 .psigmaXPR (by simp)
  refine ⟨fun i r => pow10 (((mx : ℝ) / 1000 + sx * z i r) / 10), _, sx, ?_, getReal_getParam f5, getReal_getParam f4, hs,
    fun i r => ⟨pow10_pos _, ?_⟩⟩
  · unfold crossPolarization
    simp only [bind, Except.bind, f4, f5]
  · have := log10_pow10 (((mx : ℝ) / 1000 + sx * z i r) / 10)
    unfold log10 at this
    dsimp only
    rw [this]; ring

example : ∃ c, mkScenario .subUrban (exArgs 20000000000 "uplink" 70) = .ok c := by
  simpa using exArgs_ok .subUrban true true 70 (by norm_num) (by norm_num)

/-! ### C41 -/

/-- The full claim of C41. -/
def C41_statement : Prop :=
  ∀ (cls : ScenarioClass) (sa : ScenarioArgs) (c : Config), mkScenario cls sa = .ok c →
    ∀ (B N U M : ℕ) [NeZero B] [NeZero N] [NeZero M] (i : RayInputs B N U) (w : RayDraws B N U M) b n u L,
      raysCall c i w b n u = .ok L → 160000 ≤ i.bsHeight b n →
      ∃ cad, c.getReal .pcASD (i.los b n u) = .ok cad ∧ ∀ m, AzimuthRays (L.aod m) (i.angles b n u).aod cad rayOffsets

/-- C41, what holds: if the first BS of the first batch example is at 160 km or higher, all clusters of all links depart in the LoS
azimuth, up to intra-cluster offsets. Missing: satellites in other batch examples, see `C41_violated`. -/
theorem C41_departure_partial {B N U M : ℕ} [NeZero B] [NeZero N] [NeZero M] {i : RayInputs B N U} {w : RayDraws B N U M}
    {b : Fin B} {n : Fin N} {u : Fin U} {L : LinkRays M} (h : raysCall c i w b n u = .ok L) (hh : 160000 ≤ i.bsHeight 0 0) :
    ∃ cad, c.getReal .pcASD (i.los b n u) = .ok cad ∧ ∀ m, AzimuthRays (L.aod m) (i.angles b n u).aod cad rayOffsets := by
  obtain ⟨un, q, caa, cad, cza, aoa, aod, devA, devD, -, -, f1, f2, f3, g1, g2, -, -, -, hr⟩ := raysCall_ok h
  refine ⟨cad, f2, fun m => ?_⟩
  have : aod m = (i.angles b n u).aod := by
    unfold azimuthClusters departureSpread at g2
    rw [if_pos hh] at g2
    simp only [bind, Except.bind] at g2
    split at g2
    · cases g2
    split at g2
    · cases g2
    split at g2
    · cases g2
    rw [← Except.ok.inj g2]
    simp
  rw [← this]
  exact (hr m).2.1

/-- Hypotheses of C41 can be met. -/
example : ∃ c L, mkScenario .urban (exArgs 2000000000 "uplink" 50) = .ok c ∧
    raysCall (M := 3) c (exRay 1 false fun _ => 600000) (exRayDraws 1 3) 0 0 0 = .ok L ∧
    160000 ≤ (exRay 1 false fun _ => 600000).bsHeight 0 0 := by
  obtain ⟨c, hc⟩ := exConfig
  obtain ⟨L, e⟩ := exRay_ok (M := 3) hc false (fun _ : Fin 1 => 600000) 0
  exact ⟨c, L, hc, e, by norm_num [exRay]⟩

theorem azimuthRays_center {a : Fin raysPerCluster → ℝ} {c1 c2 s : ℝ} {o : Fin raysPerCluster → ℝ} (h1 : AzimuthRays a c1 s o)
    (h2 : AzimuthRays a c2 s o) : ∃ m : ℤ, 20 * (c1 - c2) = 360 * m := by
  have key : ∀ {c1}, AzimuthRays a c1 s o → ∃ m : ℤ, ∑ r, a r = (20 * c1 + s * ∑ r, o r) * (Real.pi / 180) + m * (2 * Real.pi) := by
    rintro c1 ⟨σ, h⟩
    choose _ _ m hm using h
    refine ⟨∑ r, m r, ?_⟩
    rw [Finset.sum_congr rfl fun r _ => hm r, Finset.sum_add_distrib, ← Finset.sum_mul, ← Finset.sum_mul, Finset.sum_add_distrib,
      ← Finset.mul_sum, Equiv.sum_comp σ o]
    simp only [Finset.sum_const, Finset.card_univ, Fintype.card_fin, nsmul_eq_mul]
    push_cast; ring
  obtain ⟨m1, e1⟩ := key h1
  obtain ⟨m2, e2⟩ := key h2
  refine ⟨m2 - m1, ?_⟩
  have hpi := Real.pi_pos
  rw [e1] at e2
  have : (20 * (c1 - c2) - 360 * (m2 - m1)) * Real.pi = 0 := by linear_combination 180 * e2
  rcases mul_eq_zero.1 this with h | h
  · push_cast; linarith
  · exact absurd h hpi.ne'

/-- C41 fails: with a platform at 20 km in the first batch example, the satellite of the second one has clusters away from the LoS
azimuth. -/
theorem C41_violated : ¬ C41_statement := by
  intro H
  obtain ⟨c, hc⟩ := exConfig
  let hgt : Fin 2 → ℝ := fun b => if b = 0 then 20000 else 600000
  let w0 : RayDraws 2 1 1 2 := { exRayDraws 2 2 with aod := fun _ _ _ _ => 0 }
  obtain ⟨L, e⟩ := exRay_ok (M := 2) hc false hgt 1
  obtain ⟨L0, e0⟩ : ∃ L, raysCall c (exRay 2 false hgt) w0 1 0 0 = .ok L :=
    raysCall_defined hc _ _ 1 0 0 2 (by norm_num) (fun _ => rfl) (by norm_num [exRay]) (by norm_num [exRay])
      (fun _ => by simp [exRay, log10])
  obtain ⟨un, q, _, cad, _, _, aod, _, _, d1, p1, -, f, -, -, g, -, -, -, hr⟩ := raysCall_ok e
  obtain ⟨un0, q0, _, cad0, _, _, aod0, _, _, d0, p0, -, f0, -, -, g0, -, -, -, hr0⟩ := raysCall_ok e0
  obtain ⟨cad1, f1, h1⟩ := H _ _ c hc 2 1 1 2 _ _ 1 0 0 L e (by simp [exRay, hgt]; norm_num)
  obtain ⟨cad2, f2, h2⟩ := H _ _ c hc 2 1 1 2 _ _ 1 0 0 L0 e0 (by simp [exRay, hgt]; norm_num)
  rw [f] at f1 f0 f2
  cases f0; cases f1; cases f2
  have eu : un = un0 := by
    have : Except.ok (L.delays, un) = (Except.ok (L0.delays, un0) : Except Err _) := d1.symm.trans d0
    exact congrArg Prod.snd (Except.ok.inj this)
  subst eu
  have eq : q = q0 := by
    have : Except.ok (L.powers, q) = (Except.ok (L0.powers, q0) : Except Err _) := p1.symm.trans p0
    exact congrArg Prod.snd (Except.ok.inj this)
  subst eq
  obtain ⟨m1, k1⟩ := azimuthRays_center (hr 0).2.1 (h1 0)
  obtain ⟨m2, k2⟩ := azimuthRays_center (hr0 0).2.1 (h2 0)
  have hdiff : aod 0 = aod0 0 + 1 / 7 := by
    unfold azimuthClusters at g g0
    have hs : departureSpread ((exRay 2 false hgt).bsHeight 0 0) ((exRay 2 false hgt).lsp 1 0 0).asd = 1 := by
      simp [departureSpread, exRay, hgt]; norm_num
    rw [hs] at g g0
    change _ = _ at g
    simp only [bind, Except.bind] at g g0
    rcases hcp : cPhi c ((exRay 2 false hgt).los 1 0 0) ((exRay 2 false hgt).lsp 1 0 0).kFactor with _ | cp
    · rw [hcp] at g; cases g
    rcases hrp : relativePower q with _ | rp
    · rw [hcp, hrp] at g; cases g
    rw [hcp, hrp] at g g0
    dsimp only at g g0
    by_cases hcp0 : cp = 0
    · rw [if_pos hcp0] at g; cases g
    rw [if_neg hcp0] at g g0
    rw [← Except.ok.inj g, ← Except.ok.inj g0]
    simp [exRay, exRayDraws, w0]
    ring
  have : (20 : ℝ) / 7 = 360 * ((m1 - m2 : ℤ) : ℝ) := by push_cast; linarith
  have h3 : (20 : ℝ) = ((2520 * (m1 - m2) : ℤ) : ℝ) := by push_cast at this ⊢; linarith
  have h4 : (20 : ℤ) = 2520 * (m1 - m2) := by exact_mod_cast h3
  omega

end OpenNTN
