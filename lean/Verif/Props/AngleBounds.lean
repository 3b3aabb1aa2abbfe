import Verif.Props.Angles
import Verif.Props.LspLaw
import Mathlib.Analysis.Real.Pi.Bounds
import Mathlib.Analysis.Complex.ExponentialBounds

/-
C205: weaker clusters of a LoS link deviate more from its direction, and all within a fixed multiple of the angular spread.
-/
namespace OpenNTN

open Spec MeasureTheory ProbabilityTheory

variable {cls : ScenarioClass} {sa : ScenarioArgs} {c : Config}

/-- Deviations `dev` of clusters with powers `p`: a weaker cluster deviates at least as much as a stronger one, and none by more than `w` spreads. -/
def Spec.Fanned {M : ℕ} (p : Fin M → ℝ) (spread w : ℝ) (dev : Fin M → ℝ) : Prop :=
  (∀ m m', p m ≤ p m' → dev m' ≤ dev m) ∧ ∀ m, |dev m| ≤ w * spread

/-- A K-factor within two standard deviations of the tabulated mean of LoS links. -/
def Spec.CommonK (c : Config) (k : ℝ) : Prop :=
  ∃ μ σ, c.getReal .pmuK true = .ok μ ∧ c.getReal .psigmaK true = .ok σ ∧ |db k - μ| ≤ 2 * σ

theorem log_million : Real.log 1e6 ≤ 13.818 := by
  rw [show (1e6 : ℝ) = 10 ^ 6 by norm_num, Real.log_pow]
  have := log_ten_lt
  norm_num at this ⊢
  linarith

theorem cPhiScaling_lower {x : ℝ} (h : -16 ≤ x) : 0.533 ≤ cPhiScaling x := by
  unfold cPhiScaling
  nlinarith [mul_nonneg (show (0 : ℝ) ≤ x + 16 by linarith) (sq_nonneg (x - 18.4)), sq_nonneg (x - 18.4)]

theorem cThetaScaling_lower {x : ℝ} (h : -7 ≤ x) : 0.448 ≤ cThetaScaling x := by
  unfold cThetaScaling
  rcases le_total x 10 with h1 | h1
  · nlinarith [mul_nonneg (show (0 : ℝ) ≤ x + 7 by linarith) (sq_nonneg (x - 23.2)), sq_nonneg (x - 23.2)]
  · nlinarith [mul_nonneg (show (0 : ℝ) ≤ x - 10 by linarith) (sq_nonneg (x - 23.2)), sq_nonneg (x - 23.2), sq_nonneg (x - 23.3)]

theorem cThetaScaling_neg {x : ℝ} (h : x ≤ -10) : cThetaScaling x < 0 := by
  unfold cThetaScaling
  nlinarith [mul_nonneg (show (0 : ℝ) ≤ -10 - x by linarith) (sq_nonneg (x + 10)), sq_nonneg (x + 10), mul_nonneg (show (0 : ℝ) ≤ -10 - x by linarith) (show (0 : ℝ) ≤ -x by linarith)]

/-- The constants of LoS tables. -/
theorem scaling_tables (h : mkScenario cls sa = .ok c) : c.getReal .pCPhiNLoS true = .ok 0.68 ∧ c.getReal .pCThetaNLoS true = .ok 0.594 := by
  have key : ∀ p : Param, ∀ v : ℤ, tableAll (fun cl l s u k => cellIs (fun n => !l || decide (n = v)) (lookupAt (tableOf cl l s u) p k)) = true →
      c.getReal p true = .ok ((v : ℝ) / 1000) := by
    intro p v hc
    obtain ⟨s, u, -, hP, e⟩ := getReal_table h p (fun _ l _ _ n => !l || decide (n = v)) hc true
    rw [e]
    simp only [Bool.not_true, Bool.false_or, decide_eq_true_eq] at hP
    rw [hP]
  constructor
  · rw [key .pCPhiNLoS 680 (by decide +kernel)]; norm_num
  · rw [key .pCThetaNLoS 594 (by decide +kernel)]; norm_num

theorem commonK_lower (h : mkScenario cls sa = .ok c) {k : ℝ} (hk : CommonK c k) : -16 ≤ db k := by
  obtain ⟨μ, σ, e1, e2, h2⟩ := hk
  obtain ⟨s, u, hrow, -, -, t1, t2⟩ := built_rows h
  have hc : tableAll (fun cl l s u k => cellIs (fun _ => true) (lookupAt (tableOf cl l s u) .pmuK k) && cellIs (fun _ => true) (lookupAt (tableOf cl l s u) .psigmaK k) &&
      decide (-16000 ≤ milliAt (tableOf cl l s u) .pmuK k - 2 * milliAt (tableOf cl l s u) .psigmaK k)) = true := by decide +kernel
  have hT := tableAll_spec hc cls true s u hrow
  have hN := tableAll_spec hc cls false s u hrow
  simp only [Bool.and_eq_true, decide_eq_true_eq] at hT hN
  obtain ⟨n1, f1, -⟩ := cellIs_spec hT.1.1
  obtain ⟨n2, f2, -⟩ := cellIs_spec hT.1.2
  obtain ⟨n3, f3, -⟩ := cellIs_spec hN.1.1
  obtain ⟨n4, f4, -⟩ := cellIs_spec hN.1.2
  have hle := hT.2
  simp only [milliAt, f1, f2] at hle
  rw [getReal_ok (by rw [t1]; exact f1) (by rw [t2]; exact f3)] at e1
  rw [getReal_ok (by rw [t1]; exact f2) (by rw [t2]; exact f4)] at e2
  cases e1
  cases e2
  have hle' : (-16000 : ℝ) ≤ (n1 : ℝ) - 2 * n2 := by exact_mod_cast hle
  simp only [if_true] at h2
  have := (abs_le.1 h2).1
  linarith

section
variable {M : ℕ} [NeZero M]

/-- Relative power orders like power, and is at least a millionth. -/
theorem RelativePower.facts {q rel : Fin M → ℝ} (hq : ∀ m, 0 ≤ q m) (h : RelativePower q rel) :
    (∀ m m', q m ≤ q m' → rel m ≤ rel m') ∧ ∀ m, 1e-6 ≤ rel m := by
  obtain ⟨top, ht, hr⟩ := h
  have h0 : 0 ≤ top := by obtain ⟨m, hm⟩ := ht.1; rw [← hm]; exact hq m
  refine ⟨fun m m' hle => ?_, fun m => by rw [hr]; exact le_max_left _ _⟩
  rw [hr, hr]
  exact max_le_max le_rfl (div_le_div_of_nonneg_right hle h0)

theorem laplace_fanned {C spread w : ℝ} {q rel ψ : Fin M → ℝ} (hq : ∀ m, 0 ≤ q m) (hC : 0 < C) (hs : 0 ≤ spread) (h : RelativePower q rel)
    (hp : LaplaceProfile C rel ψ) (hw : 13.818 ≤ w * C) : Fanned q spread w (deviation spread (fun _ => true) (fun _ => 0) ψ) := by
  obtain ⟨hmono, hlow⟩ := RelativePower.facts hq h
  have hdev : ∀ m, deviation spread (fun _ => true) (fun _ => 0) ψ m = spread * ψ m := fun m => by simp [deviation]
  have hψ : ∀ m, 0 ≤ ψ m := fun m => nonneg_of_mul_nonneg_right (hp m).1 hC
  constructor
  · intro m m' hle
    rw [hdev, hdev]
    refine mul_le_mul_of_nonneg_left ?_ hs
    have := hmono m m' hle
    rw [← (hp m).2, ← (hp m').2, Real.exp_le_exp, neg_le_neg_iff] at this
    exact le_of_mul_le_mul_left this hC
  · intro m
    rw [hdev, abs_mul, abs_of_nonneg hs, abs_of_nonneg (hψ m), mul_comm]
    refine mul_le_mul_of_nonneg_right ?_ hs
    have h1 : C * ψ m ≤ Real.log 1e6 := by
      have := hlow m
      rw [← (hp m).2] at this
      rw [Real.le_log_iff_exp_le (by norm_num)]
      have he : Real.exp (C * ψ m) = (Real.exp (-(C * ψ m)))⁻¹ := by rw [Real.exp_neg, inv_inv]
      rw [he, show (1e6 : ℝ) = (1e-6)⁻¹ by norm_num]
      exact inv_anti₀ (by norm_num) this
    have := log_million
    by_contra hgt
    have := mul_lt_mul_of_pos_right (not_le.1 hgt) hC
    linarith

theorem gauss_fanned {C spread w a : ℝ} {q rel ψ az : Fin M → ℝ} (hq : ∀ m, 0 ≤ q m) (hC : 0 < C) (hs : 0 ≤ spread) (h : RelativePower q rel) (h0 : ∀ m, q m ≤ q 0)
    (hq0 : 0 < q 0) (hp : GaussianProfile C rel ψ) (hw : 5.4 ≤ w * C) (hc : Centred true a (deviation spread (fun _ => true) (fun _ => 0) ψ) az) :
    Fanned q spread w (fun m => az m - a) := by
  obtain ⟨hmono, hlow⟩ := RelativePower.facts hq h
  have hψ : ∀ m, 0 ≤ ψ m := fun m => nonneg_of_mul_nonneg_right (hp m).1 hC
  have hrel0 : rel 0 = 1 := by
    obtain ⟨top, ht, hr⟩ := h
    have e : top = q 0 := by
      obtain ⟨m, hm⟩ := ht.1
      exact le_antisymm (hm ▸ h0 m) (ht.2 ⟨0, rfl⟩)
    rw [hr, e, div_self hq0.ne']; norm_num
  have hψ0 : ψ 0 = 0 := by
    have := (hp 0).2
    rw [hrel0, Real.exp_eq_one_iff] at this
    have : 0.7 * (C * ψ 0) = 0 := by nlinarith
    have : C * ψ 0 = 0 := by linarith
    rcases mul_eq_zero.1 this with h | h
    · exact absurd h hC.ne'
    · exact h
  have hdev : ∀ m, az m - a = spread * ψ m := fun m => by rw [hc m]; simp [deviation, hψ0]
  constructor
  · intro m m' hle
    simp only [hdev]
    refine mul_le_mul_of_nonneg_left ?_ hs
    have := hmono m m' hle
    rw [← (hp m).2, ← (hp m').2, Real.exp_le_exp, neg_le_neg_iff] at this
    have h1 := (hp m).1
    have h2 := abs_le_of_sq_le_sq' this (by linarith)
    have h3 : C * ψ m' ≤ C * ψ m := by linarith [h2.2]
    exact le_of_mul_le_mul_left h3 hC
  · intro m
    simp only [hdev]
    rw [abs_mul, abs_of_nonneg hs, abs_of_nonneg (hψ m), mul_comm]
    refine mul_le_mul_of_nonneg_right ?_ hs
    have h1 : (0.7 * (C * ψ m)) ^ 2 ≤ Real.log 1e6 := by
      have := hlow m
      rw [← (hp m).2] at this
      rw [Real.le_log_iff_exp_le (by norm_num)]
      have he : Real.exp ((0.7 * (C * ψ m)) ^ 2) = (Real.exp (-(0.7 * (C * ψ m)) ^ 2))⁻¹ := by rw [Real.exp_neg, inv_inv]
      rw [he, show (1e6 : ℝ) = (1e-6)⁻¹ by norm_num]
      exact inv_anti₀ (by norm_num) this
    have := log_million
    have h2 : 0.7 * (C * ψ m) ≤ 3.72 := by
      refine (abs_le_of_sq_le_sq' ?_ (by norm_num)).2
      norm_num at h1 this ⊢
      linarith
    by_contra hgt
    have := mul_lt_mul_of_pos_right (not_le.1 hgt) hC
    norm_num at h2 hw
    linarith

/-- The full claim of C205: for the common K-factors, with all signs positive and without perturbation, the azimuth and zenith of the clusters of a LoS
link fan out from the first cluster, in the order of their powers and within 15 and 52 spreads. -/
def C205_statement : Prop :=
  ∀ (cls : ScenarioClass) (sa : ScenarioArgs) (c : Config), mkScenario cls sa = .ok c → ∀ (M : ℕ) [NeZero M] (p : Fin M → ℝ) (spread k a : ℝ),
    (∀ m, 0 ≤ p m) → (∀ m, p m ≤ p 0) → 0 < p 0 → 0 ≤ spread → CommonK c k →
    (∀ az, azimuthClusters c true spread k a p (fun _ => true) (fun _ => 0) = .ok az → Fanned p spread 15 fun m => az m - a) ∧
    ∀ dev, zenithDeviation c true false spread k p (fun _ => true) (fun _ => 0) = .ok dev → Fanned p spread 52 dev

/-- C205, what holds: azimuths for the common K-factors, zeniths for K-factors of at least -7 dB. Missing: zeniths for common K-factors below, see
`C205_inverted`, `C205_violated`. -/
theorem C205_fan_partial (h : mkScenario cls sa = .ok c) {p : Fin M → ℝ} {spread k a : ℝ} (hp : ∀ m, 0 ≤ p m) (h0 : ∀ m, p m ≤ p 0) (hp0 : 0 < p 0)
    (hs : 0 ≤ spread) :
    (CommonK c k → ∀ az, azimuthClusters c true spread k a p (fun _ => true) (fun _ => 0) = .ok az → Fanned p spread 15 fun m => az m - a) ∧
    (-7 ≤ db k → ∀ dev, zenithDeviation c true false spread k p (fun _ => true) (fun _ => 0) = .ok dev → Fanned p spread 52 dev) := by
  obtain ⟨e1, e2⟩ := scaling_tables h
  constructor
  · intro hK az haz
    obtain ⟨n, rel, ψ, hn, hrel, -, hg, hc⟩ := azimuthClusters_spec hp haz
    rw [e1] at hn
    cases hn
    have hl := cPhiScaling_lower (commonK_lower h hK)
    rw [if_pos rfl] at hg
    change GaussianProfile (0.68 * cPhiScaling (db k)) rel ψ at hg
    exact gauss_fanned hp (by positivity) hs hrel h0 hp0 hg (by norm_num at hl ⊢; linarith) hc
  · intro hK dev hdev
    obtain ⟨n, rel, ψ, hn, hrel, -, hg, rfl⟩ := zenithDeviation_spec hp hdev
    rw [e2] at hn
    cases hn
    have hl := cThetaScaling_lower hK
    rw [if_pos rfl] at hg
    change LaplaceProfile (0.594 * cThetaScaling (db k)) rel ψ at hg
    exact laplace_fanned hp (by positivity) hs hrel hg (by norm_num at hl ⊢; linarith)

theorem zenith_inverted (h : mkScenario cls sa = .ok c) {p dev : Fin M → ℝ} {spread k : ℝ} (hp : ∀ m, 0 ≤ p m) (hs : 0 < spread)
    (hneg : cThetaScaling (db k) < 0) (hdev : zenithDeviation c true false spread k p (fun _ => true) (fun _ => 0) = .ok dev) :
    (∀ m, dev m ≤ 0) ∧ ∀ m m', p m < p m' → (∀ i, 1e-6 * p i ≤ p m) → dev m < dev m' := by
  obtain ⟨-, e2⟩ := scaling_tables h
  obtain ⟨n, rel, ψ, hn, ⟨top, ht, hr⟩, -, hg, rfl⟩ := zenithDeviation_spec hp hdev
  rw [e2] at hn
  cases hn
  rw [if_pos rfl] at hg
  change LaplaceProfile (0.594 * cThetaScaling (db k)) rel ψ at hg
  have hC : 0.594 * cThetaScaling (db k) < 0 := mul_neg_of_pos_of_neg (by norm_num) hneg
  generalize 0.594 * cThetaScaling (db k) = C at hg hC
  have hd : ∀ m, deviation spread (fun _ => true) (fun _ => 0) ψ m = spread * ψ m := fun m => by simp [deviation]
  constructor
  · intro m
    rw [hd]
    have := (hg m).1
    nlinarith
  · intro m m' hlt hm
    rw [hd, hd]
    refine mul_lt_mul_of_pos_left ?_ hs
    have htop : 0 < top := by
      have : p m' ≤ top := ht.2 ⟨m', rfl⟩
      exact lt_of_lt_of_le (lt_of_le_of_lt (hp m) hlt) this
    have hrel : rel m < rel m' := by
      obtain ⟨i, hi⟩ := ht.1
      have h1 : 1e-6 ≤ p m / top := by rw [le_div_iff₀ htop, ← hi]; exact hm i
      rw [hr, hr, max_eq_right h1]
      exact lt_max_of_lt_right (div_lt_div_of_pos_right hlt htop)
    rw [← (hg m).2, ← (hg m').2, Real.exp_lt_exp, neg_lt_neg_iff] at hrel
    nlinarith

/-- C205 for K-factors of at most -10 dB: the order of the zeniths is reversed, a weaker cluster is moved less, or rather to the opposite side. -/
theorem C205_inverted (h : mkScenario cls sa = .ok c) {p dev : Fin M → ℝ} {spread k : ℝ} (hp : ∀ m, 0 ≤ p m) (hs : 0 < spread) (hk : db k ≤ -10)
    (hdev : zenithDeviation c true false spread k p (fun _ => true) (fun _ => 0) = .ok dev) :
    (∀ m, dev m ≤ 0) ∧ ∀ m m', p m < p m' → (∀ i, 1e-6 * p i ≤ p m) → dev m < dev m' := by
  exact zenith_inverted h hp hs (cThetaScaling_neg hk) hdev

/-- The polynomial of the zenith changes its sign once. -/
theorem cThetaScaling_sign : ∃ x₀, -10 < x₀ ∧ x₀ < -9.99 ∧ (∀ x, x₀ < x → 0 < cThetaScaling x) ∧ ∀ x, x < x₀ → cThetaScaling x < 0 := by
  have hcont : Continuous cThetaScaling := by
    unfold cThetaScaling
    fun_prop
  obtain ⟨x₀, ⟨h1, h2⟩, h3⟩ := intermediate_value_Ioo (show (-10 : ℝ) ≤ -9.99 by norm_num) hcont.continuousOn
    (show (0 : ℝ) ∈ Set.Ioo (cThetaScaling (-10)) (cThetaScaling (-9.99)) by unfold cThetaScaling; constructor <;> norm_num)
  have hmono : ∀ x y, x < y → y ≤ 0 → cThetaScaling x < cThetaScaling y := by
    intro x y hxy hy
    unfold cThetaScaling
    nlinarith [mul_nonneg (show (0 : ℝ) ≤ y - x by linarith) (add_nonneg (sq_nonneg x) (add_nonneg (mul_nonneg_of_nonpos_of_nonpos (show x ≤ 0 by linarith) hy) (sq_nonneg y))),
      mul_nonneg (show (0 : ℝ) ≤ y - x by linarith) (show (0 : ℝ) ≤ -x - y by linarith)]
  refine ⟨x₀, h1, h2, fun x hx => ?_, fun x hx => ?_⟩
  · rcases le_total x (-7) with h | h
    · rw [← h3]
      exact hmono _ _ hx (by linarith)
    · exact lt_of_lt_of_le (by norm_num) (cThetaScaling_lower h)
  · rw [← h3]
    exact hmono _ _ hx (by norm_num at h2; linarith)

/-- C205, where the order of the zeniths turns: there is one K-factor, just above -10 dB, the same for all scenarios, above which the zeniths of the clusters
fan out in the order of their powers, and below which they are reversed. -/
theorem C205_threshold : ∃ x₀, -10 < x₀ ∧ x₀ < -9.99 ∧ ∀ {cls : ScenarioClass} {sa : ScenarioArgs} {c : Config} {p dev : Fin M → ℝ} {spread k : ℝ},
    mkScenario cls sa = .ok c → (∀ m, 0 ≤ p m) → 0 < spread → zenithDeviation c true false spread k p (fun _ => true) (fun _ => 0) = .ok dev →
    (x₀ < db k → (∀ m, 0 ≤ dev m) ∧ ∃ w, Fanned p spread w dev) ∧
    (db k < x₀ → (∀ m, dev m ≤ 0) ∧ ∀ m m', p m < p m' → (∀ i, 1e-6 * p i ≤ p m) → dev m < dev m') := by
  obtain ⟨x₀, h1, h2, hpos, hneg⟩ := cThetaScaling_sign
  refine ⟨x₀, h1, h2, fun {cls sa c p dev spread k} h hp hs hdev => ⟨fun hk => ?_, fun hk => zenith_inverted h hp hs (hneg _ hk) hdev⟩⟩
  obtain ⟨-, e2⟩ := scaling_tables h
  obtain ⟨n, rel, ψ, hn, hrel, -, hg, rfl⟩ := zenithDeviation_spec hp hdev
  rw [e2] at hn
  cases hn
  rw [if_pos rfl] at hg
  change LaplaceProfile (0.594 * cThetaScaling (db k)) rel ψ at hg
  have hC : 0 < 0.594 * cThetaScaling (db k) := mul_pos (by norm_num) (hpos _ hk)
  refine ⟨fun m => ?_, 13.818 / (0.594 * cThetaScaling (db k)), laplace_fanned hp hC hs.le hrel hg (by rw [div_mul_cancel₀ _ hC.ne'])⟩
  simp only [deviation, if_true, add_zero, sub_zero]
  have := nonneg_of_mul_nonneg_right (hg m).1 hC
  positivity

end

/-- The law of the K-factor in the Ka band of the urban scenario at 30 degrees. -/
theorem urban_k (h : mkScenario .urban sa = .ok c) (hb : ¬ SBand sa.carrierFrequency) (hel : sa.elevationAngle = 30) :
    c.getReal .pmuK true = .ok 12.48 ∧ c.getReal .psigmaK true = .ok 14.23 := by
  obtain ⟨s, u, hrow, hs, -, t1, t2⟩ := built_rows h
  have hbt := mkScenario_built h
  have hkey : c.angleKey = 30 := by
    obtain ⟨k, hk, -, -, hd, -⟩ := angleKey_nearest c (hbt.el_eq ▸ hbt.el_lo) (hbt.el_eq ▸ hbt.el_hi)
    have he : c.elevationAngle = 30 := hbt.el_eq.trans hel
    rw [he, hk, abs_le] at hd
    push_cast at hd
    have h1 : (5 : ℝ) ≤ 2 * k := by linarith [hd.1]
    have h2 : (2 * k : ℝ) ≤ 7 := by linarith [hd.2]
    have h1' : (5 : ℤ) ≤ 2 * k := by exact_mod_cast h1
    have h2' : 2 * k ≤ (7 : ℤ) := by exact_mod_cast h2
    omega
  have hs' : s = false := by
    cases s
    · rfl
    · exact absurd (hs.1 rfl) hb
  subst hs'
  have hc : bools.all (fun u => cellIs (fun n => n == 12480) (lookupAt (tableOf .urban true false u) .pmuK 30) && cellIs (fun n => n == 14230) (lookupAt (tableOf .urban true false u) .psigmaK 30) &&
      cellIs (fun _ => true) (lookupAt (tableOf .urban false false u) .pmuK 30) && cellIs (fun _ => true) (lookupAt (tableOf .urban false false u) .psigmaK 30)) = true := by decide +kernel
  have hu := List.all_eq_true.1 hc u (mem_bools u)
  simp only [Bool.and_eq_true] at hu
  obtain ⟨⟨⟨h1, h2⟩, h3⟩, h4⟩ := hu
  obtain ⟨n1, f1, g1⟩ := cellIs_spec h1
  obtain ⟨n2, f2, g2⟩ := cellIs_spec h2
  obtain ⟨n3, f3, -⟩ := cellIs_spec h3
  obtain ⟨n4, f4, -⟩ := cellIs_spec h4
  simp only [beq_iff_eq] at g1 g2
  subst g1 g2
  constructor
  · rw [getReal_ok (by rw [t1, hkey]; exact f1) (by rw [t2, hkey]; exact f3)]; norm_num
  · rw [getReal_ok (by rw [t1, hkey]; exact f2) (by rw [t2, hkey]; exact f4)]; norm_num

theorem exUrbanKa : ∃ c, mkScenario .urban (exArgs 20000000000 "uplink" 30) = .ok c := by
  simpa using exArgs_ok .urban true true 30 (by norm_num) (by norm_num)

theorem exUrbanKa_band : ¬ SBand (exArgs 20000000000 "uplink" 30).carrierFrequency := by
  norm_num [SBand, exArgs]

theorem db_pow10 (x : ℝ) : db (pow10 (x / 10)) = x := by
  have : db (pow10 (x / 10)) = 10 * log10 (pow10 (x / 10)) := rfl
  rw [this, log10_pow10]; ring

/-- Zenith generation on two clusters, the second of half the power of the first. -/
theorem exZenith (h : mkScenario cls sa = .ok c) {k : ℝ} (hk : 0 < k) (hC : cThetaScaling (db k) ≠ 0) :
    ∃ dev, zenithDeviation c true false 1 k (![1, 0.5] : Fin 2 → ℝ) (fun _ => true) (fun _ => 0) = .ok dev := by
  have hrel : ∃ rel, relativePower (![1, 0.5] : Fin 2 → ℝ) = .ok rel := by
    unfold relativePower
    have : 0 < reduceMax (![1, 0.5] : Fin 2 → ℝ) := lt_of_lt_of_le (by norm_num) (le_reduceMax (![1, 0.5] : Fin 2 → ℝ) 0)
    rw [if_neg this.ne']
    exact ⟨_, rfl⟩
  obtain ⟨rel, hrel⟩ := hrel
  unfold zenithDeviation cTheta kFactorDb
  rw [(scaling_tables h).2, hrel]
  change cThetaScaling (10 * log10 k) ≠ 0 at hC
  have h1 : (0.594 : ℝ) * cThetaScaling (10 * log10 k) ≠ 0 := mul_ne_zero (by norm_num) hC
  simp only [bind, Except.bind, Bool.not_false, Bool.and_self, if_true, if_pos hk, if_neg h1]
  exact ⟨_, rfl⟩

/-- C205 fails in the Ka band of the urban scenario at 30 degrees, with a K-factor 1.7 standard deviations below its mean. -/
theorem C205_violated : ¬ C205_statement := by
  intro H
  obtain ⟨c, hc⟩ := exUrbanKa
  obtain ⟨hm, hs⟩ := urban_k hc exUrbanKa_band rfl
  have hdb : db (pow10 (-12 / 10)) = -12 := db_pow10 _
  have hneg : cThetaScaling (db (pow10 (-12 / 10))) < 0 := cThetaScaling_neg (by rw [hdb]; norm_num)
  have hp : ∀ m, 0 ≤ (![1, 0.5] : Fin 2 → ℝ) m := fun m => by fin_cases m <;> norm_num
  obtain ⟨dev, hdev⟩ := exZenith hc (pow10_pos _) hneg.ne
  obtain ⟨-, hz⟩ := H _ _ c hc 2 ![1, 0.5] 1 (pow10 (-12 / 10)) 0 hp (fun m => by fin_cases m <;> norm_num) (by norm_num) (by norm_num)
    ⟨_, _, hm, hs, by rw [hdb, abs_le]; norm_num⟩
  have h1 := (hz dev hdev).1 1 0 (by norm_num)
  have h2 := (C205_inverted hc hp one_pos (by rw [hdb]; norm_num) hdev).2 1 0 (by norm_num) (fun i => by fin_cases i <;> norm_num)
  linarith

/-- The hypotheses of C205 can be met: a K-factor of 12 dB. -/
example : ∃ c, mkScenario .urban (exArgs 20000000000 "uplink" 30) = .ok c ∧ CommonK c (pow10 (12 / 10)) ∧ -7 ≤ db (pow10 (12 / 10)) ∧
    ∃ dev, zenithDeviation c true false 1 (pow10 (12 / 10)) (![1, 0.5] : Fin 2 → ℝ) (fun _ => true) (fun _ => 0) = .ok dev := by
  obtain ⟨c, hc⟩ := exUrbanKa
  obtain ⟨hm, hs⟩ := urban_k hc exUrbanKa_band rfl
  have hdb : db (pow10 (12 / 10)) = 12 := db_pow10 _
  refine ⟨c, hc, ⟨_, _, hm, hs, by rw [hdb, abs_le]; norm_num⟩, by rw [hdb]; norm_num, exZenith hc (pow10_pos _) ?_⟩
  rw [hdb]
  have := cThetaScaling_lower (show (-7 : ℝ) ≤ 12 by norm_num)
  intro hh
  rw [hh] at this
  norm_num at this

/-- A normal variable lies 1.58 standard deviations or more below its mean in more than two percent of cases. -/
theorem gaussian_lower : ENNReal.ofReal (1 / 50) ≤ gaussianReal 0 1 (Set.Iic (-1.58)) := by
  have h1 : ENNReal.ofReal (1 / 50) ≤ gaussianReal 0 1 (Set.Icc (-2) (-1.58)) := by
    rw [gaussianReal_apply 0 (by norm_num)]
    have hpdf : ∀ x ∈ Set.Icc (-2 : ℝ) (-1.58), ENNReal.ofReal 0.05 ≤ gaussianPDF 0 1 x := by
      intro x hx
      refine ENNReal.ofReal_le_ofReal ?_
      rw [gaussianPDFReal, NNReal.coe_one, mul_one, mul_one, sub_zero]
      have hx2 : x ^ 2 ≤ 4 := by nlinarith [hx.1, hx.2]
      have he : (0.135 : ℝ) ≤ Real.exp (-x ^ 2 / 2) := by
        have h1 : Real.exp (-2) ≤ Real.exp (-x ^ 2 / 2) := Real.exp_le_exp.2 (by linarith)
        have h2 : Real.exp (-2) = (Real.exp 1 ^ 2)⁻¹ := by rw [← Real.exp_nat_mul, ← Real.exp_neg]; norm_num
        have h3 : Real.exp 1 ^ 2 ≤ 7.4 := by
          have := Real.exp_one_lt_d9
          nlinarith [Real.exp_pos 1]
        have h4 : (7.4 : ℝ)⁻¹ ≤ (Real.exp 1 ^ 2)⁻¹ := inv_anti₀ (by positivity) h3
        exact (by norm_num : (0.135 : ℝ) ≤ 7.4⁻¹).trans (h4.trans (h2 ▸ h1))
      have hr : Real.sqrt (2 * Real.pi) ≤ 2.51 := by
        rw [Real.sqrt_le_left (by norm_num)]
        have := Real.pi_lt_d2
        norm_num at this ⊢
        linarith
      have hp : (2.51 : ℝ)⁻¹ ≤ (Real.sqrt (2 * Real.pi))⁻¹ := inv_anti₀ (Real.sqrt_pos.2 (by positivity)) hr
      calc (0.05 : ℝ) ≤ (2.51)⁻¹ * 0.135 := by norm_num
        _ ≤ _ := mul_le_mul hp he (by norm_num) (by positivity)
    calc ENNReal.ofReal (1 / 50) ≤ ENNReal.ofReal 0.05 * volume (Set.Icc (-2 : ℝ) (-1.58)) := by
          rw [Real.volume_Icc, ← ENNReal.ofReal_mul (by norm_num)]
          exact ENNReal.ofReal_le_ofReal (by norm_num)
      _ = ∫⁻ x in Set.Icc (-2 : ℝ) (-1.58), ENNReal.ofReal 0.05 := by rw [setLIntegral_const]
      _ ≤ _ := setLIntegral_mono (measurable_gaussianPDF 0 1) hpdf
  exact h1.trans (measure_mono fun x hx => hx.2)

section
variable {U : ℕ} {los indoor : Fin U → Bool} {x y : Fin U → ℝ} {nb : Fin U → Bool}

/-- C205, how often it fails: in the Ka band of the urban scenario at 30 degrees more than one LoS link in fifty has its zeniths reversed. -/
theorem C205_frequency (h : mkScenario .urban sa = .ok c) (hb : ¬ SBand sa.carrierFrequency) (hel : sa.elevationAngle = 30)
    (hli : ∀ u, ¬ (los u = true ∧ indoor u = true)) (S : LspSetup c los indoor x y nb) {Ω : Type} [MeasurableSpace Ω] {P : Measure Ω}
    [IsProbabilityMeasure P] {s : Fin U × Fin 7 → Ω → ℝ} (hs : StandardNormal P s) (u : Fin U) (hu : los u = true) :
    ENNReal.ofReal (1 / 50) ≤ P {ω | ∀ (M : ℕ) [NeZero M] (p dev : Fin M → ℝ) (spread : ℝ), (∀ m, 0 ≤ p m) → 0 < spread →
      zenithDeviation c true false spread (S.sample (fun v k => s (v, k) ω) u).kFactor p (fun _ => true) (fun _ => 0) = .ok dev →
      ∀ m m', p m < p m' → (∀ i, 1e-6 * p i ≤ p m) → dev m < dev m'} := by
  obtain ⟨⟨g, hg, -, hlaw, -⟩, -⟩ := C155_joint_law h hli S hs
  obtain ⟨hm, hsd⟩ := urban_k h hb hel
  obtain ⟨-, -, -, ⟨k, hk, hmean⟩, hstd⟩ := C27_tabulated_mean_deviation h S u
  rw [hu, hm] at hk
  rw [hu, hsd] at hstd
  have hk' : (12.48 : ℝ) = 10 * k := Except.ok.inj hk
  have hstd' : (14.23 : ℝ) = 10 * S.std u 4 := Except.ok.inj hstd
  have hle : P {ω | g (u, 4) ω ∈ Set.Iic (-1.58 : ℝ)} = gaussianReal 0 1 (Set.Iic (-1.58)) := by
    rw [← (hlaw (u, 4)).map_eq, Measure.map_apply_of_aemeasurable (hlaw (u, 4)).aemeasurable measurableSet_Iic]
    rfl
  refine gaussian_lower.trans (hle ▸ measure_mono fun ω hω => ?_)
  intro M _ p dev spread hp hsp hdev
  refine (C205_inverted h hp hsp ?_ hdev).2
  have hX := hg u 4 ω k hmean
  change (S.sample (fun v k => s (v, k) ω) u).kFactor = pow10 (k + S.std u 4 * g (u, 4) ω) at hX
  rw [hX, show k + S.std u 4 * g (u, 4) ω = (10 * (k + S.std u 4 * g (u, 4) ω)) / 10 by ring, db_pow10]
  have : g (u, 4) ω ≤ -1.58 := hω
  have h0 : S.std u 4 = 1.423 := by norm_num at hstd' ⊢; linarith
  have h1 : k = 1.248 := by norm_num at hk' ⊢; linarith
  rw [h0, h1]
  norm_num at this ⊢
  linarith

end

/-- The hypotheses of the frequency theorem can be met: three outdoor UTs, two of them in LoS. -/
example : ∃ c, mkScenario .urban (exArgs 20000000000 "uplink" 30) = .ok c ∧ ¬ SBand (exArgs 20000000000 "uplink" 30).carrierFrequency ∧
    Nonempty (LspSetup c ![true, true, false] (fun _ => false) ![0, 10, 10] (fun _ => 0) (fun _ => true)) ∧
    ∃ P : Measure (Fin 3 × Fin 7 → ℝ), IsProbabilityMeasure P ∧ StandardNormal P (fun k ω => ω k) := by
  obtain ⟨c, h⟩ := exUrbanKa
  refine ⟨c, h, exUrbanKa_band, lspSetup_exists h (by simp) (fun m n => ?_) _, exists_standardNormal _⟩
  fin_cases m <;> fin_cases n <;> simp [utState]

end OpenNTN
