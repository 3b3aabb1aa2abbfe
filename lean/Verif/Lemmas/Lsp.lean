import Verif.Lemmas.ConfigTable
import Verif.Lemmas.CrossCorr
import Verif.Lemmas.ExpKernel
import Verif.Lemmas.Normal
import Verif.Spec.Lsp

namespace OpenNTN

/-- The log-domain deviations, tied to the table. -/
theorem lspLogStd_ok {cls : ScenarioClass} {a : ScenarioArgs} {c : Config} (h : mkScenario cls a = .ok c) (los nb : Bool) :
    ∃ σ : Fin 7 → ℝ, lspLogStd c los nb = .ok σ ∧ (∀ i, 0 ≤ σ i) ∧
      c.getReal .psigmaDS los = .ok (σ 0) ∧ c.getReal .psigmaASD los = .ok (σ 1) ∧ c.getReal .psigmaASA los = .ok (σ 2) ∧
      c.getReal .psigmaSF los = .ok (10 * σ 3) ∧ c.getReal .psigmaK los = .ok (10 * σ 4) ∧
      c.getReal .psigmaZSA los = .ok (σ 5) ∧ c.getReal .psigmaZSD los = .ok (σ 6) := by
  have fin : ∀ p ∈ [Param.psigmaDS, .psigmaASD, .psigmaASA, .psigmaSF, .psigmaK, .psigmaZSA, .psigmaZSD],
      ∃ x : ℝ, 0 ≤ x ∧ c.getReal p los = .ok x := by
    intro p hp
    obtain ⟨n, hP, e⟩ := getReal_check h p _ (finite_cell (by revert hp; revert p; decide)) los
    have h1 : (0 : ℤ) ≤ n := by
      simp only [List.mem_cons, List.not_mem_nil, or_false] at hp
      rcases hp with rfl | rfl | rfl | rfl | rfl | rfl | rfl <;> simpa only [cellRange, decide_eq_true_eq] using hP
    have h1 : (0 : ℝ) ≤ n := by exact_mod_cast h1
    exact ⟨_, by positivity, e⟩
  obtain ⟨x0, p0, e0⟩ := fin .psigmaDS (by decide)
  obtain ⟨x1, p1, e1⟩ := fin .psigmaASD (by decide)
  obtain ⟨x2, p2, e2⟩ := fin .psigmaASA (by decide)
  obtain ⟨x3, p3, e3⟩ := fin .psigmaSF (by decide)
  obtain ⟨x4, p4, e4⟩ := fin .psigmaK (by decide)
  obtain ⟨x5, p5, e5⟩ := fin .psigmaZSA (by decide)
  obtain ⟨x6, p6, e6⟩ := fin .psigmaZSD (by decide)
  refine ⟨![x0, x1, x2, x3 / 10, x4 / 10, x5, x6], ?_, ?_, e0, e1, e2, ?_, ?_, e5, e6⟩
  · unfold lspLogStd
    rw [e0, e1, e2, e3, e4, e5, e6]
    cases nb <;> cases los <;> rfl
  · intro i
    fin_cases i
    · exact p0
    · exact p1
    · exact p2
    · change 0 ≤ x3 / 10; positivity
    · change 0 ≤ x4 / 10; positivity
    · exact p5
    · exact p6
  · rw [e3]; congr 1; change x3 = 10 * (x3 / 10); ring
  · rw [e4]; congr 1; change x4 = 10 * (x4 / 10); ring

/-- Departure spreads: what the tables hold. -/
theorem departure_ok {cls : ScenarioClass} {a : ScenarioArgs} {c : Config} (h : mkScenario cls a = .ok c) (los : Bool) :
    (a.direction = "uplink" → (∃ x : ℝ, c.getParam .pmuASD los = .ok (x : WithBot ℝ)) ∧
      (∃ x : ℝ, c.getParam .pmuZSD los = .ok (x : WithBot ℝ) ∧ -100 ≤ x)) ∧
    (a.direction = "downlink" → c.getParam .pmuASD los = .ok ⊥ ∧ c.getParam .pmuZSD los = .ok ⊥ ∧
      c.getReal .psigmaASD los = .ok 0 ∧ c.getReal .psigmaZSD los = .ok 0) := by
  have hb := mkScenario_built h
  obtain ⟨s, u, hk, -, hu, e1, e2⟩ := built_rows h
  have t1 := tableAll_spec departure_cells cls true s u hk
  have t2 := tableAll_spec departure_cells cls false s u hk
  rw [← e1, Bool.and_eq_true] at t1
  rw [← e2, Bool.and_eq_true] at t2
  have dep : ∀ (f : ParamFile) (mu sg : Param), departureOk f u c.angleKey mu sg = true →
      (u = true → ∃ n m, lookupAt f mu c.angleKey = .ok (.m n) ∧ lookupAt f sg c.angleKey = .ok (.m m) ∧ -100000 ≤ n) ∧
      (u = false → lookupAt f mu c.angleKey = .ok .ninf ∧ lookupAt f sg c.angleKey = .ok (.m 0)) := by
    intro f mu sg hd
    unfold departureOk at hd
    split at hd
    · rename_i n m h1 h2
      exact ⟨fun _ => ⟨n, m, h1, h2, by simpa using hd⟩, fun h => by simp at h⟩
    · rename_i h1 h2
      exact ⟨fun h => by simp at h, fun _ => ⟨h1, h2⟩⟩
    · simp at hd
  constructor
  · intro hd
    have hu' : u = true := hu.2 hd
    obtain ⟨n1, -, h1, -, -⟩ := (dep _ _ _ t1.1).1 hu'
    obtain ⟨n2, -, h2, -, -⟩ := (dep _ _ _ t2.1).1 hu'
    obtain ⟨n3, -, h3, -, b3⟩ := (dep _ _ _ t1.2).1 hu'
    obtain ⟨n4, -, h4, -, b4⟩ := (dep _ _ _ t2.2).1 hu'
    have b3 : (-100000 : ℝ) ≤ n3 := by exact_mod_cast b3
    have b4 : (-100000 : ℝ) ≤ n4 := by exact_mod_cast b4
    rw [getParam_ok h1 h2, getParam_ok h3 h4]
    cases los
    · exact ⟨⟨_, rfl⟩, ⟨_, rfl, by linarith⟩⟩
    · exact ⟨⟨_, rfl⟩, ⟨_, rfl, by linarith⟩⟩
  · intro hd
    have hu' : u = false := by
      cases u
      · rfl
      · exact absurd (hu.1 rfl) (by rw [hd]; decide)
    obtain ⟨h1, g1⟩ := (dep _ _ _ t1.1).2 hu'
    obtain ⟨h2, g2⟩ := (dep _ _ _ t2.1).2 hu'
    obtain ⟨h3, g3⟩ := (dep _ _ _ t1.2).2 hu'
    obtain ⟨h4, g4⟩ := (dep _ _ _ t2.2).2 hu'
    rw [getParam_ok h1 h2, getParam_ok h3 h4, getReal_ok g1 g2, getReal_ok g3 g4]
    cases los <;> simp [Cell.val]

/-- The log-domain means, tied to the table. -/
theorem lspLogMean_ok {cls : ScenarioClass} {a : ScenarioArgs} {c : Config} (h : mkScenario cls a = .ok c) (los : Bool) :
    ∃ (μ : Fin 7 → WithBot ℝ) (m0 m2 m4 m5 : ℝ), lspLogMean c los = .ok μ ∧
      c.getReal .pmuDS los = .ok m0 ∧ c.getReal .pmuASA los = .ok m2 ∧ c.getReal .pmuK los = .ok (10 * m4) ∧
      c.getReal .pmuZSA los = .ok m5 ∧ c.getParam .pmuASD los = .ok (μ 1) ∧ c.getParam .pmuZSD los = .ok (μ 6) ∧
      μ 0 = m0 ∧ μ 2 = m2 ∧ μ 3 = ((0 : ℝ) : WithBot ℝ) ∧ μ 4 = m4 ∧ μ 5 = m5 := by
  have hb := mkScenario_built h
  have fin : ∀ p ∈ [Param.pmuDS, .pmuASA, .pmuK, .pmuZSA], ∃ x : ℝ, c.getReal p los = .ok x := by
    intro p hp
    obtain ⟨n, hP, e⟩ := getReal_check h p _ (finite_cell (by revert hp; revert p; decide)) los
    exact ⟨_, e⟩
  obtain ⟨x0, e0⟩ := fin .pmuDS (by decide)
  obtain ⟨x2, e2⟩ := fin .pmuASA (by decide)
  obtain ⟨x4, e4⟩ := fin .pmuK (by decide)
  obtain ⟨x5, e5⟩ := fin .pmuZSA (by decide)
  have hasd : ∃ y1 y6, c.getParam .pmuASD los = .ok y1 ∧ c.getParam .pmuZSD los = .ok y6 ∧
      (if y6 ≠ ⊥ then max ((-100 : ℝ) : WithBot ℝ) y6 else y6) = y6 := by
    obtain ⟨hup, hdn⟩ := departure_ok h los
    rcases hb.dir_ok with hd | hd
    · obtain ⟨⟨y1, h1⟩, ⟨y6, h6, hge⟩⟩ := hup hd
      refine ⟨_, _, h1, h6, ?_⟩
      rw [if_pos (WithBot.coe_ne_bot), max_eq_right (WithBot.coe_le_coe.2 hge)]
    · obtain ⟨h1, h6, -⟩ := hdn hd
      exact ⟨_, _, h1, h6, by simp⟩
  obtain ⟨y1, y6, e1, e6, hy⟩ := hasd
  refine ⟨![x0, y1, x2, ((0 : ℝ) : WithBot ℝ), ((x4 / 10 : ℝ) : WithBot ℝ), x5, y6], x0, x2, x4 / 10, x5, ?_, e0, e2, ?_, e5,
    e1, e6, rfl, rfl, rfl, rfl, rfl⟩
  · unfold lspLogMean
    rw [getReal_getParam e0, getReal_getParam e2, getReal_getParam e4, getReal_getParam e5, e1, e6]
    change Except.ok _ = Except.ok _
    rw [hy]
    rfl
  · rw [e4]; congr 1; ring

/-- A Cholesky factor has the block structure of its matrix. -/
theorem cholesky_block {n : ℕ} {A L : Fin n → Fin n → ℝ} (h : IsCholesky A L) (r : Fin n → Fin n → Prop)
    (rsymm : ∀ i j, r i j → r j i) (rtrans : ∀ i j k, r i j → r j k → r i k) (hA : ∀ i j, ¬ r i j → A i j = 0) :
    ∀ i j, ¬ r i j → L i j = 0 := by
  have key : ∀ j : ℕ, ∀ hj : j < n, ∀ i : Fin n, ¬ r i ⟨j, hj⟩ → L i ⟨j, hj⟩ = 0 := by
    intro j
    induction j using Nat.strong_induction_on with
    | _ j ih =>
      intro hj i hr
      set J : Fin n := ⟨j, hj⟩ with hJ
      have hp := h.prod i J
      rw [hA i J hr] at hp
      rw [Finset.sum_eq_single J] at hp
      · exact (mul_eq_zero.1 hp).resolve_right (h.diag J).ne'
      · intro k _ hk
        rcases lt_or_gt_of_ne hk with hlt | hgt
        · by_cases h1 : r i k
          · by_cases h2 : r J k
            · exact absurd (rtrans _ _ _ h1 (rsymm _ _ h2)) hr
            · rw [ih k hlt k.2 J h2, mul_zero]
          · rw [ih k hlt k.2 i h1, zero_mul]
        · rw [h.lower J k hgt, mul_zero]
      · intro hn; exact absurd (Finset.mem_univ _) hn
  exact fun i j => key j j.2 i

/-- The correlated draws as linear combinations of the raw draws. -/
theorem correlateDraws_lin {U : ℕ} (Lc : Fin U → Fin 7 → Fin 7 → ℝ) (S : Fin 7 → Fin U → Fin U → ℝ) (s : Fin U → Fin 7 → ℝ)
    (u : Fin U) (i : Fin 7) :
    correlateDraws Lc S s u i = ∑ p : Fin U × Fin 7, (Lc p.1 i p.2 * S i u p.1) * s p.1 p.2 := by
  unfold correlateDraws
  rw [Fintype.sum_prod_type]
  refine Finset.sum_congr rfl fun v _ => ?_
  rw [Finset.sum_mul]
  exact Finset.sum_congr rfl fun k _ => by ring

/-- Inner product of the coefficient vectors. -/
theorem correlateDraws_coef {U : ℕ} {R Lc : Fin U → Fin 7 → Fin 7 → ℝ} (hL : ∀ u, IsCholesky (R u) (Lc u))
    (S : Fin 7 → Fin U → Fin U → ℝ) (u v : Fin U) (i j : Fin 7) :
    ∑ p : Fin U × Fin 7, (Lc p.1 i p.2 * S i u p.1) * (Lc p.1 j p.2 * S j v p.1) = ∑ w, R w i j * (S i u w * S j v w) := by
  rw [Fintype.sum_prod_type]
  refine Finset.sum_congr rfl fun w _ => ?_
  rw [← (hL w).prod, Finset.sum_mul]
  exact Finset.sum_congr rfl fun k _ => by ring

/-- The specified correlation is positive semi-definite, and definite when UTs of one state are apart. -/
theorem spatialCorr_quad {ι : Type} [Fintype ι] [DecidableEq ι] (st : ι → Spec.UtState) (D : Spec.UtState → ℝ) (hD : ∀ s, 0 < D s)
    (x y : ι → ℝ) (w : ι → ℝ) :
    0 ≤ ∑ m, ∑ n, Spec.spatialCorr st D x y m n * w m * w n ∧
    ((∀ m n, st m = st n → x m = x n → y m = y n → m = n) → w ≠ 0 →
      0 < ∑ m, ∑ n, Spec.spatialCorr st D x y m n * w m * w n) := by
  have e : ∑ m, ∑ n, Spec.spatialCorr st D x y m n * w m * w n =
      ∑ s, kq Finset.univ (fun i j : {i // st i = s} => Real.exp (-(nrm (x i - x j) (y i - y j) / D s))) (fun i => w i) := by
    rw [← Fintype.sum_fiberwise st]
    refine Finset.sum_congr rfl fun s _ => ?_
    unfold kq
    refine Finset.sum_congr rfl fun i _ => ?_
    rw [← Fintype.sum_fiberwise st, Finset.sum_eq_single s]
    · refine Finset.sum_congr rfl fun j _ => ?_
      have hij : st i = st j := i.2.trans j.2.symm
      unfold Spec.spatialCorr nrm
      rw [if_pos hij, i.2]; ring
    · intro s' _ hs'
      refine Finset.sum_eq_zero fun j _ => ?_
      unfold Spec.spatialCorr
      rw [if_neg (by rw [i.2, j.2]; exact fun h => hs' h.symm)]; ring
    · intro h; exact absurd (Finset.mem_univ _) h
  rw [e]
  refine ⟨Finset.sum_nonneg fun s _ => (exp_dist_kernel _ _ (hD s) _).1, fun hd hw => ?_⟩
  obtain ⟨i, hi⟩ := Function.ne_iff.1 hw
  refine Finset.sum_pos' (fun s _ => (exp_dist_kernel _ _ (hD s) _).1) ⟨st i, Finset.mem_univ _, ?_⟩
  refine (exp_dist_kernel (fun j : {j // st j = st i} => x j) (fun j => y j) (hD _) _).2 ?_ ?_
  · intro j k h1 h2
    exact Subtype.ext (hd _ _ (j.2.trans k.2.symm) h1 h2)
  · intro h
    exact hi (congrFun h ⟨i, rfl⟩)

/-- The code's matrix is the specified one, when no link of an indoor UT is LoS. -/
theorem spatialCorrelation_spec {U : ℕ} (los indoor : Fin U → Bool) (hli : ∀ u, ¬ (los u = true ∧ indoor u = true)) (dl dn : ℝ)
    (x y : Fin U → ℝ) (m n : Fin U) :
    spatialCorrelation los indoor (fun u => if los u then dl else dn) (utDistance2d x y) m n =
      Spec.spatialCorr (fun u => Spec.utState (los u) (indoor u)) (fun s => if s = .los then dl else dn) x y m n := by
  have hd : utDistance2d x y m n = Real.sqrt ((x m - x n) ^ 2 + (y m - y n) ^ 2) := by
    unfold utDistance2d; congr 1; ring
  unfold spatialCorrelation Spec.spatialCorr spatialFilter Spec.utState
  rw [hd]
  have hm := hli m; have hn := hli n
  by_cases hmn : m = n
  · subst hmn
    cases h1 : los m <;> cases h2 : indoor m <;> simp_all
  · cases h1 : los m <;> cases h2 : indoor m <;> cases h3 : los n <;> cases h4 : indoor n <;> simp_all <;> ring

theorem spatialCorrelationOf_ok {cls : ScenarioClass} {a : ScenarioArgs} {c : Config} (h : mkScenario cls a = .ok c) {U : ℕ}
    (los indoor : Fin U → Bool) (x y : Fin U → ℝ) (i : Fin 7) :
    ∃ dl dn : ℝ, 0 < dl ∧ 0 < dn ∧ c.getReal (corrDistParam i) true = .ok dl ∧ c.getReal (corrDistParam i) false = .ok dn ∧
      spatialCorrelationOf c los indoor x y i =
        .ok (spatialCorrelation los indoor (fun u => if los u then dl else dn) (utDistance2d x y)) := by
  have fin : ∀ los, ∃ d : ℝ, 0 < d ∧ c.getReal (corrDistParam i) los = .ok d := by
    intro los
    obtain ⟨n, hP, e⟩ := getReal_check h (corrDistParam i) _ (finite_cell (by revert i; decide)) los
    have h1 : (0 : ℤ) < n := by
      fin_cases i <;> simpa [corrDistParam, cellRange] using hP
    have h1 : (0 : ℝ) < n := by exact_mod_cast h1
    exact ⟨_, by positivity, e⟩
  obtain ⟨dl, pl, el⟩ := fin true
  obtain ⟨dn, pn, en⟩ := fin false
  refine ⟨dl, dn, pl, pn, el, en, ?_⟩
  unfold spatialCorrelationOf
  rw [el, en]

end OpenNTN
