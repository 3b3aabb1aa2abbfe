import Verif.Model.Lsp
import Mathlib.Analysis.Real.Sqrt
import Mathlib.Algebra.BigOperators.Fin
import Mathlib.Algebra.BigOperators.Ring.Finset
import Mathlib.Tactic.Ring
import Mathlib.Tactic.Linarith
import Mathlib.Tactic.Positivity
import Mathlib.Tactic.FieldSimp

/-
Positive definiteness of real symmetric matrices given as functions: an integer elimination check and the existence and
uniqueness of the Cholesky factor.
-/
namespace OpenNTN

/-- Quadratic form. -/
def quad {n : ℕ} (A : Fin n → Fin n → ℝ) (x : Fin n → ℝ) : ℝ := ∑ i, ∑ j, A i j * x i * x j

/-- Fraction-free elimination: all pivots positive. -/
def pdCheck : (n : ℕ) → (Fin n → Fin n → ℤ) → Bool
  | 0, _ => true
  | n + 1, M => decide (0 < M 0 0) && pdCheck n (fun i j => M 0 0 * M i.succ j.succ - M i.succ 0 * M 0 j.succ)

/-- Completing the square in the first variable. -/
theorem quad_succ {n : ℕ} (A : Fin (n + 1) → Fin (n + 1) → ℝ) (hs : ∀ i j, A i j = A j i) (x : Fin (n + 1) → ℝ) :
    A 0 0 * quad A x = (∑ j, A 0 j * x j) ^ 2 +
      quad (fun i j : Fin n => A 0 0 * A i.succ j.succ - A i.succ 0 * A 0 j.succ) (fun i => x i.succ) := by
  set S : ℝ := ∑ j : Fin n, A 0 j.succ * x j.succ with hS
  have h1 : quad A x = A 0 0 * x 0 * x 0 + 2 * x 0 * S + ∑ i : Fin n, ∑ j : Fin n, A i.succ j.succ * x i.succ * x j.succ := by
    unfold quad
    rw [Fin.sum_univ_succ]
    simp_rw [Fin.sum_univ_succ (f := fun j => A _ j * x _ * x j)]
    rw [Finset.sum_add_distrib]
    have e1 : ∑ j : Fin n, A 0 j.succ * x 0 * x j.succ = x 0 * S := by
      rw [hS, Finset.mul_sum]; exact Finset.sum_congr rfl fun _ _ => by ring
    have e2 : ∑ j : Fin n, A j.succ 0 * x j.succ * x 0 = x 0 * S := by
      rw [hS, Finset.mul_sum]; exact Finset.sum_congr rfl fun _ _ => by rw [hs]; ring
    rw [e1, e2]; ring
  have h2 : ∑ j, A 0 j * x j = A 0 0 * x 0 + S := by rw [Fin.sum_univ_succ]
  have h3 : quad (fun i j : Fin n => A 0 0 * A i.succ j.succ - A i.succ 0 * A 0 j.succ) (fun i => x i.succ) =
      A 0 0 * ∑ i : Fin n, ∑ j : Fin n, A i.succ j.succ * x i.succ * x j.succ - S * S := by
    unfold quad
    have e : S * S = ∑ i : Fin n, ∑ j : Fin n, A i.succ 0 * A 0 j.succ * x i.succ * x j.succ := by
      rw [hS, Finset.sum_mul_sum]
      exact Finset.sum_congr rfl fun i _ => Finset.sum_congr rfl fun j _ => by rw [hs i.succ 0]; ring
    rw [e, Finset.mul_sum, ← Finset.sum_sub_distrib]
    refine Finset.sum_congr rfl fun i _ => ?_
    rw [Finset.mul_sum, ← Finset.sum_sub_distrib]
    exact Finset.sum_congr rfl fun j _ => by ring
  rw [h1, h2, h3]; ring

/-- Positive pivots make the form positive definite. -/
theorem pdCheck_sound : ∀ (n : ℕ) (M : Fin n → Fin n → ℤ), (∀ i j, M i j = M j i) → pdCheck n M = true →
    ∀ x : Fin n → ℝ, x ≠ 0 → 0 < quad (fun i j => (M i j : ℝ)) x := by
  intro n
  induction n with
  | zero => intro M _ _ x hx; exact absurd (funext fun i => i.elim0) hx
  | succ n ih =>
    intro M hs hc x hx
    simp only [pdCheck, Bool.and_eq_true, decide_eq_true_eq] at hc
    obtain ⟨hp, hc⟩ := hc
    have hp' : (0 : ℝ) < M 0 0 := by exact_mod_cast hp
    have key := quad_succ (fun i j => (M i j : ℝ)) (fun i j => by rw [hs]) x
    have hs' : ∀ i j : Fin n, M 0 0 * M i.succ j.succ - M i.succ 0 * M 0 j.succ =
        M 0 0 * M j.succ i.succ - M j.succ 0 * M 0 i.succ := fun i j => by
      rw [hs i.succ j.succ, hs i.succ 0, hs 0 j.succ]; ring
    have ih' := ih _ hs' hc (fun i => x i.succ)
    push_cast at ih'
    have hpos : 0 < (M 0 0 : ℝ) * quad (fun i j => (M i j : ℝ)) x := by
      rw [key]
      by_cases hx' : (fun i : Fin n => x i.succ) = 0
      · have h0 : x 0 ≠ 0 := by
          intro h0; apply hx; funext i
          refine Fin.cases h0 (fun j => congrFun hx' j) i
        have e : ∑ j, (M 0 j : ℝ) * x j = M 0 0 * x 0 := by
          rw [Fin.sum_univ_succ]
          have : ∀ j : Fin n, x j.succ = 0 := fun j => congrFun hx' j
          simp [this]
        rw [hx', e]
        have : quad (fun i j : Fin n => (M 0 0 : ℝ) * M i.succ j.succ - M i.succ 0 * M 0 j.succ) 0 = 0 := by
          simp [quad]
        rw [this]
        have := mul_ne_zero hp'.ne' h0
        positivity
      · have := ih' hx'
        positivity
    exact pos_of_mul_pos_right hpos hp'.le

/-- Every symmetric positive definite matrix has a Cholesky factor. -/
theorem exists_cholesky : ∀ (n : ℕ) (A : Fin n → Fin n → ℝ), (∀ i j, A i j = A j i) →
    (∀ x : Fin n → ℝ, x ≠ 0 → 0 < quad A x) → ∃ L, IsCholesky A L := by
  intro n
  induction n with
  | zero => intro A _ _; exact ⟨fun i => i.elim0, ⟨fun i => i.elim0, fun i => i.elim0, fun i => i.elim0⟩⟩
  | succ n ih =>
    intro A hs hpd
    have hp : 0 < A 0 0 := by
      have := hpd (Pi.single 0 1) (by intro h; simpa using congrFun h 0)
      simpa [quad, Pi.single_apply, Fin.sum_univ_succ] using this
    set B : Fin n → Fin n → ℝ := fun i j => A i.succ j.succ - A i.succ 0 * A 0 j.succ / A 0 0 with hB
    have hBs : ∀ i j, B i j = B j i := fun i j => by
      simp only [hB]; rw [hs i.succ j.succ, hs i.succ 0, hs 0 j.succ]; ring
    have hBpd : ∀ y : Fin n → ℝ, y ≠ 0 → 0 < quad B y := by
      intro y hy
      set x : Fin (n + 1) → ℝ := Fin.cons (-(∑ j : Fin n, A 0 j.succ * y j) / A 0 0) y with hx
      have hx0 : x ≠ 0 := by
        intro h; apply hy; funext i
        have := congrFun h i.succ
        simpa [hx] using this
      have h1 := hpd x hx0
      have key := quad_succ A hs x
      have e0 : ∑ j, A 0 j * x j = 0 := by
        rw [Fin.sum_univ_succ]
        simp only [hx, Fin.cons_zero, Fin.cons_succ]
        field_simp; ring
      rw [e0] at key
      have e1 : quad (fun i j : Fin n => A 0 0 * A i.succ j.succ - A i.succ 0 * A 0 j.succ) (fun i => x i.succ) =
          A 0 0 * quad B y := by
        simp only [quad, hB, hx, Fin.cons_succ]
        rw [Finset.mul_sum]
        refine Finset.sum_congr rfl fun i _ => ?_
        rw [Finset.mul_sum]
        refine Finset.sum_congr rfl fun j _ => ?_
        field_simp
      rw [e1] at key
      have : 0 < A 0 0 * quad B y := by
        have := mul_pos hp h1
        rw [key] at this; simpa using this
      exact pos_of_mul_pos_right this hp.le
    obtain ⟨L', hL⟩ := ih B hBs hBpd
    have hsq : Real.sqrt (A 0 0) * Real.sqrt (A 0 0) = A 0 0 := Real.mul_self_sqrt hp.le
    have hsp : 0 < Real.sqrt (A 0 0) := Real.sqrt_pos.2 hp
    refine ⟨fun i j => Fin.cases (Fin.cases (Real.sqrt (A 0 0)) (fun _ => 0) j)
      (fun i' => Fin.cases (A i'.succ 0 / Real.sqrt (A 0 0)) (fun j' => L' i' j') j) i, ?_, ?_, ?_⟩
    · intro i j hij
      induction i using Fin.cases with
      | zero =>
        induction j using Fin.cases with
        | zero => exact absurd hij (lt_irrefl _)
        | succ j => rfl
      | succ i =>
        induction j using Fin.cases with
        | zero => exact absurd hij (Fin.not_lt_zero _)
        | succ j => exact hL.lower i j (Fin.succ_lt_succ_iff.1 hij)
    · intro i
      induction i using Fin.cases with
      | zero => exact hsp
      | succ i => exact hL.diag i
    · intro i j
      rw [Fin.sum_univ_succ]
      induction i using Fin.cases with
      | zero =>
        induction j using Fin.cases with
        | zero => simp [hsq]
        | succ j => simp; rw [mul_div_cancel₀ _ hsp.ne', hs]
      | succ i =>
        induction j using Fin.cases with
        | zero => simp; rw [div_mul_cancel₀ _ hsp.ne']
        | succ j =>
          simp only [Fin.cases_zero, Fin.cases_succ]
          rw [hL.prod i j]
          simp only [hB]
          rw [div_mul_div_comm, hsq, hs 0 j.succ]; ring

/-- The Cholesky factor is unique. -/
theorem cholesky_unique {n : ℕ} {A L L' : Fin n → Fin n → ℝ} (h : IsCholesky A L) (h' : IsCholesky A L') : L = L' := by
  have key : ∀ j : ℕ, ∀ hj : j < n, ∀ i : Fin n, L i ⟨j, hj⟩ = L' i ⟨j, hj⟩ := by
    intro j
    induction j using Nat.strong_induction_on with
    | _ j ih =>
      intro hj
      set J : Fin n := ⟨j, hj⟩ with hJ
      have split : ∀ (M : Fin n → Fin n → ℝ), (∀ i k, i < k → M i k = 0) → ∀ i : Fin n,
          ∑ k, M i k * M J k = M i J * M J J + ∑ k ∈ Finset.univ.filter (· < J), M i k * M J k := by
        intro M hM i
        rw [← Finset.sum_filter_add_sum_filter_not Finset.univ (· < J), add_comm]
        congr 1
        rw [Finset.sum_eq_single J]
        · intro k hk hne
          have : J < k := lt_of_le_of_ne (not_lt.1 (Finset.mem_filter.1 hk).2) (Ne.symm hne)
          rw [hM J k this, mul_zero]
        · intro hJn; exact absurd (by simp) hJn
      have hlow : ∀ i : Fin n, ∑ k ∈ Finset.univ.filter (· < J), L i k * L J k =
          ∑ k ∈ Finset.univ.filter (· < J), L' i k * L' J k := by
        intro i
        refine Finset.sum_congr rfl fun k hk => ?_
        have hk' : (k : ℕ) < j := (Finset.mem_filter.1 hk).2
        rw [ih k hk' k.2 i, ih k hk' k.2 J]
      have heq : ∀ i, L i J * L J J = L' i J * L' J J := by
        intro i
        have e1 := split L h.lower i
        have e2 := split L' h'.lower i
        rw [h.prod] at e1; rw [h'.prod] at e2
        have := hlow i
        linarith
      have hd : L J J = L' J J := by
        have h1 := heq J
        have p1 := h.diag J
        have p2 := h'.diag J
        nlinarith
      intro i
      have := heq i
      rw [hd] at this
      exact mul_right_cancel₀ (h'.diag J).ne' this
  funext i j
  exact key j j.2 i

/-- A factor shows the matrix to be positive definite. -/
theorem cholesky_posdef {n : ℕ} {A L : Fin n → Fin n → ℝ} (h : IsCholesky A L) :
    (∀ i j, A i j = A j i) ∧ ∀ x : Fin n → ℝ, quad A x = ∑ k, (∑ i, L i k * x i) ^ 2 := by
  refine ⟨fun i j => ?_, fun x => ?_⟩
  · rw [← h.prod, ← h.prod]; exact Finset.sum_congr rfl fun _ _ => mul_comm _ _
  · unfold quad
    simp_rw [← h.prod, sq, Finset.sum_mul_sum, Finset.sum_mul]
    conv_rhs => rw [Finset.sum_comm]
    refine Finset.sum_congr rfl fun i _ => ?_
    rw [Finset.sum_comm]
    exact Finset.sum_congr rfl fun j _ => Finset.sum_congr rfl fun k _ => by ring

end OpenNTN
