import Verif.Props.TdlCall

/-
C156: which correlation matrices the tapped delay line model accepts.
-/
namespace OpenNTN

open Classical Matrix ComplexOrder

/-- The matrices that take part: a joint matrix replaces the other two. -/
def Spec.InUse {R T : ℕ} (c : TdlCorr R T) (P : ∀ {ι : Type} [Fintype ι] [LinearOrder ι], Matrix ι ι ℂ → Prop) : Prop :=
  match c.spatial with
  | some S => P S
  | none => (∀ S ∈ c.rx, P S) ∧ ∀ S ∈ c.tx, P S

/-- The correlation step works, i.e. returns coefficients for all coefficients given to it. -/
def Spec.Accepts {R T : ℕ} (c : TdlCorr R T) : Prop := ∃ f : Matrix (Fin R) (Fin T) ℂ → Matrix (Fin R) (Fin T) ℂ, ∀ h, tdlCorrelate c h = .ok (f h)

/-- Two matrices agree on and below the diagonal, up to imaginary parts on the diagonal. -/
def Spec.SameLower {ι : Type} [LinearOrder ι] (S S' : Matrix ι ι ℂ) : Prop := (∀ i j, j < i → S i j = S' i j) ∧ ∀ i, (S i i).re = (S' i i).re

/-- The full claim of C156: exactly the Hermitian positive definite matrices are accepted. -/
def C156_statement : Prop := ∀ (R T : ℕ) (c : TdlCorr R T), Spec.Accepts c ↔ Spec.InUse c fun S => S.PosDef

theorem cholesky_ok_iff {ι : Type} [Fintype ι] [LinearOrder ι] (S : Matrix ι ι ℂ) : (∃ L, cholesky S = .ok L) ↔ (lowerHermitian S).PosDef := by
  refine ⟨fun ⟨L, h⟩ => cholesky_posDef h, fun h => ?_⟩
  unfold cholesky
  rw [dif_pos (exists_choleskyC h)]
  exact ⟨_, rfl⟩

theorem choleskyOpt_ok_iff {ι : Type} [Fintype ι] [LinearOrder ι] (o : Option (Matrix ι ι ℂ)) :
    (∃ l, choleskyOpt o = .ok l) ↔ ∀ S ∈ o, (lowerHermitian S).PosDef := by
  cases o with
  | none => simp [choleskyOpt]
  | some S =>
    have := cholesky_ok_iff S
    simp only [choleskyOpt, Option.mem_def, Option.some.injEq, forall_eq']
    rw [← this]
    constructor
    · rintro ⟨l, h⟩
      cases hL : cholesky S with
      | error e => rw [hL] at h; simp [bind, Except.bind] at h
      | ok L => exact ⟨L, rfl⟩
    · rintro ⟨L, h⟩
      exact ⟨some L, by rw [h]; rfl⟩

theorem accepts_iff {R T : ℕ} (c : TdlCorr R T) : Spec.Accepts c ↔ Spec.InUse c fun S => (lowerHermitian S).PosDef := by
  unfold Spec.Accepts Spec.InUse tdlCorrelate
  cases hs : c.spatial with
  | some S =>
    simp only []
    rw [← cholesky_ok_iff]
    constructor
    · rintro ⟨f, hf⟩
      cases hL : cholesky S with
      | error e => have := hf 0; rw [hL] at this; simp [bind, Except.bind] at this
      | ok L => exact ⟨L, rfl⟩
    · rintro ⟨L, h⟩
      simp only [h, bind, Except.bind]
      exact ⟨_, fun _ => rfl⟩
  | none =>
    simp only []
    rw [← choleskyOpt_ok_iff, ← choleskyOpt_ok_iff]
    constructor
    · rintro ⟨f, hf⟩
      have := hf 0
      cases hr : choleskyOpt c.rx with
      | error e => rw [hr] at this; simp [bind, Except.bind] at this
      | ok lr =>
        cases ht : choleskyOpt c.tx with
        | error e => rw [hr, ht] at this; simp [bind, Except.bind] at this
        | ok lt => exact ⟨⟨lr, rfl⟩, lt, rfl⟩
    · rintro ⟨⟨lr, hr⟩, lt, ht⟩
      simp only [hr, ht, bind, Except.bind]
      exact ⟨_, fun _ => rfl⟩

theorem lowerHermitian_congr {ι : Type} [LinearOrder ι] {S S' : Matrix ι ι ℂ} (h : Spec.SameLower S S') : lowerHermitian S = lowerHermitian S' := by
  ext i j
  unfold lowerHermitian
  rcases lt_trichotomy i j with e | rfl | e
  · simp only [e.not_gt, e.ne, if_false]
    rw [h.1 j i e]
  · simp [h.2 i]
  · simp only [e, if_true]
    rw [h.1 i j e]

theorem cholesky_congr {ι : Type} [Fintype ι] [LinearOrder ι] {S S' : Matrix ι ι ℂ} (h : Spec.SameLower S S') : cholesky S = cholesky S' := by
  unfold cholesky
  rw [lowerHermitian_congr h]

/-- C156, what holds: for Hermitian matrices exactly the positive definite ones are accepted, whatever their diagonal; and the result depends
on the lower triangle and the real parts on the diagonal only. Missing: matrices that are not Hermitian are accepted as well, see
`C156_violated`. -/
theorem C156_accepted_partial {R T : ℕ} (c : TdlCorr R T) :
    ((Spec.InUse c fun S => S.IsHermitian) → (Spec.Accepts c ↔ Spec.InUse c fun S => S.PosDef)) ∧
    (∀ S S', Spec.SameLower S S' → tdlCorrelate { c with spatial := some S } = tdlCorrelate { c with spatial := some S' }) ∧
    (∀ S S', Spec.SameLower S S' → tdlCorrelate { c with rx := some S } = tdlCorrelate { c with rx := some S' }) ∧
    ∀ S S', Spec.SameLower S S' → tdlCorrelate { c with tx := some S } = tdlCorrelate { c with tx := some S' } := by
  refine ⟨fun hh => ?_, fun S S' h => ?_, fun S S' h => ?_, fun S S' h => ?_⟩
  · rw [accepts_iff]
    unfold Spec.InUse at hh ⊢
    cases hs : c.spatial with
    | some S =>
      rw [hs] at hh
      simp only [] at hh ⊢
      rw [lowerHermitian_eq hh]
    | none =>
      rw [hs] at hh
      simp only [] at hh ⊢
      refine and_congr (forall₂_congr fun S hS => ?_) (forall₂_congr fun S hS => ?_)
      · rw [lowerHermitian_eq (hh.1 S hS)]
      · rw [lowerHermitian_eq (hh.2 S hS)]
  · funext x
    simp only [tdlCorrelate, cholesky_congr h]
  · funext x
    simp only [tdlCorrelate, choleskyOpt, cholesky_congr h]
  · funext x
    simp only [tdlCorrelate, choleskyOpt, cholesky_congr h]

/-- C156 fails: with 0.6 below and 2 above the diagonal the matrix is accepted, as if it had 0.6 in both places. -/
theorem C156_violated : ¬ C156_statement := by
  intro H
  let S : Matrix (Fin 2) (Fin 2) ℂ := !![1, 2; 3 / 5, 1]
  have hl : Spec.SameLower S exCorr := by
    refine ⟨fun i j h => ?_, fun i => ?_⟩
    · fin_cases i <;> fin_cases j <;> simp [S, exCorr] at h ⊢
    · fin_cases i <;> simp [S, exCorr]
  have ha : Spec.Accepts ({ rx := some S } : TdlCorr 2 1) := by
    rw [accepts_iff]
    refine ⟨fun X hX => ?_, by simp⟩
    cases hX
    rw [lowerHermitian_congr hl, lowerHermitian_eq exCorr_hermitian]
    exact exCorr_ok.1
  have := ((H 2 1 _).1 ha).1 S rfl
  have := this.isHermitian.apply 0 1
  simp only [S, of_apply, cons_val_zero, cons_val_one, cons_val', cons_val_fin_one] at this
  have := congrArg Complex.re this
  norm_num [Complex.div_re, Complex.normSq] at this

/-- The matrices may be rejected: perfectly correlated antennas. -/
example : ¬ Spec.Accepts ({ rx := some !![1, 1; 1, 1] } : TdlCorr 2 1) := by
  have hh : (!![1, 1; 1, 1] : Matrix (Fin 2) (Fin 2) ℂ).IsHermitian := by
    ext i j
    fin_cases i <;> fin_cases j <;> simp
  rw [(C156_accepted_partial ({ rx := some !![1, 1; 1, 1] } : TdlCorr 2 1)).1 ⟨fun S hS => by cases hS; exact hh, by simp⟩]
  rintro ⟨h, -⟩
  have := (h _ rfl).det_pos
  simp [det_fin_two] at this

/-- The hypothesis is met by an accepted matrix. -/
example : (Spec.InUse ({ rx := some exCorr } : TdlCorr 2 1) fun S => S.IsHermitian) ∧ Spec.Accepts ({ rx := some exCorr } : TdlCorr 2 1) := by
  have hh : Spec.InUse ({ rx := some exCorr } : TdlCorr 2 1) fun S => S.IsHermitian :=
    ⟨fun S hS => by cases hS; exact exCorr_hermitian, by simp⟩
  refine ⟨hh, ((C156_accepted_partial _).1 hh).2 ⟨fun S hS => by cases hS; exact exCorr_ok.1, by simp⟩⟩

end OpenNTN
