import Verif.Lemmas.CrossTable

namespace OpenNTN

theorem foldl_addParam (c : Config) (los : Bool) (v : Param → ℝ) : ∀ (l : List (Param × Fin 7 × Fin 7))
    (m : Fin 7 → Fin 7 → ℝ), (∀ e ∈ l, c.getReal e.1 los = .ok (v e.1)) →
    l.foldl (addParam c los) (.ok m) = .ok fun i j => l.foldl (fun s e => s + v e.1 * addMask e.2.1 e.2.2 i j) (m i j) := by
  intro l
  induction l with
  | nil => intro m _; rfl
  | cons e l ih =>
    intro m h
    simp only [List.foldl_cons]
    have he : addParam c los (.ok m) e = .ok fun i j => m i j + v e.1 * addMask e.2.1 e.2.2 i j := by
      unfold addParam
      rw [h e (by simp)]
    rw [he, ih _ fun e' h' => h e' (by simp [h'])]

theorem foldl_int (w : Param → ℤ) (i j : Fin 7) : ∀ (l : List (Param × Fin 7 × Fin 7)) (a : ℤ),
    l.foldl (fun s e => s + ((w e.1 : ℝ) / 1000) * addMask e.2.1 e.2.2 i j) ((a : ℝ) / 1000) =
      ((l.foldl (fun s e => s + w e.1 * addMask e.2.1 e.2.2 i j) a : ℤ) : ℝ) / 1000 := by
  intro l
  induction l with
  | nil => intro a; rfl
  | cons e l ih =>
    intro a
    simp only [List.foldl_cons]
    rw [← ih]
    congr 1
    push_cast [addMask]
    split_ifs <;> norm_num <;> ring

/-- The matrix built by the code, tied to the table. -/
theorem crossLspCorrelation_table {cls : ScenarioClass} {a : ScenarioArgs} {c : Config} (h : mkScenario cls a = .ok c)
    (los : Bool) : ∃ s u : Bool, (s = true ↔ Spec.SBand a.carrierFrequency) ∧ (u = true ↔ a.direction = "uplink") ∧ c.angleKey ∈ rows ∧
      (∀ e ∈ crossEntries, c.getReal e.1 los = .ok ((milliAt (tableOf cls los s u) e.1 c.angleKey : ℝ) / 1000)) ∧
      crossLspCorrelation c los =
        .ok fun i j => ((crossInt (fun p => milliAt (tableOf cls los s u) p c.angleKey) i j : ℤ) : ℝ) / 1000 := by
  obtain ⟨s, u, hk, hs, hu, e1, e2⟩ := built_rows h
  have hv : ∀ e ∈ crossEntries, c.getReal e.1 los = .ok ((milliAt (tableOf cls los s u) e.1 c.angleKey : ℝ) / 1000) := by
    intro e he
    obtain ⟨nl, hl, -⟩ := cellIs_spec (tableAll_spec (corr_cells e he) cls true s u hk)
    obtain ⟨nn, hn, -⟩ := cellIs_spec (tableAll_spec (corr_cells e he) cls false s u hk)
    have hl' := hl
    have hn' := hn
    rw [← e1] at hl
    rw [← e2] at hn
    rw [getReal_ok hl hn los]
    cases los
    · simp [milliAt, hn']
    · simp [milliAt, hl']
  refine ⟨s, u, hs, hu, hk, hv, ?_⟩
  unfold crossLspCorrelation
  rw [foldl_addParam c los (fun p => (milliAt (tableOf cls los s u) p c.angleKey : ℝ) / 1000) crossEntries _ hv]
  congr 1
  funext i j
  unfold crossInt
  refine Eq.trans ?_ (foldl_int (fun p => milliAt (tableOf cls los s u) p c.angleKey) i j crossEntries _)
  congr 1
  split_ifs <;> norm_num

end OpenNTN
