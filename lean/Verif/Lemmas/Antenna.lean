import Verif.Model.Antenna
import Verif.Spec.Antenna
import Mathlib.Tactic.Ring
import Mathlib.Tactic.Linarith
import Mathlib.Tactic.FinCases
import Mathlib.Algebra.BigOperators.Intervals
import Mathlib.Data.List.Nodup

namespace OpenNTN

open Classical

theorem writeAll_eq {α : Type*} (init : ℕ → α) (ws : List (ℕ × α)) {k : ℕ} {v : α} (hm : (k, v) ∈ ws)
    (hu : ∀ v', (k, v') ∈ ws → v' = v) : writeAll init ws k = v := by
  induction ws using List.reverseRecOn with
  | nil => simp at hm
  | append_singleton ws w ih =>
    simp only [writeAll, List.foldl_append, List.foldl_cons, List.foldl_nil]
    by_cases hk : w.1 = k
    · rw [← hk, Function.update_self]
      exact hu w.2 (by simp [← hk])
    · rw [Function.update_of_ne (Ne.symm hk)]
      refine ih ?_ fun v' hv' => hu v' (by simp [hv'])
      rcases List.mem_append.1 hm with h | h
      · exact h
      · simp only [List.mem_singleton] at h
        rw [← h] at hk
        exact absurd rfl hk

theorem radix_inj {m a a' b b' : ℕ} (hb : b < m) (hb' : b' < m) (h : a * m + b = a' * m + b') : a = a' ∧ b = b' := by
  have h1 : (a * m + b) / m = a := by
    rw [Nat.mul_comm, Nat.mul_add_div (by omega), Nat.div_eq_of_lt hb, add_zero]
  have h2 : (a' * m + b') / m = a' := by
    rw [Nat.mul_comm, Nat.mul_add_div (by omega), Nat.div_eq_of_lt hb', add_zero]
  have ha : a = a' := by rw [← h1, ← h2, h]
  subst ha
  exact ⟨rfl, by omega⟩

theorem radix_lt {m n a b : ℕ} (ha : a < n) (hb : b < m) : a * m + b < n * m := by
  calc a * m + b < a * m + m := by omega
    _ = (a + 1) * m := by ring
    _ ≤ n * m := Nat.mul_le_mul_right _ ha

theorem radix_ex {m n k : ℕ} (hk : k < n * m) : ∃ a b, a < n ∧ b < m ∧ k = a * m + b := by
  have hm : 0 < m := by
    rcases Nat.eq_zero_or_pos m with h | h
    · simp [h] at hk
    · exact h
  exact ⟨k / m, k % m, Nat.div_lt_of_lt_mul (by rwa [Nat.mul_comm] at hk), Nat.mod_lt _ hm, by
    rw [Nat.mul_comm]; exact (Nat.div_add_mod k m).symm⟩

theorem sum_radix {M : Type*} [AddCommMonoid M] (n m : ℕ) (f : ℕ → M) :
    ∑ k ∈ Finset.range (n * m), f k = ∑ a ∈ Finset.range n, ∑ b ∈ Finset.range m, f (a * m + b) := by
  induction n with
  | zero => simp
  | succ n ih => rw [Nat.succ_mul, Finset.sum_range_add, ih, Finset.sum_range_succ]

/-- Position of element `(i, j)` within its panel, in wavelengths. -/
theorem panelPos_eq (R C : ℕ) (dual : Bool) (v h : ℝ) {i j q : ℕ} (hi : i < R) (hj : j < C) (hq : q < if dual then 2 else 1) :
    panelPos R C dual v h (q * (C * R) + (j * R + i)) =
      ![0, j * h - ((C : ℝ) - 1) * h / 2, -(i * v) + ((R : ℝ) - 1) * v / 2] := by
  have hlt : j * R + i < C * R := radix_lt hj hi
  have key : ∀ k, k = j * R + i →
      writeAll (fun _ => (0 : Fin 3 → ℝ)) ((List.range R).flatMap fun i => (List.range C).map fun j =>
        (i + j * R, ![0, j * h, -i * v])) k + ![0, -((C : ℝ) - 1) * h / 2, ((R : ℝ) - 1) * v / 2] =
      ![0, j * h - ((C : ℝ) - 1) * h / 2, -(i * v) + ((R : ℝ) - 1) * v / 2] := by
    rintro k rfl
    rw [writeAll_eq (v := ![0, j * h, -i * v])]
    · funext x
      fin_cases x
      · simp
      · simp; ring
      · simp
    · simp only [List.mem_flatMap, List.mem_map, List.mem_range]
      exact ⟨i, hi, j, hj, by rw [Nat.add_comm]⟩
    · intro v' hv'
      simp only [List.mem_flatMap, List.mem_map, List.mem_range, Prod.mk.injEq] at hv'
      obtain ⟨i', hi', j', hj', e, rfl⟩ := hv'
      obtain ⟨rfl, rfl⟩ := radix_inj hi' hi (show j' * R + i' = j * R + i by omega)
      rfl
  cases dual
  · simp only [Bool.false_eq_true, if_false] at hq ⊢
    have hq0 : q = 0 := by omega
    subst hq0
    simp only [panelPos, Bool.false_eq_true, if_false, Nat.zero_mul, Nat.zero_add]
    exact key _ rfl
  · simp only [if_true] at hq
    simp only [panelPos, if_true]
    rcases (by omega : q = 0 ∨ q = 1) with rfl | rfl
    · have hn : ¬ R * C ≤ 0 * (C * R) + (j * R + i) := by rw [Nat.mul_comm R C]; omega
      rw [if_neg hn]
      exact key _ (by omega)
    · have hn : R * C ≤ 1 * (C * R) + (j * R + i) := by rw [Nat.mul_comm R C]; omega
      rw [if_pos hn]
      exact key _ (by rw [Nat.mul_comm R C]; omega)

variable {a : ArrayArgs} {arr : PanelArray}

theorem mkArray_ok (h : mkArray a = .ok arr) :
    (a.polarization = "single" ∨ a.polarization = "dual") ∧ ((a.numColsPerPanel : ℝ) - 1) * a.elementH < a.panelH ∧
    ((a.numRowsPerPanel : ℝ) - 1) * a.elementV < a.panelV ∧ 0 < a.numPanels ∧ arr.numAnt = a.numAnt ∧
    arr.antPos = a.positions ∧
    arr.indPol1 = a.indexRows ((List.range (a.numPanels * a.p)).filter fun r => r % a.p = 0) ∧
    arr.indPol2 = (if a.polarization = "single" then []
            else a.indexRows ((List.range (a.numPanels * a.p)).filter fun r => r % 2 = 1)) := by
  unfold mkArray at h
  by_cases h1 : a.polarization = "single" ∨ a.polarization = "dual"
  swap
  · rw [if_pos h1] at h; cases h
  rw [if_neg (not_not.2 h1)] at h
  by_cases h2 : ((a.numColsPerPanel : ℝ) - 1) * a.elementH < a.panelH
  swap
  · rw [if_pos h2] at h; cases h
  rw [if_neg (not_not.2 h2)] at h
  by_cases h3 : ((a.numRowsPerPanel : ℝ) - 1) * a.elementV < a.panelV
  swap
  · rw [if_pos h3] at h; cases h
  rw [if_neg (not_not.2 h3)] at h
  dsimp only at h
  split at h
  · cases h
  · split at h
    · cases h
    · injection h with h
      subst h
      exact ⟨h1, h2, h3, by omega, rfl, rfl, rfl, rfl⟩

theorem dual_p (h1 : a.polarization = "single" ∨ a.polarization = "dual") :
    a.p = if (decide (a.polarization = "dual") = true) then 2 else 1 := by
  rcases h1 with h | h <;> simp [ArrayArgs.p, h]

/-- Position of an element of the whole array, in metres. -/
theorem positions_eq (h1 : a.polarization = "single" ∨ a.polarization = "dual") {pj pi q j i : ℕ} (hpj : pj < a.numCols)
    (hpi : pi < a.numRows) (hq : q < a.p) (hj : j < a.numColsPerPanel) (hi : i < a.numRowsPerPanel) :
    a.positions (Spec.elementIndex a.numRowsPerPanel a.numColsPerPanel a.p a.numRows pj pi q j i) =
      (speedOfLight / a.carrierFrequency) •
        ![0, j * a.elementH - ((a.numColsPerPanel : ℝ) - 1) * a.elementH / 2 +
            (pj * a.panelH - ((a.numCols : ℝ) - 1) * a.panelH / 2),
          -(i * a.elementV - ((a.numRowsPerPanel : ℝ) - 1) * a.elementV / 2 +
            (pi * a.panelV - ((a.numRows : ℝ) - 1) * a.panelV / 2))] := by
  have hin : j * a.numRowsPerPanel + i < a.numColsPerPanel * a.numRowsPerPanel := radix_lt hj hi
  have hk : q * (a.numColsPerPanel * a.numRowsPerPanel) + (j * a.numRowsPerPanel + i) < a.numPanelAnt := by
    have := radix_lt hq hin
    rw [ArrayArgs.numPanelAnt, Nat.mul_comm _ a.p]
    exact this
  have e : Spec.elementIndex a.numRowsPerPanel a.numColsPerPanel a.p a.numRows pj pi q j i =
      (pi + pj * a.numRows) * a.numPanelAnt + (q * (a.numColsPerPanel * a.numRowsPerPanel) + (j * a.numRowsPerPanel + i)) := by
    simp only [Spec.elementIndex, ArrayArgs.numPanelAnt]
    ring
  have hp := panelPos_eq a.numRowsPerPanel a.numColsPerPanel (a.polarization = "dual") a.elementV a.elementH (q := q) hi hj
    (by rw [← dual_p h1]; exact hq)
  simp only [ArrayArgs.positions]
  congr 1
  rw [e, writeAll_eq (v := ![0, j * a.elementH - ((a.numColsPerPanel : ℝ) - 1) * a.elementH / 2,
    -(i * a.elementV) + ((a.numRowsPerPanel : ℝ) - 1) * a.elementV / 2] + ![0, pj * a.panelH, -pi * a.panelV])]
  · funext x
    fin_cases x
    · simp
    · simp; ring
    · simp; ring
  · simp only [List.mem_flatMap, List.mem_map, List.mem_range]
    exact ⟨pj, hpj, pi, hpi, _, hk, by rw [hp]⟩
  · intro v' hv'
    simp only [List.mem_flatMap, List.mem_map, List.mem_range, Prod.mk.injEq] at hv'
    obtain ⟨pj', hpj', pi', hpi', k, hk', e', rfl⟩ := hv'
    obtain ⟨e1, rfl⟩ := radix_inj hk' hk e'
    obtain ⟨rfl, rfl⟩ := radix_inj hpi' hpi (show pj' * a.numRows + pi' = pj * a.numRows + pi by omega)
    rw [hp]

/-- Every element number is that of exactly one element. -/
theorem elementIndex_ex {k : ℕ} (hk : k < a.numAnt) : ∃ pj pi q j i, pj < a.numCols ∧ pi < a.numRows ∧ q < a.p ∧
    j < a.numColsPerPanel ∧ i < a.numRowsPerPanel ∧
    k = Spec.elementIndex a.numRowsPerPanel a.numColsPerPanel a.p a.numRows pj pi q j i := by
  have e : a.numAnt = (((a.numCols * a.numRows) * a.p) * a.numColsPerPanel) * a.numRowsPerPanel := by
    simp only [ArrayArgs.numAnt, ArrayArgs.numPanels, ArrayArgs.numPanelAnt]; ring
  rw [e] at hk
  obtain ⟨k1, i, h1, hi, rfl⟩ := radix_ex hk
  obtain ⟨k2, j, h2, hj, rfl⟩ := radix_ex h1
  obtain ⟨k3, q, h3, hq, rfl⟩ := radix_ex h2
  obtain ⟨pj, pi, h4, h5, rfl⟩ := radix_ex h3
  exact ⟨pj, pi, q, j, i, h4, h5, hq, hj, hi, rfl⟩

theorem elementIndex_lt {pj pi q j i : ℕ} (hpj : pj < a.numCols)
    (hpi : pi < a.numRows) (hq : q < a.p) (hj : j < a.numColsPerPanel) (hi : i < a.numRowsPerPanel) :
    Spec.elementIndex a.numRowsPerPanel a.numColsPerPanel a.p a.numRows pj pi q j i < a.numAnt := by
  have e : a.numAnt = (((a.numCols * a.numRows) * a.p) * a.numColsPerPanel) * a.numRowsPerPanel := by
    simp only [ArrayArgs.numAnt, ArrayArgs.numPanels, ArrayArgs.numPanelAnt]; ring
  rw [e]
  exact radix_lt (radix_lt (radix_lt (radix_lt hpj hpi) hq) hj) hi

/-- Sums over all elements. -/
theorem sum_elements {M : Type*} [AddCommMonoid M] (f : ℕ → M) :
    ∑ k ∈ Finset.range a.numAnt, f k = ∑ pj ∈ Finset.range a.numCols, ∑ pi ∈ Finset.range a.numRows, ∑ q ∈ Finset.range a.p,
      ∑ j ∈ Finset.range a.numColsPerPanel, ∑ i ∈ Finset.range a.numRowsPerPanel,
        f (Spec.elementIndex a.numRowsPerPanel a.numColsPerPanel a.p a.numRows pj pi q j i) := by
  have e : a.numAnt = (((a.numCols * a.numRows) * a.p) * a.numColsPerPanel) * a.numRowsPerPanel := by
    simp only [ArrayArgs.numAnt, ArrayArgs.numPanels, ArrayArgs.numPanelAnt]; ring
  rw [e, sum_radix, sum_radix, sum_radix, sum_radix]
  rfl

theorem sum_centred (n : ℕ) : ∑ k ∈ Finset.range n, ((k : ℝ) - ((n : ℝ) - 1) / 2) = 0 := by
  have h : ∀ n : ℕ, ∑ k ∈ Finset.range n, (k : ℝ) = n * ((n : ℝ) - 1) / 2 := by
    intro n
    induction n with
    | zero => simp
    | succ n ih => rw [Finset.sum_range_succ, ih]; push_cast; ring
  rw [Finset.sum_sub_distrib, h, Finset.sum_const, Finset.card_range, nsmul_eq_mul]
  ring

/-- The polarization of an element. -/
theorem mem_indexRows (hp : 0 < a.numPanels) (f : ℕ → Bool) (k : ℕ) :
    k ∈ a.indexRows ((List.range (a.numPanels * a.p)).filter f) ↔
      k < a.numAnt ∧ f (k / (a.numColsPerPanel * a.numRowsPerPanel)) := by
  have hpp : 0 < a.p := by unfold ArrayArgs.p; split <;> omega
  have hlen : a.numAnt / (a.numPanels * a.p) = a.numColsPerPanel * a.numRowsPerPanel := by
    rw [show a.numAnt = (a.numPanels * a.p) * (a.numColsPerPanel * a.numRowsPerPanel) by
      simp only [ArrayArgs.numAnt, ArrayArgs.numPanelAnt]; ring]
    exact Nat.mul_div_cancel_left _ (Nat.mul_pos hp hpp)
  have hn : a.numAnt = (a.numPanels * a.p) * (a.numColsPerPanel * a.numRowsPerPanel) := by
    simp only [ArrayArgs.numAnt, ArrayArgs.numPanelAnt]; ring
  simp only [ArrayArgs.indexRows, hlen, List.mem_flatMap, List.mem_map, List.mem_range, List.mem_filter]
  constructor
  · rintro ⟨r, ⟨hr, hf⟩, x, hx, rfl⟩
    rw [Nat.mul_comm r, Nat.mul_add_div (by omega), Nat.div_eq_of_lt hx, add_zero]
    refine ⟨?_, hf⟩
    rw [hn, Nat.mul_comm _ r]
    exact radix_lt hr hx
  · rintro ⟨hk, hf⟩
    rw [hn] at hk
    obtain ⟨r, x, hr, hx, rfl⟩ := radix_ex hk
    rw [Nat.mul_comm r, Nat.mul_add_div (by omega), Nat.div_eq_of_lt hx, add_zero] at hf
    exact ⟨r, ⟨hr, hf⟩, x, hx, rfl⟩

theorem nodup_indexRows (rows : List ℕ) (h : rows.Nodup) : (a.indexRows rows).Nodup := by
  simp only [ArrayArgs.indexRows]
  rw [List.nodup_flatMap]
  refine ⟨fun r _ => ?_, ?_⟩
  · exact (List.nodup_range).map fun x y hxy => by simpa using hxy
  · refine h.imp fun {r s} hrs => ?_
    simp only [Function.onFun, List.disjoint_left, List.mem_map, List.mem_range]
    rintro k ⟨x, hx, rfl⟩ ⟨y, hy, e⟩
    exact hrs (radix_inj hy hx e).1.symm

theorem elementIndex_pol (pj pi q j i : ℕ) (hq : q < a.p) (hj : j < a.numColsPerPanel) (hi : i < a.numRowsPerPanel) :
    Spec.elementIndex a.numRowsPerPanel a.numColsPerPanel a.p a.numRows pj pi q j i /
      (a.numColsPerPanel * a.numRowsPerPanel) % a.p = q := by
  have hin : j * a.numRowsPerPanel + i < a.numColsPerPanel * a.numRowsPerPanel := radix_lt hj hi
  have e : Spec.elementIndex a.numRowsPerPanel a.numColsPerPanel a.p a.numRows pj pi q j i =
      (a.numColsPerPanel * a.numRowsPerPanel) * ((pj * a.numRows + pi) * a.p + q) + (j * a.numRowsPerPanel + i) := by
    simp only [Spec.elementIndex]; ring
  rw [e, Nat.mul_add_div (by omega), Nat.div_eq_of_lt hin, add_zero, Nat.mul_comm _ a.p, Nat.mul_add_mod, Nat.mod_eq_of_lt hq]

end OpenNTN
