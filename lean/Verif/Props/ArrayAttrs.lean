import Verif.Model.ArrayAttrs
import Verif.Props.Arrays

namespace OpenNTN

open Classical

variable {a : ArrayArgs} {arr : PanelArray}

theorem odd_rows (n : ℕ) : (List.range (n * 2)).filter (fun r => r % 2 = 1) = ((List.range (n * 2)).filter (fun r => r % 2 = 0)).map (· + 1) := by
  induction n with
  | zero => rfl
  | succ n ih =>
    rw [Nat.succ_mul, show n * 2 + 2 = (n * 2 + 1) + 1 by ring, List.range_succ, List.range_succ]
    simp only [List.filter_append, List.map_append, ih]
    have h1 : (n * 2) % 2 = 0 := by omega
    have h2 : (n * 2 + 1) % 2 = 1 := by omega
    simp [h1, h2]

/-- The second polarization has the same positions in the same order. -/
theorem second_positions (h : mkArray a = .ok arr) (hd : a.polarization = "dual") : arr.indPol2.map arr.antPos = arr.indPol1.map arr.antPos := by
  obtain ⟨h1, -, -, h0, hn, hp, i1, i2⟩ := mkArray_ok h
  have h2 : a.p = 2 := by simp [ArrayArgs.p, hd]
  have hi : arr.indPol2 = arr.indPol1.map (· + a.numColsPerPanel * a.numRowsPerPanel) := by
    rw [i1, i2, if_neg (by rw [hd]; decide), h2, odd_rows]
    have hl : a.numAnt / (a.numPanels * a.p) = a.numColsPerPanel * a.numRowsPerPanel := by
      rw [ArrayArgs.numAnt, ArrayArgs.numPanelAnt, Nat.mul_comm (a.numColsPerPanel * _), ← Nat.mul_assoc]
      exact Nat.mul_div_cancel_left _ (Nat.mul_pos h0 (by omega))
    unfold ArrayArgs.indexRows
    rw [hl, List.flatMap_map, List.map_flatMap]
    congr 1
    funext r
    rw [List.map_map]
    congr 1
    funext k
    simp only [Function.comp]
    ring
  rw [hi, List.map_map]
  refine List.map_congr_left fun k hk => ?_
  rw [Function.comp, hp]
  have hk' := ((mem_pol h k).1).1 hk
  obtain ⟨pj, pi, q, j, i, g2, g3, g4, g5, g6, rfl⟩ := elementIndex_ex hk'.1
  have hq : q = 0 := by rw [← hk'.2, elementIndex_pol _ _ _ _ _ g4 g5 g6]
  subst hq
  have e : Spec.elementIndex a.numRowsPerPanel a.numColsPerPanel a.p a.numRows pj pi 0 j i + a.numColsPerPanel * a.numRowsPerPanel =
      Spec.elementIndex a.numRowsPerPanel a.numColsPerPanel a.p a.numRows pj pi 1 j i := by
    unfold Spec.elementIndex; ring
  rw [e, positions_eq h1 g2 g3 (by omega) g5 g6, positions_eq h1 g2 g3 g4 g5 g6]

/-- C131. The attributes of an array agree: the positions of a polarization are those of its indices; for dual polarization both polarizations
list all positions in the same order and have fields at right angles and of equal power; for single polarization the attributes of
the second polarization raise and the first lists every antenna in order. -/
theorem C131_attributes (h : mkArray a = .ok arr) :
    arr.getAntPos.length = arr.getNumAnt ∧
    arr.getPosPol1.map some = arr.getIndPol1.map (fun k => arr.getAntPos[k]?) ∧
    (a.polarization = "dual" →
      arr.getPosPol2 = .ok arr.getPosPol1 ∧
      (∃ inds, arr.getIndPol2 = .ok inds ∧ arr.getPosPol1.map some = inds.map (fun k => arr.getAntPos[k]?) ∧
        ∀ k, k < arr.getNumAnt ↔ (k ∈ arr.getIndPol1 ∨ k ∈ inds)) ∧
      2 * arr.getPosPol1.length = arr.getNumAnt ∧
      ∃ e, arr.getAntPol2 = .ok e ∧ ∀ θ φ,
        arr.getAntPol1.field θ φ 0 * e.field θ φ 0 + arr.getAntPol1.field θ φ 1 * e.field θ φ 1 = 0 ∧
        e.field θ φ 0 ^ 2 + e.field θ φ 1 ^ 2 = arr.getAntPol1.field θ φ 0 ^ 2 + arr.getAntPol1.field θ φ 1 ^ 2) ∧
    (a.polarization = "single" →
      arr.getIndPol1 = List.range arr.getNumAnt ∧ arr.getPosPol1 = arr.getAntPos ∧
      arr.getAntPol2 = .error .assertion ∧ arr.getIndPol2 = .error .assertion ∧ arr.getPosPol2 = .error .assertion) := by
  obtain ⟨hperm, hcount, hlen1, hlen2, -⟩ := C60_partition h
  have hpol := ((C111_constructor a).2 arr h).1
  have hmem : ∀ k, k ∈ arr.indPol1 ∨ k ∈ arr.indPol2 ↔ k < arr.numAnt := by
    intro k
    have := hperm.mem_iff (a := k)
    rwa [List.mem_append, List.mem_range] at this
  have hget : ∀ k, k < arr.numAnt → arr.getAntPos[k]? = some (arr.antPos k) := by
    intro k hk
    rw [PanelArray.getAntPos, List.getElem?_map, List.getElem?_range hk]
    rfl
  refine ⟨by simp [PanelArray.getAntPos, PanelArray.getNumAnt], ?_, fun hd => ?_, fun hs => ?_⟩
  · rw [PanelArray.getPosPol1, List.map_map]
    exact List.map_congr_left fun k hk => (hget k ((hmem k).1 (.inl hk))).symm
  · have h2 := second_positions h hd
    refine ⟨?_, ⟨arr.indPol2, ?_, ?_, fun k => (hmem k).symm⟩, ?_, ?_⟩
    · rw [PanelArray.getPosPol2, if_neg (by rw [hpol]; exact not_not.2 hd), h2]; rfl
    · rw [PanelArray.getIndPol2, if_neg (by rw [hpol]; exact not_not.2 hd)]
    · rw [PanelArray.getPosPol1, ← h2, List.map_map]
      exact List.map_congr_left fun k hk => (hget k ((hmem k).1 (.inr hk))).symm
    · have := hperm.length_eq
      rw [List.length_append, List.length_range, hlen2 hd] at this
      rw [PanelArray.getPosPol1, List.length_map, PanelArray.getNumAnt, ← this]
      ring
    · obtain ⟨p, s, e1, e2⟩ : ∃ p s, arr.pol1 = ⟨p, s⟩ ∧ arr.pol2 = some ⟨p, s + Real.pi / 2⟩ := by
        obtain ⟨e2, g1, g2, g3, g4, -⟩ := (C62_slants_partial h).1 hd
        refine ⟨arr.pol1.pattern, arr.pol1.slant, rfl, ?_⟩
        rw [g1, ← g2, g3, show -(Real.pi / 4) + Real.pi / 2 = e2.slant by rw [g4]; ring]
      refine ⟨⟨p, s + Real.pi / 2⟩, ?_, fun θ φ => ?_⟩
      · rw [PanelArray.getAntPol2, if_neg (by rw [hpol]; exact not_not.2 hd), e2]
      · rw [PanelArray.getAntPol1, e1]
        simp only [Element.field, Matrix.cons_val_zero, Matrix.cons_val_one, Real.cos_add_pi_div_two, Real.sin_add_pi_div_two]
        constructor <;> ring
  · have hne : arr.polarization ≠ "dual" := by rw [hpol, hs]; decide
    have hi : arr.indPol1 = List.range arr.numAnt := by
      obtain ⟨-, -, -, h0, hn, -, i1, -⟩ := mkArray_ok h
      have hp1 : a.p = 1 := by simp [ArrayArgs.p, hs]
      rw [i1, hn, hp1]
      have hf : (List.range (a.numPanels * 1)).filter (fun r => r % 1 = 0) = List.range a.numPanels := by
        rw [mul_one]
        exact List.filter_eq_self.2 fun r _ => by simp [Nat.mod_one]
      rw [hf, ArrayArgs.indexRows, hp1, mul_one]
      have hl : a.numAnt / a.numPanels = a.numPanelAnt := by
        rw [ArrayArgs.numAnt]; exact Nat.mul_div_cancel_left _ h0
      rw [hl, ArrayArgs.numAnt]
      generalize a.numPanels = n
      induction n with
      | zero => simp
      | succ n ih =>
        rw [List.range_succ, List.flatMap_append, ih, Nat.succ_mul, List.range_add]
        simp
    refine ⟨hi, by rw [PanelArray.getPosPol1, hi]; rfl, ?_, ?_, ?_⟩
    · rw [PanelArray.getAntPol2, if_pos hne]
    · rw [PanelArray.getIndPol2, if_pos hne]
    · rw [PanelArray.getPosPol2, if_pos hne]

/-- The array of the documentation has 64 antennas, 32 for each polarization. -/
example : ∃ arr, mkArray exArray = .ok arr ∧ arr.getNumAnt = 64 ∧ arr.getPosPol1.length = 32 ∧ arr.getPosPol2 = .ok arr.getPosPol1 := by
  obtain ⟨arr, h, -⟩ := exArray_ok
  obtain ⟨-, -, hd, -⟩ := C131_attributes h
  obtain ⟨h1, -, h2, -⟩ := hd rfl
  have hn : arr.getNumAnt = 64 := by
    rw [PanelArray.getNumAnt, ((C111_constructor _).2 _ h).2]; rfl
  exact ⟨arr, h, hn, by omega, h1⟩

end OpenNTN
