import Verif.Props.Antenna

namespace OpenNTN

open Classical

variable {a : ArrayArgs} {arr : PanelArray}

/-! ### C111: which arrays can be built -/

theorem spacing_eq (a : ArrayArgs) : a.elementV = Spec.spacingOr a.elementVertical ∧ a.elementH = Spec.spacingOr a.elementHorizontal := by
  constructor
  · unfold ArrayArgs.elementV Spec.spacingOr
    cases a.elementVertical <;> norm_num
  · unfold ArrayArgs.elementH Spec.spacingOr
    cases a.elementHorizontal <;> norm_num

theorem apartH (a : ArrayArgs) :
    ((a.numColsPerPanel : ℝ) - 1) * a.elementH < a.panelH ↔ Spec.PanelsApart a.panelHorizontal a.elementHorizontal a.numColsPerPanel := by
  unfold ArrayArgs.panelH Spec.PanelsApart
  rw [(spacing_eq a).2]
  cases a.panelHorizontal with
  | none => simp; norm_num
  | some D => simp

theorem apartV (a : ArrayArgs) :
    ((a.numRowsPerPanel : ℝ) - 1) * a.elementV < a.panelV ↔ Spec.PanelsApart a.panelVertical a.elementVertical a.numRowsPerPanel := by
  unfold ArrayArgs.panelV Spec.PanelsApart
  rw [(spacing_eq a).1]
  cases a.panelVertical with
  | none => simp; norm_num
  | some D => simp

/-- C111. A panel array can be built exactly for the documented polarizations, types and patterns, with at least one panel and panel
spacings, where they are given, larger than the panels; it then has one antenna for each element and polarization. -/
theorem C111_constructor (a : ArrayArgs) :
    ((∃ arr, mkArray a = .ok arr) ↔
      Spec.DocumentedArray a.polarization a.polarizationType a.pattern ∧
      Spec.PanelsApart a.panelHorizontal a.elementHorizontal a.numColsPerPanel ∧
      Spec.PanelsApart a.panelVertical a.elementVertical a.numRowsPerPanel ∧ 0 < a.numRows ∧ 0 < a.numCols) ∧
    ∀ arr, mkArray a = .ok arr → arr.polarization = a.polarization ∧
      arr.numAnt = a.numRows * a.numCols * (a.numRowsPerPanel * a.numColsPerPanel) * Spec.polarizations a.polarization := by
  constructor
  · rw [← apartH, ← apartV]
    unfold mkArray
    by_cases h1 : a.polarization = "single" ∨ a.polarization = "dual"
    swap
    · rw [if_pos h1]
      simp only [reduceCtorEq, exists_false, false_iff, Spec.DocumentedArray]
      tauto
    by_cases h2 : ((a.numColsPerPanel : ℝ) - 1) * a.elementH < a.panelH
    swap
    · simp [h1, h2]
    by_cases h3 : ((a.numRowsPerPanel : ℝ) - 1) * a.elementV < a.panelV
    swap
    · simp [h1, h2, h3]
    rw [if_neg (not_not.2 h1), if_neg (not_not.2 h2), if_neg (not_not.2 h3)]
    simp only [h2, h3, true_and]
    have hpan : a.numPanels = 0 ↔ ¬(0 < a.numRows ∧ 0 < a.numCols) := by
      unfold ArrayArgs.numPanels
      rw [Nat.mul_eq_zero]
      omega
    have hpat : ∀ f : Pattern → Element × Option Element,
        (∃ e, (patternOf a.pattern).map f = .ok e) ↔ (a.pattern = "omni" ∨ a.pattern = "38.901" ∨ a.pattern = "aperture" ∨ a.pattern = "dlp") := by
      intro f
      unfold patternOf
      split_ifs <;> simp_all [Except.map]
    have key : ∀ el : Except Err (Element × Option Element), (∃ arr : PanelArray, (match el with
        | .error e => (.error e : Except Err PanelArray)
        | .ok (e1, e2) => if a.numPanels = 0 then .error .invalidArgument else .ok
          { numAnt := a.numAnt, polarization := a.polarization, pol1 := e1, pol2 := e2, antPos := a.positions
            indPol1 := a.indexRows ((List.range (a.numPanels * a.p)).filter fun r => r % a.p = 0)
            indPol2 := if a.polarization = "single" then []
              else a.indexRows ((List.range (a.numPanels * a.p)).filter fun r => r % 2 = 1) }) = .ok arr) ↔
        (∃ e, el = .ok e) ∧ 0 < a.numRows ∧ 0 < a.numCols := by
      intro el
      match el with
      | .error e => simp
      | .ok (e1, e2) =>
        dsimp only
        split
        · rename_i h0
          simp only [reduceCtorEq, exists_false, false_iff, not_and]
          intro _ h h'
          exact (hpan.1 h0) ⟨h, h'⟩
        · rename_i h0
          rw [hpan, not_not] at h0
          simp [h0]
    refine (key _).trans (and_congr ?_ Iff.rfl)
    clear key
    unfold Spec.DocumentedArray
    rcases h1 with h | h
    · rw [if_pos h]
      have hd : a.polarization ≠ "dual" := by rw [h]; decide
      split
      · rename_i ht
        simp only [reduceCtorEq, exists_false, false_iff]
        tauto
      · rename_i ht
        rw [not_not] at ht
        rw [hpat]
        simp [h, ht]
    · have hd : a.polarization ≠ "single" := by rw [h]; decide
      rw [if_neg hd]
      split
      · rename_i ht
        simp only [reduceCtorEq, exists_false, false_iff]
        tauto
      · rename_i ht
        rw [not_not] at ht
        rw [hpat]
        simp [h, ht]
  · intro arr h
    refine ⟨?_, ?_⟩
    · unfold mkArray at h
      split at h
      · cases h
      · split at h
        · cases h
        · split at h
          · cases h
          · dsimp only at h
            split at h
            · cases h
            · split at h
              · cases h
              · injection h with h
                rw [← h]
    · rw [(C60_partition h).2.1]
      rfl

/-- The array of the documentation, and one that is rejected because its panels overlap. -/
example : (∃ arr, mkArray exArray = .ok arr) ∧ ¬∃ arr, mkArray { exArray with panelHorizontal := some 1 } = .ok arr := by
  refine ⟨⟨_, exArray_ok.choose_spec.1⟩, ?_⟩
  rw [(C111_constructor _).1]
  rintro ⟨-, h, -⟩
  have := h 1 rfl
  norm_num [exArray, Spec.spacingOr] at this

/-! ### C112: default spacings and the derived array classes -/

/-- C112. Without spacings the elements of a panel are half a wavelength apart, and the facing elements of neighbouring panels are half a
wavelength apart for every element spacing. -/
theorem C112_default_spacing (h : mkArray a = .ok arr) :
    ∀ pj pi q j i, pj < a.numCols → pi < a.numRows → q < Spec.polarizations a.polarization → j < a.numColsPerPanel → i < a.numRowsPerPanel →
      let at' := fun pj pi j i => arr.antPos
        (Spec.elementIndex a.numRowsPerPanel a.numColsPerPanel (Spec.polarizations a.polarization) a.numRows pj pi q j i)
      let half := 299792458 / a.carrierFrequency / 2
      (a.elementHorizontal = none → j + 1 < a.numColsPerPanel → at' pj pi (j + 1) i = at' pj pi j i + ![0, half, 0]) ∧
      (a.elementVertical = none → i + 1 < a.numRowsPerPanel → at' pj pi j (i + 1) = at' pj pi j i - ![0, 0, half]) ∧
      (a.panelHorizontal = none → pj + 1 < a.numCols →
        at' (pj + 1) pi 0 i = at' pj pi (a.numColsPerPanel - 1) i + ![0, half, 0]) ∧
      (a.panelVertical = none → pi + 1 < a.numRows →
        at' pj (pi + 1) j 0 = at' pj pi j (a.numRowsPerPanel - 1) - ![0, 0, half]) := by
  obtain ⟨h1, -, -, -, -, hp, -, -⟩ := mkArray_ok h
  have hpol : Spec.polarizations a.polarization = a.p := by
    rw [dual_p h1]; simp [Spec.polarizations]
  have hc : speedOfLight = 299792458 := by norm_num [speedOfLight]
  rw [hpol, hp]
  intro pj pi q j i h2 h3 h4 h5 h6
  dsimp only
  refine ⟨fun e hn => ?_, fun e hn => ?_, fun e hn => ?_, fun e hn => ?_⟩
  · have e' : a.elementH = 1 / 2 := by rw [(spacing_eq a).2, e]; rfl
    rw [positions_eq h1 h2 h3 h4 h5 h6, positions_eq h1 h2 h3 h4 hn h6, e', hc]
    funext x; fin_cases x <;> simp; ring
  · have e' : a.elementV = 1 / 2 := by rw [(spacing_eq a).1, e]; rfl
    rw [positions_eq h1 h2 h3 h4 h5 h6, positions_eq h1 h2 h3 h4 h5 hn, e', hc]
    funext x; fin_cases x <;> simp; ring
  · have e' : a.panelH = ((a.numColsPerPanel : ℝ) - 1) * a.elementH + 1 / 2 := by
      unfold ArrayArgs.panelH; rw [e]; norm_num
    have hcast : ((a.numColsPerPanel - 1 : ℕ) : ℝ) = (a.numColsPerPanel : ℝ) - 1 := by
      rw [Nat.cast_sub (by omega)]; norm_num
    rw [positions_eq h1 h2 h3 h4 (show a.numColsPerPanel - 1 < _ by omega) h6, positions_eq h1 hn h3 h4 (show 0 < _ by omega) h6, hcast, e', hc]
    funext x; fin_cases x <;> simp; ring
  · have e' : a.panelV = ((a.numRowsPerPanel : ℝ) - 1) * a.elementV + 1 / 2 := by
      unfold ArrayArgs.panelV; rw [e]; norm_num
    have hcast : ((a.numRowsPerPanel - 1 : ℕ) : ℝ) = (a.numRowsPerPanel : ℝ) - 1 := by
      rw [Nat.cast_sub (by omega)]; norm_num
    rw [positions_eq h1 h2 h3 h4 h5 (show a.numRowsPerPanel - 1 < _ by omega), positions_eq h1 h2 hn h4 h5 (show 0 < _ by omega), hcast, e', hc]
    funext x; fin_cases x <;> simp; ring

/-- An `Antenna` has one element for each polarization, at the origin; it exists for all documented arguments. An `AntennaArray` is a
single centred panel with the given spacings, half a wavelength by default. -/
theorem C112_derived_classes (rows cols : ℕ) (pol type pat : String) (fc : ℝ) (v hz : Option ℝ) (hd : Spec.DocumentedArray pol type pat) :
    (∃ arr, mkAntenna pol type pat fc = .ok arr ∧ arr.numAnt = Spec.polarizations pol ∧ ∀ k < arr.numAnt, arr.antPos k = 0) ∧
    ∃ arr, mkAntennaArray rows cols pol type pat fc v hz = .ok arr ∧ arr.numAnt = rows * cols * Spec.polarizations pol ∧
      ∀ q j i, q < Spec.polarizations pol → j < cols → i < rows →
        arr.antPos (Spec.elementIndex rows cols (Spec.polarizations pol) 1 0 0 q j i) =
          (299792458 / fc) • ![0, Spec.spacingOr hz * (j - ((cols : ℝ) - 1) / 2), -(Spec.spacingOr v * (i - ((rows : ℝ) - 1) / 2))] := by
  have hc : speedOfLight = 299792458 := by norm_num [speedOfLight]
  have main : ∃ arr, mkAntennaArray rows cols pol type pat fc v hz = .ok arr ∧ arr.numAnt = rows * cols * Spec.polarizations pol ∧
      ∀ q j i, q < Spec.polarizations pol → j < cols → i < rows →
        arr.antPos (Spec.elementIndex rows cols (Spec.polarizations pol) 1 0 0 q j i) =
          (299792458 / fc) • ![0, Spec.spacingOr hz * (j - ((cols : ℝ) - 1) / 2), -(Spec.spacingOr v * (i - ((rows : ℝ) - 1) / 2))] := by
    obtain ⟨arr, h⟩ := (C111_constructor
      { numRowsPerPanel := rows, numColsPerPanel := cols, polarization := pol, polarizationType := type, pattern := pat, carrierFrequency := fc,
        elementVertical := v, elementHorizontal := hz }).1.2 ⟨hd, by simp [Spec.PanelsApart], by simp [Spec.PanelsApart], by simp, by simp⟩
    refine ⟨arr, h, ?_, ?_⟩
    · rw [((C111_constructor _).2 _ h).2]; simp
    · intro q j i hq hj hi
      obtain ⟨h1, -, -, -, -, hp, -, -⟩ := mkArray_ok h
      have hpol := dual_p h1
      have := positions_eq h1 (pj := 0) (pi := 0) (q := q) (j := j) (i := i) (by simp) (by simp)
        (by rw [hpol]; simpa [Spec.polarizations] using hq) hj hi
      rw [hpol] at this
      rw [hp]
      simp only [decide_eq_true_eq, (spacing_eq _).1, (spacing_eq _).2, hc] at this
      simp only [Spec.polarizations]
      rw [this]
      congr 1
      funext x; fin_cases x <;> simp <;> ring
  refine ⟨?_, main⟩
  obtain ⟨arr, h⟩ := (C111_constructor
    { numRowsPerPanel := 1, numColsPerPanel := 1, polarization := pol, polarizationType := type, pattern := pat, carrierFrequency := fc }).1.2
    ⟨hd, by simp [Spec.PanelsApart], by simp [Spec.PanelsApart], by simp, by simp⟩
  refine ⟨arr, h, by rw [((C111_constructor _).2 _ h).2]; simp, ?_⟩
  intro k hk
  obtain ⟨h1, -, -, -, hn, hp, -, -⟩ := mkArray_ok h
  rw [hn] at hk
  obtain ⟨pj, pi, q, j, i, h2, h3, h4, h5, h6, rfl⟩ := elementIndex_ex hk
  rw [hp, positions_eq h1 h2 h3 h4 h5 h6]
  simp only [Nat.lt_one_iff] at h2 h3 h5 h6
  subst h2 h3 h5 h6
  funext x; fin_cases x <;> simp

/-- Two dual polarized panels next to each other meet the hypotheses, with a facing pair of elements. -/
example : ∃ arr, mkArray { exArray with panelHorizontal := none } = .ok arr ∧
    arr.antPos (Spec.elementIndex 4 4 2 1 1 0 1 0 2) = arr.antPos (Spec.elementIndex 4 4 2 1 0 0 1 3 2) + ![0, 299792458 / 3.5e9 / 2, 0] := by
  obtain ⟨arr, h⟩ := (C111_constructor { exArray with panelHorizontal := none }).1.2
    ⟨by simp [Spec.DocumentedArray, exArray], by simp [Spec.PanelsApart], by simp [Spec.PanelsApart, exArray], by simp [exArray], by simp [exArray]⟩
  refine ⟨arr, h, ?_⟩
  exact ((C112_default_spacing h) 0 0 1 3 2 (by simp [exArray]) (by simp [exArray])
    (by simp [exArray, Spec.polarizations]) (by simp [exArray]) (by simp [exArray])).2.2.1 rfl (by simp [exArray])

example : Spec.DocumentedArray "dual" "cross" "38.901" := by simp [Spec.DocumentedArray]

end OpenNTN
