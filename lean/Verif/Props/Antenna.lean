import Verif.Lemmas.Antenna
import Mathlib.Analysis.SpecialFunctions.Integrals.Basic
import Mathlib.Analysis.Real.Pi.Bounds
import Mathlib.Tactic.NormNum
import Mathlib.Tactic.Positivity
import Mathlib.Tactic.FieldSimp

namespace OpenNTN

open Classical

variable {a : ArrayArgs} {arr : PanelArray}

/-! ### C58: geometry of a panel array -/

/-- C58 in terms of the arguments as the constructor completes them. -/
theorem panel_geometry (h : mkArray a = .ok arr) :
    (∑ k ∈ Finset.range arr.numAnt, arr.antPos k = 0) ∧ (∀ k < arr.numAnt, arr.antPos k 0 = 0) ∧
    ∀ pj pi q j i, pj < a.numCols → pi < a.numRows → q < a.p → j < a.numColsPerPanel → i < a.numRowsPerPanel →
      let at' := fun pj pi j i =>
        arr.antPos (Spec.elementIndex a.numRowsPerPanel a.numColsPerPanel a.p a.numRows pj pi q j i)
      let lambda0 := speedOfLight / a.carrierFrequency
      (j + 1 < a.numColsPerPanel → at' pj pi (j + 1) i - at' pj pi j i = ![0, lambda0 * a.elementH, 0]) ∧
      (i + 1 < a.numRowsPerPanel → at' pj pi j i - at' pj pi j (i + 1) = ![0, 0, lambda0 * a.elementV]) ∧
      (pj + 1 < a.numCols → at' (pj + 1) pi j i - at' pj pi j i = ![0, lambda0 * a.panelH, 0]) ∧
      (pi + 1 < a.numRows → at' pj pi j i - at' pj (pi + 1) j i = ![0, 0, lambda0 * a.panelV]) := by
  obtain ⟨h1, -, -, -, hn, hp, -, -⟩ := mkArray_ok h
  rw [hn, hp]
  refine ⟨?_, ?_, ?_⟩
  · rw [sum_elements]
    have key : ∀ pj ∈ Finset.range a.numCols, ∀ pi ∈ Finset.range a.numRows, ∀ q ∈ Finset.range a.p,
        ∑ j ∈ Finset.range a.numColsPerPanel, ∑ i ∈ Finset.range a.numRowsPerPanel,
          a.positions (Spec.elementIndex a.numRowsPerPanel a.numColsPerPanel a.p a.numRows pj pi q j i) =
        (speedOfLight / a.carrierFrequency) • ![0,
          (a.numColsPerPanel * a.numRowsPerPanel : ℝ) * a.panelH * (pj - ((a.numCols : ℝ) - 1) / 2),
          -((a.numColsPerPanel * a.numRowsPerPanel : ℝ) * a.panelV * (pi - ((a.numRows : ℝ) - 1) / 2))] := by
      intro pj hpj pi hpi q hq
      rw [Finset.mem_range] at hpj hpi hq
      rw [Finset.sum_congr rfl fun j hj => Finset.sum_congr rfl fun i hi =>
        positions_eq h1 hpj hpi hq (Finset.mem_range.1 hj) (Finset.mem_range.1 hi)]
      simp only [← Finset.smul_sum]
      congr 1
      have sC := sum_centred a.numColsPerPanel
      have sR := sum_centred a.numRowsPerPanel
      funext x
      fin_cases x
      · simp
      · simp only [Finset.sum_apply, Fin.mk_one, Matrix.cons_val_one, Matrix.cons_val_zero, Finset.sum_const, Finset.card_range,
          nsmul_eq_mul]
        rw [← Finset.mul_sum, Finset.sum_add_distrib, Finset.sum_const, Finset.card_range, nsmul_eq_mul]
        rw [show ∑ j ∈ Finset.range a.numColsPerPanel, ((j : ℝ) * a.elementH - ((a.numColsPerPanel : ℝ) - 1) * a.elementH / 2) =
          a.elementH * ∑ j ∈ Finset.range a.numColsPerPanel, ((j : ℝ) - ((a.numColsPerPanel : ℝ) - 1) / 2) by
            rw [Finset.mul_sum]; exact Finset.sum_congr rfl fun _ _ => by ring, sC]
        ring
      · simp only [Finset.sum_apply, Fin.reduceFinMk, Matrix.cons_val, Finset.sum_const, Finset.card_range,
          nsmul_eq_mul, Finset.sum_neg_distrib]
        rw [Finset.sum_add_distrib, Finset.sum_const, Finset.card_range, nsmul_eq_mul]
        rw [show ∑ j ∈ Finset.range a.numRowsPerPanel, ((j : ℝ) * a.elementV - ((a.numRowsPerPanel : ℝ) - 1) * a.elementV / 2) =
          a.elementV * ∑ j ∈ Finset.range a.numRowsPerPanel, ((j : ℝ) - ((a.numRowsPerPanel : ℝ) - 1) / 2) by
            rw [Finset.mul_sum]; exact Finset.sum_congr rfl fun _ _ => by ring, sR]
        ring
    rw [Finset.sum_congr rfl fun pj hpj => Finset.sum_congr rfl fun pi hpi => Finset.sum_congr rfl (key pj hpj pi hpi)]
    simp only [← Finset.smul_sum, Finset.sum_const, Finset.card_range]
    have sC := sum_centred a.numCols
    have sR := sum_centred a.numRows
    rw [smul_eq_zero]
    right
    funext x
    fin_cases x
    · simp
    · simp only [Finset.sum_apply, Fin.mk_one, Finset.sum_const, Finset.card_range, Pi.smul_apply, nsmul_eq_mul,
        Matrix.cons_val_one, Matrix.cons_val_zero, ← Finset.mul_sum, sC, Pi.zero_apply, mul_zero]
    · simp only [Finset.sum_apply, Fin.reduceFinMk, Matrix.cons_val, Finset.sum_const, Finset.card_range, Pi.smul_apply,
        nsmul_eq_mul, ← Finset.mul_sum, Finset.sum_neg_distrib, sR, Pi.zero_apply, mul_zero, neg_zero]
  · intro k hk
    obtain ⟨pj, pi, q, j, i, h2, h3, h4, h5, h6, rfl⟩ := elementIndex_ex hk
    rw [positions_eq h1 h2 h3 h4 h5 h6]
    simp
  · intro pj pi q j i h2 h3 h4 h5 h6
    dsimp only
    refine ⟨fun hn => ?_, fun hn => ?_, fun hn => ?_, fun hn => ?_⟩
    · rw [positions_eq h1 h2 h3 h4 h5 h6, positions_eq h1 h2 h3 h4 hn h6, ← smul_sub]
      funext x; fin_cases x <;> simp; left; ring
    · rw [positions_eq h1 h2 h3 h4 h5 h6, positions_eq h1 h2 h3 h4 h5 hn, ← smul_sub]
      funext x; fin_cases x <;> simp; left; ring
    · rw [positions_eq h1 h2 h3 h4 h5 h6, positions_eq h1 hn h3 h4 h5 h6, ← smul_sub]
      funext x; fin_cases x <;> simp; left; ring
    · rw [positions_eq h1 h2 h3 h4 h5 h6, positions_eq h1 h2 hn h4 h5 h6, ← smul_sub]
      funext x; fin_cases x <;> simp; left; ring

theorem pitches (a : ArrayArgs) : a.elementH = Spec.spacingOr a.elementHorizontal ∧ a.elementV = Spec.spacingOr a.elementVertical ∧
    a.panelH = Spec.panelPitch a.panelHorizontal a.numColsPerPanel (Spec.spacingOr a.elementHorizontal) ∧
    a.panelV = Spec.panelPitch a.panelVertical a.numRowsPerPanel (Spec.spacingOr a.elementVertical) := by
  simp only [ArrayArgs.elementH, ArrayArgs.elementV, ArrayArgs.panelH, ArrayArgs.panelV, Spec.spacingOr, Spec.panelPitch]
  rcases a.elementHorizontal with _ | _ <;> rcases a.elementVertical with _ | _ <;> rcases a.panelHorizontal with _ | _ <;>
    rcases a.panelVertical with _ | _ <;> norm_num

/-- C58. The elements are centred at the origin, lie in the plane `x = 0`, neighbours in a panel are one element spacing apart and
neighbouring panels one panel spacing. -/
theorem C58_geometry (h : mkArray a = .ok arr) :
    (∑ k ∈ Finset.range arr.numAnt, arr.antPos k = 0) ∧ (∀ k < arr.numAnt, arr.antPos k 0 = 0) ∧
    ∀ pj pi q j i, pj < a.numCols → pi < a.numRows → q < Spec.polarizations a.polarization → j < a.numColsPerPanel → i < a.numRowsPerPanel →
      let at' := fun pj pi j i =>
        arr.antPos (Spec.elementIndex a.numRowsPerPanel a.numColsPerPanel (Spec.polarizations a.polarization) a.numRows pj pi q j i)
      let lambda0 := 299792458 / a.carrierFrequency
      let dh := Spec.spacingOr a.elementHorizontal
      let dv := Spec.spacingOr a.elementVertical
      (j + 1 < a.numColsPerPanel → at' pj pi (j + 1) i - at' pj pi j i = ![0, lambda0 * dh, 0]) ∧
      (i + 1 < a.numRowsPerPanel → at' pj pi j i - at' pj pi j (i + 1) = ![0, 0, lambda0 * dv]) ∧
      (pj + 1 < a.numCols → at' (pj + 1) pi j i - at' pj pi j i =
        ![0, lambda0 * Spec.panelPitch a.panelHorizontal a.numColsPerPanel dh, 0]) ∧
      (pi + 1 < a.numRows → at' pj pi j i - at' pj (pi + 1) j i =
        ![0, 0, lambda0 * Spec.panelPitch a.panelVertical a.numRowsPerPanel dv]) := by
  have hp : a.p = Spec.polarizations a.polarization := by
    have := dual_p (mkArray_ok h).1
    simpa [Spec.polarizations] using this
  have g := panel_geometry h
  obtain ⟨p1, p2, p3, p4⟩ := pitches a
  rw [p1, p2, p3, p4, hp, speedOfLight] at g
  exact g

/-- The array of the class documentation, antenna.py 382-390. -/
noncomputable def exArray : ArrayArgs :=
  { numRowsPerPanel := 4, numColsPerPanel := 4, polarization := "dual", polarizationType := "VH", pattern := "38.901"
    carrierFrequency := 3.5e9, numCols := 2, panelHorizontal := some 3 }

theorem exArray_ok : ∃ arr, mkArray exArray = .ok arr ∧ arr.pol1.slant = -Real.pi / 4 := by
  have h : ∃ arr, mkArray exArray = .ok arr := by
    unfold mkArray
    rw [if_neg (by simp [exArray]), if_neg (by norm_num [exArray, ArrayArgs.elementH, ArrayArgs.panelH]),
      if_neg (by norm_num [exArray, ArrayArgs.elementV, ArrayArgs.panelV])]
    simp [exArray, patternOf, ArrayArgs.numPanels, Except.map]
  obtain ⟨arr, h⟩ := h
  refine ⟨arr, h, ?_⟩
  unfold mkArray at h
  rw [if_neg (by simp [exArray]), if_neg (by norm_num [exArray, ArrayArgs.elementH, ArrayArgs.panelH]),
    if_neg (by norm_num [exArray, ArrayArgs.elementV, ArrayArgs.panelV])] at h
  simp [exArray, patternOf, ArrayArgs.numPanels, Except.map] at h
  rw [← h]

example : ∃ arr, mkArray exArray = .ok arr := ⟨_, exArray_ok.choose_spec.1⟩

/-! ### C59: elements never coincide -/

/-- Row (or column) and panel can be read off the coordinate. -/
theorem coordinate_inj {n : ℕ} {d D : ℝ} (hd : 0 < d) (hD : ((n : ℝ) - 1) * d < D) {x x' X X' : ℕ} (hx : x < n) (hx' : x' < n)
    (h : (x : ℝ) * d + X * D = x' * d + X' * D) : x = x' ∧ X = X' := by
  have hle : ∀ y : ℕ, y < n → (y : ℝ) * d < D := by
    intro y hy
    have : (y : ℝ) + 1 ≤ n := by exact_mod_cast hy
    nlinarith
  have hD0 : 0 < D := by have := hle x hx; have : 0 ≤ (x : ℝ) * d := by positivity
                         linarith
  have h1 := hle x hx
  have h2 := hle x' hx'
  have h3 : 0 ≤ (x : ℝ) * d := by positivity
  have h4 : 0 ≤ (x' : ℝ) * d := by positivity
  have hX : X = X' := by
    by_contra hne
    rcases lt_or_gt_of_ne hne with hl | hl
    · have : (X : ℝ) + 1 ≤ X' := by exact_mod_cast hl
      nlinarith
    · have : (X' : ℝ) + 1 ≤ X := by exact_mod_cast hl
      nlinarith
  subst hX
  have : (x : ℝ) * d = x' * d := by linarith
  have := mul_right_cancel₀ hd.ne' this
  exact ⟨by exact_mod_cast this, rfl⟩

/-- Positions determine everything but the polarization. -/
theorem positions_inj (h1 : a.polarization = "single" ∨ a.polarization = "dual") (hf : 0 < a.carrierFrequency)
    (hv : 0 < a.elementV) (hh : 0 < a.elementH) (hV : ((a.numRowsPerPanel : ℝ) - 1) * a.elementV < a.panelV)
    (hH : ((a.numColsPerPanel : ℝ) - 1) * a.elementH < a.panelH) {pj pi q j i pj' pi' q' j' i' : ℕ}
    (h2 : pj < a.numCols) (h3 : pi < a.numRows) (h4 : q < a.p) (h5 : j < a.numColsPerPanel) (h6 : i < a.numRowsPerPanel)
    (h2' : pj' < a.numCols) (h3' : pi' < a.numRows) (h4' : q' < a.p) (h5' : j' < a.numColsPerPanel) (h6' : i' < a.numRowsPerPanel)
    (e : a.positions (Spec.elementIndex a.numRowsPerPanel a.numColsPerPanel a.p a.numRows pj pi q j i) =
      a.positions (Spec.elementIndex a.numRowsPerPanel a.numColsPerPanel a.p a.numRows pj' pi' q' j' i')) :
    pj = pj' ∧ pi = pi' ∧ j = j' ∧ i = i' := by
  rw [positions_eq h1 h2 h3 h4 h5 h6, positions_eq h1 h2' h3' h4' h5' h6'] at e
  have hl : speedOfLight / a.carrierFrequency ≠ 0 := (div_pos (by norm_num [speedOfLight]) hf).ne'
  have e := smul_right_injective (Fin 3 → ℝ) hl e
  have ey := congrFun e 1
  have ez := congrFun e 2
  simp only [Matrix.cons_val_one, Matrix.cons_val_zero] at ey
  simp only [Matrix.cons_val] at ez
  obtain ⟨r1, r2⟩ := coordinate_inj hh hH h5 h5' (X := pj) (X' := pj') (by linarith)
  obtain ⟨r3, r4⟩ := coordinate_inj hv hV h6 h6' (X := pi) (X' := pi') (by linarith)
  exact ⟨r2, r4, r1, r3⟩

/-- Membership in the index sets, by polarization number. -/
theorem mem_pol (h : mkArray a = .ok arr) (k : ℕ) :
    (k ∈ arr.indPol1 ↔ k < a.numAnt ∧ k / (a.numColsPerPanel * a.numRowsPerPanel) % a.p = 0) ∧
    (k ∈ arr.indPol2 ↔ k < a.numAnt ∧ k / (a.numColsPerPanel * a.numRowsPerPanel) % a.p = 1) := by
  obtain ⟨h1, -, -, h0, -, -, hi1, hi2⟩ := mkArray_ok h
  rw [hi1, hi2]
  refine ⟨?_, ?_⟩
  · rw [mem_indexRows h0]; simp
  · rcases h1 with hs | hs
    · rw [if_pos hs]
      have : a.p = 1 := by simp [ArrayArgs.p, hs]
      simp [this, Nat.mod_one]
    · have h2 : a.p = 2 := by simp [ArrayArgs.p, hs]
      rw [if_neg (by simp [hs]), mem_indexRows h0]; simp [h2]

/-- C59. Elements of one polarization are at different positions, and for dual polarization each position carries one element of each
polarization. -/
theorem C59_distinct (h : mkArray a = .ok arr) (hf : 0 < a.carrierFrequency) (hv : 0 < Spec.spacingOr a.elementVertical)
    (hh : 0 < Spec.spacingOr a.elementHorizontal) :
    (∀ inds ∈ [arr.indPol1, arr.indPol2], ∀ k ∈ inds, ∀ l ∈ inds, k ≠ l → arr.antPos k ≠ arr.antPos l) ∧
    (a.polarization = "dual" → (∀ k ∈ arr.indPol1, ∃! l, l ∈ arr.indPol2 ∧ arr.antPos l = arr.antPos k) ∧
      ∀ l ∈ arr.indPol2, ∃! k, k ∈ arr.indPol1 ∧ arr.antPos k = arr.antPos l) := by
  obtain ⟨h1, hH, hV, h0, -, hp, -, -⟩ := mkArray_ok h
  rw [← (pitches a).2.1] at hv
  rw [← (pitches a).1] at hh
  rw [hp]
  have inj : ∀ r < a.p, ∀ k l, k < a.numAnt → l < a.numAnt → k / (a.numColsPerPanel * a.numRowsPerPanel) % a.p = r →
      l / (a.numColsPerPanel * a.numRowsPerPanel) % a.p = r → a.positions k = a.positions l → k = l := by
    intro r hr k l hk hl ek el e
    obtain ⟨pj, pi, q, j, i, h2, h3, h4, h5, h6, rfl⟩ := elementIndex_ex hk
    obtain ⟨pj', pi', q', j', i', h2', h3', h4', h5', h6', rfl⟩ := elementIndex_ex hl
    obtain ⟨rfl, rfl, rfl, rfl⟩ := positions_inj h1 hf hv hh hV hH h2 h3 h4 h5 h6 h2' h3' h4' h5' h6' e
    rw [elementIndex_pol _ _ _ _ _ h4 h5 h6] at ek
    rw [elementIndex_pol _ _ _ _ _ h4' h5' h6'] at el
    rw [ek, el]
  have hp0 : 0 < a.p := by unfold ArrayArgs.p; split <;> omega
  refine ⟨?_, ?_⟩
  · intro inds hinds k hk l hl hne e
    simp only [List.mem_cons, List.not_mem_nil, or_false] at hinds
    rcases hinds with rfl | rfl
    · rw [(mem_pol h _).1] at hk hl
      exact hne (inj 0 hp0 k l hk.1 hl.1 hk.2 hl.2 e)
    · rw [(mem_pol h _).2] at hk hl
      refine hne (inj 1 ?_ k l hk.1 hl.1 hk.2 hl.2 e)
      rw [← hk.2]; exact Nat.mod_lt _ hp0
  · intro hd
    have h2p : a.p = 2 := by simp [ArrayArgs.p, hd]
    have partner : ∀ r s, r < 2 → s < 2 → ∀ k, k < a.numAnt → k / (a.numColsPerPanel * a.numRowsPerPanel) % a.p = r →
        ∃ l, l < a.numAnt ∧ l / (a.numColsPerPanel * a.numRowsPerPanel) % a.p = s ∧ a.positions l = a.positions k := by
      intro r s hr hs k hk ek
      obtain ⟨pj, pi, q, j, i, h2, h3, h4, h5, h6, rfl⟩ := elementIndex_ex hk
      have h4' : s < a.p := by omega
      refine ⟨Spec.elementIndex a.numRowsPerPanel a.numColsPerPanel a.p a.numRows pj pi s j i, elementIndex_lt h2 h3 h4' h5 h6,
        elementIndex_pol _ _ _ _ _ h4' h5 h6, ?_⟩
      rw [positions_eq h1 h2 h3 h4 h5 h6, positions_eq h1 h2 h3 h4' h5 h6]
    refine ⟨fun k hk => ?_, fun k hk => ?_⟩
    · rw [(mem_pol h _).1] at hk
      obtain ⟨l, hl, el, e⟩ := partner 0 1 (by omega) (by omega) k hk.1 hk.2
      refine ⟨l, ⟨((mem_pol h _).2).2 ⟨hl, el⟩, e⟩, ?_⟩
      rintro l' ⟨hl', e'⟩
      rw [(mem_pol h _).2] at hl'
      exact inj 1 (by omega) _ _ hl'.1 hl hl'.2 el (e'.trans e.symm)
    · rw [(mem_pol h _).2] at hk
      obtain ⟨l, hl, el, e⟩ := partner 1 0 (by omega) (by omega) k hk.1 hk.2
      refine ⟨l, ⟨((mem_pol h _).1).2 ⟨hl, el⟩, e⟩, ?_⟩
      rintro l' ⟨hl', e'⟩
      rw [(mem_pol h _).1] at hl'
      exact inj 0 (by omega) _ _ hl'.1 hl hl'.2 el (e'.trans e.symm)

example : 0 < exArray.carrierFrequency ∧ 0 < Spec.spacingOr exArray.elementVertical ∧ 0 < Spec.spacingOr exArray.elementHorizontal ∧
    exArray.polarization = "dual" ∧ ∃ arr, mkArray exArray = .ok arr :=
  ⟨by norm_num [exArray], by norm_num [exArray, Spec.spacingOr], by norm_num [exArray, Spec.spacingOr], rfl,
    _, exArray_ok.choose_spec.1⟩

/-! ### C60: polarization index sets -/

/-- C60. The index sets of the polarizations partition the antennas, in equal halves for dual polarization. -/
theorem C60_partition (h : mkArray a = .ok arr) :
    (arr.indPol1 ++ arr.indPol2).Perm (List.range arr.numAnt) ∧
    arr.numAnt = (a.numRows * a.numCols) * (a.numRowsPerPanel * a.numColsPerPanel) * (if a.polarization = "dual" then 2 else 1) ∧
    arr.indPol1.length = (a.numRows * a.numCols) * (a.numRowsPerPanel * a.numColsPerPanel) ∧
    (a.polarization = "dual" → arr.indPol2.length = arr.indPol1.length) ∧ (a.polarization = "single" → arr.indPol2 = []) := by
  obtain ⟨h1, -, -, h0, hn, hp, hi1, hi2⟩ := mkArray_ok h
  have hnd1 : arr.indPol1.Nodup := by rw [hi1]; exact nodup_indexRows _ (List.nodup_range.filter _)
  have hnd2 : arr.indPol2.Nodup := by
    rw [hi2]; split
    · exact List.nodup_nil
    · exact nodup_indexRows _ (List.nodup_range.filter _)
  have hperm : (arr.indPol1 ++ arr.indPol2).Perm (List.range arr.numAnt) := by
    rw [List.perm_ext_iff_of_nodup (List.Nodup.append hnd1 hnd2 ?_) List.nodup_range]
    · intro k
      rw [List.mem_append, (mem_pol h k).1, (mem_pol h k).2, List.mem_range, hn]
      have hp2 : a.p = 1 ∨ a.p = 2 := by unfold ArrayArgs.p; split <;> simp
      constructor
      · rintro (h | h) <;> exact h.1
      · intro hk
        rcases hp2 with e | e <;> rw [e]
        · exact .inl ⟨hk, Nat.mod_one _⟩
        · rcases Nat.mod_two_eq_zero_or_one (k / (a.numColsPerPanel * a.numRowsPerPanel)) with h | h
          · exact .inl ⟨hk, h⟩
          · exact .inr ⟨hk, h⟩
    · rw [List.disjoint_left]
      intro k hk hk'
      rw [(mem_pol h k).1] at hk
      rw [(mem_pol h k).2] at hk'
      have := hk.2.symm.trans hk'.2
      omega
  have hcount : arr.numAnt = (a.numRows * a.numCols) * (a.numRowsPerPanel * a.numColsPerPanel) *
      (if a.polarization = "dual" then 2 else 1) := by
    have := dual_p h1
    simp only [decide_eq_true_eq] at this
    rw [hn, ← this]
    simp only [ArrayArgs.numAnt, ArrayArgs.numPanels, ArrayArgs.numPanelAnt]; ring
  have hsum := hperm.length_eq
  rw [List.length_append, List.length_range] at hsum
  refine ⟨hperm, hcount, ?_⟩
  rcases h1 with hs | hs
  · have e2 : arr.indPol2 = [] := by rw [hi2, if_pos hs]
    rw [if_neg (by simp [hs]), mul_one] at hcount
    rw [e2, List.length_nil, add_zero] at hsum
    exact ⟨by omega, fun h => by simp [hs] at h, fun _ => e2⟩
  · have hp2 : a.p = 2 := by simp [ArrayArgs.p, hs]
    have key : ∀ r < 2, ∀ inds : List ℕ, inds.Nodup → (∀ k, k ∈ inds ↔ k < a.numAnt ∧
        k / (a.numColsPerPanel * a.numRowsPerPanel) % a.p = r) →
        (a.numRows * a.numCols) * (a.numRowsPerPanel * a.numColsPerPanel) ≤ inds.length := by
      intro r hr inds hnd hmem
      have hsub : (List.range (a.numRows * a.numCols * (a.numRowsPerPanel * a.numColsPerPanel))).map (fun x =>
          (x / (a.numColsPerPanel * a.numRowsPerPanel) * 2 + r) * (a.numColsPerPanel * a.numRowsPerPanel) +
            x % (a.numColsPerPanel * a.numRowsPerPanel)) ⊆ inds := by
        intro k hk
        simp only [List.mem_map, List.mem_range] at hk
        obtain ⟨x, hx, rfl⟩ := hk
        have hpos : 0 < a.numColsPerPanel * a.numRowsPerPanel := by
          rcases Nat.eq_zero_or_pos (a.numColsPerPanel * a.numRowsPerPanel) with h | h
          · rw [Nat.mul_comm a.numRowsPerPanel, h] at hx; simp at hx
          · exact h
        have hm := Nat.mod_lt x hpos
        have hx' : x / (a.numColsPerPanel * a.numRowsPerPanel) < a.numRows * a.numCols := by
          rw [Nat.div_lt_iff_lt_mul hpos, Nat.mul_comm a.numColsPerPanel]; exact hx
        rw [hmem]
        refine ⟨?_, ?_⟩
        · have e : a.numAnt = (a.numRows * a.numCols * 2) * (a.numColsPerPanel * a.numRowsPerPanel) := by
            simp only [ArrayArgs.numAnt, ArrayArgs.numPanels, ArrayArgs.numPanelAnt, hp2]; ring
          rw [e]
          exact radix_lt (by omega) hm
        · rw [Nat.mul_comm _ (a.numColsPerPanel * a.numRowsPerPanel), Nat.mul_add_div hpos, Nat.div_eq_of_lt hm, add_zero, hp2]
          omega
      have hnd' : ((List.range (a.numRows * a.numCols * (a.numRowsPerPanel * a.numColsPerPanel))).map (fun x =>
          (x / (a.numColsPerPanel * a.numRowsPerPanel) * 2 + r) * (a.numColsPerPanel * a.numRowsPerPanel) +
            x % (a.numColsPerPanel * a.numRowsPerPanel))).Nodup := by
        refine List.Nodup.map_on ?_ List.nodup_range
        intro x hx y hy e
        have hpos : 0 < a.numColsPerPanel * a.numRowsPerPanel := by
          rcases Nat.eq_zero_or_pos (a.numColsPerPanel * a.numRowsPerPanel) with h | h
          · rw [List.mem_range, Nat.mul_comm a.numRowsPerPanel, h] at hx; simp at hx
          · exact h
        obtain ⟨e1, e2⟩ := radix_inj (Nat.mod_lt _ hpos) (Nat.mod_lt _ hpos) e
        have : x / (a.numColsPerPanel * a.numRowsPerPanel) = y / (a.numColsPerPanel * a.numRowsPerPanel) := by omega
        rw [← Nat.div_add_mod x (a.numColsPerPanel * a.numRowsPerPanel), this, e2, Nat.div_add_mod]
      have := (hnd'.subperm hsub).length_le
      simpa using this
    have k1 := key 0 (by omega) _ hnd1 fun k => (mem_pol h k).1
    have k2 := key 1 (by omega) _ hnd2 fun k => (mem_pol h k).2
    rw [if_pos hs] at hcount
    refine ⟨by omega, fun _ => by omega, fun h => by simp [hs] at h⟩

/-- A single polarized antenna. -/
example : ∃ arr, mkAntenna "single" "V" "omni" 2e9 = .ok arr := by
  unfold mkAntenna mkArray
  rw [if_neg (by simp), if_neg (by norm_num [ArrayArgs.elementH, ArrayArgs.panelH]),
    if_neg (by norm_num [ArrayArgs.elementV, ArrayArgs.panelV])]
  simp [patternOf, ArrayArgs.numPanels, Except.map]

/-! ### C61: patterns -/

/-- The range of a pattern that is a capped sum of two capped attenuations. -/
theorem attenuation_range {x y c : ℝ} (hx : 0 ≤ x) (hy : 0 ≤ y) (hc : 0 ≤ c) :
    -c ≤ -min (-(-min x c + -min y c)) c ∧ -min (-(-min x c + -min y c)) c ≤ 0 := by
  have h1 : 0 ≤ min x c := le_min hx hc
  have h2 : 0 ≤ min y c := le_min hy hc
  refine ⟨neg_le_neg (min_le_right _ _), neg_nonpos.2 (le_min (by linarith) hc)⟩

theorem pow10_mono {x y : ℝ} (h : x ≤ y) : pow10 x ≤ pow10 y := Real.rpow_le_rpow_of_exponent_le (by norm_num) h

theorem bessel_bound (x : ℝ) : |besselJ1 x| ≤ |x| / 2 := by
  have hcont : Continuous fun t : ℝ => Real.cos (t - x * Real.sin t) := by fun_prop
  have h1 : ∫ t in (0 : ℝ)..Real.pi, Real.cos (t - x * Real.sin t) =
      ∫ t in (0 : ℝ)..Real.pi, Real.sin t * Real.sin (x * Real.sin t) := by
    have h0 : ∫ t in (0 : ℝ)..Real.pi, Real.cos t * Real.cos (x * Real.sin t) = 0 := by
      by_cases hx : x = 0
      · simp [hx]
      · have hd : ∀ t ∈ Set.uIcc (0 : ℝ) Real.pi, HasDerivAt (fun t => Real.sin (x * Real.sin t) / x)
            (Real.cos t * Real.cos (x * Real.sin t)) t := by
          intro t _
          have := (((Real.hasDerivAt_sin t).const_mul x).sin).div_const x
          rwa [mul_comm (Real.cos (x * Real.sin t)), mul_assoc, mul_div_cancel_left₀ _ hx] at this
        rw [intervalIntegral.integral_eq_sub_of_hasDerivAt hd
          (Continuous.intervalIntegrable (by fun_prop) _ _)]
        simp
    have e : ∀ t, Real.cos (t - x * Real.sin t) = Real.cos t * Real.cos (x * Real.sin t) + Real.sin t * Real.sin (x * Real.sin t) :=
      fun t => Real.cos_sub _ _
    simp only [e]
    rw [intervalIntegral.integral_add (Continuous.intervalIntegrable (by fun_prop) _ _)
      (Continuous.intervalIntegrable (by fun_prop) _ _), h0, zero_add]
  have h2 : |∫ t in (0 : ℝ)..Real.pi, Real.sin t * Real.sin (x * Real.sin t)| ≤ |x| * (Real.pi / 2) := by
    have hb : ∀ t ∈ Set.Icc (0 : ℝ) Real.pi, ‖Real.sin t * Real.sin (x * Real.sin t)‖ ≤ |x| * Real.sin t ^ 2 := by
      intro t ht
      have hs : 0 ≤ Real.sin t := Real.sin_nonneg_of_mem_Icc ht
      rw [Real.norm_eq_abs, abs_mul, abs_of_nonneg hs]
      have : |Real.sin (x * Real.sin t)| ≤ |x * Real.sin t| := Real.abs_sin_le_abs
      rw [abs_mul, abs_of_nonneg hs] at this
      nlinarith
    calc |∫ t in (0 : ℝ)..Real.pi, Real.sin t * Real.sin (x * Real.sin t)|
        ≤ ∫ t in (0 : ℝ)..Real.pi, |x| * Real.sin t ^ 2 := by
          rw [← Real.norm_eq_abs]
          refine intervalIntegral.norm_integral_le_of_norm_le Real.pi_pos.le ?_ (Continuous.intervalIntegrable (by fun_prop) _ _)
          exact Filter.Eventually.of_forall fun t ht => hb t ⟨ht.1.le, ht.2⟩
      _ = |x| * (Real.pi / 2) := by
          rw [intervalIntegral.integral_const_mul, integral_sin_sq]
          simp
  rw [besselJ1, h1, abs_mul, abs_of_pos (by positivity)]
  calc 1 / Real.pi * _ ≤ 1 / Real.pi * (|x| * (Real.pi / 2)) := by gcongr
    _ = |x| / 2 := by field_simp

/-- C61. Range of the four patterns, boresight value, and the power of the field for every slant angle. -/
theorem C61_patterns (theta phi slant : ℝ) :
    (pow10 (-22 / 10) ≤ Pattern.p38901.power theta phi ∧ Pattern.p38901.power theta phi ≤ pow10 (8 / 10)) ∧
    (Pattern.p38901.power (Real.pi / 2) 0 = pow10 (8 / 10)) ∧
    (pow10 (-25 / 10) ≤ Pattern.dlp.power theta phi ∧ Pattern.dlp.power theta phi ≤ 1) ∧
    (Pattern.dlp.power (Real.pi / 2) 0 = 1) ∧
    Pattern.omni.power theta phi = 1 ∧
    (0 ≤ Pattern.aperture.power theta phi ∧ Pattern.aperture.power theta phi ≤ 1) ∧
    (Pattern.aperture.power (Real.pi / 2) 0 = 1) ∧
    (Real.sin theta * Real.cos phi < 0 → Pattern.aperture.power theta phi = 0) ∧
    ∀ p : Pattern, (Element.field ⟨p, slant⟩ theta phi 0) ^ 2 + (Element.field ⟨p, slant⟩ theta phi 1) ^ 2 = p.power theta phi := by
  have A := attenuation_range (x := 12 * ((theta - Real.pi / 2) / (65 / 180 * Real.pi)) ^ 2)
    (y := 12 * (phi / (65 / 180 * Real.pi)) ^ 2) (c := 30) (by positivity) (by positivity) (by norm_num)
  have D := attenuation_range (x := 12 * ((theta * (180 / Real.pi) - 90) / 90) ^ 2)
    (y := 12 * (phi * (180 / Real.pi) / 90) ^ 2) (c := 25) (by positivity) (by positivity) (by norm_num)
  have hA : pow10 (-22 / 10) ≤ Pattern.p38901.power theta phi ∧ Pattern.p38901.power theta phi ≤ pow10 (8 / 10) := by
    simp only [Pattern.power, pattern38901]
    exact ⟨pow10_mono (by linarith [A.1]), pow10_mono (by linarith [A.2])⟩
  have hD : pow10 (-25 / 10) ≤ Pattern.dlp.power theta phi ∧ Pattern.dlp.power theta phi ≤ 1 := by
    simp only [Pattern.power, patternDlp]
    refine ⟨pow10_mono (by linarith [D.1]), ?_⟩
    rw [show (1 : ℝ) = pow10 0 by simp [pow10]]
    exact pow10_mono (by linarith [D.2])
  have hP : 0 ≤ Pattern.aperture.power theta phi ∧ Pattern.aperture.power theta phi ≤ 1 := by
    simp only [Pattern.power, patternAperture]
    split_ifs
    · simp
    · simp
    · refine ⟨by positivity, ?_⟩
      generalize hx : Real.sin (Real.arccos (Real.sin theta * Real.cos phi)) * (10 * 2 * Real.pi) = x
      rw [mul_comm (10 * 2 * Real.pi), hx, abs_div]
      have hb := bessel_bound x
      have : |besselJ1 x| / |x| ≤ 1 / 2 := by
        rcases eq_or_ne x 0 with rfl | h0
        · simp
        · rw [div_le_iff₀ (abs_pos.2 h0)]; linarith
      have h0 : 0 ≤ |besselJ1 x| / |x| := by positivity
      nlinarith
  refine ⟨hA, ?_, hD, ?_, rfl, hP, ?_, ?_, ?_⟩
  · simp [Pattern.power, pattern38901]
  · have : Real.pi / 2 * (180 / Real.pi) = 90 := by field_simp; norm_num
    simp [Pattern.power, patternDlp, this, pow10]
  · have hpos := Real.pi_pos
    simp [Pattern.power, patternAperture, hpos.le]
    positivity
  · intro hneg
    have h1 : Real.pi / 2 < Real.arccos (Real.sin theta * Real.cos phi) := by
      rw [← not_le, Real.arccos_le_pi_div_two]; exact not_le.2 hneg
    simp only [Pattern.power, patternAperture]
    rw [if_pos]
    rw [abs_of_nonneg (Real.arccos_nonneg _)]
    linarith
  · intro p
    have hp : 0 ≤ p.power theta phi := by
      cases p
      · simp [Pattern.power, patternOmni]
      · exact le_trans (Real.rpow_nonneg (by norm_num) _) hA.1
      · exact hP.1
      · exact le_trans (Real.rpow_nonneg (by norm_num) _) hD.1
    simp only [Element.field, Matrix.cons_val_zero, Matrix.cons_val_one, mul_pow, Real.sq_sqrt hp]
    rw [← mul_add, Real.cos_sq_add_sin_sq, mul_one]

/-- A direction behind the aperture. -/
example : Real.sin (Real.pi / 2) * Real.cos Real.pi < 0 := by norm_num

/-! ### C62: slant angles -/

/-- C62 as stated: "VH" gives 0 and 90 degrees, "cross" gives -45 and 45 degrees. -/
def C62_statement : Prop := ∀ (a : ArrayArgs) (arr : PanelArray), mkArray a = .ok arr → a.polarization = "dual" →
  ∃ e2, arr.pol2 = some e2 ∧
    (a.polarizationType = "VH" → arr.pol1.slant = 0 ∧ e2.slant = Real.pi / 2) ∧
    (a.polarizationType = "cross" → arr.pol1.slant = -(Real.pi / 4) ∧ e2.slant = Real.pi / 4)

/-- Partial C62: what holds is that the two polarizations are at right angles with the same pattern, that "cross" and the single polarizations
give the requested slants, and that dual polarization always gives -45 and 45 degrees. Missing: the slants of "VH". -/
theorem C62_slants_partial (h : mkArray a = .ok arr) :
    (a.polarization = "dual" → ∃ e2, arr.pol2 = some e2 ∧ e2.pattern = arr.pol1.pattern ∧
      arr.pol1.slant = -(Real.pi / 4) ∧ e2.slant = Real.pi / 4 ∧ (a.polarizationType = "VH" ∨ a.polarizationType = "cross")) ∧
    (a.polarization = "single" → arr.pol2 = none ∧ ((a.polarizationType = "V" ∧ arr.pol1.slant = 0) ∨
      (a.polarizationType = "H" ∧ arr.pol1.slant = Real.pi / 2))) ∧ patternOf a.pattern = .ok arr.pol1.pattern := by
  have h1 := (mkArray_ok h).1
  have h2 := (mkArray_ok h).2.1
  have h3 := (mkArray_ok h).2.2.1
  unfold mkArray at h
  rw [if_neg (not_not.2 h1), if_neg (not_not.2 h2), if_neg (not_not.2 h3)] at h
  rcases h1 with hs | hs
  · simp only [hs, if_true] at h
    refine ⟨fun hd => by simp [hs] at hd, fun _ => ?_, ?_⟩
    · by_cases ht : a.polarizationType = "V" ∨ a.polarizationType = "H"
      swap
      · rw [if_pos ht] at h; cases h
      rw [if_neg (not_not.2 ht)] at h
      cases hp : patternOf a.pattern with
      | error e => rw [hp] at h; cases h
      | ok p =>
        rw [hp] at h
        simp only [Except.map] at h
        split at h
        · cases h
        · injection h with h
          subst h
          refine ⟨rfl, ?_⟩
          rcases ht with ht | ht
          · exact .inl ⟨ht, by simp [ht]⟩
          · exact .inr ⟨ht, by simp [ht]⟩
    · by_cases ht : a.polarizationType = "V" ∨ a.polarizationType = "H"
      swap
      · rw [if_pos ht] at h; cases h
      rw [if_neg (not_not.2 ht)] at h
      cases hp : patternOf a.pattern with
      | error e => rw [hp] at h; cases h
      | ok p =>
        rw [hp] at h
        simp only [Except.map] at h
        split at h
        · cases h
        · injection h with h
          subst h
          rfl
  · simp only [hs, show ¬("dual" = "single") from by decide, show ¬("dual" = "VH") from by decide, if_false] at h
    by_cases ht : a.polarizationType = "VH" ∨ a.polarizationType = "cross"
    swap
    · rw [if_pos ht] at h; cases h
    rw [if_neg (not_not.2 ht)] at h
    cases hp : patternOf a.pattern with
    | error e => rw [hp] at h; cases h
    | ok p =>
      rw [hp] at h
      simp only [Except.map] at h
      split at h
      · cases h
      · injection h with h
        subst h
        exact ⟨fun _ => ⟨_, rfl, rfl, by ring, by ring, ht⟩, fun hc => by simp [hs] at hc, rfl⟩

example : ∃ arr, mkArray exArray = .ok arr ∧ exArray.polarization = "dual" := ⟨_, exArray_ok.choose_spec.1, rfl⟩

/-- The comparison in line 527 is with the wrong variable: "VH" gives -45 and 45 degrees. -/
theorem C62_violated : ¬ C62_statement := by
  intro H
  obtain ⟨arr, h, hs⟩ := exArray_ok
  obtain ⟨e2, -, h2, -⟩ := H exArray arr h rfl
  rw [(h2 rfl).1] at hs
  have := Real.pi_pos
  linarith

end OpenNTN
