import Verif.Model.ShowArray
import Verif.Props.ArrayAttrs
import Verif.Props.Arrays

/-
C162: what `PanelArray.show` draws.
-/
namespace OpenNTN

variable {a : ArrayArgs} {arr : PanelArray}

/-- Direction of a marker's line in the plane of y and z. -/
noncomputable def Spec.lineOf : Marker → ℝ × ℝ
  | .vertical => (0, 1)
  | .horizontal => (1, 0)
  | .turned degrees => (-Real.sin (degrees * Real.pi / 180), Real.cos (degrees * Real.pi / 180))

/-- The line is along the field that the element radiates to the front (zenith angle 90 degrees, azimuth 0). There the unit vector of growing zenith
angle is -z and that of growing azimuth is y. -/
def Spec.Along (m : Marker) (e : Element) : Prop :=
  (Spec.lineOf m).1 * -(e.field (Real.pi / 2) 0 0) = (Spec.lineOf m).2 * e.field (Real.pi / 2) 0 1

/-- Every antenna is drawn once, at its place in the plane of y and z, by a line along its polarization; the antennas of the first polarization are
numbered, counting from one. -/
def Spec.DrawsArray (f : ArrayFigure) (arr : PanelArray) : Prop :=
  ∃ mark : ℕ → Marker, f.marked.Perm ((List.range arr.numAnt).map fun k => (mark k, arr.antPos k 1, arr.antPos k 2)) ∧
    (∀ k ∈ arr.indPol1, Spec.Along (mark k) arr.pol1) ∧ (∀ k ∈ arr.indPol2, ∃ e, arr.pol2 = some e ∧ Spec.Along (mark k) e) ∧
    f.texts = arr.indPol1.map fun k => (k + 1, arr.antPos k 1, arr.antPos k 2)

/-- C162: every array is drawn faithfully. -/
def C162_statement : Prop :=
  ∀ (a : ArrayArgs) (arr : PanelArray), mkArray a = .ok arr → ∃ f, arr.show a.polarizationType = .ok f ∧ Spec.DrawsArray f arr

/-- What is drawn, whatever the markers mean. -/
theorem show_marked (h : mkArray a = .ok arr) : ∃ f m1 m2, arr.show a.polarizationType = .ok f ∧
    showMarkers a.polarization a.polarizationType = (some m1, m2) ∧ (a.polarization = "dual" → m2.isSome) ∧
    f.marked.Perm ((List.range arr.numAnt).map fun k => (if k ∈ arr.indPol1 then m1 else m2.getD m1, arr.antPos k 1, arr.antPos k 2)) ∧
    f.texts = arr.indPol1.map fun k => (k + 1, arr.antPos k 1, arr.antPos k 2) := by
  have hpol := ((C111_constructor a).2 arr h).1
  obtain ⟨hperm, -, -, -, hs⟩ := C60_partition h
  have htexts : ((arr.indPol1.zip arr.getPosPol1).map fun q => (q.1 + 1, q.2 1, q.2 2)) =
      arr.indPol1.map fun k => (k + 1, arr.antPos k 1, arr.antPos k 2) := by
    unfold PanelArray.getPosPol1
    induction arr.indPol1 with
    | nil => rfl
    | cons k l ih => simp only [List.map_cons, List.zip_cons_cons, ih]
  have hnd : (arr.indPol1 ++ arr.indPol2).Nodup := hperm.nodup_iff.2 List.nodup_range
  have h1 : ∀ m1 m2 : Marker, (arr.getPosPol1.map fun p => (m1, p 1, p 2)) =
      arr.indPol1.map fun k => (if k ∈ arr.indPol1 then m1 else m2, arr.antPos k 1, arr.antPos k 2) := fun m1 m2 => by
    unfold PanelArray.getPosPol1
    rw [List.map_map]
    exact List.map_congr_left fun k hk => by simp [hk]
  have h2 : ∀ m1 m2 : Marker, ((arr.indPol2.map arr.antPos).map fun p => (m2, p 1, p 2)) =
      arr.indPol2.map fun k => (if k ∈ arr.indPol1 then m1 else m2, arr.antPos k 1, arr.antPos k 2) := fun m1 m2 => by
    rw [List.map_map]
    refine List.map_congr_left fun k hk => ?_
    have : k ∉ arr.indPol1 := fun hh => (List.nodup_append.1 hnd).2.2 k hh k hk rfl
    simp [this]
  rcases (mkArray_ok h).1 with hp | hp
  · obtain ⟨m1, hm⟩ : ∃ m1, showMarkers a.polarization a.polarizationType = (some m1, none) := by
      unfold showMarkers
      rw [if_pos hp]
      split <;> exact ⟨_, rfl⟩
    have hd : ¬ arr.polarization = "dual" := by rw [hpol, hp]; decide
    refine ⟨_, m1, none, by unfold PanelArray.show; simp only [hpol ▸ hm, if_neg hd]; rfl, hm, fun hh => ?_, ?_, htexts⟩
    · rw [hp] at hh; exact absurd hh (by decide)
    · rw [h1 m1 m1]
      refine List.Perm.trans (List.Perm.of_eq ?_) (hperm.map _)
      rw [hs hp, List.append_nil]
      rfl
  · obtain ⟨m1, m2, hm⟩ : ∃ m1 m2, showMarkers a.polarization a.polarizationType = (some m1, some m2) := by
      unfold showMarkers
      rw [if_neg (by rw [hp]; decide), if_pos hp]
      split <;> exact ⟨_, _, rfl⟩
    have hd : arr.polarization = "dual" := by rw [hpol, hp]
    refine ⟨_, m1, some m2, by unfold PanelArray.show; simp only [hpol ▸ hm, if_pos hd]; rfl, hm, fun hh => rfl, ?_, htexts⟩
    rw [h1 m1 m2, h2 m1 m2, ← List.map_append]
    exact hperm.map _

/-- C162 for the polarizations "V", "H" and "cross": drawn faithfully. Missing: "VH". There the places and numbers are right. -/
theorem C162_drawn_partial (h : mkArray a = .ok arr) :
    (a.polarizationType ≠ "VH" → ∃ f, arr.show a.polarizationType = .ok f ∧ Spec.DrawsArray f arr) ∧
    ∃ f, ∃ mark : ℕ → Marker, arr.show a.polarizationType = .ok f ∧
      f.marked.Perm ((List.range arr.numAnt).map fun k => (mark k, arr.antPos k 1, arr.antPos k 2)) ∧
      f.texts = arr.indPol1.map fun k => (k + 1, arr.antPos k 1, arr.antPos k 2) := by
  obtain ⟨f, m1, m2, hf, hm, hsome, hmark, htext⟩ := show_marked h
  refine ⟨fun hne => ⟨f, hf, _, hmark, fun k hk => ?_, fun k hk => ?_, htext⟩, f, _, hf, hmark, htext⟩
  · rw [if_pos hk]
    rcases (mkArray_ok h).1 with hp | hp
    · obtain ⟨-, ⟨ht, hs⟩ | ⟨ht, hs⟩⟩ := (C62_slants_partial h).2.1 hp
      · rw [hp, ht] at hm
        simp only [showMarkers, if_true, show ¬ "V" = "H" by decide, if_false, Prod.mk.injEq, Option.some.injEq] at hm
        rw [← hm.1]
        simp [Spec.Along, Spec.lineOf, Element.field, hs]
      · rw [hp, ht] at hm
        simp only [showMarkers, if_true, Prod.mk.injEq, Option.some.injEq] at hm
        rw [← hm.1]
        simp [Spec.Along, Spec.lineOf, Element.field, hs]
    · obtain ⟨e2, -, -, hs, -, ht | ht⟩ := (C62_slants_partial h).1 hp
      · exact absurd ht hne
      · rw [hp, ht] at hm
        simp only [showMarkers, if_true, show ¬ "dual" = "single" by decide, if_false, Prod.mk.injEq, Option.some.injEq] at hm
        rw [← hm.1]
        have e : (-45 : ℝ) * Real.pi / 180 = -(Real.pi / 4) := by ring
        simp only [Spec.Along, Spec.lineOf, Element.field, hs, e, Real.sin_neg, Real.cos_neg, Matrix.cons_val_zero, Matrix.cons_val_one]
        ring
  · have hd : a.polarization = "dual" := by
      rcases (mkArray_ok h).1 with hp | hp
      · rw [(C60_partition h).2.2.2.2 hp] at hk; cases hk
      · exact hp
    have hk1 : k ∉ arr.indPol1 := fun hh =>
      (List.nodup_append.1 ((C60_partition h).1.nodup_iff.2 List.nodup_range)).2.2 k hh k hk rfl
    rw [if_neg hk1]
    obtain ⟨e2, he, -, -, hs, ht | ht⟩ := (C62_slants_partial h).1 hd
    · exact absurd ht hne
    · refine ⟨e2, he, ?_⟩
      rw [hd, ht] at hm
      simp only [showMarkers, if_true, show ¬ "dual" = "single" by decide, if_false, Prod.mk.injEq, Option.some.injEq] at hm
      rw [← hm.2]
      have e : (45 : ℝ) * Real.pi / 180 = Real.pi / 4 := by ring
      simp only [Spec.Along, Spec.lineOf, Element.field, hs, e, Option.getD_some, Matrix.cons_val_zero, Matrix.cons_val_one]
      ring

/-- C162 fails for "VH": elements slanted by -45 and 45 degrees are drawn as horizontal and vertical lines. -/
theorem C162_violated : ¬ C162_statement := by
  intro H
  obtain ⟨arr, h, hs⟩ := exArray_ok
  obtain ⟨f, hf, mark, hmark, ha, -⟩ := H exArray arr h
  obtain ⟨f', m1, m2, hf', hm, -, hmark', -⟩ := show_marked h
  obtain rfl : f = f' := Except.ok.inj (hf.symm.trans hf')
  obtain ⟨k, hk⟩ : ∃ k, k ∈ arr.indPol1 := by
    have := (C60_partition h).2.2.1
    exact List.exists_mem_of_length_pos (by rw [this]; norm_num [exArray])
  have hr : k ∈ List.range arr.numAnt := (C60_partition h).1.subset (List.mem_append_left _ hk)
  have hmem := hmark'.subset (hmark.symm.subset (List.mem_map_of_mem hr))
  obtain ⟨j, -, hj⟩ := List.mem_map.1 hmem
  have hcase : mark k = .horizontal ∨ mark k = .vertical := by
    simp only [showMarkers, exArray, if_true, show ¬ "dual" = "single" by decide, show ¬ "VH" = "cross" by decide, if_false, Prod.mk.injEq,
      Option.some.injEq] at hm
    rw [← hm.1, ← hm.2] at hj
    have := (Prod.mk.inj hj).1
    split at this
    · exact .inl this.symm
    · exact .inr this.symm
  have hpat : patternOf exArray.pattern = .ok arr.pol1.pattern := (C62_slants_partial h).2.2
  have hpat : arr.pol1.pattern = .p38901 := by
    simp [exArray, patternOf] at hpat
    exact hpat.symm
  have hpow : 0 < Real.sqrt (arr.pol1.pattern.power (Real.pi / 2) 0) := by
    rw [hpat, (C61_patterns 0 0 0).2.1]
    exact Real.sqrt_pos.2 (by unfold pow10; positivity)
  have hal := ha k hk
  have e : -Real.pi / 4 = -(Real.pi / 4) := by ring
  have h2 : (0 : ℝ) < Real.sqrt 2 / 2 := by positivity
  rcases hcase with e1 | e1 <;> rw [e1] at hal <;>
    simp only [Spec.Along, Spec.lineOf, Element.field, hs, e, Real.sin_neg, Real.cos_neg, Real.cos_pi_div_four, Real.sin_pi_div_four,
      Matrix.cons_val_zero, Matrix.cons_val_one] at hal <;> nlinarith [mul_pos hpow h2]

/-- The hypothesis is met by a dual polarized array of two panels with crossed elements, and by the array of the documentation. -/
example : (∃ arr, mkArray { exArray with polarizationType := "cross" } = .ok arr) ∧ ∃ arr, mkArray exArray = .ok arr := by
  refine ⟨?_, exArray_ok.imp fun _ h => h.1⟩
  unfold mkArray
  rw [if_neg (by simp [exArray]), if_neg (by norm_num [exArray, ArrayArgs.elementH, ArrayArgs.panelH]),
    if_neg (by norm_num [exArray, ArrayArgs.elementV, ArrayArgs.panelV])]
  simp [exArray, patternOf, ArrayArgs.numPanels, Except.map]

end OpenNTN
