import Verif.Model.Show
import Verif.Spec.Steering
import Verif.Props.Channel

/-
C159, C160, C161: what `show_topology` draws.
-/
namespace OpenNTN

open Classical Spec

variable {B N U : ℕ} {s : TopoState B N U}

/-! ### C159 -/

/-- `d` is the distance between the largest and the smallest number in `l`. -/
def Spec.IsSpread (d : ℝ) (l : List ℝ) : Prop :=
  ∃ hi ∈ l, ∃ lo ∈ l, (∀ x ∈ l, lo ≤ x ∧ x ≤ hi) ∧ d = hi - lo

/-- The arrows are the local axes x, y, z of something at `loc` with orientation `ori`, in red, green and blue, each a tenth as long as the figure if
lengths along the axes are measured in units of the spread. -/
def Spec.ShowsAxes (delta loc ori : Fin 3 → ℝ) (arrows : List Arrow) : Prop :=
  ∃ v : Fin 3 → Fin 3 → ℝ, arrows = [⟨"r", loc, some (loc + v 0)⟩, ⟨"g", loc, some (loc + v 1)⟩, ⟨"b", loc, some (loc + v 2)⟩] ∧
    ∀ k, (∃ t > 0, ∀ i, v k i = t * Spec.attitude ori i k) ∧ ∑ i, (v k i / delta i) ^ 2 = (1 / 10) ^ 2

/-- The places of all nodes drawn. -/
def Figure.places (f : Figure) : List (Fin 3 → ℝ) := (f.utNodes ++ f.bsNodes).map (·.2.1)

/-- C159: whenever a topology is shown and the nodes do not all have a coordinate in common, the arrows at every node are the local axes of the
node's array. -/
def C159_statement : Prop :=
  ∀ (B N U : ℕ) (s : TopoState B N U) (n0 : Fin N) (b : Fin B) (f : Figure), showTopology s n0 b = .ok f →
    ∀ utOri bsOri, s.utOri = some utOri → s.bsOri = some bsOri →
    ∃ delta : Fin 3 → ℝ, (∀ i, Spec.IsSpread (delta i) (f.places.map (· i))) ∧
      ((∀ i, delta i ≠ 0) →
        (∀ n : Fin N, ∃ loc arrows, f.bsNodes[n.val]? = some (n.val, loc, arrows) ∧ Spec.ShowsAxes delta loc (bsOri b n).coords arrows) ∧
        (∀ u : Fin U, ∃ loc arrows, f.utNodes[u.val]? = some (u.val, loc, arrows) ∧ Spec.ShowsAxes delta loc (utOri b u).coords arrows))

theorem spread_spec {l : List ℝ} {d : ℝ} (h : spread l = .ok d) : Spec.IsSpread d l := by
  unfold spread at h
  cases hM : l.max? with
  | none => simp [hM] at h
  | some hi =>
    cases hm : l.min? with
    | none => simp [hM, hm] at h
    | some lo =>
      simp only [hM, hm, Except.ok.injEq] at h
      obtain ⟨h1, h2⟩ := List.max?_eq_some_iff.1 hM
      obtain ⟨h3, h4⟩ := List.min?_eq_some_iff.1 hm
      exact ⟨hi, h1, lo, h3, fun x hx => ⟨h4 x hx, h2 x hx⟩, h.symm⟩

theorem spread_ok {l : List ℝ} (h : l ≠ []) : ∃ d, spread l = .ok d := by
  unfold spread
  cases hM : l.max? with
  | none => exact absurd (List.max?_eq_none_iff.1 hM) h
  | some hi =>
    cases hm : l.min? with
    | none => exact absurd (List.min?_eq_none_iff.1 hm) h
    | some lo => exact ⟨_, rfl⟩

/-- An arrow for a vector of length one. -/
theorem arrowVector_spec {v delta : Fin 3 → ℝ} (hd : ∀ i, delta i ≠ 0) (hv : ∑ i, v i ^ 2 = 1) :
    ∃ w, arrowVector v delta = some w ∧ (∃ t > 0, ∀ i, w i = t * v i) ∧ ∑ i, (w i / delta i) ^ 2 = (1 / 10) ^ 2 := by
  have h1 : ¬ ∃ i, delta i = 0 ∧ v i = 0 := fun ⟨i, h, _⟩ => hd i h
  have h2 : ¬ ∃ i, delta i = 0 := fun ⟨i, h⟩ => hd i h
  have hpos : 0 < ∑ i, (v i / delta i) ^ 2 := by
    refine (Finset.sum_nonneg fun i _ => sq_nonneg _).lt_of_ne fun h => ?_
    rw [eq_comm, Finset.sum_eq_zero_iff_of_nonneg fun i _ => sq_nonneg _] at h
    have : ∑ i, v i ^ 2 = 0 := Finset.sum_eq_zero fun i hi => by
      have := h i hi
      rw [sq_eq_zero_iff, div_eq_zero_iff] at this
      rw [this.resolve_right (hd i)]; ring
    linarith
  have hs := Real.sqrt_pos.2 hpos
  refine ⟨_, by rw [arrowVector, if_neg h1, if_neg h2], ⟨0.1 / Real.sqrt (∑ i, (v i / delta i) ^ 2), by positivity, fun i => by ring⟩, ?_⟩
  have e : ∀ i, (v i * (0.1 / Real.sqrt (∑ i, (v i / delta i) ^ 2)) / delta i) ^ 2 =
      (0.1 / Real.sqrt (∑ i, (v i / delta i) ^ 2)) ^ 2 * (v i / delta i) ^ 2 := fun i => by ring
  rw [Finset.sum_congr rfl fun i _ => e i, ← Finset.mul_sum, div_pow, Real.sq_sqrt hpos.le]
  rw [div_mul_cancel₀ _ hpos.ne']
  norm_num

theorem attitude_cols (o : Fin 3 → ℝ) :
    (fun i => Spec.attitude o i 0) = ![Real.cos (o 0) * Real.cos (o 1), Real.sin (o 0) * Real.cos (o 1), -Real.sin (o 1)] ∧
    (fun i => Spec.attitude o i 1) = ![Real.cos (o 0) * Real.sin (o 1) * Real.sin (o 2) - Real.sin (o 0) * Real.cos (o 2),
      Real.sin (o 0) * Real.sin (o 1) * Real.sin (o 2) + Real.cos (o 0) * Real.cos (o 2), Real.cos (o 1) * Real.sin (o 2)] ∧
    (fun i => Spec.attitude o i 2) = ![Real.cos (o 0) * Real.sin (o 1) * Real.cos (o 2) + Real.sin (o 0) * Real.sin (o 2),
      Real.sin (o 0) * Real.sin (o 1) * Real.cos (o 2) - Real.cos (o 0) * Real.sin (o 2), Real.cos (o 1) * Real.cos (o 2)] := by
  refine ⟨?_, ?_, ?_⟩ <;>
  · funext i
    fin_cases i <;> simp [Spec.attitude, Spec.turnX, Spec.turnY, Spec.turnZ, Matrix.mul_apply, Fin.sum_univ_three] <;> ring

theorem attitude_norm (o : Fin 3 → ℝ) (k : Fin 3) : ∑ i, Spec.attitude o i k ^ 2 = 1 := by
  obtain ⟨h0, h1, h2⟩ := attitude_cols o
  have a := Real.sin_sq_add_cos_sq (o 0)
  have b := Real.sin_sq_add_cos_sq (o 1)
  have c := Real.sin_sq_add_cos_sq (o 2)
  rw [Fin.sum_univ_three]
  fin_cases k
  · have e := fun i => congrFun h0 i
    have e0 := e 0; have e1 := e 1; have e2 := e 2
    simp only [Matrix.cons_val_zero, Matrix.cons_val_one, Matrix.cons_val] at e0 e1 e2
    simp only [Fin.zero_eta, e0, e1, e2]
    nlinarith [a, b]
  · have e := fun i => congrFun h1 i
    have e0 := e 0; have e1 := e 1; have e2 := e 2
    simp only [Matrix.cons_val_zero, Matrix.cons_val_one, Matrix.cons_val] at e0 e1 e2
    simp only [Fin.mk_one, e0, e1, e2]
    have : (Real.cos (o 0) * Real.sin (o 1) * Real.sin (o 2) - Real.sin (o 0) * Real.cos (o 2)) ^ 2 +
      (Real.sin (o 0) * Real.sin (o 1) * Real.sin (o 2) + Real.cos (o 0) * Real.cos (o 2)) ^ 2 + (Real.cos (o 1) * Real.sin (o 2)) ^ 2 =
      (Real.sin (o 0) ^ 2 + Real.cos (o 0) ^ 2) * (Real.sin (o 1) ^ 2 * Real.sin (o 2) ^ 2 + Real.cos (o 2) ^ 2) +
        Real.cos (o 1) ^ 2 * Real.sin (o 2) ^ 2 := by ring
    rw [this, a]
    linear_combination Real.sin (o 2) ^ 2 * b + c
  · have e := fun i => congrFun h2 i
    have e0 := e 0; have e1 := e 1; have e2 := e 2
    simp only [Matrix.cons_val_zero, Matrix.cons_val_one, Matrix.cons_val] at e0 e1 e2
    simp only [Fin.reduceFinMk, e0, e1, e2]
    have : (Real.cos (o 0) * Real.sin (o 1) * Real.cos (o 2) + Real.sin (o 0) * Real.sin (o 2)) ^ 2 +
      (Real.sin (o 0) * Real.sin (o 1) * Real.cos (o 2) - Real.cos (o 0) * Real.sin (o 2)) ^ 2 + (Real.cos (o 1) * Real.cos (o 2)) ^ 2 =
      (Real.sin (o 0) ^ 2 + Real.cos (o 0) ^ 2) * (Real.sin (o 1) ^ 2 * Real.cos (o 2) ^ 2 + Real.sin (o 2) ^ 2) +
        Real.cos (o 1) ^ 2 * Real.cos (o 2) ^ 2 := by ring
    rw [this, a]
    linear_combination Real.cos (o 2) ^ 2 * b + c

theorem coordinateSystem_spec {delta : Fin 3 → ℝ} (hd : ∀ i, delta i ≠ 0) (loc ori : Fin 3 → ℝ) :
    Spec.ShowsAxes delta loc ori (coordinateSystem loc ori delta) := by
  have key := fun k : Fin 3 => arrowVector_spec (v := fun i => Spec.attitude ori i k) hd (attitude_norm ori k)
  choose w h1 h2 h3 using key
  refine ⟨w, ?_, fun k => ⟨h2 k, h3 k⟩⟩
  obtain ⟨c0, c1, c2⟩ := attitude_cols ori
  have e0 := h1 0; have e1 := h1 1; have e2 := h1 2
  rw [c0] at e0
  rw [c1] at e1
  rw [c2] at e2
  unfold coordinateSystem
  simp only [e0, e1, e2, Option.map_some]

/-- What a successful call leaves: the figure, with the spreads. -/
theorem showTopology_ok {n0 : Fin N} {b : Fin B} {f : Figure} (h : showTopology s n0 b = .ok f) :
    ∃ inState los utLoc bsLoc utOri bsOri delta, s.inState = some inState ∧ s.los = some los ∧ s.utLoc = some utLoc ∧ s.bsLoc = some bsLoc ∧
      s.utOri = some utOri ∧ s.bsOri = some bsOri ∧
      (∀ i, Spec.IsSpread (delta i)
        ((List.finRange U).map (fun u => (scaledLoc (utLoc b)).1 u i) ++ (List.finRange N).map fun n => (scaledLoc (bsLoc b)).1 n i)) ∧
      f = { points := (List.finRange N).map (fun n => ("BS", (scaledLoc (bsLoc b)).1 n)) ++
              ((List.finRange U).filter fun u => los b n0 u).map (fun u => ("UT LoS", (scaledLoc (utLoc b)).1 u)) ++
              ((List.finRange U).filter fun u => !inState b u && !los b n0 u).map fun u => ("UT NLoS", (scaledLoc (utLoc b)).1 u)
            bsNodes := (List.finRange N).map fun n => (n.val, (scaledLoc (bsLoc b)).1 n,
              coordinateSystem ((scaledLoc (bsLoc b)).1 n) (bsOri b n).coords delta)
            utNodes := (List.finRange U).map fun u => (u.val, (scaledLoc (utLoc b)).1 u,
              coordinateSystem ((scaledLoc (utLoc b)).1 u) (utOri b u).coords delta)
            xLabel := "x " ++ (scaledLoc (utLoc b)).2
            yLabel := "y " ++ (scaledLoc (utLoc b)).2
            zLabel := "z " ++ (scaledLoc (bsLoc b)).2 } := by
  unfold showTopology at h
  split at h
  · rename_i inState los utLoc bsLoc utOri bsOri i1 i2 i3 i4 i5 i6
    simp only [] at h
    cases hx : spread ((List.finRange U).map (fun u => (scaledLoc (utLoc b)).1 u 0) ++ (List.finRange N).map fun n => (scaledLoc (bsLoc b)).1 n 0) with
    | error e => rw [hx] at h; cases h
    | ok dx =>
      cases hy : spread ((List.finRange U).map (fun u => (scaledLoc (utLoc b)).1 u 1) ++ (List.finRange N).map fun n => (scaledLoc (bsLoc b)).1 n 1) with
      | error e => rw [hx, hy] at h; cases h
      | ok dy =>
        cases hz : spread ((List.finRange U).map (fun u => (scaledLoc (utLoc b)).1 u 2) ++ (List.finRange N).map fun n => (scaledLoc (bsLoc b)).1 n 2) with
        | error e => rw [hx, hy, hz] at h; cases h
        | ok dz =>
          rw [hx, hy, hz] at h
          refine ⟨inState, los, utLoc, bsLoc, utOri, bsOri, ![dx, dy, dz], i1, i2, i3, i4, i5, i6, ?_, ?_⟩
          · intro i
            fin_cases i
            · exact spread_spec hx
            · exact spread_spec hy
            · exact spread_spec hz
          · exact (Except.ok.inj h).symm
  · cases h

theorem finRange_map_get {α : Type} {n : ℕ} (g : Fin n → α) (k : Fin n) : ((List.finRange n).map g)[k.val]? = some (g k) := by simp

theorem C159_axes : C159_statement := by
  intro B N U s n0 b f h utOri bsOri hu hb
  obtain ⟨inState, los, utLoc, bsLoc, utOri', bsOri', delta, -, -, -, -, i5, i6, hd, rfl⟩ := showTopology_ok h
  obtain rfl : utOri' = utOri := Option.some.inj (i5.symm.trans hu)
  obtain rfl : bsOri' = bsOri := Option.some.inj (i6.symm.trans hb)
  refine ⟨delta, fun i => ?_, fun hne => ⟨fun n => ?_, fun u => ?_⟩⟩
  · simpa [Figure.places, Function.comp_def] using hd i
  · exact ⟨_, _, finRange_map_get _ _, coordinateSystem_spec hne _ _⟩
  · exact ⟨_, _, finRange_map_get _ _, coordinateSystem_spec hne _ _⟩

/-! ### C160 -/

/-- A unit with the factor from metres to it. -/
def Spec.IsUnit (factor : ℝ) (unit : String) : Prop := (factor = 1 ∧ unit = "[m]") ∨ (factor = 1 / 1000 ∧ unit = "[km]")

/-- Everything is drawn at its place, in the unit that is written at all three axes. -/
def Spec.ToScale (f : Figure) (ut : Fin U → Vec3) (bs : Fin N → Vec3) : Prop :=
  ∃ factor unit, Spec.IsUnit factor unit ∧ f.xLabel = "x " ++ unit ∧ f.yLabel = "y " ++ unit ∧ f.zLabel = "z " ++ unit ∧
    (f.bsNodes.map (·.2.1) = (List.finRange N).map fun n i => factor * (bs n).coords i) ∧
    (f.utNodes.map (·.2.1) = (List.finRange U).map fun u i => factor * (ut u).coords i)

/-- C160: whenever a topology is shown it is shown to scale. -/
def C160_statement : Prop :=
  ∀ (B N U : ℕ) [NeZero B] (cls : ScenarioClass) (sa : ScenarioArgs) (c : Config) (log : List (TopoCall B N U)) (s : TopoState B N U),
    mkScenario cls sa = .ok c → TopoReach c log s → ∀ (n0 : Fin N) (b : Fin B) (f : Figure), showTopology s n0 b = .ok f →
    ∀ ut bs, s.utLoc = some ut → s.bsLoc = some bs → Spec.ToScale f (ut b) (bs b)

theorem scaledLoc_spec {n : ℕ} (loc : Fin n → Vec3) :
    ∃ factor, Spec.IsUnit factor (scaledLoc loc).2 ∧ (factor = 1 / 1000 ↔ ∃ k i, 10000 < (loc k).coords i) ∧
      ∀ k i, (scaledLoc loc).1 k i = factor * (loc k).coords i := by
  unfold scaledLoc
  split
  · rename_i h
    exact ⟨1 / 1000, .inr ⟨rfl, rfl⟩, by simp [h], fun k i => by simp only; ring⟩
  · rename_i h
    exact ⟨1, .inl ⟨rfl, rfl⟩, by simp only [h, iff_false]; norm_num, fun k i => by simp only; ring⟩

theorem isUnit_inj {f : ℝ} {u v : String} (h : Spec.IsUnit f u) (h' : Spec.IsUnit f v) : u = v := by
  rcases h with ⟨h1, rfl⟩ | ⟨h1, rfl⟩ <;> rcases h' with ⟨h2, rfl⟩ | ⟨h2, rfl⟩ <;> first | rfl | (exfalso; rw [h1] at h2; norm_num at h2)

theorem isUnit_factor {f g : ℝ} {u : String} (h : Spec.IsUnit f u) (h' : Spec.IsUnit g u) : f = g := by
  rcases h with ⟨h1, rfl⟩ | ⟨h1, rfl⟩ <;> rcases h' with ⟨h2, h3⟩ | ⟨h2, h3⟩ <;> first | exact h1.trans h2.symm | (exfalso; revert h3; decide)

/-- C160 exactly where UTs and BSs get the same unit: some UT and some BS, or none of them, has a coordinate above 10 km. Missing: other topologies,
for which it is false. In any case every UT is drawn at its place in the unit written at the axes x and y, and every BS at its place in the unit written at the axis z. -/
theorem C160_scale_partial {n0 : Fin N} {b : Fin B} {f : Figure} (h : showTopology s n0 b = .ok f) {ut : PerUt B U Vec3} {bs : PerBs B N Vec3}
    (hu : s.utLoc = some ut) (hb : s.bsLoc = some bs) :
    (((∃ u i, 10000 < (ut b u).coords i) ↔ ∃ n i, 10000 < (bs b n).coords i) ↔ Spec.ToScale f (ut b) (bs b)) ∧
    (∃ factor unit, Spec.IsUnit factor unit ∧ f.xLabel = "x " ++ unit ∧ f.yLabel = "y " ++ unit ∧
      f.utNodes.map (·.2.1) = (List.finRange U).map fun u i => factor * (ut b u).coords i) ∧
    (∃ factor unit, Spec.IsUnit factor unit ∧ f.zLabel = "z " ++ unit ∧
      f.bsNodes.map (·.2.1) = (List.finRange N).map fun n i => factor * (bs b n).coords i) := by
  obtain ⟨inState, los, ut', bs', utOri, bsOri, delta, -, -, i3, i4, -, -, -, rfl⟩ := showTopology_ok h
  obtain rfl : ut' = ut := Option.some.inj (i3.symm.trans hu)
  obtain rfl : bs' = bs := Option.some.inj (i4.symm.trans hb)
  obtain ⟨fu, uu, ku, eu⟩ := scaledLoc_spec (ut' b)
  obtain ⟨fb, ub, kb, eb⟩ := scaledLoc_spec (bs' b)
  have hU : (List.finRange U).map (scaledLoc (ut' b)).1 = (List.finRange U).map fun u i => fu * (ut' b u).coords i :=
    List.map_congr_left fun u _ => funext fun i => eu u i
  have hB : (List.finRange N).map (scaledLoc (bs' b)).1 = (List.finRange N).map fun n i => fb * (bs' b n).coords i :=
    List.map_congr_left fun u _ => funext fun i => eb u i
  refine ⟨⟨fun hiff => ?_, fun hs => ?_⟩, ⟨fu, _, uu, rfl, rfl, ?_⟩, ⟨fb, _, ub, rfl, ?_⟩⟩
  · have hf : fu = fb := by
      rw [← ku, ← kb] at hiff
      rcases uu with ⟨h1, -⟩ | ⟨h1, -⟩ <;> rcases ub with ⟨h2, -⟩ | ⟨h2, -⟩
      · rw [h1, h2]
      · have := hiff.2 h2; rw [this, h2]
      · have := hiff.1 h1; rw [this, h1]
      · rw [h1, h2]
    subst hf
    refine ⟨fu, _, uu, rfl, rfl, by rw [isUnit_inj uu ub], ?_, ?_⟩
    · simpa [Function.comp_def] using hB
    · simpa [Function.comp_def] using hU
  · obtain ⟨factor, unit, -, hx, -, hz, -⟩ := hs
    have e1 : (scaledLoc (ut' b)).2 = unit := (String.append_right_inj _).1 hx
    have e2 : (scaledLoc (bs' b)).2 = unit := (String.append_right_inj _).1 hz
    rw [e1] at uu
    rw [e2] at ub
    rw [← ku, ← kb, isUnit_factor uu ub]
  · simpa [Function.comp_def] using hU
  · simpa [Function.comp_def] using hB

/-! ### C161 -/

/-- The group of a UT. -/
def Spec.groupOf (indoor los : Bool) : String := if indoor then "UT Indoor" else if los then "UT LoS" else "UT NLoS"

/-- The points drawn are the BSs and the UTs among `shown`, every UT in its group. -/
def Spec.ShowsGroups (f : Figure) (indoor los shown : Fin U → Bool) : Prop :=
  ∃ place : Fin U → Fin 3 → ℝ, f.utNodes.map (fun p => (p.1, p.2.1)) = (List.finRange U).map (fun u => (u.val, place u)) ∧
    f.points.Perm (f.bsNodes.map (fun p => ("BS", p.2.1)) ++
      ((List.finRange U).filter fun u => shown u).map fun u => (Spec.groupOf (indoor u) (los u), place u))

/-- C161: once a topology with one BS was accepted it can be shown, and every BS and every UT is shown as one point, the UT in the group given by its
indoor state and its LoS state. -/
def C161_statement : Prop :=
  ∀ (B N U : ℕ) [NeZero B] (cls : ScenarioClass) (sa : ScenarioArgs) (c : Config) (log : List (TopoCall B N U)) (s : TopoState B N U),
    mkScenario cls sa = .ok c → TopoReach c log s → (∃ e ∈ log, TopoCall.accepted e) → N = 1 → ∀ (n0 : Fin N) (b : Fin B),
    ∃ f indoor los, showTopology s n0 b = .ok f ∧ s.inState = some indoor ∧ s.los = some los ∧
      Spec.ShowsGroups f (indoor b) (los b n0) fun _ => true

section

variable [NeZero B] {cls : ScenarioClass} {sa : ScenarioArgs} {c : Config} {log : List (TopoCall B N U)}

theorem showTopology_defined (h : mkScenario cls sa = .ok c) (r : TopoReach c log s) (hacc : ∃ e ∈ log, TopoCall.accepted e) (hN : N = 1)
    (n0 : Fin N) (b : Fin B) : ∃ f, showTopology s n0 b = .ok f := by
  have hl := (C15_los_state h r).2 hN hacc
  obtain ⟨los, hl⟩ := Option.ne_none_iff_exists'.1 hl
  rcases required_present h r with rfl | ⟨q1, q2, q3, q4, -, q6⟩
  · cases hl
  obtain ⟨ut, q1⟩ := Option.isSome_iff_exists.1 q1
  obtain ⟨bs, q2⟩ := Option.isSome_iff_exists.1 q2
  obtain ⟨uo, q3⟩ := Option.isSome_iff_exists.1 q3
  obtain ⟨bo, q4⟩ := Option.isSome_iff_exists.1 q4
  obtain ⟨ind, q6⟩ := Option.isSome_iff_exists.1 q6
  have key : ∀ i, ∃ d, spread ((List.finRange U).map (fun u => (scaledLoc (ut b)).1 u i) ++
      (List.finRange N).map fun n => (scaledLoc (bs b)).1 n i) = .ok d := fun i => spread_ok (by
    intro hh
    rw [List.append_eq_nil_iff, List.map_eq_nil_iff, List.map_eq_nil_iff, List.finRange_eq_nil_iff, List.finRange_eq_nil_iff] at hh
    have := hh.2
    omega)
  obtain ⟨dx, hx⟩ := key 0
  obtain ⟨dy, hy⟩ := key 1
  obtain ⟨dz, hz⟩ := key 2
  unfold showTopology
  simp only [hl, q1, q2, q3, q4, q6, hx, hy, hz]
  exact ⟨_, rfl⟩

/-- C161 for the outdoor UTs: the UTs shown are the outdoor ones. Missing: indoor UTs, which are not drawn as points. -/
theorem C161_groups_partial (h : mkScenario cls sa = .ok c) (r : TopoReach c log s) (hacc : ∃ e ∈ log, TopoCall.accepted e) (hN : N = 1)
    (n0 : Fin N) (b : Fin B) :
    ∃ f indoor los, showTopology s n0 b = .ok f ∧ s.inState = some indoor ∧ s.los = some los ∧
      Spec.ShowsGroups f (indoor b) (los b n0) fun u => !indoor b u := by
  obtain ⟨f, hf⟩ := showTopology_defined h r hacc hN n0 b
  obtain ⟨indoor, los, ut, bs, uo, bo, delta, i1, i2, -, -, -, -, -, rfl⟩ := showTopology_ok hf
  refine ⟨_, indoor, los, hf, i1, i2, (scaledLoc (ut b)).1, by simp [Function.comp_def], ?_⟩
  obtain ⟨_, _, _, i, _, -, -, -, -, hi, -, hs⟩ := (C15_los_state h r).1 los i2
  obtain rfl : i = indoor := Option.some.inj (hi.symm.trans i1)
  have hin : ∀ u, i b u = true → los b n0 u = false := fun u => (hs b n0 u).1
  rw [List.append_assoc]
  refine List.Perm.append (by simp [Function.comp_def]) ?_
  have hL : ((List.finRange U).filter fun u => los b n0 u).map (fun u => ("UT LoS", (scaledLoc (ut b)).1 u)) =
      (((List.finRange U).filter fun u => !i b u).filter fun u => los b n0 u).map
        fun u => (Spec.groupOf (i b u) (los b n0 u), (scaledLoc (ut b)).1 u) := by
    rw [List.filter_filter]
    have : ((List.finRange U).filter fun u => los b n0 u && !i b u) = (List.finRange U).filter fun u => los b n0 u :=
      List.filter_congr fun u _ => by
        have := hin u
        cases hu : i b u <;> simp_all
    rw [this]
    refine List.map_congr_left fun u hu => ?_
    have h1 : los b n0 u = true := by simpa using hu
    have h2 : i b u = false := by
      by_contra hh
      rw [Bool.not_eq_false] at hh
      rw [hin u hh] at h1; cases h1
    simp [Spec.groupOf, h1, h2]
  have hNL : ((List.finRange U).filter fun u => !i b u && !los b n0 u).map (fun u => ("UT NLoS", (scaledLoc (ut b)).1 u)) =
      (((List.finRange U).filter fun u => !i b u).filter fun u => !los b n0 u).map
        fun u => (Spec.groupOf (i b u) (los b n0 u), (scaledLoc (ut b)).1 u) := by
    rw [List.filter_filter]
    rw [List.filter_congr (q := fun u => !los b n0 u && !i b u) fun u _ => by rw [Bool.and_comm]]
    refine List.map_congr_left fun u hu => ?_
    have h1 : los b n0 u = false ∧ i b u = false := by simpa using hu
    simp [Spec.groupOf, h1.1, h1.2]
  rw [hL, hNL, ← List.map_append]
  exact (List.filter_append_perm (fun u => los b n0 u) _).map _

end

/-- A topology to show: two UTs, the first of them indoor, and a BS. -/
noncomputable def exShow : TopoArgs 1 1 2 :=
  { exTopo 1 1 2 with utLoc := some fun _ u => if u = 0 then ⟨100, 200, 1.5⟩ else ⟨0, 0, 10⟩, inState := some fun _ u => decide (u = 0) }

theorem exShow_reach {cls : ScenarioClass} {sa : ScenarioArgs} {c : Config} (h : mkScenario cls sa = .ok c) :
    ∃ (log : List (TopoCall 1 1 2)) (s : TopoState 1 1 2), TopoReach c log s ∧ (∃ e ∈ log, TopoCall.accepted e) ∧
      s.utLoc = exShow.utLoc ∧ s.bsLoc = exShow.bsLoc ∧ s.inState = exShow.inState ∧ s.utOri = exShow.utOri ∧ s.bsOri = exShow.bsOri := by
  have e := complete_call h exShow (exDraws 1 1 2) (by constructor <;> norm_num [atmosphereOf, exTopo, exShow]) rfl rfl
  have r := TopoReach.call exShow (exDraws 1 1 2) (TopoReach.init (c := c))
  have hacc : TopoCall.accepted ((exShow, exDraws 1 1 2, (setTopology c (TopoState.init c) exShow (exDraws 1 1 2)).2) : TopoCall 1 1 2) := by
    rw [TopoCall.accepted, e]; simp
  have p := (C10_arguments_persist_partial h r).1
  refine ⟨_, _, r, ⟨_, List.mem_cons_self, hacc⟩, ?_, ?_, ?_, ?_, ?_⟩
  · rw [p.utLoc, latest_cons_counted hacc]; rfl
  · rw [p.bsLoc, latest_cons_counted hacc]; rfl
  · rw [p.inState, latest_cons_counted hacc]; rfl
  · rw [p.utOri, latest_cons_counted hacc]; rfl
  · rw [p.bsOri, latest_cons_counted hacc]; rfl

/-- C161 fails: an indoor UT is not drawn as a point. -/
theorem C161_violated : ¬ C161_statement := by
  intro H
  obtain ⟨c, hc⟩ := exConfig
  obtain ⟨log, s, r, hacc, -, -, hi, -⟩ := exShow_reach hc
  obtain ⟨f, i1, l1, hf, j1, j2, p1, a1, a2⟩ := H 1 1 2 _ _ c log s hc r hacc rfl 0 0
  obtain ⟨f', i2, l2, hf', k1, k2, p2, b1, b2⟩ := C161_groups_partial hc r hacc rfl 0 0
  obtain rfl : f = f' := Except.ok.inj (hf.symm.trans hf')
  have hlen := a2.length_eq.symm.trans b2.length_eq
  rw [hi] at k1
  obtain rfl := Option.some.inj k1
  simp [List.finRange_succ] at hlen

/-- C160 fails: UTs in metres and a BS in kilometres. -/
theorem C160_violated : ¬ C160_statement := by
  intro H
  obtain ⟨c, hc⟩ := exConfig
  obtain ⟨log, s, r, hacc, hu, hb, -⟩ := exShow_reach hc
  obtain ⟨f, hf⟩ := showTopology_defined hc r hacc rfl 0 0
  obtain ⟨factor, unit, hun, hx, -, hz, -⟩ := H 1 1 2 _ _ c log s hc r 0 0 f hf _ _ hu hb
  obtain ⟨_, _, ut, bs, _, _, _, -, -, i3, i4, -, -, -, rfl⟩ := showTopology_ok hf
  obtain rfl := Option.some.inj (i3.symm.trans hu)
  obtain rfl := Option.some.inj (i4.symm.trans hb)
  have e1 : ¬ ∃ (k : Fin 2) (i : Fin 3), 10000 < ((if k = 0 then ⟨100, 200, 1.5⟩ else ⟨0, 0, 10⟩ : Vec3)).coords i := by
    rintro ⟨k, i, hh⟩
    revert hh
    fin_cases k <;> fin_cases i <;> norm_num [Vec3.coords]
  have e2 : ∃ (k : Fin 1) (i : Fin 3), 10000 < ((fun _ => ⟨0, 0, 600000⟩ : Fin 1 → Vec3) k).coords i := ⟨0, 2, by
    show (10000 : ℝ) < 600000
    norm_num⟩
  simp only [scaledLoc] at hx hz
  rw [if_neg e1] at hx
  rw [if_pos e2] at hz
  rcases hun with ⟨-, rfl⟩ | ⟨-, rfl⟩
  · revert hz; decide
  · revert hx; decide

/-- The hypotheses of the theorem on C159 are met by that topology: it is shown, and no spread is zero. -/
example {cls : ScenarioClass} {sa : ScenarioArgs} {c : Config} (h : mkScenario cls sa = .ok c) : ∃ (log : List (TopoCall 1 1 2)) (s : TopoState 1 1 2)
    (f : Figure), TopoReach c log s ∧ showTopology s 0 0 = .ok f ∧
    ∀ delta : Fin 3 → ℝ, (∀ i, Spec.IsSpread (delta i) (f.places.map (· i))) → ∀ i, delta i ≠ 0 := by
  obtain ⟨log, s, r, hacc, hu, hb, -⟩ := exShow_reach h
  obtain ⟨f, hf⟩ := showTopology_defined h r hacc rfl 0 0
  refine ⟨log, s, f, r, hf, fun delta hd i hz => ?_⟩
  obtain ⟨_, _, ut, bs, _, _, _, -, -, i3, i4, -, -, -, rfl⟩ := showTopology_ok hf
  obtain rfl := Option.some.inj (i3.symm.trans hu)
  obtain rfl := Option.some.inj (i4.symm.trans hb)
  obtain ⟨hi, -, lo, -, hall, hdi⟩ := hd i
  have key : ∀ x ∈ Figure.places _, ∀ y ∈ Figure.places _, x i = y i := fun x hx y hy => by
    have h1 := hall _ (List.mem_map_of_mem hx)
    have h2 := hall _ (List.mem_map_of_mem hy)
    linarith
  obtain ⟨fu, uu, -, eu⟩ := scaledLoc_spec (fun u : Fin 2 => (if u = 0 then ⟨100, 200, 1.5⟩ else ⟨0, 0, 10⟩ : Vec3))
  have h0 := key ((scaledLoc (fun u : Fin 2 => (if u = 0 then ⟨100, 200, 1.5⟩ else ⟨0, 0, 10⟩ : Vec3))).1 0)
    (by simp [Figure.places]) ((scaledLoc (fun u : Fin 2 => (if u = 0 then ⟨100, 200, 1.5⟩ else ⟨0, 0, 10⟩ : Vec3))).1 1) (by simp [Figure.places])
  rw [eu, eu] at h0
  have hne : fu ≠ 0 := by rcases uu with ⟨rfl, -⟩ | ⟨rfl, -⟩ <;> norm_num
  have h3 := mul_left_cancel₀ hne h0
  revert h3
  fin_cases i <;> norm_num [Vec3.coords]

/-- The hypotheses of the theorems on C160 and C161 are met by a topology with an indoor UT, an outdoor UT at x = 20 km and a BS at 600 km. -/
example {cls : ScenarioClass} {sa : ScenarioArgs} {c : Config} (h : mkScenario cls sa = .ok c) : ∃ (log : List (TopoCall 1 1 2)) (s : TopoState 1 1 2)
    (ut : PerUt 1 2 Vec3) (bs : PerBs 1 1 Vec3) (f : Figure), TopoReach c log s ∧ (∃ e ∈ log, TopoCall.accepted e) ∧ showTopology s 0 0 = .ok f ∧
    s.utLoc = some ut ∧ s.bsLoc = some bs ∧ (∃ u i, 10000 < (ut 0 u).coords i) ∧ (∃ n i, 10000 < (bs 0 n).coords i) ∧
    ∃ indoor, s.inState = some indoor ∧ indoor 0 0 = true ∧ indoor 0 1 = false := by
  let a : TopoArgs 1 1 2 := { exShow with utLoc := some fun _ u => if u = 0 then ⟨100, 200, 1.5⟩ else ⟨20000, 0, 10⟩ }
  have e := complete_call h a (exDraws 1 1 2) (by constructor <;> norm_num [atmosphereOf, exTopo, exShow, a]) rfl rfl
  have r := TopoReach.call a (exDraws 1 1 2) (TopoReach.init (c := c))
  have hacc : TopoCall.accepted ((a, exDraws 1 1 2, (setTopology c (TopoState.init c) a (exDraws 1 1 2)).2) : TopoCall 1 1 2) := by
    rw [TopoCall.accepted, e]; simp
  have p := (C10_arguments_persist_partial h r).1
  obtain ⟨f, hf⟩ := showTopology_defined h r ⟨_, List.mem_cons_self, hacc⟩ rfl 0 0
  refine ⟨_, _, fun _ u => if u = 0 then ⟨100, 200, 1.5⟩ else ⟨20000, 0, 10⟩, fun _ _ => ⟨0, 0, 600000⟩, f, r, ⟨_, List.mem_cons_self, hacc⟩,
    hf, ?_, ?_, ⟨1, 0, ?_⟩, ⟨0, 2, ?_⟩, fun _ u => decide (u = 0), ?_, ?_, ?_⟩
  · rw [p.utLoc, latest_cons_counted hacc]; rfl
  · rw [p.bsLoc, latest_cons_counted hacc]; rfl
  · show (10000 : ℝ) < 20000
    norm_num
  · show (10000 : ℝ) < 600000
    norm_num
  · rw [p.inState, latest_cons_counted hacc]; rfl
  · rfl
  · rfl

end OpenNTN
