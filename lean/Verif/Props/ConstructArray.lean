import Verif.Spec.ConstructArray
import Verif.Props.Construct
import Verif.Props.Arrays
import Verif.Props.Tdl
import Verif.Props.TopoGen

/-
Properties C194-C196: construction of antenna arrays and TDL models and call of the topology generator by the user.
-/
namespace OpenNTN

open Spec

theorem call_rule {sig : Signature} {pos : List PyArg} {kw e : NamedArgs} (hn : (sig.map Prod.fst).Nodup) (h : pyCall sig pos kw = .ok e) :
    ∀ (i : ℕ) p, sig[i]? = some p → Rule pos[i]? kw p (e.value p.1) := by
  have he : fillParams sig pos kw = .ok e := by
    unfold pyCall at h
    split_ifs at h
    exact h
  have hs := fill_shape hn he
  rw [hs] at he
  exact ((fill_iff e.value sig pos kw).1 he).2

/-- In a successful call every parameter has the value it takes. -/
theorem takes_iff {sig : Signature} {params : List String} {dflt : String → PyArg → Prop} {pos : List PyArg} {kw e : NamedArgs}
    (hp : params = sig.map Prod.fst) (hn : params.Nodup) (hd : ∀ p ∈ sig, ∀ v, dflt p.1 v ↔ p.2 = some v) (hk : (kw.map Prod.fst).Nodup)
    (h : pyCall sig pos kw = .ok e) {n : String} (hmem : n ∈ params) (v : PyArg) : Takes params dflt pos kw n v ↔ v = e.value n := by
  obtain ⟨i, hi, hi'⟩ := List.mem_iff_getElem.1 hmem
  have hi'' : params[i]? = some n := by rw [List.getElem?_eq_getElem hi, hi']
  have hex : ∃ p, sig[i]? = some p ∧ p.1 = n := by
    rw [hp, List.getElem?_map] at hi''
    simpa [Option.map_eq_some_iff] using hi''
  obtain ⟨p, hs, rfl⟩ := hex
  have hr := call_rule (hp ▸ hn) h i p hs
  have hg : ∀ w, Given params pos kw p.1 w ↔ pos[i]? = some w ∨ kw.lookup p.1 = some w := by
    intro w
    rw [lookup_mem hk]
    constructor
    · rintro (⟨j, hj, hw⟩ | hw)
      · have : i = j := (List.getElem?_inj hi hn).1 (hi''.trans hj.symm)
        subst this
        exact Or.inl hw
      · exact Or.inr hw
    · rintro (hw | hw)
      · exact Or.inl ⟨i, hi'', hw⟩
      · exact Or.inr hw
  unfold Takes
  simp only [hg]
  rw [hd p (List.mem_of_getElem? hs)]
  unfold Rule at hr
  rcases hr with ⟨a, b⟩ | ⟨a, b⟩ | ⟨a, b, c⟩
  · simp [a, b, eq_comm]
  · simp [a, b, eq_comm]
  · simp [a, b, c, eq_comm]

theorem toSize_ok {v : PyArg} {n : ℕ} (h : v.toSize = .ok n) : IsNum v n := by
  unfold IsNum
  rcases v with y | s | b | a | _
  · simp only [PyArg.toSize] at h
    split_ifs at h with hy
    cases h
    left; rw [← hy]
  · cases h
  · cases b <;> simp [PyArg.toSize] at h <;> simp [← h]
  · cases h
  · cases h

theorem toSize_nat (n : ℕ) : (PyArg.num n).toSize = .ok n := by simp [PyArg.toSize]
theorem toSize_one : (PyArg.num 1).toSize = .ok 1 := by simpa using toSize_nat 1
theorem toSize_two : (PyArg.num 2).toSize = .ok 2 := by simpa using toSize_nat 2
theorem toSize_four : (PyArg.num 4).toSize = .ok 4 := by simpa using toSize_nat 4
theorem toSize_twenty : (PyArg.num 20).toSize = .ok 20 := by simpa using toSize_nat 20
theorem toSize_hundred : (PyArg.num 100).toSize = .ok 100 := by simpa using toSize_nat 100

theorem toOption_ok {v : PyArg} {x : Option ℝ} (h : v.toOption = .ok x) : IsOpt v x := by
  unfold IsOpt
  have key : ∀ w : PyArg, (match w.toNum with | .error e => .error e | .ok y => .ok (some y) : Except Err (Option ℝ)) = .ok x → ∃ y, IsNum w y ∧ x = some y := by
    intro w hw
    cases hn : w.toNum with
    | error e => rw [hn] at hw; cases hw
    | ok y => rw [hn] at hw; cases hw; exact ⟨y, (toNum_iff _ _).1 hn, rfl⟩
  rcases v with y | s | b | a | _
  · exact Or.inr (key _ h)
  · exact Or.inr (key _ h)
  · exact Or.inr (key _ h)
  · exact Or.inr (key _ h)
  · cases h; exact Or.inl ⟨rfl, rfl⟩

theorem isOpt_spacing {v : PyArg} {x : Option ℝ} (h : IsOpt v x) (d : ℝ) : IsSpacing v d (x.getD d) := by
  rcases h with ⟨rfl, rfl⟩ | ⟨y, h, rfl⟩
  · exact Or.inl ⟨rfl, rfl⟩
  · exact Or.inr h

theorem toText_eq {v : PyArg} {s : String} (h : v.toText = s) (hs : s ≠ "") : v = .str s := by
  rcases v with y | t | b | a | _ <;> simp_all [PyArg.toText]

/-- What a successful construction of an array returns. -/
theorem arrayInit_ok {e : NamedArgs} {o : ArrayObject} (h : arrayInit e = .ok o) :
    ∃ a : ArrayArgs, IsNum (e.value "num_rows_per_panel") a.numRowsPerPanel ∧ IsNum (e.value "num_cols_per_panel") a.numColsPerPanel ∧
      IsNum (e.value "carrier_frequency") a.carrierFrequency ∧ IsNum (e.value "num_rows") a.numRows ∧ IsNum (e.value "num_cols") a.numCols ∧
      IsOpt (e.value "panel_vertical_spacing") a.panelVertical ∧ IsOpt (e.value "panel_horizontal_spacing") a.panelHorizontal ∧
      IsOpt (e.value "element_vertical_spacing") a.elementVertical ∧ IsOpt (e.value "element_horizontal_spacing") a.elementHorizontal ∧
      (e.value "polarization").toText = a.polarization ∧ (e.value "polarization_type").toText = a.polarizationType ∧
      (e.value "antenna_pattern").toText = a.pattern ∧ ∃ arr, mkArray a = .ok arr ∧
      o = ⟨a.numRows, a.numCols, a.numRowsPerPanel, a.numColsPerPanel, a.polarization, a.polarizationType, a.panelV, a.panelH, a.elementV, a.elementH,
        speedOfLight / a.carrierFrequency, arr, e.value "precision"⟩ := by
  unfold arrayInit at h
  cases h1 : (e.value "num_rows_per_panel").toSize with
  | error x => rw [h1] at h; cases h
  | ok r =>
  cases h2 : (e.value "num_cols_per_panel").toSize with
  | error x => rw [h1, h2] at h; cases h
  | ok c =>
  cases h3 : (e.value "carrier_frequency").toNum with
  | error x => rw [h1, h2, h3] at h; cases h
  | ok fc =>
  cases h4 : (e.value "num_rows").toSize with
  | error x => rw [h1, h2, h3, h4] at h; cases h
  | ok nr =>
  cases h5 : (e.value "num_cols").toSize with
  | error x => rw [h1, h2, h3, h4, h5] at h; cases h
  | ok nc =>
  cases h6 : (e.value "panel_vertical_spacing").toOption with
  | error x => rw [h1, h2, h3, h4, h5, h6] at h; cases h
  | ok pv =>
  cases h7 : (e.value "panel_horizontal_spacing").toOption with
  | error x => rw [h1, h2, h3, h4, h5, h6, h7] at h; cases h
  | ok ph =>
  cases h8 : (e.value "element_vertical_spacing").toOption with
  | error x => rw [h1, h2, h3, h4, h5, h6, h7, h8] at h; cases h
  | ok ev =>
  cases h9 : (e.value "element_horizontal_spacing").toOption with
  | error x => rw [h1, h2, h3, h4, h5, h6, h7, h8, h9] at h; cases h
  | ok eh =>
  rw [h1, h2, h3, h4, h5, h6, h7, h8, h9] at h
  simp only [bind, Except.bind] at h
  cases ha : mkArray ⟨r, c, (e.value "polarization").toText, (e.value "polarization_type").toText, (e.value "antenna_pattern").toText, fc, nr, nc, pv, ph,
      ev, eh⟩ with
  | error x => rw [ha] at h; cases h
  | ok arr =>
  rw [ha] at h
  cases h
  exact ⟨_, toSize_ok h1, toSize_ok h2, (toNum_iff _ _).1 h3, toSize_ok h4, toSize_ok h5, toOption_ok h6, toOption_ok h7, toOption_ok h8, toOption_ok h9,
    rfl, rfl, rfl, arr, ha, rfl⟩

theorem arrayParameters_eq : arrayParameters = arraySignature.map Prod.fst := rfl

theorem arrayDefault_iff : ∀ p ∈ arraySignature, ∀ v, ArrayDefault p.1 v ↔ p.2 = some v := by
  intro p hp v
  simp only [arraySignature, List.mem_cons, List.not_mem_nil, or_false] at hp
  rcases hp with rfl | rfl | rfl | rfl | rfl | rfl | rfl | rfl | rfl | rfl | rfl | rfl | rfl <;> simp [ArrayDefault, eq_comm]

theorem mkArray_types {a : ArrayArgs} {arr : PanelArray} (h : mkArray a = .ok arr) :
    a.polarization ≠ "" ∧ a.polarizationType ≠ "" ∧ a.pattern ≠ "" ∧ IsPattern (.str a.pattern) arr.pol1.pattern ∧
      ∀ e ∈ arr.pol2, IsPattern (.str a.pattern) e.pattern := by
  obtain ⟨h1, -⟩ := mkArray_ok h
  unfold mkArray at h
  split_ifs at h with a1 a2 a3 a4 a5 a6 a7 a8
  all_goals first
    | (cases h; done)
    | skip
  all_goals
    cases hp : patternOf a.pattern with
    | error x => rw [hp] at h; cases h
    | ok p =>
    have hne : a.pattern ≠ "" := by
      intro he; rw [he] at hp; simp [patternOf] at hp
    have ht : a.polarizationType ≠ "" := by
      intro he; simp [he] at *
    have hq : a.polarization ≠ "" := by
      intro he; simp [he] at *
    rw [hp] at h
    simp only [Except.map] at h
    have hpat : IsPattern (.str a.pattern) p := by
      unfold patternOf at hp
      split_ifs at hp with b1 b2 b3 b4 <;> cases hp <;> simp_all [IsPattern]
    first
      | (cases h; done)
      | (cases h; exact ⟨hq, ht, hne, hpat, by simp [hpat]⟩)

/-- C194. Whatever mixture of positional and keyword arguments a `PanelArray` is made with: every argument arrives at the attribute of the array that
belongs to its name, those not given have their documented default there, and the elements lie and radiate as the attributes say. -/
theorem C194_panel_array {pos : List PyArg} {kw : NamedArgs} (hk : (kw.map Prod.fst).Nodup) {o : ArrayObject} (h : arrayCall pos kw = .ok o) :
    (∀ n ∈ arrayParameters, ∃ v, Takes arrayParameters ArrayDefault pos kw n v ∧
      ∀ w, Takes arrayParameters ArrayDefault pos kw n w → w = v ∧ ArrayHolds o n w) ∧
    ∃ s fc, Takes arrayParameters ArrayDefault pos kw "antenna_pattern" (.str s) ∧ o.lambda0 = 299792458 / fc ∧
      mkArray ⟨o.numRowsPerPanel, o.numColsPerPanel, o.polarization, o.polarizationType, s, fc, o.numRows, o.numCols, some o.panelVertical,
        some o.panelHorizontal, some o.elementVertical, some o.elementHorizontal⟩ = .ok o.array := by
  unfold arrayCall at h
  cases hp : pyCall arraySignature pos kw with
  | error x => rw [hp] at h; cases h
  | ok e =>
  rw [hp] at h
  obtain ⟨a, h1, h2, h3, h4, h5, h6, h7, h8, h9, t1, t2, t3, arr, ha, rfl⟩ := arrayInit_ok h
  have ht := fun {n} (hn : n ∈ arrayParameters) v => takes_iff arrayParameters_eq (by decide +kernel) arrayDefault_iff hk hp hn v
  obtain ⟨n1, n2, n3, p1, p2⟩ := mkArray_types ha
  refine ⟨fun n hn => ⟨e.value n, (ht hn _).2 rfl, fun w hw => ⟨(ht hn _).1 hw, ?_⟩⟩, a.pattern, a.carrierFrequency, ?_, rfl, ?_⟩
  · rw [(ht hn _).1 hw]
    refine ⟨?_, ?_, ?_, ?_, ?_, ?_, ?_, ?_, ?_, ?_, ?_, ?_, ?_⟩ <;> rintro rfl
    · exact h1
    · exact h2
    · exact toText_eq t1 n1
    · exact toText_eq t2 n2
    · rw [toText_eq t3 n3]; exact ⟨p1, p2⟩
    · exact ⟨_, h3, rfl⟩
    · exact h4
    · exact h5
    · have := isOpt_spacing h6 ((a.numRowsPerPanel - 1) * a.elementV + 1 / 2)
      unfold ArrayArgs.panelV
      norm_num at this ⊢
      exact this
    · have := isOpt_spacing h7 ((a.numColsPerPanel - 1) * a.elementH + 1 / 2)
      unfold ArrayArgs.panelH
      norm_num at this ⊢
      exact this
    · have := isOpt_spacing h8 (1 / 2)
      unfold ArrayArgs.elementV
      norm_num at this ⊢
      exact this
    · have := isOpt_spacing h9 (1 / 2)
      unfold ArrayArgs.elementH
      norm_num at this ⊢
      exact this
    · rfl
  · exact (ht (by decide) _).2 (toText_eq t3 n3).symm
  · rw [← ha]
    rfl

/-- Sizes by position, one spacing by keyword. -/
example : ∃ o, arrayCall [.num 2, .num 4, .str "dual", .str "cross", .str "38.901", .num 2e9]
    [("num_cols", .num 2), ("element_vertical_spacing", .num 1), ("precision", .str "double")] = .ok o := by
  obtain ⟨arr, ha⟩ := (C111_constructor ⟨2, 4, "dual", "cross", "38.901", 2e9, 1, 2, none, none, some 1, none⟩).1.2
    ⟨by simp [DocumentedArray], by simp [PanelsApart], by simp [PanelsApart], by norm_num, by norm_num⟩
  unfold arrayCall arrayInit
  simp [pyCall, fillParams, arraySignature, List.lookup, NamedArgs.value, toSize_one, toSize_two, toSize_four, PyArg.toNum, PyArg.toOption, PyArg.toText,
    bind, Except.bind, ha]

theorem isNum_num {x y : ℝ} (h : IsNum (.num x) y) : y = x := by
  rcases h with h | ⟨h, -⟩ | ⟨h, -⟩ <;> cases h
  rfl

theorem isSpacing_none {x y : ℝ} (h : IsSpacing .none x y) : y = x := by
  rcases h with ⟨-, h⟩ | h | ⟨h, -⟩ | ⟨h, -⟩
  · exact h
  all_goals cases h

/-- What an array made by keyword holds. -/
theorem array_given {kw : NamedArgs} (hk : (kw.map Prod.fst).Nodup) {o : ArrayObject} (h : arrayCall [] kw = .ok o) {n : String} {v : PyArg}
    (hn : n ∈ arrayParameters) (hm : (n, v) ∈ kw) : ArrayHolds o n v := by
  obtain ⟨w, -, hw⟩ := (C194_panel_array hk h).1 n hn
  exact (hw v (Or.inl (Or.inr hm))).2

/-- What an array made by keyword holds for a parameter that is not given. -/
theorem array_open {kw : NamedArgs} (hk : (kw.map Prod.fst).Nodup) {o : ArrayObject} (h : arrayCall [] kw = .ok o) {n : String} {v : PyArg}
    (hn : n ∈ arrayParameters) (hm : n ∉ kw.map Prod.fst) (hd : ArrayDefault n v) : ArrayHolds o n v := by
  obtain ⟨w, -, hw⟩ := (C194_panel_array hk h).1 n hn
  refine (hw v (Or.inr ⟨?_, hd⟩)).2
  rintro w (⟨i, -, hi⟩ | hw)
  · simp at hi
  · exact hm (List.mem_map_of_mem hw)

/-- C194 for `Antenna`: one element; every argument arrives. -/
theorem C194_antenna {pos : List PyArg} {kw : NamedArgs} (hk : (kw.map Prod.fst).Nodup) {o : ArrayObject} (h : antennaCall pos kw = .ok o) :
    (∀ p ∈ antennaParameters, ∃ v, Takes (antennaParameters.map Prod.fst) AntennaDefault pos kw p.1 v ∧
      ∀ w, Takes (antennaParameters.map Prod.fst) AntennaDefault pos kw p.1 w → w = v ∧ ArrayHolds o p.2 w) ∧
    o.numRows = 1 ∧ o.numCols = 1 ∧ o.numRowsPerPanel = 1 ∧ o.numColsPerPanel = 1 := by
  unfold antennaCall at h
  cases hp : pyCall antennaSignature pos kw with
  | error x => rw [hp] at h; cases h
  | ok e =>
  rw [hp] at h
  simp only [] at h
  have hd : ∀ p ∈ antennaSignature, ∀ v, AntennaDefault p.1 v ↔ p.2 = some v := by
    intro p hp v
    simp only [antennaSignature, List.mem_cons, List.not_mem_nil, or_false] at hp
    rcases hp with rfl | rfl | rfl | rfl | rfl <;> simp [AntennaDefault, eq_comm]
  have ht := fun {n} (hn : n ∈ antennaParameters.map Prod.fst) v =>
    takes_iff (rfl : antennaParameters.map Prod.fst = antennaSignature.map Prod.fst) (by decide +kernel) hd hk hp hn v
  have hk' : ([("num_rows_per_panel", PyArg.num 1), ("num_cols_per_panel", .num 1), ("polarization", e.value "polarization"),
       ("polarization_type", e.value "polarization_type"), ("antenna_pattern", e.value "antenna_pattern"),
       ("carrier_frequency", e.value "carrier_frequency"), ("precision", e.value "precision")].map Prod.fst).Nodup := by
    simp only [List.map_cons, List.map_nil]; decide +kernel
  refine ⟨fun p hm => ⟨e.value p.1, (ht (List.mem_map_of_mem hm) _).2 rfl, fun w hw => ⟨(ht (List.mem_map_of_mem hm) _).1 hw, ?_⟩⟩, ?_, ?_, ?_, ?_⟩
  · rw [(ht (List.mem_map_of_mem hm) _).1 hw]
    simp only [antennaParameters, List.mem_cons, List.not_mem_nil, or_false] at hm
    rcases hm with rfl | rfl | rfl | rfl | rfl <;> exact array_given hk' h (by decide) (by simp)
  · have := (array_open hk' h (n := "num_rows") (v := .num 1) (by decide) (by simp) (by simp [ArrayDefault])).2.2.2.2.2.2.1 rfl
    exact_mod_cast isNum_num this
  · have := (array_open hk' h (n := "num_cols") (v := .num 1) (by decide) (by simp) (by simp [ArrayDefault])).2.2.2.2.2.2.2.1 rfl
    exact_mod_cast isNum_num this
  · have := (array_given hk' h (n := "num_rows_per_panel") (v := .num 1) (by decide) (by simp)).1 rfl
    exact_mod_cast isNum_num this
  · have := (array_given hk' h (n := "num_cols_per_panel") (v := .num 1) (by decide) (by simp)).2.1 rfl
    exact_mod_cast isNum_num this

example : ∃ o, antennaCall [.str "single", .str "H"] [("carrier_frequency", .num 2e9), ("antenna_pattern", .str "omni")] = .ok o := by
  obtain ⟨arr, ha⟩ := (C111_constructor ⟨1, 1, "single", "H", "omni", 2e9, 1, 1, none, none, none, none⟩).1.2
    ⟨by simp [DocumentedArray], by simp [PanelsApart], by simp [PanelsApart], by norm_num, by norm_num⟩
  unfold antennaCall arrayCall arrayInit
  simp [pyCall, fillParams, antennaSignature, arraySignature, List.lookup, NamedArgs.value, toSize_one, PyArg.toNum, PyArg.toOption, PyArg.toText, bind,
    Except.bind, ha]

/-- C194 for `AntennaArray`: one panel; every argument arrives. -/
theorem C194_antenna_array {pos : List PyArg} {kw : NamedArgs} (hk : (kw.map Prod.fst).Nodup) {o : ArrayObject} (h : antennaArrayCall pos kw = .ok o) :
    (∀ p ∈ antennaArrayParameters, ∃ v, Takes (antennaArrayParameters.map Prod.fst) AntennaDefault pos kw p.1 v ∧
      ∀ w, Takes (antennaArrayParameters.map Prod.fst) AntennaDefault pos kw p.1 w → w = v ∧ ArrayHolds o p.2 w) ∧
    o.numRows = 1 ∧ o.numCols = 1 := by
  unfold antennaArrayCall at h
  cases hp : pyCall antennaArraySignature pos kw with
  | error x => rw [hp] at h; cases h
  | ok e =>
  rw [hp] at h
  simp only [] at h
  have hd : ∀ p ∈ antennaArraySignature, ∀ v, AntennaDefault p.1 v ↔ p.2 = some v := by
    intro p hp v
    simp only [antennaArraySignature, List.mem_cons, List.not_mem_nil, or_false] at hp
    rcases hp with rfl | rfl | rfl | rfl | rfl | rfl | rfl | rfl | rfl <;> simp [AntennaDefault, eq_comm]
  have ht := fun {n} (hn : n ∈ antennaArrayParameters.map Prod.fst) v =>
    takes_iff (rfl : antennaArrayParameters.map Prod.fst = antennaArraySignature.map Prod.fst) (by decide +kernel) hd hk hp hn v
  have hk' : ([("num_rows_per_panel", e.value "num_rows"), ("num_cols_per_panel", e.value "num_cols"), ("polarization", e.value "polarization"),
       ("polarization_type", e.value "polarization_type"), ("antenna_pattern", e.value "antenna_pattern"),
       ("carrier_frequency", e.value "carrier_frequency"), ("element_vertical_spacing", e.value "vertical_spacing"),
       ("element_horizontal_spacing", e.value "horizontal_spacing"), ("precision", e.value "precision")].map Prod.fst).Nodup := by
    simp only [List.map_cons, List.map_nil]; decide +kernel
  refine ⟨fun p hm => ⟨e.value p.1, (ht (List.mem_map_of_mem hm) _).2 rfl, fun w hw => ⟨(ht (List.mem_map_of_mem hm) _).1 hw, ?_⟩⟩, ?_, ?_⟩
  · rw [(ht (List.mem_map_of_mem hm) _).1 hw]
    simp only [antennaArrayParameters, List.mem_cons, List.not_mem_nil, or_false] at hm
    rcases hm with rfl | rfl | rfl | rfl | rfl | rfl | rfl | rfl | rfl <;> exact array_given hk' h (by decide) (by simp)
  · have := (array_open hk' h (n := "num_rows") (v := .num 1) (by decide) (by simp) (by simp [ArrayDefault])).2.2.2.2.2.2.1 rfl
    exact_mod_cast isNum_num this
  · have := (array_open hk' h (n := "num_cols") (v := .num 1) (by decide) (by simp) (by simp [ArrayDefault])).2.2.2.2.2.2.2.1 rfl
    exact_mod_cast isNum_num this

example : ∃ o, antennaArrayCall [.num 2, .num 4] [("polarization", .str "dual"), ("polarization_type", .str "VH"), ("carrier_frequency", .num 2e9),
    ("antenna_pattern", .str "38.901"), ("horizontal_spacing", .num 1)] = .ok o := by
  obtain ⟨arr, ha⟩ := (C111_constructor ⟨2, 4, "dual", "VH", "38.901", 2e9, 1, 1, none, none, none, some 1⟩).1.2
    ⟨by simp [DocumentedArray], by simp [PanelsApart], by simp [PanelsApart], by norm_num, by norm_num⟩
  unfold antennaArrayCall arrayCall arrayInit
  simp [pyCall, fillParams, antennaArraySignature, arraySignature, List.lookup, NamedArgs.value, toSize_one, toSize_two, toSize_four, PyArg.toNum,
    PyArg.toOption, PyArg.toText, bind, Except.bind, ha]

theorem except_bind_ok {α β : Type} {x : Except Err α} {f : α → Except Err β} {b : β} (h : (x >>= f) = .ok b) : ∃ a, x = .ok a ∧ f a = .ok b := by
  cases x with
  | error e => cases h
  | ok a => exact ⟨a, rfl, h⟩

theorem tdlInit_types {a : TdlArgs} {t : Tdl} (h : tdlInit a = .ok t) :
    a.model ≠ "" ∧ t.numSinusoids = a.numSinusoids ∧ t.losAngle = a.losAngle ∧ (a.model ∈ ["A", "B", "C", "D"] → t.delaySpread = a.delaySpread) := by
  unfold tdlInit at h
  obtain ⟨⟨file, spread⟩, hf, h⟩ := except_bind_ok h
  have hne : a.model ≠ "" := by
    intro he; rw [he] at hf; simp [tdlFile] at hf
  have hs : a.model ∈ ["A", "B", "C", "D"] → spread = a.delaySpread := by
    intro hm
    simp only [List.mem_cons, List.not_mem_nil, or_false] at hm
    rcases hm with hm | hm | hm | hm <;> simp [tdlFile, hm] at hf <;> exact hf.2.symm
  simp only [] at h
  split_ifs at h <;> cases file with
  | none => cases h
  | some tb =>
    simp only [] at h
    obtain ⟨params, -, h⟩ := except_bind_ok h
    first
      | (cases h; done)
      | (cases h; exact ⟨hne, rfl, rfl, hs⟩)

/-- C195. Whatever mixture of positional and keyword arguments a TDL model is made with: every argument arrives, and those not given have their documented
default. -/
theorem C195_tdl {pos : List PyArg} {kw : NamedArgs} (hk : (kw.map Prod.fst).Nodup) {o : TdlObject} (h : tdlConstruct pos kw = .ok o) :
    ∃ a, tdlInit a = .ok o.tdl ∧ ∀ n ∈ tdlParameters, ∃ v, Takes tdlParameters TdlDefault pos kw n v ∧
      ∀ w, Takes tdlParameters TdlDefault pos kw n w → w = v ∧ TdlHolds a o n w := by
  unfold tdlConstruct at h
  obtain ⟨e, hp, h⟩ := except_bind_ok h
  obtain ⟨ds, h1, h⟩ := except_bind_ok h
  obtain ⟨fc, h2, h⟩ := except_bind_ok h
  obtain ⟨ns, h3, h⟩ := except_bind_ok h
  obtain ⟨an, h4, h⟩ := except_bind_ok h
  obtain ⟨mn, h5, h⟩ := except_bind_ok h
  obtain ⟨mx, h6, h⟩ := except_bind_ok h
  obtain ⟨rx, h7, h⟩ := except_bind_ok h
  obtain ⟨tx, h8, h⟩ := except_bind_ok h
  obtain ⟨hh, h9, h⟩ := except_bind_ok h
  obtain ⟨el, h10, h⟩ := except_bind_ok h
  obtain ⟨t, ht, h⟩ := except_bind_ok h
  cases h
  have hd : ∀ p ∈ tdlSignature, ∀ v, TdlDefault p.1 v ↔ p.2 = some v := by
    intro p hp v
    simp only [tdlSignature, List.mem_cons, List.not_mem_nil, or_false] at hp
    rcases hp with rfl | rfl | rfl | rfl | rfl | rfl | rfl | rfl | rfl | rfl | rfl | rfl | rfl | rfl | rfl <;> simp [TdlDefault, eq_comm]
  have hv := fun {n} (hn : n ∈ tdlParameters) v =>
    takes_iff (rfl : tdlParameters = tdlSignature.map Prod.fst) (by decide +kernel) hd hk hp hn v
  obtain ⟨m1, m2, m3, m4⟩ := tdlInit_types ht
  refine ⟨_, ht, fun n hn => ⟨e.value n, (hv hn _).2 rfl, fun w hw => ⟨(hv hn _).1 hw, ?_⟩⟩⟩
  rw [(hv hn _).1 hw]
  simp only [] at m1 m2 m3 m4
  refine ⟨?_, ?_, ?_, ?_, ?_, ?_, ?_, ?_, ?_, ?_, ?_, ?_⟩ <;> rintro rfl
  · exact toText_eq rfl m1
  · refine ⟨(toNum_iff _ _).1 h1, fun hm => ?_⟩
    simp only [m4 hm]
    exact (toNum_iff _ _).1 h1
  · exact ⟨(toNum_iff _ _).1 h2, (toNum_iff _ _).1 h2⟩
  · simp only [m2]; exact ⟨toSize_ok h3, toSize_ok h3⟩
  · simp only [m3]; exact ⟨(toNum_iff _ _).1 h4, (toNum_iff _ _).1 h4⟩
  · exact ⟨(toNum_iff _ _).1 h5, (toNum_iff _ _).1 h5⟩
  · exact ⟨toOption_ok h6, isOpt_spacing (toOption_ok h6) mn⟩
  · exact toSize_ok h7
  · exact toSize_ok h8
  · exact ⟨(toNum_iff _ _).1 h9, (toNum_iff _ _).1 h9⟩
  · exact ⟨(toNum_iff _ _).1 h10, (toNum_iff _ _).1 h10⟩
  · rfl

example : ∃ o, tdlConstruct [.str "D", .num 1e-7] [("carrier_frequency", .num 2e9), ("elevation_angle", .num 30), ("num_rx_ant", .num 2)] = .ok o := by
  obtain ⟨t, ht, -⟩ := (C79_names_partial ⟨"D", 1e-7, 2e9, 20, Real.pi / 4, 0, none, 600000, 30⟩
    ⟨by norm_num, by norm_num, by norm_num, by simp, by norm_num⟩).1 (by simp [tdlNames]) (by decide)
  unfold tdlConstruct
  simp [pyCall, fillParams, tdlSignature, List.lookup, NamedArgs.value, toSize_one, toSize_two, toSize_twenty, PyArg.toNum, PyArg.toOption, PyArg.toText, bind,
    Except.bind, ht]

/-- C196. Whatever mixture of positional and keyword arguments `gen_single_sector_topology` is called with: every argument arrives at the generator under its
own name, and those not given stay open. -/
theorem C196_sector {pos : List PyArg} {kw : NamedArgs} (hk : (kw.map Prod.fst).Nodup) {draws : ∀ B U : ℕ, DropDraws B U} {B U : ℕ} {t : GenTopology B U}
    (h : sectorCall pos kw draws = .ok ⟨B, U, t⟩) :
    ∃ s a, genSingleSector s a (draws B U) = .ok t ∧ ∀ n ∈ sectorParameters, ∃ v, Takes sectorParameters SectorDefault pos kw n v ∧
      ∀ w, Takes sectorParameters SectorDefault pos kw n w → w = v ∧ SectorHolds B U s a n w := by
  unfold sectorCall at h
  obtain ⟨e, hp, h⟩ := except_bind_ok h
  obtain ⟨p, hq, h⟩ := except_bind_ok h
  obtain ⟨a, ha, h⟩ := except_bind_ok h
  obtain ⟨B', hB, h⟩ := except_bind_ok h
  obtain ⟨U', hU, h⟩ := except_bind_ok h
  obtain ⟨t', ht, h⟩ := except_bind_ok h
  have h := Except.ok.inj h
  obtain ⟨rfl, h⟩ := Sigma.mk.inj_iff.1 h
  obtain ⟨rfl, h⟩ := Sigma.mk.inj_iff.1 (eq_of_heq h)
  cases eq_of_heq h
  have hd : ∀ p ∈ sectorSignature, ∀ v, SectorDefault p.1 v ↔ p.2 = some v := by
    intro p hp v
    simp only [sectorSignature, List.mem_cons, List.not_mem_nil, or_false] at hp
    rcases hp with rfl | rfl | rfl | rfl | rfl | rfl | rfl | rfl | rfl | rfl | rfl | rfl <;> simp [SectorDefault, eq_comm]
  have hv := fun {n} (hn : n ∈ sectorParameters) v =>
    takes_iff (rfl : sectorParameters = sectorSignature.map Prod.fst) (by decide +kernel) hd hk hp hn v
  have hpe : p = [("scenario", e.value "scenario"), ("isd", e.value "isd"), ("bs_height", e.value "bs_height"),
      ("elevation_angle", e.value "elevation_angle"), ("min_ut_height", e.value "min_ut_height"), ("max_ut_height", e.value "max_ut_height"),
      ("indoor_probability", e.value "indoor_probability"), ("min_ut_velocity", e.value "min_ut_velocity"),
      ("max_ut_velocity", e.value "max_ut_velocity"), ("precision", e.value "precision")] := by
    simp [sectorParamsCall, pyCall, fillParams, paramsSignature, List.lookup] at hq
    exact hq.symm
  have hval : ∀ n ∈ ["scenario", "isd", "bs_height", "elevation_angle", "min_ut_height", "max_ut_height", "indoor_probability", "min_ut_velocity",
      "max_ut_velocity"], p.value n = e.value n := by
    rw [hpe]
    simp [NamedArgs.value, List.lookup]
  simp only [List.mem_cons, List.not_mem_nil, or_false, forall_eq_or_imp, forall_eq] at hval
  obtain ⟨v1, v2, v3, v4, v5, v6, v7, v8, v9⟩ := hval
  unfold genArgsOf at ha
  rw [v2, v3, v4, v5, v6, v7, v8, v9] at ha
  rw [v1] at ht
  obtain ⟨a1, h1, ha⟩ := except_bind_ok ha
  obtain ⟨a2, h2, ha⟩ := except_bind_ok ha
  obtain ⟨a3, h3, ha⟩ := except_bind_ok ha
  obtain ⟨a4, h4, ha⟩ := except_bind_ok ha
  obtain ⟨a5, h5, ha⟩ := except_bind_ok ha
  obtain ⟨a6, h6, ha⟩ := except_bind_ok ha
  obtain ⟨a7, h7, ha⟩ := except_bind_ok ha
  obtain ⟨a8, h8, ha⟩ := except_bind_ok ha
  cases ha
  have hs : (e.value "scenario").toText ≠ "" := by
    intro he
    rw [he] at ht
    simp [genSingleSector, setScenarioParameters, scenarioDefaults, bind, Except.bind] at ht
  refine ⟨_, _, ht, fun n hn => ⟨e.value n, (hv hn _).2 rfl, fun w hw => ⟨(hv hn _).1 hw, ?_⟩⟩⟩
  rw [(hv hn _).1 hw]
  refine ⟨?_, ?_, ?_, ?_, ?_, ?_, ?_, ?_, ?_, ?_, ?_⟩ <;> rintro rfl
  · exact toSize_ok hB
  · exact toSize_ok hU
  · exact toText_eq rfl hs
  · exact toOption_ok h2
  · exact toOption_ok h3
  · exact toOption_ok h1
  · exact toOption_ok h4
  · exact toOption_ok h5
  · exact toOption_ok h6
  · exact toOption_ok h7
  · exact toOption_ok h8

example : ∃ t, sectorCall [.num 2, .num 4, .str "sur"] [("elevation_angle", .num 30)] exDrop = .ok ⟨2, 4, t⟩ := by
  obtain ⟨t, ht⟩ := genSingleSector_ok (scenario := "sur") (a := { elevation := some 30 }) (p := ⟨5000, 600000, 30, 1.5, 1.5, 0, 0, 0⟩) (exDrop 2 4)
    (by simp [setScenarioParameters, scenarioDefaults]) (by norm_num) (by norm_num) (by norm_num) (by norm_num [exDrop])
  refine ⟨t, ?_⟩
  unfold sectorCall genArgsOf sectorParamsCall
  simp [pyCall, fillParams, sectorSignature, paramsSignature, List.lookup, NamedArgs.value, toSize_two, toSize_four, PyArg.toNum, PyArg.toOption,
    PyArg.toText, bind, Except.bind, ht]

end OpenNTN
