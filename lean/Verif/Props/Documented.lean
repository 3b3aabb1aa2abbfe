import Verif.Spec.Documented
import Verif.Props.ConstructArray
import Verif.Props.Tdl
import Verif.Props.TopoGen

/-
Properties C197 and C198: documented parameters and examples.
-/
namespace OpenNTN

open Spec

theorem exampleArray_ok : ∃ o, arrayCall [] exampleArray = .ok o := by
  obtain ⟨arr, ha⟩ := (C111_constructor ⟨4, 4, "dual", "VH", "38.901", 3.5e9, 1, 2, none, some 3, none, none⟩).1.2
    ⟨by simp [DocumentedArray], by norm_num [PanelsApart, spacingOr], by simp [PanelsApart], by norm_num, by norm_num⟩
  unfold arrayCall arrayInit
  simp [pyCall, fillParams, arraySignature, exampleArray, List.lookup, NamedArgs.value, toSize_one, toSize_two, toSize_four, toSize_twenty, toSize_hundred, PyArg.toNum, PyArg.toOption, PyArg.toText, bind,
    Except.bind, ha]

theorem exampleBs_ok {t : String} (ht : t = "cross" ∨ t = "VH") : ∃ o, arrayCall [] (exampleBs t) = .ok o := by
  obtain ⟨arr, ha⟩ := (C111_constructor ⟨4, 4, "dual", t, "38.901", 3.5e9, 1, 1, none, none, none, none⟩).1.2
    ⟨by rcases ht with rfl | rfl <;> simp [DocumentedArray], by simp [PanelsApart], by simp [PanelsApart], by norm_num, by norm_num⟩
  unfold arrayCall arrayInit
  simp [pyCall, fillParams, arraySignature, exampleBs, List.lookup, NamedArgs.value, toSize_one, toSize_two, toSize_four, toSize_twenty, toSize_hundred, PyArg.toNum, PyArg.toOption, PyArg.toText, bind,
    Except.bind, ha]

theorem exampleUt_ok : ∃ o, arrayCall [] exampleUt = .ok o := by
  obtain ⟨arr, ha⟩ := (C111_constructor ⟨1, 1, "single", "V", "omni", 3.5e9, 1, 1, none, none, none, none⟩).1.2
    ⟨by simp [DocumentedArray], by simp [PanelsApart], by simp [PanelsApart], by norm_num, by norm_num⟩
  unfold arrayCall arrayInit
  simp [pyCall, fillParams, arraySignature, exampleUt, List.lookup, NamedArgs.value, toSize_one, toSize_two, toSize_four, toSize_twenty, toSize_hundred, PyArg.toNum, PyArg.toOption, PyArg.toText, bind,
    Except.bind, ha]

theorem exampleTdl_ok : ∃ o, tdlConstruct [] exampleTdl = .ok o := by
  obtain ⟨t, ht, -⟩ := (C79_names_partial ⟨"A", 300e-9, 3.5e9, 20, Real.pi / 4, 0, some 3, 600000, 80⟩
    ⟨by norm_num, by norm_num, by norm_num, by simp, by norm_num⟩).1 (by simp [tdlNames]) (by decide)
  unfold tdlConstruct
  simp [pyCall, fillParams, tdlSignature, exampleTdl, List.lookup, NamedArgs.value, toSize_one, toSize_two, toSize_four, toSize_twenty, toSize_hundred, PyArg.toNum, PyArg.toOption, PyArg.toText, bind,
    Except.bind, ht]

theorem exampleSector_ok {draws : ∀ B U : ℕ, DropDraws B U} (hd : ∀ B U, 0 ≤ (draws B U).xBase ∧ (draws B U).xBase < 1) :
    ∃ o, sectorCall [] exampleSector draws = .ok o := by
  obtain ⟨t, ht⟩ := genSingleSector_ok (scenario := "urb") (a := {}) (p := ⟨500, 600000, 80, 1.5, 1.5, 0, 0, 0⟩) (draws 100 4)
    (by simp [setScenarioParameters, scenarioDefaults]) (by norm_num) (by norm_num) (by norm_num) (hd 100 4)
  unfold sectorCall genArgsOf sectorParamsCall
  simp [pyCall, fillParams, sectorSignature, paramsSignature, exampleSector, List.lookup, NamedArgs.value, toSize_one, toSize_two, toSize_four, toSize_twenty, toSize_hundred, PyArg.toNum, PyArg.toOption,
    PyArg.toText, bind, Except.bind, ht]

/-- C198: every call in an example of the documentation succeeds. -/
def C198_statement : Prop :=
  ∀ draws : ∀ B U : ℕ, DropDraws B U, (∀ B U, 0 ≤ (draws B U).xBase ∧ (draws B U).xBase < 1) → ∀ f kw, Example f kw → Succeeds draws f kw

/-- C198, what holds: the examples of arrays, of the TDL model and of the topology succeed. Those of the channel models, which do not pass the elevation, all
fail; so does every call of a channel model that passes an `o2i_model`. -/
theorem C198_examples_partial {draws : ∀ B U : ℕ, DropDraws B U} (hd : ∀ B U, 0 ≤ (draws B U).xBase ∧ (draws B U).xBase < 1) :
    (∀ f kw, Example f kw → (Succeeds draws f kw ↔ ∀ cls, f ≠ .channel cls)) ∧
    ∀ cls pos kw v, ("o2i_model", v) ∈ kw → channelCall cls pos kw = .error .typeError := by
  have hbad : ∀ cls pos kw v, ("o2i_model", v) ∈ kw → channelCall cls pos kw = .error .typeError := by
    intro cls pos kw v hm
    have : pyCall channelSignature pos kw = .error .typeError := by
      unfold pyCall
      rw [if_pos]
      rw [List.any_eq_true]
      exact ⟨_, hm, by simp [channelSignature]⟩
    unfold channelCall
    rw [this]
  refine ⟨?_, hbad⟩
  intro f kw h
  cases h with
  | array => simpa [Succeeds] using exampleArray_ok
  | bsCross => simpa [Succeeds] using exampleBs_ok (Or.inl rfl)
  | bsVh => simpa [Succeeds] using exampleBs_ok (Or.inr rfl)
  | ut => simpa [Succeeds] using exampleUt_ok
  | tdl => simpa [Succeeds] using exampleTdl_ok
  | sector => simpa [Succeeds] using exampleSector_ok hd
  | channel cls =>
    simp only [Succeeds, ne_eq, Callable.channel.injEq, forall_eq', iff_false, not_exists]
    intro o ho
    unfold channelCall at ho
    simp [pyCall, fillParams, channelSignature, documentedCall, List.lookup] at ho
  | urban =>
    simp only [Succeeds, ne_eq, Callable.channel.injEq, forall_eq', iff_false, not_exists]
    intro o ho
    rw [hbad _ _ _ (.str "low") (by simp [exampleUrban])] at ho
    cases ho

/-- The code violates C198: the channel model of the example for topologies cannot be made. -/
theorem C198_violated : ¬ C198_statement := by
  intro h
  have hd : ∀ B U, 0 ≤ (exDrop B U).xBase ∧ (exDrop B U).xBase < 1 := fun B U => by norm_num [exDrop]
  exact ((C198_examples_partial hd).1 _ _ .urban).1 (h _ hd _ _ .urban) .urban rfl

example : ∀ B U, 0 ≤ (exDrop B U).xBase ∧ (exDrop B U).xBase < 1 := fun B U => by norm_num [exDrop]

/-- A call for every callable that names all its parameters. -/
noncomputable def allNamed : Callable → NamedArgs
  | .panelArray => [("num_rows_per_panel", .num 4), ("num_cols_per_panel", .num 4), ("polarization", .str "dual"), ("polarization_type", .str "VH"),
      ("antenna_pattern", .str "38.901"), ("carrier_frequency", .num 3.5e9), ("num_rows", .num 1), ("num_cols", .num 2), ("panel_vertical_spacing", .none),
      ("panel_horizontal_spacing", .num 3), ("element_vertical_spacing", .none), ("element_horizontal_spacing", .none), ("precision", .none)]
  | .antenna => [("polarization", .str "single"), ("polarization_type", .str "V"), ("antenna_pattern", .str "omni"), ("carrier_frequency", .num 3.5e9),
      ("precision", .none)]
  | .antennaArray => [("num_rows", .num 4), ("num_cols", .num 4), ("polarization", .str "dual"), ("polarization_type", .str "VH"),
      ("antenna_pattern", .str "38.901"), ("carrier_frequency", .num 3.5e9), ("vertical_spacing", .none), ("horizontal_spacing", .none), ("precision", .none)]
  | .tdl => [("model", .str "A"), ("delay_spread", .num 300e-9), ("carrier_frequency", .num 3.5e9), ("num_sinusoids", .num 20),
      ("los_angle_of_arrival", .num (Real.pi / 4)), ("min_speed", .num 0), ("max_speed", .num 3), ("num_rx_ant", .num 1), ("num_tx_ant", .num 1),
      ("spatial_corr_mat", .none), ("rx_corr_mat", .none), ("tx_corr_mat", .none), ("precision", .none)]
  | .channel _ => [("carrier_frequency", .num 2e9), ("ut_array", .array (panelFor 2e9)), ("bs_array", .array (panelFor 2e9)), ("direction", .str "uplink"),
      ("elevation_angle", .num 50), ("enable_pathloss", .bool true), ("enable_shadow_fading", .bool true), ("average_street_width", .num 20),
      ("average_building_height", .num 5), ("always_generate_lsp", .bool false), ("precision", .none)]
  | .sector => [("batch_size", .num 100), ("num_ut", .num 4), ("scenario", .str "urb"), ("isd", .none), ("bs_height", .none), ("elevation_angle", .none),
      ("min_ut_height", .none), ("max_ut_height", .none), ("indoor_probability", .none), ("min_ut_velocity", .none), ("max_ut_velocity", .none),
      ("precision", .none)]

theorem allNamed_ok {draws : ∀ B U : ℕ, DropDraws B U} (hd : ∀ B U, 0 ≤ (draws B U).xBase ∧ (draws B U).xBase < 1) (f : Callable) :
    Succeeds draws f (allNamed f) := by
  cases f with
  | panelArray =>
    obtain ⟨arr, ha⟩ := (C111_constructor ⟨4, 4, "dual", "VH", "38.901", 3.5e9, 1, 2, none, some 3, none, none⟩).1.2
      ⟨by simp [DocumentedArray], by norm_num [PanelsApart, spacingOr], by simp [PanelsApart], by norm_num, by norm_num⟩
    unfold Succeeds arrayCall arrayInit
    simp [pyCall, fillParams, arraySignature, allNamed, List.lookup, NamedArgs.value, toSize_one, toSize_two, toSize_four, toSize_twenty, toSize_hundred, PyArg.toNum, PyArg.toOption, PyArg.toText, bind,
      Except.bind, ha]
  | antenna =>
    obtain ⟨arr, ha⟩ := (C111_constructor ⟨1, 1, "single", "V", "omni", 3.5e9, 1, 1, none, none, none, none⟩).1.2
      ⟨by simp [DocumentedArray], by simp [PanelsApart], by simp [PanelsApart], by norm_num, by norm_num⟩
    unfold Succeeds antennaCall arrayCall arrayInit
    simp [pyCall, fillParams, antennaSignature, arraySignature, allNamed, List.lookup, NamedArgs.value, toSize_one, toSize_two, toSize_four, toSize_twenty, toSize_hundred, PyArg.toNum, PyArg.toOption,
      PyArg.toText, bind, Except.bind, ha]
  | antennaArray =>
    obtain ⟨arr, ha⟩ := (C111_constructor ⟨4, 4, "dual", "VH", "38.901", 3.5e9, 1, 1, none, none, none, none⟩).1.2
      ⟨by simp [DocumentedArray], by simp [PanelsApart], by simp [PanelsApart], by norm_num, by norm_num⟩
    unfold Succeeds antennaArrayCall arrayCall arrayInit
    simp [pyCall, fillParams, antennaArraySignature, arraySignature, allNamed, List.lookup, NamedArgs.value, toSize_one, toSize_two, toSize_four, toSize_twenty, toSize_hundred, PyArg.toNum,
      PyArg.toOption, PyArg.toText, bind, Except.bind, ha]
  | tdl =>
    obtain ⟨t, ht, -⟩ := (C79_names_partial ⟨"A", 300e-9, 3.5e9, 20, Real.pi / 4, 0, some 3, 600000, 80⟩
      ⟨by norm_num, by norm_num, by norm_num, by simp, by norm_num⟩).1 (by simp [tdlNames]) (by decide)
    unfold Succeeds tdlConstruct
    simp [pyCall, fillParams, tdlSignature, allNamed, List.lookup, NamedArgs.value, toSize_one, toSize_two, toSize_four, toSize_twenty, toSize_hundred, PyArg.toNum, PyArg.toOption, PyArg.toText, bind,
      Except.bind, ht]
  | channel cls =>
    refine (C193_accepted_partial cls _ _ (by simp [allNamed])).2 ⟨⟨by simp, by simp [allNamed, parameters], by simp⟩,
      ⟨2e9, .num 2e9, "uplink", 50, .num 50, Or.inr (by simp [allNamed]), Or.inl rfl, Or.inl ⟨by norm_num, by norm_num⟩, Or.inr (by simp [allNamed]),
        Or.inr (by simp [allNamed]), Or.inr (by simp [allNamed]), Or.inl rfl, Or.inr (by simp [allNamed]), Or.inl rfl, by norm_num, by norm_num⟩, ?_⟩
    rintro n v (rfl | rfl) (⟨i, -, h⟩ | h)
    · simp at h
    · simp only [allNamed, List.mem_cons, Prod.mk.injEq, List.not_mem_nil] at h
      simp at h
      exact ⟨20, Or.inl h⟩
    · simp at h
    · simp only [allNamed, List.mem_cons, Prod.mk.injEq, List.not_mem_nil] at h
      simp at h
      exact ⟨5, Or.inl h⟩
  | sector =>
    obtain ⟨t, ht⟩ := genSingleSector_ok (scenario := "urb") (a := {}) (p := ⟨500, 600000, 80, 1.5, 1.5, 0, 0, 0⟩) (draws 100 4)
      (by simp [setScenarioParameters, scenarioDefaults]) (by norm_num) (by norm_num) (by norm_num) (hd 100 4)
    unfold Succeeds sectorCall genArgsOf sectorParamsCall
    simp [pyCall, fillParams, sectorSignature, paramsSignature, allNamed, List.lookup, NamedArgs.value, toSize_one, toSize_two, toSize_four, toSize_twenty, toSize_hundred, PyArg.toNum, PyArg.toOption,
      PyArg.toText, bind, Except.bind, ht]

/-- C197: every documented parameter is accepted. -/
def C197_statement : Prop :=
  ∀ draws : ∀ B U : ℕ, DropDraws B U, (∀ B U, 0 ≤ (draws B U).xBase ∧ (draws B U).xBase < 1) → ∀ f, ∀ n ∈ documentedParameters f,
    ∃ kw v, (n, v) ∈ kw ∧ Succeeds draws f kw

/-- C197, what holds: all documented parameters are accepted but the arrays of receivers and transmitters of the channel models, which have other names,
and the smallest distance of the topology, which does not exist. -/
theorem C197_parameters_partial {draws : ∀ B U : ℕ, DropDraws B U} (hd : ∀ B U, 0 ≤ (draws B U).xBase ∧ (draws B U).xBase < 1) (f : Callable) {n : String}
    (hn : n ∈ documentedParameters f) :
    (∃ kw v, (n, v) ∈ kw ∧ Succeeds draws f kw) ↔ n ≠ "rx_array" ∧ n ≠ "tx_array" ∧ n ≠ "min_bs_ut_dist" := by
  have hbad : ∀ {sig : Signature} {kw : NamedArgs} {n : String} {v : PyArg}, (n, v) ∈ kw → (∀ p ∈ sig, p.1 ≠ n) → pyCall sig [] kw = .error .typeError := by
    intro sig kw n v hm hs
    unfold pyCall
    rw [if_pos]
    rw [List.any_eq_true]
    refine ⟨_, hm, ?_⟩
    simp only [Bool.not_eq_true', List.any_eq_false, beq_iff_eq]
    exact hs
  constructor
  · rintro ⟨kw, v, hm, hs⟩
    cases f with
    | panelArray => clear hm hs; simp only [documentedParameters] at hn; revert n; decide
    | antenna => clear hm hs; simp only [documentedParameters] at hn; revert n; decide
    | antennaArray => clear hm hs; simp only [documentedParameters] at hn; revert n; decide
    | tdl => clear hm hs; simp only [documentedParameters] at hn; revert n; decide
    | channel cls =>
      obtain ⟨o, ho⟩ := hs
      refine ⟨?_, ?_, ?_⟩ <;> rintro rfl
      · unfold channelCall at ho
        rw [hbad hm (by simp [channelSignature])] at ho
        cases ho
      · unfold channelCall at ho
        rw [hbad hm (by simp [channelSignature])] at ho
        cases ho
      · simp [documentedParameters] at hn
    | sector =>
      obtain ⟨o, ho⟩ := hs
      refine ⟨?_, ?_, ?_⟩ <;> rintro rfl
      · simp [documentedParameters] at hn
      · simp [documentedParameters] at hn
      · unfold sectorCall at ho
        rw [hbad hm (by simp [sectorSignature])] at ho
        cases ho
  · rintro ⟨h1, h2, h3⟩
    have hex : ∃ v, (n, v) ∈ allNamed f := by
      have : n ∈ (allNamed f).map Prod.fst := by
        cases f <;> simp only [documentedParameters, List.mem_cons, List.not_mem_nil, or_false] at hn <;> simp only [allNamed, List.map_cons, List.map_nil,
          List.mem_cons, List.not_mem_nil, or_false] <;> tauto
      obtain ⟨p, hp, rfl⟩ := List.mem_map.1 this
      exact ⟨p.2, hp⟩
    obtain ⟨v, hv⟩ := hex
    exact ⟨_, v, hv, allNamed_ok hd f⟩

/-- The code violates C197: the documented smallest distance is not accepted. -/
theorem C197_violated : ¬ C197_statement := by
  intro h
  have hd : ∀ B U, 0 ≤ (exDrop B U).xBase ∧ (exDrop B U).xBase < 1 := fun B U => by norm_num [exDrop]
  have hn : "min_bs_ut_dist" ∈ documentedParameters .sector := by simp [documentedParameters]
  exact ((C197_parameters_partial hd .sector hn).1 (h _ hd .sector _ hn)).2.2 rfl

example : "isd" ∈ documentedParameters .sector := by simp [documentedParameters]

end OpenNTN
