import Verif.Model.Packaging
import Verif.Props.Config
import Verif.Props.Tdl
import Verif.Props.Cdl

/-
C190: the installation contains every file that the package executes or opens, and nothing outside of the package.
-/
namespace OpenNTN

/-- More files in the checkout do not remove any from the installation. -/
theorem isPackage_mono {fs gs : List (List String)} (h : fs ⊆ gs) {d : List String} (hd : isPackage fs d = true) : isPackage gs d = true := by
  simp only [isPackage, Bool.and_eq_true, List.all_eq_true, Bool.or_eq_true, List.contains_iff_mem] at hd ⊢
  refine ⟨hd.1, fun e he => ?_⟩
  rcases hd.2 e he with h' | h'
  · exact Or.inl h'
  · exact Or.inr ⟨h h'.1, h'.2⟩

theorem installed_mono {fs gs : List (List String)} (h : fs ⊆ gs) : installed fs ⊆ installed gs := by
  intro p hp
  simp only [installed, List.mem_filter, Bool.or_eq_true, isModuleFile, isPackageData, Bool.and_eq_true, List.any_eq_true] at hp ⊢
  refine ⟨h hp.1, ?_⟩
  rcases hp.2 with ⟨h1, h2⟩ | ⟨h1, e, he, h2⟩
  · exact Or.inl ⟨isPackage_mono h h1, h2⟩
  · exact Or.inr ⟨h1, e, he, isPackage_mono h h2⟩

theorem package_openntn : isPackage repoFiles ["OpenNTN"] = true := by decide +kernel
theorem package_models : isPackage repoFiles ["OpenNTN", "models"] = true := by decide +kernel
theorem package_test : isPackage repoFiles ["test"] = true := by decide +kernel

/-- The tables of the repository. -/
def tableNames : List String := (repoFiles.filter fun p => p.dropLast = ["OpenNTN", "models"] && endsIn ".json" (p.getLastD "")).map (·.getLastD "")

theorem installed_tables : ∀ n ∈ tableNames, modelsPath n ∈ installed repoFiles := by decide +kernel

/-- C190: every module of the package is installed where it is looked up, whatever other files lie in the checkout. -/
theorem C190_modules {files : List (List String)} (h : repoFiles ⊆ files) (f : PyFile) :
    f.path ∈ installed files ∧ f.path = if f = .models then ["OpenNTN", "models", "__init__.py"] else ["OpenNTN", f.name ++ ".py"] := by
  have : ∀ f ∈ PyFile.init :: PyFile.submodules, f.path ∈ installed repoFiles ∧
      f.path = if f = .models then ["OpenNTN", "models", "__init__.py"] else ["OpenNTN", f.name ++ ".py"] := by decide +kernel
  obtain ⟨h1, h2⟩ := this f (by cases f <;> decide)
  exact ⟨installed_mono h h1, h2⟩

theorem fileName_mem (cls : ScenarioClass) (l s u : Bool) : Spec.fileName (scenarioPrefix cls) l s u ∈ tableNames := by
  cases cls <;> cases l <;> cases s <;> cases u <;> decide +kernel

/-- C190: every scenario that can be constructed opens two files, and both are installed. -/
theorem C190_scenarios {files : List (List String)} (h : repoFiles ⊆ files) {cls : ScenarioClass} {a : ScenarioArgs} {c : Config}
    (hc : mkScenario cls a = .ok c) :
    ∃ los nlos, losFile cls a.direction a.carrierFrequency = .ok los ∧ nlosFile cls a.direction a.carrierFrequency = .ok nlos ∧
      modelsPath los ∈ installed files ∧ modelsPath nlos ∈ installed files := by
  obtain ⟨s, u, -, -, -, h1, h2, -⟩ := C07_parameter_file hc
  exact ⟨_, _, h1, h2, installed_mono h (installed_tables _ (fileName_mem ..)), installed_mono h (installed_tables _ (fileName_mem ..))⟩

/-- C190: every TDL model that can be constructed opens a file that is installed, and it is the table named after the model. -/
theorem C190_tdl {files : List (List String)} (h : repoFiles ⊆ files) {a : TdlArgs} {t : Tdl} (ht : tdlInit a = .ok t) :
    tdlFileName a.model = some ("TDL-" ++ a.model ++ ".json") ∧ modelsPath ("TDL-" ++ a.model ++ ".json") ∈ installed files := by
  have hm : a.model ∈ ["A", "B", "C", "D", "A30", "B100", "C300"] := by
    by_contra hn
    simp only [List.mem_cons, List.not_mem_nil, or_false, not_or] at hn
    obtain ⟨h1, h2, h3, h4, h5, h6, h7⟩ := hn
    unfold tdlInit tdlFile at ht
    simp only [h1, h2, h3, h4, h5, h6, h7, if_false] at ht
    split_ifs at ht <;> simp [bind, Except.bind] at ht
  have key : ∀ m ∈ ["A", "B", "C", "D", "A30", "B100", "C300"], tdlFileName m = some ("TDL-" ++ m ++ ".json") ∧
      modelsPath ("TDL-" ++ m ++ ".json") ∈ installed repoFiles := by decide +kernel
  exact ⟨(key _ hm).1, installed_mono h (key _ hm).2⟩

/-- C190: the same for CDL models. -/
theorem C190_cdl {files : List (List String)} (h : repoFiles ⊆ files) {a : CdlArgs} {t : Cdl} (ht : cdlInit a = .ok t) :
    cdlFileName a.model = some ("CDL-" ++ a.model ++ ".json") ∧ modelsPath ("CDL-" ++ a.model ++ ".json") ∈ installed files := by
  have hm : a.model ∈ ["A", "B", "C", "D"] := by
    by_contra hn
    simp only [List.mem_cons, List.not_mem_nil, or_false, not_or] at hn
    obtain ⟨h1, h2, h3, h4⟩ := hn
    unfold cdlInit cdlFile at ht
    simp only [h1, h2, h3, h4, if_false] at ht
    split_ifs at ht <;> simp [bind, Except.bind] at ht
  have key : ∀ m ∈ ["A", "B", "C", "D"], cdlFileName m = some ("CDL-" ++ m ++ ".json") ∧
      modelsPath ("CDL-" ++ m ++ ".json") ∈ installed repoFiles := by decide +kernel
  exact ⟨(key _ hm).1, installed_mono h (key _ hm).2⟩

/-- The full statement of the second part of C190: only the package is installed. -/
def C190_only_statement : Prop := ∀ p ∈ installed repoFiles, ∃ rest, p = "OpenNTN" :: rest

/-- C190 fails: the tests are installed as a package `test` of their own. -/
theorem C190_only_violated : ¬ C190_only_statement := by
  intro H
  obtain ⟨rest, h⟩ := H ["test", "step_1_test.py"] (by decide +kernel)
  simp at h

/-- C190, what holds: outside of the package only the Python files directly in `test` are installed. Missing: that these are not installed, see
`C190_only_violated`. -/
theorem C190_only_partial {p : List String} (h : p ∈ installed repoFiles) :
    (∃ rest, p = "OpenNTN" :: rest) ∨ ∃ name, p = ["test", name ++ ".py"] := by
  have key : ∀ p ∈ installed repoFiles, p.head? = some "OpenNTN" ∨
      p ∈ (["Link_Budget_test", "__init__", "coupling_loss_test", "generate_test_coverage", "step_10_test", "step_11_test", "step_12_test", "step_1_test",
        "step_2_test", "step_3_test", "step_4_1_test", "step_4_2_test", "step_4_3_test", "step_5_test", "step_6_test", "step_7_test", "step_8_test",
        "step_9_test"].map fun n => ["test", n ++ ".py"]) := by decide +kernel
  rcases key p h with h1 | h1
  · left
    cases p with
    | nil => simp at h1
    | cons x xs => simp only [List.head?_cons, Option.some.injEq] at h1; exact ⟨xs, by rw [h1]⟩
  · right
    obtain ⟨n, -, rfl⟩ := List.mem_map.1 h1
    exact ⟨n, rfl⟩

/-- The hypothesis is met by the repository itself, and by one with leftovers. -/
example : repoFiles ⊆ repoFiles ∧ repoFiles ⊆ ["OpenNTN", "old.py"] :: repoFiles := ⟨fun _ h => h, fun _ h => List.mem_cons_of_mem _ h⟩

/-- A table that no constructor opens is installed as well; a notebook is not. -/
example : ["OpenNTN", "models", "bessel.npy"] ∈ installed repoFiles ∧ ["example", "BER_sims.ipynb"] ∈ repoFiles ∧
    ["example", "BER_sims.ipynb"] ∉ installed repoFiles := by decide +kernel

end OpenNTN
