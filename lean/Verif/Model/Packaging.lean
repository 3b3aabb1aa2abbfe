import Verif.Model.Imports
import Verif.Model.Scenario
import Verif.Model.Tdl
import Verif.Model.Cdl

/-
What `pip` installs from the repository: /repo/setup.py and /repo/MANIFEST.in, and the files that the package opens.
-/
namespace OpenNTN

/-- Files of the repository, /repo, by components of their paths. Left out: hidden files and directories (`.git`, `.coverage`, `.ipynb_checkpoints`) and
`__pycache__`. -/
def repoFiles : List (List String) :=
  ["LICENSE", "MANIFEST.in", "README.md", "install.sh", "install_legacy.sh", "post_install.py", "post_install_legacy.py", "pyproject.toml",
      "requirements.txt", "setup.py"].map (fun f => [f])
    ++ ["__init__.py", "antenna.py", "cdl.py", "channel_coefficients.py", "dense_urban.py", "dense_urban_scenario.py", "lsp.py", "rays.py",
      "sub_urban.py", "sub_urban_scenario.py", "system_level_channel.py", "system_level_scenario.py", "tdl.py", "urban.py", "urban_scenario.py",
      "utils.py"].map (fun f => ["OpenNTN", f])
    ++ ["CDL-A.json", "CDL-B.json", "CDL-C.json", "CDL-D.json", "Dense_Urban_LOS_Ka_band_DL.json", "Dense_Urban_LOS_Ka_band_UL.json",
      "Dense_Urban_LOS_S_band_DL.json", "Dense_Urban_LOS_S_band_UL.json", "Dense_Urban_NLOS_Ka_band_DL.json", "Dense_Urban_NLOS_Ka_band_UL.json",
      "Dense_Urban_NLOS_S_band_DL.json", "Dense_Urban_NLOS_S_band_UL.json", "Sub_Urban_LOS_Ka_band_DL.json", "Sub_Urban_LOS_Ka_band_UL.json",
      "Sub_Urban_LOS_S_band_DL.json", "Sub_Urban_LOS_S_band_UL.json", "Sub_Urban_NLOS_Ka_band_DL.json", "Sub_Urban_NLOS_Ka_band_UL.json",
      "Sub_Urban_NLOS_S_band_DL.json", "Sub_Urban_NLOS_S_band_UL.json", "TDL-A.json", "TDL-A30.json", "TDL-B.json", "TDL-B100.json", "TDL-C.json",
      "TDL-C300.json", "TDL-D.json", "Urban_LOS_Ka_band_DL.json", "Urban_LOS_Ka_band_UL.json", "Urban_LOS_S_band_DL.json", "Urban_LOS_S_band_UL.json",
      "Urban_NLOS_Ka_band_DL.json", "Urban_NLOS_Ka_band_UL.json", "Urban_NLOS_S_band_DL.json", "Urban_NLOS_S_band_UL.json", "__init__.py",
      "bessel.json", "bessel.npy", "bessel_int.json", "pseudo_model.json"].map (fun f => ["OpenNTN", "models", f])
    ++ ["BER_sims.ipynb", "Example_NTN_sim.pkl", "ML_based_SIMO_receiver.ipynb", "channel_response.ipynb"].map (fun f => ["example", f])
    ++ ["Link_Budget_test.py", "__init__.py", "coupling_loss_test.py", "generate_test_coverage.py", "step_10_test.py", "step_11_test.py",
      "step_12_test.py", "step_1_test.py", "step_2_test.py", "step_3_test.py", "step_4_1_test.py", "step_4_2_test.py", "step_4_3_test.py",
      "step_5_test.py", "step_6_test.py", "step_7_test.py", "step_8_test.py", "step_9_test.py"].map (fun f => ["test", f])

/-- A name with the given ending, as matched by `*.json` and the like. -/
def endsIn (ending name : String) : Bool := ending.toList.isSuffixOf name.toList

/-- `find_packages()`, setup.py 12: a directory is a package if it and all directories above it, below the root of the repository, contain an
`__init__.py` and have no dot in their names. -/
def isPackage (files : List (List String)) (d : List String) : Bool :=
  d ≠ [] && d.inits.all fun e => e = [] || (files.contains (e ++ ["__init__.py"]) && !(e.getLastD "").toList.contains '.')

/-- MANIFEST.in 1, `recursive-include OpenNTN *.csv *.npy *.json *.xml *.ply`. -/
def manifestIncludes (p : List String) : Bool :=
  p.head? = some "OpenNTN" && 2 ≤ p.length && [".csv", ".npy", ".json", ".xml", ".ply"].any (endsIn · (p.getLastD ""))

/-- MANIFEST.in 3, `prune test`. -/
def manifestPrunes (p : List String) : Bool := p.head? = some "test"

/-- The Python files of the packages (setuptools takes all of them, whatever MANIFEST.in says). -/
def isModuleFile (files : List (List String)) (p : List String) : Bool := isPackage files p.dropLast && endsIn ".py" (p.getLastD "")

/-- `include_package_data=True`, setup.py 24: the files selected by MANIFEST.in that lie in a package, or below one. -/
def isPackageData (files : List (List String)) (p : List String) : Bool :=
  manifestIncludes p && !manifestPrunes p && p.dropLast.inits.any (isPackage files)

/-- What `pip install git+...` (install.sh 6) writes to the directory of installed packages, from a checkout with the given files. Simplifications: the metadata
directory of the distribution and compiled files are left out; the checkout has no list of files left by an earlier build; a wheel is built from the checkout, not
from a source distribution. -/
def installed (files : List (List String)) : List (List String) :=
  files.filter fun p => isModuleFile files p || isPackageData files p

/-- `files(models).joinpath(fname)`, system_level_scenario.py 890 and 905, tdl.py 610, cdl.py 435: the directory of `models/__init__.py`. -/
def modelsPath (fname : String) : List String := ["OpenNTN", "models", fname]

/-- Path of the file of a module of the package. -/
def PyFile.path : PyFile → List String
  | .init => ["OpenNTN", "__init__.py"]
  | .models => ["OpenNTN", "models", "__init__.py"]
  | f => ["OpenNTN", f.name ++ ".py"]

/-- tdl.py 264-286, the name of the file; no branch assigns one for "E". -/
def tdlFileName (model : String) : Option String :=
  if model = "A" then some "TDL-A.json"
  else if model = "B" then some "TDL-B.json"
  else if model = "C" then some "TDL-C.json"
  else if model = "D" then some "TDL-D.json"
  else if model = "A30" then some "TDL-A30.json"
  else if model = "B100" then some "TDL-B100.json"
  else if model = "C300" then some "TDL-C300.json"
  else none

/-- cdl.py 254-262, the name of the file. -/
def cdlFileName (model : String) : Option String :=
  if model = "A" then some "CDL-A.json"
  else if model = "B" then some "CDL-B.json"
  else if model = "C" then some "CDL-C.json"
  else if model = "D" then some "CDL-D.json"
  else none

end OpenNTN
