import Verif.Model.Imports
import Verif.Model.Install

/-
The installation scripts /repo/install.sh and /repo/install_legacy.sh, as their effect on the files of the machine.
-/
namespace OpenNTN

/-- An absolute path, by components. -/
abbrev FilePath := List String

/-- What a path can name. Links are absolute. -/
inductive Node where
  | dir
  | file (content : List Char)
  | link (target : FilePath)
deriving DecidableEq

/-- Files of a machine. Simplification: only the last component of a path that is looked up may be a link; links made below a link are entered at the place
the link points to. -/
abbrev Disk := FilePath → Option Node

def Disk.set (d : Disk) (p : FilePath) (x : Option Node) : Disk := fun q => if q = p then x else d q

/-- Following links, at most `n` of them. -/
def Disk.real (d : Disk) : ℕ → FilePath → Option FilePath
  | 0, _ => none
  | n + 1, p => match d p with
    | some (.link t) => d.real n t
    | some _ => some p
    | none => none

/-- The system follows at most 40 links. -/
def Disk.resolve (d : Disk) (p : FilePath) : Option FilePath := d.real 41 p

/-- `ln -s target name`, install.sh 19: if the name is a directory, or a link to one, the link is made inside of it and called like the target, otherwise it is made
under the name. It fails if there is something with that name already, or the directory of the link does not exist. -/
def Disk.ln (d : Disk) (target name : FilePath) : Except Err Disk :=
  let place := match d.resolve name with
    | some p => if d p = some .dir then p ++ [target.getLastD ""] else name
    | none => name
  if d place ≠ none then .error .invalidArgument
  else if (d.resolve place.dropLast).bind d = some .dir then .ok (d.set place (some (.link target)))
  else .error .fileNotFound

/-- `pip show ... | grep Location | cut -d' ' -f2`, install.sh 17-18: the second field of `Location: <path>` ends at the first space of the path.
Simplification: paths have no tabs, line breaks or characters that the shell expands. -/
def cutLocation : FilePath → FilePath
  | [] => []
  | c :: cs =>
    if ' ' ∈ c.toList then
      let start := c.toList.takeWhile (· ≠ ' ')
      if start = [] then [] else [String.ofList start]
    else c :: cutLocation cs

/-- Directory of Sionna's channel package: install.sh 19, post_install.py 14; install_legacy.sh 19, post_install_legacy.py 14. -/
def channelDir (legacy : Bool) : FilePath := if legacy then ["sionna", "channel"] else ["sionna", "phy", "channel"]

/-- Name of the downloaded file, install.sh 9-10 (`basename` of the URL), install_legacy.sh 9-10. -/
def downloadName (legacy : Bool) : String := if legacy then "post_install_legacy.py" else "post_install.py"

/-- install.sh 6-22, executed in the directory `cwd`; `openntn` and `sionna` are the directories in which pip has installed the two packages. Line 6 (pip) and the
content of the downloaded file are taken as given. A command that fails is skipped, as the script goes on. -/
def installScript (legacy : Bool) (cwd openntn sionna : FilePath) (downloaded : List Char) (d : Disk) : Disk :=
  let tmp := cwd ++ [downloadName legacy]
  /- 11 -/
  let d := d.set tmp (some (.file downloaded))
  /- 14, post_install.py 12-40; the location comes from pkg_resources and is complete -/
  let init := sionna ++ channelDir legacy ++ ["__init__.py"]
  let d := match d init with
    | some (.file c) => d.set init (some (.file (modifyVanilla c)))
    | _ => d
  /- 17-19 -/
  let d := match d.ln (cutLocation openntn ++ ["OpenNTN"]) (cutLocation sionna ++ channelDir legacy ++ ["tr38811"]) with
    | .ok d' => d'
    | .error _ => d
  /- 22 -/
  d.set tmp none

/-- What Python finds on the machine. -/
def Disk.python (d : Disk) (openntn sionna : FilePath) (early : SionnaModule → String → Bool) : PyInstall where
  linked := d.resolve (sionna ++ channelDir false ++ ["tr38811"]) = some (openntn ++ ["OpenNTN"])
  hooked := match d (sionna ++ channelDir false ++ ["__init__.py"]) with
    | some (.file c) => (readLines (universalNewlines c)).any fun l => l = lineToAdd ++ ['\n'] ∨ l = lineToAdd
    | _ => false
  early := early

end OpenNTN
