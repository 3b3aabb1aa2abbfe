import Mathlib.Data.List.Infix

/-
The post-install step: /repo/post_install.py; post_install_legacy.py 8-45 differs only in the directory of the file.
-/
namespace OpenNTN

/-- `line_to_add`, post_install.py 17. -/
def lineToAdd : List Char := "from . import tr38811".toList

/-- `preceding_line`, post_install.py 18. -/
def precedingLine : List Char := "from . import tr38901".toList

/-- Text mode reading (post_install.py 20, `open(..., 'r')`): `\r\n` and `\r` become `\n`. -/
def universalNewlines : List Char → List Char
  | [] => []
  | '\r' :: '\n' :: cs => '\n' :: universalNewlines cs
  | '\r' :: cs => '\n' :: universalNewlines cs
  | c :: cs => c :: universalNewlines cs

/-- `file.readlines()`, post_install.py 21: lines keep their terminator, the last one may lack it. -/
def readLines : List Char → List (List Char)
  | [] => []
  | c :: cs =>
    if c = '\n' then ['\n'] :: readLines cs
    else match readLines cs with
      | [] => [[c]]
      | l :: ls => (c :: l) :: ls

/-- The loop of post_install.py 27-31: index after the first line that contains the text, if there is one. -/
def insertIndex (pat : List Char) : List (List Char) → Option ℕ
  | [] => none
  | l :: ls => if pat <:+: l then some 1 else (insertIndex pat ls).map (· + 1)

/-- `modify_vanilla_sionna`, post_install.py 8-45, as the effect on the content of the init file of the framework's channel package. Printing is
left out. Simplification: the file exists and can be read and written; otherwise the exception is caught (line 44) and nothing changes. The
file is encoded so that every character can be read back. -/
def modifyVanilla (content : List Char) : List Char :=
  let lines := readLines (universalNewlines content)
  let present := lines.any fun l => decide (lineToAdd <:+: l)
  let index := if present then none else insertIndex precedingLine lines
  match index with
  | some i => ((lines.take i) ++ [lineToAdd ++ ['\n']] ++ lines.drop i).flatten
  | none => content

end OpenNTN
