import Verif.Model.InstallScript
import Verif.Props.Imports
import Verif.Props.Install

/-
C174: Sionna and the package can be imported after installation. C175: what the installation script changes, and running it again.
-/
namespace OpenNTN

open Spec

/-- A machine on which pip has installed both packages and which has no module `tr38811` yet. -/
structure Spec.Prepared (legacy : Bool) (d : Disk) (openntn sionna : FilePath) : Prop where
  package : d (openntn ++ ["OpenNTN"]) = some .dir
  channel : d (sionna ++ channelDir legacy) = some .dir
  init : ∃ c, d (sionna ++ channelDir legacy ++ ["__init__.py"]) = some (.file c)
  free : d (sionna ++ channelDir legacy ++ ["tr38811"]) = none

/-- No component of a path has a space. -/
def Spec.noSpace (p : FilePath) : Prop := ∀ c ∈ p, ' ' ∉ c.toList

theorem cutLocation_id : ∀ {p : FilePath}, noSpace p → cutLocation p = p
  | [], _ => rfl
  | c :: cs, h => by
    rw [cutLocation, if_neg (h c (by simp)), cutLocation_id fun c' hc' => h c' (by simp [hc'])]

theorem cut_noSpace : ∀ p : FilePath, noSpace (cutLocation p)
  | [] => fun c hc => by cases hc
  | c :: cs => by
    rw [cutLocation]
    split_ifs with h1
    · dsimp only
      split_ifs
      · intro x hx; cases hx
      · intro x hx
        rw [List.mem_singleton.1 hx, String.toList_ofList]
        intro h
        have := List.all_eq_true.1 List.all_takeWhile _ h
        simp at this
    · intro x hx
      rcases List.mem_cons.1 hx with rfl | hx
      · exact h1
      · exact cut_noSpace cs x hx

theorem resolve_link {d : Disk} {p t : FilePath} (h1 : d p = some (.link t)) (h2 : d t = some .dir) : d.resolve p = some t := by
  rw [Disk.resolve, Disk.real, h1]
  simp only
  rw [Disk.real, h2]

theorem last_ne {p q : FilePath} {a b : String} (h : a ≠ b) : p ++ [a] ≠ q ++ [b] := by
  intro e
  have := congrArg (fun l : FilePath => l.getLast?) e
  simp at this
  exact h this

theorem download_ne (legacy : Bool) : downloadName legacy ≠ "__init__.py" ∧ downloadName legacy ≠ "tr38811" ∧ downloadName legacy ≠ "OpenNTN" ∧
    downloadName legacy ≠ "channel" := by
  cases legacy <;> decide

theorem channelDir_last (legacy : Bool) : ∃ a, channelDir legacy = a ++ ["channel"] := by
  cases legacy
  · exact ⟨["sionna", "phy"], rfl⟩
  · exact ⟨["sionna"], rfl⟩

/-- What one run of the script does where the link does not exist yet. -/
theorem script_first {legacy : Bool} {cwd openntn sionna : FilePath} (downloaded : List Char) {d : Disk} (hp : Prepared legacy d openntn sionna)
    (h1 : noSpace openntn) (h2 : noSpace sionna) {c : List Char} (hc : d (sionna ++ channelDir legacy ++ ["__init__.py"]) = some (.file c)) :
    installScript legacy cwd openntn sionna downloaded d = fun q =>
      if q = cwd ++ [downloadName legacy] then none
      else if q = sionna ++ channelDir legacy ++ ["tr38811"] then some (.link (openntn ++ ["OpenNTN"]))
      else if q = sionna ++ channelDir legacy ++ ["__init__.py"] then some (.file (modifyVanilla c)) else d q := by
  obtain ⟨n1, n2, n3, n4⟩ := download_ne legacy
  obtain ⟨a, ha⟩ := channelDir_last legacy
  have i1 : sionna ++ channelDir legacy ++ ["__init__.py"] ≠ cwd ++ [downloadName legacy] := last_ne n1.symm
  have i2 : sionna ++ channelDir legacy ++ ["tr38811"] ≠ cwd ++ [downloadName legacy] := last_ne n2.symm
  have i3 : sionna ++ channelDir legacy ++ ["tr38811"] ≠ sionna ++ channelDir legacy ++ ["__init__.py"] := last_ne (by decide)
  have i4 : sionna ++ channelDir legacy ≠ cwd ++ [downloadName legacy] := by rw [ha, ← List.append_assoc]; exact last_ne n4.symm
  have i5 : sionna ++ channelDir legacy ≠ sionna ++ channelDir legacy ++ ["__init__.py"] := by simp
  have e1 : (d.set (cwd ++ [downloadName legacy]) (some (.file downloaded))) (sionna ++ channelDir legacy ++ ["__init__.py"]) = some (.file c) := by
    rw [Disk.set, if_neg i1, hc]
  simp only [installScript, cutLocation_id h1, cutLocation_id h2, e1]
  generalize hd : (d.set (cwd ++ [downloadName legacy]) (some (.file downloaded))).set (sionna ++ channelDir legacy ++ ["__init__.py"])
    (some (.file (modifyVanilla c))) = d'
  have f1 : d' (sionna ++ channelDir legacy ++ ["tr38811"]) = none := by
    rw [← hd, Disk.set, if_neg i3, Disk.set, if_neg i2, hp.free]
  have f2 : d' (sionna ++ channelDir legacy) = some .dir := by
    rw [← hd, Disk.set, if_neg i5, Disk.set, if_neg i4, hp.channel]
  have hln : d'.ln (openntn ++ ["OpenNTN"]) (sionna ++ channelDir legacy ++ ["tr38811"]) =
      .ok (d'.set (sionna ++ channelDir legacy ++ ["tr38811"]) (some (.link (openntn ++ ["OpenNTN"])))) := by
    have r1 : d'.resolve (sionna ++ channelDir legacy ++ ["tr38811"]) = none := by rw [Disk.resolve, Disk.real, f1]
    have r2 : d'.resolve (sionna ++ channelDir legacy) = some (sionna ++ channelDir legacy) := by rw [Disk.resolve, Disk.real, f2]
    simp only [Disk.ln, r1]
    rw [if_neg (by rw [f1]; simp), if_pos (by rw [List.dropLast_concat, r2]; exact f2)]
  rw [hln]
  funext q
  simp only [Disk.set, ← hd]
  split_ifs <;> rfl

/-- What a run of the script does where the link exists. -/
theorem script_again {legacy : Bool} {cwd openntn sionna : FilePath} (downloaded : List Char) {d : Disk} (h1 : noSpace openntn) (h2 : noSpace sionna)
    {c : List Char} (hc : d (sionna ++ channelDir legacy ++ ["__init__.py"]) = some (.file c)) (hm : modifyVanilla c = c)
    (hl : d (sionna ++ channelDir legacy ++ ["tr38811"]) = some (.link (openntn ++ ["OpenNTN"]))) (ht : d (openntn ++ ["OpenNTN"]) = some .dir) :
    installScript legacy cwd openntn sionna downloaded d = fun q =>
      if q = cwd ++ [downloadName legacy] then none
      else if q = openntn ++ ["OpenNTN"] ++ ["OpenNTN"] ∧ d q = none then some (.link (openntn ++ ["OpenNTN"])) else d q := by
  obtain ⟨n1, n2, n3, n4⟩ := download_ne legacy
  have i1 : sionna ++ channelDir legacy ++ ["__init__.py"] ≠ cwd ++ [downloadName legacy] := last_ne n1.symm
  have i2 : sionna ++ channelDir legacy ++ ["tr38811"] ≠ cwd ++ [downloadName legacy] := last_ne n2.symm
  have i3 : openntn ++ ["OpenNTN"] ≠ cwd ++ [downloadName legacy] := last_ne n3.symm
  have i4 : openntn ++ ["OpenNTN"] ++ ["OpenNTN"] ≠ cwd ++ [downloadName legacy] := last_ne n3.symm
  have e1 : (d.set (cwd ++ [downloadName legacy]) (some (.file downloaded))) (sionna ++ channelDir legacy ++ ["__init__.py"]) = some (.file c) := by
    rw [Disk.set, if_neg i1, hc]
  simp only [installScript, cutLocation_id h1, cutLocation_id h2, e1, hm]
  generalize hd : (d.set (cwd ++ [downloadName legacy]) (some (.file downloaded))).set (sionna ++ channelDir legacy ++ ["__init__.py"])
    (some (.file c)) = d'
  have f0 : ∀ q, q ≠ cwd ++ [downloadName legacy] → d' q = d q := by
    intro q hq
    rw [← hd, Disk.set, Disk.set]
    split_ifs with h
    · rw [h, hc]
    · rfl
  have hres : d'.resolve (sionna ++ channelDir legacy ++ ["tr38811"]) = some (openntn ++ ["OpenNTN"]) := by
    rw [Disk.resolve, Disk.real, f0 _ i2, hl]
    simp only
    rw [Disk.real, f0 _ i3, ht]
  have hres' : d'.resolve (openntn ++ ["OpenNTN"]) = some (openntn ++ ["OpenNTN"]) := by
    rw [Disk.resolve, Disk.real, f0 _ i3, ht]
  have hln : d'.ln (openntn ++ ["OpenNTN"]) (sionna ++ channelDir legacy ++ ["tr38811"]) =
      if d (openntn ++ ["OpenNTN"] ++ ["OpenNTN"]) = none then
        .ok (d'.set (openntn ++ ["OpenNTN"] ++ ["OpenNTN"]) (some (.link (openntn ++ ["OpenNTN"])))) else .error .invalidArgument := by
    have hlast : (openntn ++ ["OpenNTN"]).getLastD "" = "OpenNTN" := by simp [List.getLastD_eq_getLast?]
    simp only [Disk.ln, hres, f0 _ i3, ht, if_true, hlast, f0 _ i4]
    by_cases h : d (openntn ++ ["OpenNTN"] ++ ["OpenNTN"]) = none
    · rw [if_neg (by simpa using h), List.dropLast_concat, hres', if_pos (by simp only [Option.bind_some, f0 _ i3, ht]), if_pos h]
    · rw [if_pos h, if_neg h]
  rw [hln]
  by_cases h : d (openntn ++ ["OpenNTN"] ++ ["OpenNTN"]) = none
  · rw [if_pos h]
    funext q
    simp only [Disk.set]
    by_cases hq : q = cwd ++ [downloadName legacy]
    · rw [if_pos hq, if_pos hq]
    · rw [if_neg hq, if_neg hq, f0 q hq]
      by_cases hq' : q = openntn ++ ["OpenNTN"] ++ ["OpenNTN"]
      · rw [if_pos hq', if_pos ⟨hq', by rw [hq']; exact h⟩]
      · rw [if_neg hq', if_neg fun h => hq' h.1]
  · rw [if_neg h]
    funext q
    simp only [Disk.set]
    by_cases hq : q = cwd ++ [downloadName legacy]
    · rw [if_pos hq, if_pos hq]
    · rw [if_neg hq, if_neg hq, f0 q hq, if_neg]
      rintro ⟨rfl, hq'⟩
      exact h hq'

/-- C174. After the script, on any prepared machine, Sionna and the package can be imported if Sionna has the names the package needs. -/
def C174_statement : Prop :=
  ∀ (cwd openntn sionna : FilePath) (downloaded : List Char) (d : Disk) (early : SionnaModule → String → Bool), Prepared false d openntn sionna →
    (∀ q ∈ sionnaNames, early q.1 q.2 = true) →
    ∃ s, Session ((installScript false cwd openntn sionna downloaded d).python openntn sionna early) [.load (.tr38811, .init), .loadSionna] s

/-- C174, what holds: the claim, if there are no spaces in the directories in which pip installs. With a space in that of Sionna there is no link,
and nothing of Sionna can be imported any more if the line has been inserted. -/
theorem C174_location_partial (cwd openntn sionna : FilePath) (downloaded : List Char) (d : Disk) (early : SionnaModule → String → Bool)
    (hp : Prepared false d openntn sionna) :
    (noSpace openntn → noSpace sionna → (∀ q ∈ sionnaNames, early q.1 q.2 = true) →
      ∃ s, Session ((installScript false cwd openntn sionna downloaded d).python openntn sionna early) [.load (.tr38811, .init), .loadSionna] s) ∧
    (¬ noSpace sionna → ((installScript false cwd openntn sionna downloaded d).python openntn sionna early).linked = false ∧
      (((installScript false cwd openntn sionna downloaded d).python openntn sionna early).hooked = true →
        ∀ l s, Session ((installScript false cwd openntn sionna downloaded d).python openntn sionna early) l s → l = [])) := by
  obtain ⟨c, hc⟩ := hp.init
  obtain ⟨n1, n2, n3, n4⟩ := download_ne false
  refine ⟨fun h1 h2 hq => ?_, fun hs => ?_⟩
  · have hl : ((installScript false cwd openntn sionna downloaded d).python openntn sionna early).linked = true := by
      simp only [Disk.python, decide_eq_true_eq]
      refine resolve_link ?_ ?_
      · rw [script_first downloaded hp h1 h2 hc]
        beta_reduce
        rw [if_neg (last_ne n2.symm), if_pos rfl]
      · rw [script_first downloaded hp h1 h2 hc]
        beta_reduce
        rw [if_neg (last_ne n3.symm), if_neg (last_ne (by decide)), if_neg (last_ne (by decide)), hp.package]
    refine ((C171_imports _ hl).1 _ ?_).2 fun _ _ => hq
    decide
  · have hl : ((installScript false cwd openntn sionna downloaded d).python openntn sionna early).linked = false := by
      have hcut : cutLocation sionna ≠ sionna := fun e => hs (e ▸ cut_noSpace sionna)
      have hnone : installScript false cwd openntn sionna downloaded d (sionna ++ channelDir false ++ ["tr38811"]) = none := by
        simp only [installScript]
        rw [Disk.set, if_neg (last_ne n2.symm)]
        have i1 : sionna ++ channelDir false ++ ["__init__.py"] ≠ cwd ++ [downloadName false] := last_ne n1.symm
        have e1 : (d.set (cwd ++ [downloadName false]) (some (.file downloaded))) (sionna ++ channelDir false ++ ["__init__.py"]) = some (.file c) := by
          rw [Disk.set, if_neg i1, hc]
        simp only [e1]
        generalize hd : (d.set (cwd ++ [downloadName false]) (some (.file downloaded))).set (sionna ++ channelDir false ++ ["__init__.py"])
          (some (.file (modifyVanilla c))) = d'
        have f1 : d' (sionna ++ channelDir false ++ ["tr38811"]) = none := by
          rw [← hd, Disk.set, if_neg (last_ne (by decide)), Disk.set, if_neg (last_ne n2.symm), hp.free]
        have key : ∀ d'', d'.ln (cutLocation openntn ++ ["OpenNTN"]) (cutLocation sionna ++ channelDir false ++ ["tr38811"]) = .ok d'' →
            d'' (sionna ++ channelDir false ++ ["tr38811"]) = none := by
          intro d'' h
          have hne : cutLocation sionna ++ channelDir false ++ ["tr38811"] ≠ sionna ++ channelDir false ++ ["tr38811"] := by
            simpa using hcut
          have hlast : (cutLocation openntn ++ ["OpenNTN"]).getLastD "" = "OpenNTN" := by simp [List.getLastD_eq_getLast?]
          simp only [Disk.ln, hlast] at h
          have hplace : ∀ place : FilePath, place ≠ sionna ++ channelDir false ++ ["tr38811"] →
              (if d' place ≠ none then Except.error Err.invalidArgument
                else if (d'.resolve place.dropLast).bind d' = some .dir then
                  .ok (d'.set place (some (.link (cutLocation openntn ++ ["OpenNTN"])))) else .error .fileNotFound) = Except.ok d'' →
              d'' (sionna ++ channelDir false ++ ["tr38811"]) = none := by
            intro place hpl h
            split_ifs at h
            obtain rfl := Except.ok.inj h
            rw [Disk.set, if_neg hpl.symm, f1]
          refine hplace _ ?_ h
          split
          · split_ifs
            · exact last_ne (by decide)
            · exact hne
          · exact hne
        cases h : d'.ln (cutLocation openntn ++ ["OpenNTN"]) (cutLocation sionna ++ channelDir false ++ ["tr38811"]) with
        | ok d'' => exact key _ h
        | error e => exact f1
      have hr : (installScript false cwd openntn sionna downloaded d).resolve (sionna ++ channelDir false ++ ["tr38811"]) = none := by
        rw [Disk.resolve, Disk.real, hnone]
      simp only [Disk.python, hr]
      simp
    exact ⟨hl, fun hh l s hs => ((C173_link_partial _).1 hl l s hs).2 hh⟩

/-- A machine on which pip has installed both packages in the given directory. -/
def exDisk (site : FilePath) : Disk := fun q =>
  if q = site ++ ["OpenNTN"] ∨ q = site ++ ["sionna", "phy", "channel"] then some .dir
  else if q = site ++ ["sionna", "phy", "channel", "__init__.py"] then some (.file "from . import tr38901\n".toList)
  else none

theorem exDisk_prepared (site : FilePath) : Prepared false (exDisk site) site site := by
  have e1 : site ++ ["sionna", "phy", "channel", "__init__.py"] ≠ site ++ ["OpenNTN"] := by simp
  have e2 : site ++ ["sionna", "phy", "channel", "__init__.py"] ≠ site ++ ["sionna", "phy", "channel"] := by simp
  refine ⟨by simp [exDisk], by simp [exDisk, channelDir], ⟨"from . import tr38901\n".toList, ?_⟩, by simp [exDisk, channelDir]⟩
  simp [exDisk, channelDir]

/-- The code violates C174: with the packages in `/home/my user/lib`, Sionna cannot be imported after the installation. -/
theorem C174_violated : ¬ C174_statement := by
  intro h
  have hp := exDisk_prepared ["home", "my user", "lib"]
  obtain ⟨s, hs⟩ := h ["home"] _ _ [] _ (fun _ _ => true) hp fun _ _ => rfl
  have := ((C174_location_partial ["home"] _ _ [] _ (fun _ _ => true) hp).2 (by
    intro h
    exact h "my user" (by simp) (by decide))).2 (by decide +kernel) _ s hs
  cases this

/-- Machines with and without a space in the directory of the packages. -/
example : Prepared false (exDisk ["usr", "lib"]) ["usr", "lib"] ["usr", "lib"] ∧ noSpace ["usr", "lib"] ∧
    Prepared false (exDisk ["my user"]) ["my user"] ["my user"] ∧ ¬ noSpace ["my user"] := by
  refine ⟨exDisk_prepared _, ?_, exDisk_prepared _, ?_⟩
  · simp only [noSpace]; decide
  · simp only [noSpace]; decide

/-! ### C175 -/

/-- C175. The script changes nothing but the init file of Sionna's channel package and the link next to it, and running it again changes nothing. -/
def C175_statement : Prop :=
  ∀ (legacy : Bool) (cwd openntn sionna : FilePath) (downloaded : List Char) (d : Disk), Prepared legacy d openntn sionna → noSpace openntn →
    noSpace sionna →
    (∀ q, q ≠ sionna ++ channelDir legacy ++ ["__init__.py"] → q ≠ sionna ++ channelDir legacy ++ ["tr38811"] →
      installScript legacy cwd openntn sionna downloaded d q = d q) ∧
    installScript legacy cwd openntn sionna downloaded (installScript legacy cwd openntn sionna downloaded d) =
      installScript legacy cwd openntn sionna downloaded d

/-- C175, what holds. The first run makes the link and modifies the init file. It also deletes a file in the working directory that has the name of the
downloaded file. The second run makes a link to the package inside the package, if there is nothing of that name. All later runs change nothing. -/
theorem C175_runs_partial {legacy : Bool} {cwd openntn sionna : FilePath} (downloaded : List Char) {d : Disk} (hp : Prepared legacy d openntn sionna)
    (h1 : noSpace openntn) (h2 : noSpace sionna) {c : List Char} (hc : d (sionna ++ channelDir legacy ++ ["__init__.py"]) = some (.file c)) :
    let once := installScript legacy cwd openntn sionna downloaded d
    once (cwd ++ [downloadName legacy]) = none ∧
    once (sionna ++ channelDir legacy ++ ["tr38811"]) = some (.link (openntn ++ ["OpenNTN"])) ∧
    once (sionna ++ channelDir legacy ++ ["__init__.py"]) = some (.file (modifyVanilla c)) ∧
    (∀ q, q ≠ cwd ++ [downloadName legacy] → q ≠ sionna ++ channelDir legacy ++ ["__init__.py"] → q ≠ sionna ++ channelDir legacy ++ ["tr38811"] →
      once q = d q) ∧
    (d (openntn ++ ["OpenNTN", "OpenNTN"]) = none →
      (installScript legacy cwd openntn sionna downloaded)^[2] d =
        once.set (openntn ++ ["OpenNTN", "OpenNTN"]) (some (.link (openntn ++ ["OpenNTN"])))) ∧
    ∀ n, (installScript legacy cwd openntn sionna downloaded)^[n + 2] d = (installScript legacy cwd openntn sionna downloaded)^[2] d := by
  intro once
  obtain ⟨n1, n2, n3, n4⟩ := download_ne legacy
  have hf := script_first (cwd := cwd) downloaded hp h1 h2 hc
  have o1 : once (sionna ++ channelDir legacy ++ ["__init__.py"]) = some (.file (modifyVanilla c)) := by
    simp only [once]
    rw [hf]; beta_reduce; rw [if_neg (last_ne n1.symm), if_neg (last_ne (by decide)), if_pos rfl]
  have o2 : once (sionna ++ channelDir legacy ++ ["tr38811"]) = some (.link (openntn ++ ["OpenNTN"])) := by
    simp only [once]
    rw [hf]; beta_reduce; rw [if_neg (last_ne n2.symm), if_pos rfl]
  have o3 : once (openntn ++ ["OpenNTN"]) = some .dir := by
    simp only [once]
    rw [hf]; beta_reduce; rw [if_neg (last_ne n3.symm), if_neg (last_ne (by decide)), if_neg (last_ne (by decide)), hp.package]
  have o4 : once (cwd ++ [downloadName legacy]) = none := by
    simp only [once]
    rw [hf]; beta_reduce; rw [if_pos rfl]
  have hm : modifyVanilla (modifyVanilla c) = modifyVanilla c := C81_idempotent c 1
  have hcat : openntn ++ ["OpenNTN", "OpenNTN"] = openntn ++ ["OpenNTN"] ++ ["OpenNTN"] := by simp
  have t2 := script_again (cwd := cwd) downloaded h1 h2 o1 hm o2 o3
  set twice := installScript legacy cwd openntn sionna downloaded once with htwice
  have hi2 : (installScript legacy cwd openntn sionna downloaded)^[2] d = twice := rfl
  have p0 : ∀ q, q ≠ cwd ++ [downloadName legacy] → q ≠ openntn ++ ["OpenNTN"] ++ ["OpenNTN"] → twice q = once q := by
    intro q hq hq'
    rw [t2]
    simp only
    rw [if_neg hq, if_neg fun h => hq' h.1]
  have p1 := (p0 _ (last_ne n1.symm) (last_ne (by decide))).trans o1
  have p2 := (p0 _ (last_ne n2.symm) (last_ne (by decide))).trans o2
  have p3 := (p0 (openntn ++ ["OpenNTN"]) (last_ne n3.symm) (by simp)).trans o3
  have p4 : twice (openntn ++ ["OpenNTN"] ++ ["OpenNTN"]) ≠ none := by
    rw [t2]
    beta_reduce
    rw [if_neg (last_ne n3.symm)]
    split_ifs with h
    · simp
    · intro e; exact h ⟨rfl, e⟩
  have t3 := script_again (cwd := cwd) downloaded h1 h2 p1 hm p2 p3
  have fix : installScript legacy cwd openntn sionna downloaded twice = twice := by
    rw [t3]
    funext q
    by_cases hq : q = cwd ++ [downloadName legacy]
    · rw [if_pos hq, hq, t2]
      beta_reduce
      rw [if_pos rfl]
    · rw [if_neg hq, if_neg]
      rintro ⟨rfl, h⟩
      exact p4 h
  refine ⟨o4, o2, o1, fun q q1 q2 q3 => ?_, fun hn => ?_, fun n => ?_⟩
  · simp only [once]
    rw [hf]
    simp only
    rw [if_neg q1, if_neg q3, if_neg q2]
  · rw [hi2, t2]
    funext q
    rw [hcat] at hn ⊢
    rw [Disk.set]
    by_cases hq : q = cwd ++ [downloadName legacy]
    · rw [if_pos hq, if_neg (by rw [hq]; exact last_ne n3), hq, o4]
    · rw [if_neg hq]
      by_cases hq' : q = openntn ++ ["OpenNTN"] ++ ["OpenNTN"]
      · refine (if_pos ⟨hq', ?_⟩).trans (if_pos hq').symm
        rw [hq']
        simp only [once]
        rw [hf]
        simp only
        rw [if_neg (last_ne n3.symm), if_neg (last_ne (by decide)), if_neg (last_ne (by decide)), hn]
      · rw [if_neg hq', if_neg fun h => hq' h.1]
  · rw [hi2]
    induction n with
    | zero => rfl
    | succ n ih => rw [show n + 1 + 2 = (n + 2) + 1 from rfl, Function.iterate_succ_apply', ih, fix]

example : Prepared false (exDisk ["usr", "lib"]) ["usr", "lib"] ["usr", "lib"] ∧ noSpace ["usr", "lib"] ∧
    (∃ c, exDisk ["usr", "lib"] (["usr", "lib"] ++ channelDir false ++ ["__init__.py"]) = some (.file c)) ∧
    exDisk ["usr", "lib"] (["usr", "lib"] ++ ["OpenNTN", "OpenNTN"]) = none := by
  refine ⟨exDisk_prepared _, by simp only [noSpace]; decide, (exDisk_prepared _).init, ?_⟩
  simp [exDisk]

/-- The code violates C175: the second run makes a link inside the package. -/
theorem C175_violated : ¬ C175_statement := by
  intro h
  have h1 : noSpace ["lib"] := by simp only [noSpace]; decide
  have hp := exDisk_prepared ["lib"]
  have h2 := (h false ["home"] ["lib"] ["lib"] [] _ hp h1 h1).2
  have hc : exDisk ["lib"] (["lib"] ++ channelDir false ++ ["__init__.py"]) = some (.file "from . import tr38901\n".toList) := by
    decide
  obtain ⟨-, -, -, h4, h5, -⟩ := C175_runs_partial (cwd := ["home"]) [] hp h1 h1 hc
  have h5 := h5 (by decide)
  have e := congrFun (h5.symm.trans h2) (["lib"] ++ ["OpenNTN", "OpenNTN"])
  rw [Disk.set, if_pos rfl, h4 _ (by decide) (by decide) (by decide)] at e
  revert e
  decide

/-- The code violates C175 also in what it changes: a file of the user in the working directory is lost. -/
theorem C175_violated_files : ¬ ∀ (legacy : Bool) (cwd openntn sionna : FilePath) (downloaded : List Char) (d : Disk), Prepared legacy d openntn sionna →
    noSpace openntn → noSpace sionna → ∀ q, q ≠ sionna ++ channelDir legacy ++ ["__init__.py"] → q ≠ sionna ++ channelDir legacy ++ ["tr38811"] →
      installScript legacy cwd openntn sionna downloaded d q = d q := by
  intro h
  have h1 : noSpace ["lib"] := by simp only [noSpace]; decide
  have hp : Prepared false ((exDisk ["lib"]).set ["home", "post_install.py"] (some (.file []))) ["lib"] ["lib"] :=
    ⟨by decide, by decide, ⟨_, rfl⟩, by decide⟩
  have h2 := h false ["home"] ["lib"] ["lib"] [] _ hp h1 h1 ["home", "post_install.py"] (by decide) (by decide)
  obtain ⟨c, hc⟩ := hp.init
  have h3 := (C175_runs_partial (cwd := ["home"]) [] hp h1 h1 hc).1
  exact absurd (h3.symm.trans h2) (by decide)

end OpenNTN
